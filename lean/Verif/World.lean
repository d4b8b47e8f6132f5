import Verif.Base
/-!
# World: what the model does not compute

Floating-point arithmetic, the clock and the platform are parameters.  Every theorem of the development
holds for every instance of this class; no property of the operations is assumed unless a theorem lists it
as a hypothesis.
-/

namespace Fuel

/-- A C++ `double`, as a 64-bit pattern. -/
structure Dbl where
  bits : UInt64
deriving DecidableEq, Repr

/-- The one-argument functions of <cmath> used by Environment.cpp 2169-2272. -/
inductive MathFn where
  | sin | sinh | asin | cos | cosh | acos | tan | tanh | atan | exp | log | log10 | sqrt | round
  | trunc | fabs | floor | ceil
deriving DecidableEq, Repr

/-- Operations that are parameters of the model. -/
class World where
  /-- `double` operators `+ - * /` and `fmod`, `pow`. -/
  dAdd : Dbl → Dbl → Dbl
  dSub : Dbl → Dbl → Dbl
  dMul : Dbl → Dbl → Dbl
  dDiv : Dbl → Dbl → Dbl
  dFmod : Dbl → Dbl → Dbl
  dPow : Dbl → Dbl → Dbl
  /-- unary minus -/
  dNeg : Dbl → Dbl
  /-- `<`, `<=`, `==` on `double` -/
  dLt : Dbl → Dbl → Bool
  dLe : Dbl → Dbl → Bool
  dEq : Dbl → Dbl → Bool
  /-- `fabs(a - b) < Tolerance` (Variant.cpp 34, 509) -/
  dNear : Dbl → Dbl → Bool
  /-- `fabs(d) > Tolerance` (Variant.cpp 158) -/
  dTruthy : Dbl → Bool
  /-- `(double)i` -/
  dOfInt : Int → Dbl
  /-- `(int)d`; `none`: the conversion is undefined -/
  dToInt : Dbl → Option Int
  /-- `std::to_string(d)` -/
  dToStr : Dbl → Str
  /-- `atof(s)` -/
  dAtof : Str → Dbl
  /-- value of `std::stod(s)` when a number is found; `none`: `std::out_of_range` -/
  dStod : Str → Option Dbl
  /-- functions of <cmath> -/
  math : MathFn → Dbl → Dbl
  /-- the constant `PI` (Environment.cpp 42) -/
  pi : Dbl
  /-- `GetTickCount()` at its n-th call -/
  tick : Nat → Int
  /-- the six fields of `localtime` at the n-th call -/
  localtime : Nat → Int × Int × Int × Int × Int × Int
  /-- operating system and word size (Environment.cpp 463-495) -/
  osName : Str
  wordSize : Str
  /-- the environment variable `FUELPATH` -/
  fuelPath : Option Str
  /-- does writing the named file succeed? -/
  canWrite : Str → Bool
  /-- `Lisp::GetCompilerInfo()` (Lisp.cpp 53-112) -/
  compilerInfo : Str
  /-- `std::to_string(ms * 0.001)` (fuel.cpp 351) -/
  seconds : Int → Str

end Fuel
