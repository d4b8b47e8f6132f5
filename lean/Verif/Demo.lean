import Verif.Lisp
/-!
# A concrete world, to run examples

It is used only in `example`s that show that the hypotheses of theorems can be met, and in theorems that exhibit a
concrete program.  Doubles are treated as machine words here.
-/

namespace Fuel

/-- An instance of `World` whose functions all compute. -/
@[reducible] def demoWorld : World where
  dAdd a b := ⟨a.bits + b.bits⟩
  dSub a b := ⟨a.bits - b.bits⟩
  dMul a b := ⟨a.bits * b.bits⟩
  dDiv a b := ⟨a.bits / b.bits⟩
  dFmod a b := ⟨a.bits % b.bits⟩
  dPow a _ := a
  dNeg a := ⟨0 - a.bits⟩
  dLt a b := decide (a.bits < b.bits)
  dLe a b := decide (a.bits ≤ b.bits)
  dEq a b := a.bits == b.bits
  dNear a b := a.bits == b.bits
  dTruthy a := a.bits != 0
  dOfInt i := ⟨UInt64.ofInt i⟩
  dToInt d := some (Int.ofNat d.bits.toNat)
  dToStr d := natStr d.bits.toNat ++ c!".000000"
  dAtof _ := ⟨0⟩
  dStod _ := some ⟨0⟩
  math _ d := d
  pi := ⟨3⟩
  tick n := n
  localtime _ := (2020, 1, 2, 3, 4, 5)
  osName := c!"linux"
  wordSize := c!"64bit"
  fuelPath := none
  canWrite _ := true
  compilerInfo := c!"GCC v13.2.0, x86 64Bit"
  seconds i := intStr i

/-- Text of the result of a computation, and the output. -/
def showOut [World] (k : Nat) (o : Out (Option Variant)) : Option Str × Str :=
  match o with
  | .ok (some v) s => (match varStr s k v with | .ok t => some t | .error _ => none, s.out)
  | .ok none s => (none, s.out)
  | .fail _ s => (none, s.out)

end Fuel
