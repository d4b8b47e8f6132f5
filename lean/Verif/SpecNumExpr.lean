import Verif.SpecCore
/-!
# Arithmetic expressions over integers and floating-point numbers

An operation on two integers gives an integer, every other operation is an operation on floating-point numbers, for which integers are
converted first.
-/

namespace Fuel.Spec.Core

variable [World]

/-- The operations. -/
inductive NumOp where
  | add | sub | mul | div

/-- Their names in programs. -/
def NumOp.name : NumOp → Str
  | .add => c!"+"
  | .sub => c!"-"
  | .mul => c!"*"
  | .div => c!"/"

/-- On integers; the quotient is rounded towards zero. -/
def NumOp.Ints : NumOp → Int → Int → Int → Prop
  | .add, a, b, c => c = a + b
  | .sub, a, b, c => c = a - b
  | .mul, a, b, c => c = a * b
  | .div, a, b, c => ∃ r, Truncated a b c r

/-- On floating-point numbers. -/
def NumOp.dbl : NumOp → Dbl → Dbl → Dbl
  | .add, a, b => World.dAdd a b
  | .sub, a, b => World.dSub a b
  | .mul, a, b => World.dMul a b
  | .div, a, b => World.dDiv a b

/-- Expressions; floating-point numbers are given by their notation. -/
inductive NumExpr where
  | int (i : Int)
  | float (t : Str)
  | op (o : NumOp) (a b : NumExpr)

/-- The expression as s-expression. -/
def NumExpr.code : NumExpr → Sexp
  | .int i => .int i
  | .float t => .float t
  | .op o a b => .list [.sym o.name, a.code, b.code]

/-- The value of an expression. -/
inductive NumExpr.Is : NumExpr → Val → Prop
  | int {i} : IsInt32 i → Is (.int i) (.int i)
  | float {t d} : FloatWord t d → Is (.float t) (.dbl d)
  | ints {o a b x y z} : Is a (.int x) → Is b (.int y) → o.Ints x y z → IsInt32 z → Is (.op o a b) (.int z)
  | floats {o a b x y} : Is a (.dbl x) → Is b (.dbl y) → Is (.op o a b) (.dbl (o.dbl x y))
  | left {o a b x i} : Is a (.dbl x) → Is b (.int i) → Is (.op o a b) (.dbl (o.dbl x (World.dOfInt i)))
  | right {o a b i y} : Is a (.int i) → Is b (.dbl y) → Is (.op o a b) (.dbl (o.dbl (World.dOfInt i) y))

/-- The text of a number. -/
inductive NumText : Val → Str → Prop
  | int {i} : NumText (.int i) (intStr i)
  | dbl {d} : NumText (.dbl d) (World.dToStr d)

end Fuel.Spec.Core
