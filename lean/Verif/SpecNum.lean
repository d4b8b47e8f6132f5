import Verif.SpecOps
/-!
# Specification of floating-point arithmetic
-/

namespace Fuel.Spec

variable [World]

/-- The value is a number, and as a floating-point number it is `d`. -/
inductive Number : Variant → Dbl → Prop
  | int {v i} : IsInt v i → Number v (World.dOfInt i)
  | dbl {v d} : IsDbl v d → Number v d

/-- The operation of the floating-point unit behind an arithmetic function. -/
inductive DblOp : Builtin → (Dbl → Dbl → Dbl) → Prop
  | add : DblOp .add World.dAdd
  | sub : DblOp .sub World.dSub
  | mul : DblOp .mul World.dMul
  | div : DblOp .div World.dDiv
  | mod : DblOp .mod World.dFmod

/-- The comparison of the floating-point unit behind a comparison function; equality is up to the tolerance. -/
inductive DblCmp : Builtin → (Dbl → Dbl → Bool) → Prop
  | lt : DblCmp .lt World.dLt
  | gt : DblCmp .gt fun a b => World.dLt b a
  | le : DblCmp .le World.dLe
  | ge : DblCmp .ge fun a b => World.dLe b a
  | eq : DblCmp .eq World.dNear
  | ne : DblCmp .ne fun a b => !World.dNear a b


end Fuel.Spec
