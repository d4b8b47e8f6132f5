import Verif.SpecScope
/-!
# Specifications for assignments to places
-/

namespace Fuel.Spec

variable [World]

/-- The state in which `first`, `last` and `nth` called from scope `sid` give a place instead of a value (`b = true`); `setf` evaluates
its first argument in this mode. -/
def placeMode (st : St) (sid : Nat) (b : Bool) : St :=
  { st with scopes := fset st.scopes sid { st.scopes sid with needsLValue := b } }

/-- The call of `first`, `last` or `nth` with the given arguments addresses position `i` of the list `q` if this list has `n` elements. -/
inductive IsPlace (n : Nat) : Builtin → List Ptr → Ptr → Nat → Prop
  | first {q} : IsPlace n .first [q] q 0
  | last {q} : IsPlace n .last [q] q (n - 1)
  | nth {p q} {i : Nat} : Holds p (IsInt · i) → IsPlace n .nth [p, q] q i

end Fuel.Spec
