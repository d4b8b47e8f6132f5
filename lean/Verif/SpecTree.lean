import Verif.VariantOps
/-!
# Search trees, as `std::map` keeps the entries of a dictionary
-/

namespace Fuel.Spec

variable [World]

/-- A binary tree of entries, of any shape. -/
inductive Tree where
  | leaf
  | node (left : Tree) (entry : Variant × Ptr) (right : Tree)

/-- The entries from left to right. -/
def Tree.entries : Tree → List (Variant × Ptr)
  | .leaf => []
  | .node l e r => l.entries ++ e :: r.entries

/-- The search of `std::map::lower_bound`: to the right of an entry that is less than the key, to the left otherwise.  The result is the
number of entries before the position that is found. -/
inductive LowerBound (less : Variant → Bool) : Tree → Nat → Prop
  | leaf : LowerBound less .leaf 0
  | right {l e r n} : less e.1 = true → LowerBound less r n → LowerBound less (.node l e r) (l.entries.length + 1 + n)
  | left {l e r n} : less e.1 = false → LowerBound less l n → LowerBound less (.node l e r) n

/-- An access with a key: the entries before the position found by `lower_bound`, the entry there if the key is not less than it, and the
entries after this. -/
def Access (less greater : Variant → Bool) (t : Tree) (pre : List (Variant × Ptr)) (hit : Option (Variant × Ptr)) (post : List (Variant × Ptr)) : Prop :=
  LowerBound less t pre.length ∧ t.entries = pre ++ hit.toList ++ post ∧ (∀ e, hit = some e → greater e.1 = false) ∧
    (hit = none → ∀ e ∈ post.head?, greater e.1 = true)

end Fuel.Spec
