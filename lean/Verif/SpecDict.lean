import Verif.SpecOps
import Verif.SpecEval
/-!
# Specifications for dictionaries
-/

namespace Fuel.Spec

variable [World]

/-- A key: an integer or a text. -/
inductive Key where
  | int (i : Int)
  | str (s : Str)
deriving DecidableEq

/-- The kind of a key. -/
inductive KeyKind where
  | int
  | str
deriving DecidableEq

/-- The kind of a key. -/
def Key.kind : Key → KeyKind
  | .int _ => .int
  | .str _ => .str

/-- The value is this key (texts with the character 0 are excluded: they are compared as C strings). -/
def IsKey (v : Variant) : Key → Prop
  | .int i => IsInt v i
  | .str s => IsStr v s ∧ NoZero s

/-- The order of the keys of one kind. -/
def Key.Lt : Key → Key → Prop
  | .int a, .int b => a < b
  | .str a, .str b => LexLt a b
  | _, _ => False

/-- The dictionary object `id` has keys of kind `kd` only, in ascending order, and maps each key `k` to the object `f k`. -/
structure IsMap (st : St) (id : Nat) (kd : KeyKind) (f : Key → Option Ptr) : Prop where
  keys : ∀ e ∈ st.dicts id, ∃ k, IsKey e.1 k ∧ k.kind = kd
  order : (st.dicts id).Pairwise fun a b => ∃ j k, IsKey a.1 j ∧ IsKey b.1 k ∧ j.Lt k
  entries : ∀ k p, f k = some p ↔ ∃ e ∈ st.dicts id, IsKey e.1 k ∧ e.2 = p

/-- The map changed at one key. -/
def update (f : Key → Option Ptr) (k : Key) (p : Option Ptr) : Key → Option Ptr := fun j => if j = k then p else f j

/-- Only the dictionary object `id` and nothing else is changed, new objects may have been created. -/
structure OnlyDict (st st' : St) (id : Nat) : Prop where
  next : st.next ≤ st'.next
  dicts : ∀ i, i ≠ id → st'.dicts i = st.dicts i
  rest : { st' with dicts := st.dicts, next := st.next } = st

/-- The changes of a dictionary. -/
inductive DictOp where
  | set (k v : Ptr)
  | remove (k : Ptr)
  | clear

/-- The call of the function for a change of the dictionary `d`. -/
def DictOp.call (r : Rec) (d : Ptr) (sid : Nat) : DictOp → M (Option Variant)
  | .set k v => callPrim r .dictSet [d, k, v] sid
  | .remove k => callPrim r .dictRemove [d, k] sid
  | .clear => callPrim r .dictClear [d] sid

/-- All the calls, one after the other. -/
def callAll (r : Rec) (d : Ptr) (sid : Nat) : List DictOp → M Unit
  | [] => pure ()
  | o :: t => do
    let _ ← o.call r d sid
    callAll r d sid t

/-- The finite map after a history of changes with keys of kind `kd`, starting with the map `f`. -/
inductive History (kd : KeyKind) (f : Key → Option Ptr) : List DictOp → (Key → Option Ptr) → Prop
  | nil : History kd f [] f
  | set {l g k v j p} : History kd f l g → Holds k (IsKey · j) → j.kind = kd → Holds v (·.value = p) →
      History kd f (l ++ [.set k v]) (update g j (some p))
  | remove {l g k j} : History kd f l g → Holds k (IsKey · j) → j.kind = kd → History kd f (l ++ [.remove k]) (update g j none)
  | clear {l g} : History kd f l g → History kd f (l ++ [.clear]) fun _ => none

/-- The values that a dictionary gives back: `v` is the same as `u`. -/
inductive SameValue (u v : Variant) : Prop
  | int {x} : IsInt u x → IsInt v x → SameValue u v
  | dbl {x} : IsDbl u x → IsDbl v x → SameValue u v
  | str {x} : IsStr u x → IsStr v x → SameValue u v
  | bool {x} : IsBool u x → IsBool v x → SameValue u v
  | list {i} : IsListAt u i → IsListAt v i → SameValue u v
  | fn {w} : IsFn u w → IsFn v w → SameValue u v

/-- A number, text, truth value, list or function. -/
def Storable (u : Variant) : Prop := SameValue u u

end Fuel.Spec
