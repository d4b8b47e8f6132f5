import Verif.Value
/-!
# Specifications for values and effects

What it means that a value is a string, an integer, a list of given elements ..., and that a computation has no
effect on existing data.  Used in the statements of the properties.
-/

namespace Fuel.Spec

/-- The value is the string `s`. -/
def IsStr (v : Variant) (s : Str) : Prop := v.type = .string ∧ ∃ i, v.value = .mk i (.str s)

/-- The value is the integer `x`. -/
def IsInt (v : Variant) (x : Int) : Prop := v.type = .int ∧ ∃ i, v.value = .mk i (.int x)

/-- The value is the floating-point number `d`. -/
def IsDbl (v : Variant) (d : Dbl) : Prop := v.type = .double ∧ ∃ i, v.value = .mk i (.dbl d)

/-- The value is the boolean `b`. -/
def IsBool (v : Variant) (b : Bool) : Prop := v.type = .bool ∧ ∃ i, v.value = .mk i (.bool b)

/-- The value is the symbol with name `s`. -/
def IsSym (v : Variant) (s : Str) : Prop := v.type = .symbol ∧ ∃ i, v.value = .mk i (.str s)

/-- The value is NIL. -/
def IsNil (v : Variant) : Prop := v.type = .nil

/-- The value is undefined. -/
def IsUndef (v : Variant) : Prop := v.type = .undefined

/-- The value is the list object number `i`. -/
def IsListAt (v : Variant) (i : Nat) : Prop := v.type = .list ∧ v.value = .mk i .list

/-- The value is a list whose elements are `l` in state `st`. -/
def IsList (st : St) (v : Variant) (l : List Ptr) : Prop := ∃ i, IsListAt v i ∧ st.lists i = l

/-- The value is a list or NIL, which is the empty list. -/
def IsListOrNil (st : St) (v : Variant) (l : List Ptr) : Prop := IsList st v l ∨ (IsNil v ∧ l = [])

/-- The value is the dictionary object number `i`. -/
def IsDictAt (v : Variant) (i : Nat) : Prop := v.type = .native ∧ v.value = .mk i .dict

/-- The value is a function. -/
def IsFn (v : Variant) (f : FnW) : Prop := v.type = .function ∧ ∃ i, v.value = .mk i (.fn f)

/-- The pointer holds a value with property `P` (the normal form of an evaluated argument). -/
def Holds (p : Ptr) (P : Variant → Prop) : Prop := ∃ i v, p = .mk i (.var v) ∧ P v

/-- The computation returns a value with the given property. -/
def Returns (m : M (Option Variant)) (st : St) (P : Variant → St → Prop) : Prop :=
  ∃ v st', m st = .ok (some v) st' ∧ P v st'

/-- The computation raises an exception with the given property. -/
def Raises {α : Type} (m : M α) (st : St) (P : Exn → St → Prop) : Prop :=
  ∃ e st', m st = .fail (.exn e) st' ∧ P e st'

/-- Every enclosing scope is older than the scope it encloses, so that there is no cycle. -/
def Acyclic (st : St) : Prop := ∀ s c, (st.scopes s).closure = some c → c < s

/-- The scope in which a function was defined exists (0 for functions that are not yet in use), enclosing scopes are older than the scopes they enclose, and scopes
that are not yet in use are not enclosed.  The scope from which a function was called is older than the scope of the call. -/
structure Links (st : St) : Prop where
  clos : ∀ i, (st.clos i).scope = 0 ∨ (st.clos i).scope < st.next
  old : Acyclic st
  fresh : ∀ i, st.next ≤ i → (st.scopes i).closure = none
  callers : ∀ s p, (st.scopes s).prev = some p → p < s ∧ s < st.next

/-- `st'` differs from `st` only in newly created objects: every list, dictionary, function and scope that existed
in `st` is unchanged, and there was no input, output or file access. -/
structure Extends (st st' : St) : Prop where
  next : st.next ≤ st'.next
  lists : ∀ i, i < st.next → st'.lists i = st.lists i
  dicts : ∀ i, i < st.next → st'.dicts i = st.dicts i
  clos : ∀ i, i < st.next → st'.clos i = st.clos i
  scopes : ∀ i, i < st.next → st'.scopes i = st.scopes i
  out : st'.out = st.out
  input : st'.input = st.input
  files : st'.files = st.files
  clock : st'.clock = st.clock
  libPath : st'.libPath = st.libPath

end Fuel.Spec
