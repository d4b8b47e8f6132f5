import Verif.SpecImport
/-!
# Specification of macro expansion at compile time
-/

namespace Fuel.Spec

variable [World]

/-- The code is a list; the text of its first element `f` is `name`. -/
def Starts (st : St) (p : Ptr) (name : Str) (f : Ptr) (rest : List Ptr) : Prop :=
  ∃ i c, p = .mk i .list ∧ st.lists i = f :: rest ∧ IsTree st f c ∧ Text c name

/-- The name is a function that is executed during the expansion. -/
def Executed (st : St) (s : Nat) (name : Str) (w : FnW) : Prop := ∃ p, binding st s name = some p ∧ Holds p (IsFn · w) ∧ w.evalInExpand = true

/-- The name is a macro that is expanded before the evaluation, with these parameters and this body; it may also be the name of a function that is not
executed during the expansion. -/
structure CompileTime (st : St) (s : Nat) (name : Str) (params body : List Ptr) : Prop where
  macro_ : ∃ i m j a b, binding st s c!"###macros###" = some (.mk i (.scope m)) ∧ binding st m name = some (.mk j (.macroCt a b)) ∧
    st.lists a = params ∧ st.lists b = body
  variable_ : binding st s name = none ∨ ∃ p w, binding st s name = some p ∧ Holds p (IsFn · w) ∧ w.evalInExpand = false

/-- The outcome of executing something during the expansion: nothing is left of the code. -/
def thenGone : Out (Option Variant) → Out Ptr
  | .ok _ st => .ok .null st
  | .fail e st => .fail e st

/-- The result of the expansion of an element as an element of the expanded list: list values become code. -/
inductive AsElement (st : St) : Ptr → Ptr → St → Prop
  | code {i} : AsElement st (.mk i .list) (.mk i .list) st
  | value {i v} : v.type ≠ .list → v.type ≠ .nil → AsElement st (.mk i (.var v)) (.mk i (.var v)) st
  | list {i v l} : IsListOrNil st v l → AsElement st (.mk i (.var v)) (.mk st.next .list) (withList st l)

/-- The expansion of the elements of a list, one after the other; elements of which nothing is left are omitted. -/
inductive ExpandsAll (s : Nat) : List Ptr → St → List Ptr → St → Prop
  | nil {st} : ExpandsAll s [] st [] st
  | gone {p ps st st1 qs st2} : Expands p s st (.ok .null st1) → ExpandsAll s ps st1 qs st2 → ExpandsAll s (p :: ps) st qs st2
  | kept {p q q' ps st st1 st1' qs st2} : Expands p s st (.ok q st1) → AsElement st1 q q' st1' → ExpandsAll s ps st1' qs st2 →
      ExpandsAll s (p :: ps) st (q' :: qs) st2

end Fuel.Spec
