import Verif.SpecEval
import Verif.SpecParse
/-!
# Specifications for code as data
-/

namespace Fuel.Spec

variable [World]

/-- Code as a tree: literals and names, and lists. -/
inductive Code where
  | val (v : Variant)
  | list (l : List Code)

mutual
/-- The object `p` is in state `st` the given code. -/
inductive IsTree (st : St) : Ptr → Code → Prop
  | val {i v} : IsTree st (.mk i (.var v)) (.val v)
  | list {i l} : i < st.next → AreTrees st (st.lists i) l → IsTree st (.mk i .list) (.list l)
/-- The same for all elements. -/
inductive AreTrees (st : St) : List Ptr → List Code → Prop
  | nil : AreTrees st [] []
  | cons {p c ps l} : IsTree st p c → AreTrees st ps l → AreTrees st (p :: ps) (c :: l)
end

/-- The texts separated by blanks; empty texts at the beginning are left out. -/
def joined (ts : List Str) : Str := List.intercalate c!" " (ts.dropWhile List.isEmpty)

mutual
/-- The text of a piece of code. -/
inductive Text : Code → Str → Prop
  | sym {v s} : IsSym v s → Text (.val v) s
  | str {v s} : IsStr v s → Text (.val v) s
  | int {v i} : IsInt v i → Text (.val v) (intStr i)
  | dbl {v d} : IsDbl v d → Text (.val v) (World.dToStr d)
  | bool {v b} : IsBool v b → Text (.val v) (if b then c!"#t" else c!"#f")
  | nil {v} : IsNil v → Text (.val v) c!"NIL"
  | list {l ts} : Texts l ts → Text (.list l) (c!"(" ++ joined ts ++ c!")")
/-- The texts of several pieces of code. -/
inductive Texts : List Code → List Str → Prop
  | nil : Texts [] []
  | cons {c t l ts} : Text c t → Texts l ts → Texts (c :: l) (t :: ts)
end

/-- Scope `s` gives the name no meaning for the macro expansion: it is not the name of a macro that is expanded, and if it is
the name of a variable, then of a function that is not executed during the expansion. -/
structure Inert (st : St) (s : Nat) (name : Str) : Prop where
  macro_ : binding st s c!"###macros###" = none ∨
    ∃ i m, binding st s c!"###macros###" = some (.mk i (.scope m)) ∧
      (binding st m name = none ∨ ∃ j f e, binding st m name = some (.mk j (.macroRt f e)))
  variable_ : binding st s name = none ∨
    ∃ p w, binding st s name = some p ∧ Holds p (IsFn · w) ∧ w.evalInExpand = false

mutual
/-- The text of the first element of every list has the property; the values are not lists. -/
inductive Heads (P : Str → Prop) : Code → Prop
  | val {v} : v.type ≠ .list → Heads P (.val v)
  | nil : Heads P (.list [])
  | list {f t l} : Text f t → P t → HeadsAll P (f :: l) → Heads P (.list (f :: l))
/-- The same for all elements. -/
inductive HeadsAll (P : Str → Prop) : List Code → Prop
  | nil : HeadsAll P []
  | cons {c l} : Heads P c → HeadsAll P l → HeadsAll P (c :: l)
end

/-- The code uses no macro. -/
def MacroFree (st : St) (s : Nat) (c : Code) : Prop := Heads (Inert st s) c

mutual
/-- The code in which NIL is replaced by the empty list. -/
def Code.nilFree : Code → Code
  | .val v => if v.type = .nil then .list [] else .val v
  | .list l => .list (Code.nilFrees l)
/-- The same for all elements. -/
def Code.nilFrees : List Code → List Code
  | [] => []
  | c :: l => Code.nilFree c :: Code.nilFrees l
end

/-- The states agree except for new lists. -/
structure OnlyNewLists (st st' : St) : Prop where
  next : st.next ≤ st'.next
  lists : ∀ i, i < st.next → st'.lists i = st.lists i
  rest : st' = { st with next := st'.next, lists := st'.lists }

mutual
/-- The code represents the s-expression; instead of NIL it can have an empty list. -/
inductive CodeOf : Code → Sexp → Prop
  | int {v i} : IsInt v i → v.unq = .none → CodeOf (.val v) (.int i)
  | str {v s} : IsStr v s → v.unq = .none → CodeOf (.val v) (.str s)
  | sym {v s} : IsSym v s → v.unq = .none → CodeOf (.val v) (.sym s)
  | bool {v b} : IsBool v b → v.unq = .none → CodeOf (.val v) (.bool b)
  | nil {v} : IsNil v → v.unq = .none → CodeOf (.val v) .nil
  | empty : CodeOf (.list []) .nil
  | float {v t d} : World.dStod t = some d → IsDbl v d → v.unq = .none → CodeOf (.val v) (.float t)
  | pre {v c k x} : IsSym v (Prefix.word k) → v.unq = .none → CodeOf c x → CodeOf (.list [.val v, c]) (.pre k x)
  | list {l l'} : CodesOf l l' → CodeOf (.list l) (.list l')
/-- The same for all elements. -/
inductive CodesOf : List Code → List Sexp → Prop
  | nil : CodesOf [] []
  | cons {c x l l'} : CodeOf c x → CodesOf l l' → CodesOf (c :: l) (x :: l')
end

end Fuel.Spec
