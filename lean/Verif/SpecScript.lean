import Verif.SpecCode
import Verif.SpecDefault
/-!
# Specifications for whole scripts
-/

namespace Fuel.Spec

variable [World]

/-- The text is a notation of the s-expressions, with any white space between the lexical elements that keeps them apart and with any
comments. -/
def Written (xs : List Sexp) (code : Str) : Prop :=
  ∃ items trail, (∀ c ∈ trail, White c) ∧ Separated items trail ∧
    (items.map Prod.snd).filter (fun l => !l.isComment) = Sexp.lexemess xs ∧ code = render items ++ trail

mutual
/-- The text shown for an s-expression. -/
def Sexp.text : Sexp → Str
  | .int i => intStr i
  | .str s => s
  | .sym s => s
  | .bool b => boolText b
  | .nil => c!"NIL"
  | .float t => match World.dStod t with
    | some d => World.dToStr d
    | none => []
  | .pre k x => c!"(" ++ joined [k.word, Sexp.text x] ++ c!")"
  | .list l => c!"(" ++ joined (Sexp.texts l) ++ c!")"
/-- The texts of several s-expressions. -/
def Sexp.texts : List Sexp → List Str
  | [] => []
  | x :: l => Sexp.text x :: Sexp.texts l
end

mutual
/-- The text of the first element of every list has the property. -/
def Sexp.Heads (P : Str → Prop) : Sexp → Prop
  | .list l => (match l with | [] => True | f :: _ => P (Sexp.text f)) ∧ Sexp.HeadsAll P l
  | .pre k x => P k.word ∧ Sexp.Heads P x
  | _ => True
/-- The same for all elements. -/
def Sexp.HeadsAll (P : Str → Prop) : List Sexp → Prop
  | [] => True
  | x :: l => Sexp.Heads P x ∧ Sexp.HeadsAll P l
end

/-- Names that the interpreter uses for itself. -/
def hidden : List Str :=
  [c!"###modules###", c!"###macros###", c!"###tracebuffer###", c!"###traceon###", c!"###args###", c!"_additionalArgs"]

/-- Evaluation of the script in scope `s` has started: the scope has the given module name, traces nothing, knows the tokens, and there are
new lists, but nothing else has changed. -/
structure Started (module : Str) (s : Nat) (st st' : St) : Prop where
  next : st.next ≤ st'.next
  lists : ∀ i, i < st.next → st'.lists i = st.lists i
  scopes : ∃ toks, st'.scopes = fset st.scopes s { st.scopes s with module := module, tracing := some false, tokens := toks }
  rest : st' = { st with next := st'.next, lists := st'.lists, scopes := st'.scopes }

end Fuel.Spec
