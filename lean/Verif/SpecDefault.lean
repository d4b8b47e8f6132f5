import Verif.SpecEval
/-!
# Specification of a new interpreter
-/

namespace Fuel.Spec

variable [World]

/-- `st'` is the state after the creation of a new interpreter with global scope `s` in state `st`. -/
structure NewInterpreter (st : St) (s : Nat) (st' : St) : Prop where
  /-- The scope is new. -/
  fresh : s = st.next ∧ s < st'.next
  /-- Every entry of the table of built-in functions is bound to its name. -/
  functions : ∀ e ∈ defaultTable, ∃ p, binding st' s e.name = some p ∧ Holds p fun v => IsFn v e.wrapper ∧ v.unq = .none
  /-- There are no imported modules and no macros. -/
  modules : ∃ i m, binding st' s c!"###modules###" = some (.mk i (.scope m)) ∧ s < m ∧ m < st'.next ∧ (st'.scopes m).vars = []
  macros : ∃ i m, binding st' s c!"###macros###" = some (.mk i (.scope m)) ∧ s < m ∧ m < st'.next ∧ (st'.scopes m).vars = []
  apart : ∀ i j m m', binding st' s c!"###modules###" = some (.mk i (.scope m)) → binding st' s c!"###macros###" = some (.mk j (.scope m')) → m' ≠ m
  /-- Trace output is switched off, and nothing is traced so far. -/
  trace : ∃ i j, binding st' s c!"###tracebuffer###" = some (.mk i (.str [])) ∧ binding st' s c!"###traceon###" = some (.mk j (.bool false))
  /-- No other name is bound. -/
  others : ∀ name, (∀ e ∈ defaultTable, e.name ≠ name) →
    name ∉ [c!"###modules###", c!"###macros###", c!"###tracebuffer###", c!"###traceon###"] → binding st' s name = none
  /-- The scope is a global scope: no caller, no enclosing function, no current position, not waiting for a place. -/
  scope : ∃ vars, st'.scopes s = { name := c!"<main>", global := s, vars := vars }
  /-- Nothing that existed before is changed, nothing is written, read or executed. -/
  frame : (∀ i, i < st.next → st'.scopes i = st.scopes i) ∧ st'.lists = st.lists ∧ st'.dicts = st.dicts ∧ st'.clos = st.clos ∧
    st'.out = st.out ∧ st'.input = st.input ∧ st'.files = st.files ∧ st'.clock = st.clock ∧ st'.libPath = st.libPath

/-- The names that the documentation of the language describes as meaning the same function. -/
def aliases : List (Str × Str) :=
  [(c!"string", c!"add"), (c!"+", c!"add"), (c!"-", c!"sub"), (c!"*", c!"mul"), (c!"/", c!"div"), (c!"%", c!"mod"),
   (c!"=", c!"equal"), (c!"==", c!"equal"), (c!"!", c!"not"), (c!"first", c!"car"), (c!"rest", c!"cdr"), (c!"&&", c!"and"),
   (c!"||", c!"or"), (c!"define-macro", c!"define-macro-eval"), (c!"begin", c!"do"), (c!"lambda", c!"fn")]

end Fuel.Spec
