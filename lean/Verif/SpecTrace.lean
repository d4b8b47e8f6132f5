import Verif.SpecCode
/-!
# Specification of tracing
-/

namespace Fuel.Spec

variable [World]

/-- The text recorded so far in scope `s`. -/
def Recorded (st : St) (s : Nat) (t : Str) : Prop := ∃ i, binding st s c!"###tracebuffer###" = some (.mk i (.str t))

/-- Texts that are printed in scope `s` are recorded: the switch exists (whatever its value is). -/
def Recording (st : St) (s : Nat) : Prop := ∃ i o, binding st s c!"###traceon###" = some (.mk i o)

/-- The state `st'` is `st` with `text` written to the output and the variable `name` of scope `s` set to something else: no other variable, no
other scope and no existing list, dictionary or function is changed. -/
structure Wrote (st st' : St) (s : Nat) (name text : Str) : Prop where
  out : st'.out = st.out ++ text
  others : ∀ n, n ≠ name → binding st' s n = binding st s n
  scope : { st'.scopes s with vars := [] } = { st.scopes s with vars := [] }
  rest : Extends st { st' with scopes := fset st'.scopes s (st.scopes s), out := st.out }

/-- Evaluation with trace output is switched on. -/
def TraceOn (st : St) (s : Nat) : Prop := (st.scopes (st.scopes s).global).tracing = some true

/-- `ast` is the code `(f args ...)` in state `st`, where `f` is the name `name` of the function `w` in scope `s`. -/
structure IsCall (st : St) (s : Nat) (ast : Ptr) (name : Str) (tok : Option Token) (w : FnW) (args : List Ptr) : Prop where
  code : ∃ i f, ast = .mk i .list ∧ st.lists i = f :: args ∧ Names st s f w ∧ Holds f (IsSym · name) ∧ tokenOf f = tok
  plain : ∀ a ∈ args, NotSpliced a

/-- The state with one more line of output. -/
def withLine (st : St) (l : Str) : St := { st with out := st.out ++ l ++ c!"\n" }

end Fuel.Spec
