import Verif.SpecList
import Verif.Lisp
/-!
# Specifications for evaluation

The evaluator of the model takes a step budget.  The relations of this file abstract from it: they hold if the
evaluation ends in the given way with some budget (and, by C33, with every larger one).
-/

namespace Fuel.Spec

variable [World]

/-- The outcome is a value, an exception or undefined behaviour, but no exhausted budget. -/
def Ends {α : Type} (o : Out α) : Prop := ∀ s, o ≠ .fail .fuel s

/-- Evaluating the code `ast` in scope `sid` and state `st` ends with outcome `o`. -/
def Evals (ast : Ptr) (sid : Nat) (st : St) (o : Out (Option Variant)) : Prop :=
  Ends o ∧ ∃ k, (run k).eval ast sid st = o

/-- Calling the function `f` with the given arguments from scope `sid` ends with outcome `o`. -/
def Calls (f : FnW) (args : List Ptr) (sid : Nat) (st : St) (o : Out (Option Variant)) : Prop :=
  Ends o ∧ ∃ k, (run k).call f args sid st = o

/-- Expanding the macros in the code `ast` ends with outcome `o`. -/
def Expands (ast : Ptr) (sid : Nat) (st : St) (o : Out Ptr) : Prop :=
  Ends o ∧ ∃ k, (run k).expand ast sid st = o

/-- Evaluating a source text in an existing scope ends with outcome `o`. -/
def RunsIn (code module : Str) (sid : Nat) (st : St) (o : Out (Option Variant)) : Prop :=
  Ends o ∧ ∃ k, lispEval (run k) code sid module false false st = o

/-- Evaluating a source text in a new interpreter ends with outcome `o`. -/
def Runs (code module : Str) (st : St) (o : Out (Option Variant)) : Prop :=
  Ends o ∧ ∃ k, lispEvalNew k code module false false st = o

/-- The state after a computation, whether it succeeded or failed. -/
def Out.after {α : Type} : Out α → St
  | .ok _ s => s
  | .fail _ s => s

/-- The states an application that uses the interpreter can get to: it starts with nothing, creates interpreters, runs scripts
and evaluates code in existing scopes.  A step need not succeed; as the budget can be any number, the state in which
it is exhausted can be any state in the middle of an evaluation. -/
inductive Reachable : St → Prop
  | init {st} : st.next = 0 → (∀ i, st.scopes i = {}) → (∀ i, st.clos i = ⟨[], [], [], 0⟩) → (∀ i, st.lists i = []) → (∀ i, st.dicts i = []) → Reachable st
  | create {st} : Reachable st → Reachable (Out.after (createDefaultScope st))
  | script {st} (k code s module tracing onlyExpand) : Reachable st → s < st.next →
      Reachable (Out.after (lispEval (run k) code s module tracing onlyExpand st))
  | eval {st} (k ast s) : Reachable st → s < st.next → Reachable (Out.after ((run k).eval ast s st))
  | call {st} (k f args s) : Reachable st → s < st.next → Reachable (Out.after ((run k).call f args s st))
  | expand {st} (k ast s) : Reachable st → s < st.next → Reachable (Out.after ((run k).expand ast s st))

/-- The variable `name` of scope `s`. -/
def binding (st : St) (s : Nat) (name : Str) : Option Ptr := (st.scopes s).vars.lookup name

/-- The scopes in which the function running in scope `s` was defined, from inside out. -/
inductive Enclosing (st : St) : Nat → List Nat → Prop
  | nil {s} : (st.scopes s).closure = none → Enclosing st s []
  | cons {s c l} : (st.scopes s).closure = some c → Enclosing st c l → Enclosing st s (c :: l)

/-- The scopes held by the entries of the table of modules. -/
inductive Scopes : List (Str × Ptr) → List Nat → Prop
  | nil : Scopes [] []
  | cons {name i s t l} : Scopes t l → Scopes ((name, .mk i (.scope s)) :: t) (s :: l)

/-- The imported modules as seen from scope `s`. -/
def Modules (st : St) (s : Nat) (l : List Nat) : Prop :=
  ∃ i m, binding st (st.scopes (st.scopes s).global).global c!"###modules###" = some (.mk i (.scope m)) ∧
    Scopes (st.scopes m).vars l

/-- The first of the scopes that binds the name. -/
def firstOf (st : St) (name : Str) (l : List Nat) : Option Ptr := l.findSome? fun s => binding st s name

/-- What the name means in scope `s`: the local variable, otherwise the global variable, otherwise the
variable of the nearest enclosing function, otherwise the variable of the first module that has one.
`none`: the name is unknown. -/
inductive Lookup (st : St) (s : Nat) (name : Str) : Option Ptr → Prop
  | locally {p} : binding st s name = some p → Lookup st s name (some p)
  | globally {p} : binding st s name = none → binding st (st.scopes s).global name = some p → Lookup st s name (some p)
  | enclosing {p l} : binding st s name = none → binding st (st.scopes s).global name = none → Enclosing st s l →
      firstOf st name l = some p → Lookup st s name (some p)
  | modules {r l m} : binding st s name = none → binding st (st.scopes s).global name = none → Enclosing st s l →
      firstOf st name l = none → Modules st s m → firstOf st name m = r → Lookup st s name r

/-- The name is no name of a macro. -/
def NoMacro (st : St) (s : Nat) (name : Str) : Prop :=
  binding st (st.scopes s).global c!"###macros###" = none ∨
  ∃ i m, binding st (st.scopes s).global c!"###macros###" = some (.mk i (.scope m)) ∧ binding st m name = none

/-- Trace output is switched off. -/
def TraceOff (st : St) (s : Nat) : Prop := (st.scopes (st.scopes s).global).tracing = some false

/-- The code `f` is a name that means the function `w` in scope `s`, and not a macro. -/
def Names (st : St) (s : Nat) (f : Ptr) (w : FnW) : Prop :=
  ∃ name p, Holds f (IsSym · name) ∧ NoMacro st s name ∧ Lookup st s name (some p) ∧ Holds p (IsFn · w)

/-- The token of a piece of code. -/
def tokenOf : Ptr → Option Token
  | .mk _ (.var v) => v.tok
  | _ => none

/-- The state in which the current position of scope `s` is set to the given token, if there is one. -/
def atToken (st : St) (s : Nat) : Option Token → St
  | none => st
  | some t => { st with scopes := fset st.scopes s { st.scopes s with curTok := some t } }

/-- No result of an unquote-splicing. -/
def NotSpliced : Ptr → Prop
  | .null => False
  | .mk _ (.var v) => v.unq ≠ .splicing
  | .mk _ _ => True

/-- `ast` is the code `(f args ...)` in state `st`, where `f` names the function `w` in scope `s`, and `st'` is the state in
which the call starts. -/
structure IsForm (st : St) (s : Nat) (ast : Ptr) (w : FnW) (args : List Ptr) (st' : St) : Prop where
  code : ∃ i f, ast = .mk i .list ∧ st.lists i = f :: args ∧ Names st s f w ∧ st' = atToken st s (tokenOf f)
  plain : ∀ a ∈ args, NotSpliced a
  trace : TraceOff st s

/-- A special form: its arguments are not evaluated before the call. -/
def IsSpecial (st : St) (s : Nat) (ast : Ptr) (b : Builtin) (args : List Ptr) (st' : St) : Prop :=
  ∃ w, IsForm st s ast w args st' ∧ w.kind = .prim b ∧ w.special = true

/-- Names in the arguments are replaced by what they mean (unknown names stay); other code stays. -/
inductive Resolved (st : St) (s : Nat) : Ptr → Ptr → Prop
  | symbol {i v name p} : IsSym v name → Lookup st s name (some p) → Resolved st s (.mk i (.var v)) p
  | unknown {i v name} : IsSym v name → Lookup st s name none → Resolved st s (.mk i (.var v)) (.mk i (.var v))
  | value {i v} : v.type ≠ .symbol → Resolved st s (.mk i (.var v)) (.mk i (.var v))
  | list {i} : Resolved st s (.mk i .list) (.mk i .list)

/-- Elementwise relation. -/
inductive All2 {α β : Type} (P : α → β → Prop) : List α → List β → Prop
  | nil : All2 P [] []
  | cons {a b l m} : P a b → All2 P l m → All2 P (a :: l) (b :: m)

/-- The arguments are evaluated from left to right: values are passed as they are, calls are evaluated and each result is
stored in a new object. -/
inductive EvalArgs (s : Nat) : List Ptr → St → List Ptr → St → Prop
  | nil {st} : EvalArgs s [] st [] st
  | value {i o t st vs st'} : o ≠ .list → NotSpliced (.mk i o) → EvalArgs s t st vs st' →
      EvalArgs s (.mk i o :: t) st (.mk i o :: vs) st'
  | call {i t st v st1 vs st'} : Evals (.mk i .list) s st (.ok (some v) st1) → v.unq ≠ .splicing →
      EvalArgs s t { st1 with next := st1.next + 1 } vs st' →
      EvalArgs s (.mk i .list :: t) st (.mk st1.next (.var v) :: vs) st'

end Fuel.Spec
