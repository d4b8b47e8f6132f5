import Verif.SpecEval
import Verif.Cli
/-!
# Specification of valid states

A state is valid if a layout exists that says for every number that has been given out what is stored under it, such that
all references agree with the layout.
-/

namespace Fuel.Spec

/-- What can be stored under a number: an object (with its content; the elements of lists and dictionaries are in the state),
a vector of a macro, the captured variables of a function, or a scope. -/
inductive Kind where
  | obj (o : Obj)
  | vec
  | closure
  | scope

/-- What is stored under the numbers that have been given out; `none` for the other numbers. -/
abbrev Layout := Nat → Option Kind

/-- A pointer is null or it points to an existing object, whose content is the content that the layout knows. -/
def RefOk (L : Layout) : Ptr → Prop
  | .null => True
  | .mk i o => L i = some (.obj o)

/-- The content of a value agrees with its type. -/
def Tagged (v : Variant) : Prop :=
  match v.type with
  | .bool => ∃ i b, v.value = .mk i (.bool b)
  | .int => ∃ i x, v.value = .mk i (.int x)
  | .double => ∃ i d, v.value = .mk i (.dbl d)
  | .string | .symbol | .error => ∃ i s, v.value = .mk i (.str s)
  | .list => ∃ i, v.value = .mk i .list
  | .function => ∃ i f, v.value = .mk i (.fn f)
  | .native => ∃ i, v.value = .mk i .dict
  | .lvalue => ∃ i t k, v.value = .mk i (.lval t k)
  | .nil | .undefined => True

/-- A value refers to an existing object of the right type. -/
def ValueOk (L : Layout) (v : Variant) : Prop := RefOk L v.value ∧ Tagged v

/-- The captured variables of a function exist. -/
def FnOk (L : Layout) (f : FnW) : Prop := ∀ c, f.kind = .closure c → L c = some .closure

/-- The content of an object: integers have 32 bits, references point to what they should. -/
def ObjOk (L : Layout) : Obj → Prop
  | .int x => IsInt32 x
  | .fn f => FnOk L f
  | .lval t _ => RefOk L t
  | .scope s => L s = some .scope
  | .macroRt a b | .macroCt a b => L a = some .vec ∧ L b = some .vec
  | .var v => ValueOk L v
  | _ => True

/-- A scope: the variables are ordered by their names (so that no name occurs twice), and the references are fine. -/
structure ScopeOk (L : Layout) (sc : Scope) : Prop where
  names : (sc.vars.map Prod.fst).Pairwise fun a b => strLt a b = true
  vars : ∀ e ∈ sc.vars, RefOk L e.2
  global : L sc.global = some .scope
  closure : ∀ c, sc.closure = some c → L c = some .scope
  next : ∀ c, sc.next = some c → L c = some .scope
  prev : ∀ c, sc.prev = some c → L c = some .scope

/-- All references in the state agree with the layout. -/
structure StateOk (L : Layout) (st : St) : Prop where
  fresh : ∀ i, st.next ≤ i → L i = none
  blank : ∀ i, st.next ≤ i → st.lists i = [] ∧ st.dicts i = []
  objs : ∀ i o, L i = some (.obj o) → ObjOk L o
  lists : ∀ i, L i = some (.obj .list) ∨ L i = some .vec → ∀ p ∈ st.lists i, RefOk L p
  dicts : ∀ i, L i = some (.obj .dict) → ∀ e ∈ st.dicts i, ValueOk L e.1 ∧ RefOk L e.2
  clos : ∀ i, L i = some .closure → (∀ p ∈ (st.clos i).args, RefOk L p) ∧ L (st.clos i).scope = some .scope
  scopes : ∀ i, L i = some .scope → ScopeOk L (st.scopes i)

/-- The second layout knows all that the first one knows. -/
def Layout.Grows (L L' : Layout) : Prop := ∀ i k, L i = some k → L' i = some k

/-- The outcome of an evaluation that began in a state with the first layout: the final state, also after an exception, is valid for a
layout that knows all that the first one knew, and so is the result. -/
def Keeps (L : Layout) (o : Out (Option Variant)) : Prop :=
  ∃ L', L.Grows L' ∧ StateOk L' (Out.after o) ∧ ∀ v st', o = .ok (some v) st' → ValueOk L' v

variable [World]

/-- What an application does with interpreters: it starts with nothing, creates interpreters (which it knows by their global scopes,
the second argument) and runs scripts in them, also under the debugger, or runs the whole program `fuel` with some arguments (options,
scripts, the interactive shell, the debugger).  In between the input, the files, the clock and the breakpoints can change.  A step need not succeed; as the budget can be any number, the state can be any
state in the middle of an evaluation. -/
inductive Session : St → List Nat → Prop
  | init {st} : st.next = 0 → (∀ i, st.lists i = []) → (∀ i, st.dicts i = []) → Session st []
  | create {st l s st'} : Session st l → createDefaultScope st = .ok s st' → Session st' (s :: l)
  | script {st l s} (k code module tracing onlyExpand) : Session st l → s ∈ l →
      Session (Out.after (lispEval (run k) code s module tracing onlyExpand st)) l
  | save {st l} (k stack outp code module verbose tracing onlyExpand) : Session st l →
      Session (Out.after (saveEval k stack outp code module verbose tracing onlyExpand st)) l
  | debug {st l s} (k code module tracing onlyExpand) : Session st l → s ∈ l →
      Session (Out.after (lispEval (runD k) code s module tracing onlyExpand st)) l
  | program {st l} (k stack hasDebugger args) : Session st l → Session (Out.after (mainExtended k stack hasDebugger args st)) l
  | outside {st l} (input : List Str) (files : List (Str × Str)) (clock : Nat) (dbg : Dbg) : Session st l →
      Session { st with input := input, files := files, clock := clock, dbg := dbg } l

end Fuel.Spec
