import Verif.SpecEval
/-!
# Specifications for variables and calls
-/

namespace Fuel.Spec

variable [World]

/-- The value is a name: a symbol or a string with this text. -/
def IsName (v : Variant) (name : Str) : Prop := IsSym v name ∨ IsStr v name

/-- `st'` is `st` after the assignment of `v` to the variable `name` of scope `target`: this variable has the value, and no other
variable of any scope, no list, dictionary or function is changed, and nothing is written. -/
structure Assigned (st st' : St) (target : Nat) (name : Str) (v : Variant) : Prop where
  value : ∃ p, binding st' target name = some p ∧ Holds p (· = v)
  others : ∀ s n, s ≠ target ∨ n ≠ name → binding st' s n = binding st s n
  scopes : ∀ s, { st'.scopes s with vars := [] } = { st.scopes s with vars := [] }
  lists : st'.lists = st.lists
  dicts : st'.dicts = st.dicts
  clos : st'.clos = st.clos
  next : st.next ≤ st'.next
  out : st'.out = st.out
  input : st'.input = st.input
  files : st'.files = st.files
  libPath : st'.libPath = st.libPath
  elsewhere : ∀ s, s ≠ target → st'.scopes s = st.scopes s

/-- The scope of the innermost binding of the name: the scope itself, then the enclosing functions, then the global scope. -/
inductive Target (st : St) (s : Nat) (name : Str) : Nat → Prop
  | here {p} : binding st s name = some p → Target st s name s
  | enclosing {l a t b p} : binding st s name = none → Enclosing st s l → l = a ++ t :: b → (∀ c ∈ a, binding st c name = none) →
      binding st t name = some p → Target st s name t
  | global {l p} : binding st s name = none → Enclosing st s l → (∀ c ∈ l, binding st c name = none) →
      binding st (st.scopes s).global name = some p → Target st s name (st.scopes s).global

/-- The name is bound in none of these scopes. -/
def Unbound (st : St) (s : Nat) (name : Str) : Prop :=
  binding st s name = none ∧ (∃ l, Enclosing st s l ∧ ∀ c ∈ l, binding st c name = none) ∧ binding st (st.scopes s).global name = none

/-! ## Calls of user-defined functions -/

/-- The code `p` is a parameter list with the given names; NIL is the empty one. -/
def Params (st : St) (p : Ptr) (names : List Str) : Prop :=
  (∃ i, p = .mk i .list ∧ All2 (fun q n => Holds q (IsSym · n)) (st.lists i) names) ∨ (names = [] ∧ Holds p IsNil)

/-- `st1` is the state in which the body of the function `c` (with parameters `names`) starts, when it is called from scope `caller` in
state `st` with the arguments `args`; `child` is the new scope in which the body is evaluated. -/
structure Entered (st : St) (caller : Nat) (c : Closure) (names : List Str) (args : List Ptr) (child : Nat) (st1 : St) : Prop where
  /-- the scope is new -/
  fresh : st.next ≤ child ∧ child < st1.next
  /-- the `i`-th parameter is the `i`-th argument; missing arguments are NIL; the special variable `###args###` has all of them -/
  params : ∃ nils : List Ptr, nils.length = names.length - args.length ∧ (∀ p ∈ nils, Holds p fun v => IsNil v ∧ v.unq = .none) ∧
    (∀ (i : Nat) (n : Str), names[i]? = some n → binding st1 child n = (args ++ nils)[i]?) ∧
    ∃ j, binding st1 child c!"###args###" = some (.mk j .list) ∧ st1.lists j = args ++ nils
  /-- surplus arguments are in the list `_additionalArgs` -/
  surplus : names.length < args.length → ∃ p j, binding st1 child c!"_additionalArgs" = some p ∧ Holds p (IsListAt · j) ∧
    st1.lists j = args.drop names.length
  /-- there are no other local variables -/
  only : ∀ n, n ∉ names → n ≠ c!"###args###" → (n = c!"_additionalArgs" → args.length ≤ names.length) → binding st1 child n = none
  /-- the enclosing scope is the one in which the function was defined, the global scope is that of the caller -/
  closure : (st1.scopes child).closure = some c.scope
  global : (st1.scopes child).global = (st.scopes caller).global
  /-- no return was executed -/
  flag : (st1.scopes child).isInReturn = false
  /-- is the body evaluated for a place: as in the scope in which the function was defined -/
  place : c.scope < st.next → (st1.scopes child).needsLValue = (st.scopes c.scope).needsLValue
  /-- the call stack -/
  prev : (st1.scopes child).prev = some caller
  callerScope : st1.scopes caller = { st.scopes caller with next := some child }
  /-- nothing else changes -/
  others : ∀ s, s ≠ caller → s ≠ child → st1.scopes s = st.scopes s
  lists : ∀ i, i < st.next → st1.lists i = st.lists i
  dicts : st1.dicts = st.dicts
  clos : st1.clos = st.clos
  out : st1.out = st.out
  input : st1.input = st.input
  files : st1.files = st.files
  libPath : st1.libPath = st.libPath

/-- The state after the call stack is restored. -/
def popped (caller child : Nat) (s : St) : St :=
  { s with scopes := fset (fset s.scopes child { s.scopes child with prev := none }) caller { s.scopes caller with next := none } }

/-- The outcome of a call with the given outcome of the body: the call stack is restored; an exception loses its position. -/
def leave (caller child : Nat) : Out (Option Variant) → Out (Option Variant)
  | .ok v s => .ok v (popped caller child s)
  | .fail (.exn (.lisp _ msg _ _ _ _)) s => .fail (.exn (.base msg)) s
  | .fail f s => .fail f s

/-- The global scope and the modules seen from scope `s` exist. -/
structure Outer (st : St) (s : Nat) : Prop where
  global : (st.scopes s).global < st.next
  top : (st.scopes (st.scopes s).global).global < st.next
  modules : ∀ i m, binding st (st.scopes (st.scopes s).global).global c!"###modules###" = some (.mk i (.scope m)) →
    m < st.next ∧ ∀ t, Scopes (st.scopes m).vars t → ∀ x ∈ t, x < st.next

/-- What a name means in the body of a function with the given values of the parameters, global scope `g` and scope `d` in which
the function was defined. -/
inductive LexLookup (st : St) (params : Str → Option Ptr) (g d : Nat) (name : Str) : Option Ptr → Prop
  | param {p} : params name = some p → LexLookup st params g d name (some p)
  | globally {p} : params name = none → binding st g name = some p → LexLookup st params g d name (some p)
  | enclosing {p l} : params name = none → binding st g name = none → Enclosing st d l → firstOf st name (d :: l) = some p →
      LexLookup st params g d name (some p)
  | modules {r l i m t} : params name = none → binding st g name = none → Enclosing st d l → firstOf st name (d :: l) = none →
      binding st (st.scopes g).global c!"###modules###" = some (.mk i (.scope m)) → Scopes (st.scopes m).vars t → firstOf st name t = r →
      LexLookup st params g d name r

end Fuel.Spec
