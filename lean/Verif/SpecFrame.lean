import Verif.SpecValid
/-!
# Specification: what can be reached from a scope or a value
-/

namespace Fuel.Spec

/-- What a program can hold on to: a reference to a value, a vector of a macro, the captured variables of a function, a scope. -/
inductive Place where
  | ref (p : Ptr)
  | vec (i : Nat)
  | env (i : Nat)
  | scope (i : Nat)

/-- The number under which its content is stored. -/
def Place.num : Place → Option Nat
  | .ref .null => none
  | .ref (.mk i _) => some i
  | .vec i | .env i | .scope i => some i

/-- From the first place one gets to the second one. -/
inductive Leads (st : St) : Place → Place → Prop
  | value {i v} : Leads st (.ref (.mk i (.var v))) (.ref v.value)
  | element {i p} : p ∈ st.lists i → Leads st (.ref (.mk i .list)) (.ref p)
  | key {i e} : e ∈ st.dicts i → Leads st (.ref (.mk i .dict)) (.ref e.1.value)
  | entry {i e} : e ∈ st.dicts i → Leads st (.ref (.mk i .dict)) (.ref e.2)
  | function {i f c} : f.kind = .closure c → Leads st (.ref (.mk i (.fn f))) (.env c)
  | lvalue {i p k} : Leads st (.ref (.mk i (.lval p k))) (.ref p)
  | module {i s} : Leads st (.ref (.mk i (.scope s))) (.scope s)
  | macroRtParams {i a b} : Leads st (.ref (.mk i (.macroRt a b))) (.vec a)
  | macroRtBody {i a b} : Leads st (.ref (.mk i (.macroRt a b))) (.vec b)
  | macroCtParams {i a b} : Leads st (.ref (.mk i (.macroCt a b))) (.vec a)
  | macroCtBody {i a b} : Leads st (.ref (.mk i (.macroCt a b))) (.vec b)
  | vector {i p} : p ∈ st.lists i → Leads st (.vec i) (.ref p)
  | code {c p} : p ∈ (st.clos c).args → Leads st (.env c) (.ref p)
  | definedIn {c} : Leads st (.env c) (.scope (st.clos c).scope)
  | variable {s e} : e ∈ (st.scopes s).vars → Leads st (.scope s) (.ref e.2)
  | global {s} : Leads st (.scope s) (.scope (st.scopes s).global)
  | closure {s c} : (st.scopes s).closure = some c → Leads st (.scope s) (.scope c)
  | callee {s c} : (st.scopes s).next = some c → Leads st (.scope s) (.scope c)
  | caller {s c} : (st.scopes s).prev = some c → Leads st (.scope s) (.scope c)

/-- What can be reached from the given places. -/
inductive Reach (st : St) (roots : Place → Prop) : Place → Prop
  | root {x} : roots x → Reach st roots x
  | step {x y} : Reach st roots x → Leads st x y → Reach st roots y

/-- All that is stored under the number is the same in both states. -/
structure Untouched (st st' : St) (i : Nat) : Prop where
  lists : st'.lists i = st.lists i
  dicts : st'.dicts i = st.dicts i
  clos : st'.clos i = st.clos i
  scopes : st'.scopes i = st.scopes i

/-- The second state is the first one except for what can be reached from the given places and for what has been created since. -/
def ChangesOnly (st : St) (roots : Place → Prop) (st' : St) : Prop :=
  ∀ i, i < st.next → (∀ x, Reach st roots x → x.num ≠ some i) → Untouched st st' i

/-- The content of all that can be reached from the given places is the same in both states, and the same can be reached. -/
def LooksSame (st : St) (roots : Place → Prop) (st' : St) : Prop :=
  (∀ x i, Reach st roots x → x.num = some i → Untouched st st' i) ∧ ∀ x, Reach st' roots x ↔ Reach st roots x

end Fuel.Spec
