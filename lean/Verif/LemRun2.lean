import Verif.LemRun
import Verif.PropsImport
/-!
# The interpreter executes the core language: names without meaning, evaluation of data as code, computed places
-/

set_option linter.unusedSectionVars false
set_option linter.unusedSimpArgs false

namespace Fuel

open Spec Spec.Core

section
variable [World]

/-- Conditions of which the values are not needed. -/
def BoolsOk (f : Nat) (es : List Sexp) (R : Conf) (R' : Conf) : Prop :=
  ∀ o st μ ps, Sim o st μ R → f < R.count → All2 (CodeAt st) ps es →
    ∃ st' μ', (∃ K, ∀ k, K ≤ k → boolLoop (run k) false (μ f) true ps st = .ok true st') ∧ Res o st μ R.count st' μ' R'

variable {o : Origin} {st : St} {μ : Emb} {R : Conf}

/-! ## Names without meaning -/

theorem Sim.lookup_total (h : Sim o st μ R) {f : Nat} (hf : f < R.count) (n : Str) : ∃ r, Lookup st (μ f) n r := by
  cases h1 : binding st (μ f) n with
  | some p => exact ⟨_, .locally h1⟩
  | none =>
    cases h2 : binding st (st.scopes (μ f)).global n with
    | some p => exact ⟨_, .globally h1 h2⟩
    | none =>
      obtain ⟨l, hl, -⟩ := enclosing_of_acyclic h.links.old (μ f)
      cases h3 : firstOf st n l with
      | some p => exact ⟨_, .enclosing h1 h2 hl h3⟩
      | none => exact ⟨_, .modules h1 h2 hl h3 (h.modulesAt hf) rfl⟩

theorem Sim.unknown (h : Sim o st μ R) {f : Nat} (hf : f < R.count) {n : Str} (hu : Unknown R f n) : Unbound st (μ f) n ∧ Lookup st (μ f) n none := by
  obtain ⟨hn, h0, hi, hm⟩ := hu
  obtain ⟨l, hl, -⟩ := enclosing_of_acyclic h.links.old (μ f)
  have hc := h.unbound_chain hn hl rfl hf hi
  have hg : binding st (st.scopes (μ f)).global n = none := by rw [h.global f hf]; exact h.unbound 0 h.pos n hn h0
  have hl' : ∀ c ∈ l, binding st c n = none := fun c hm => hc c (List.mem_cons_of_mem _ hm)
  refine ⟨⟨hc _ (List.mem_cons_self ..), ⟨l, hl, hl'⟩, hg⟩, .modules (hc _ (List.mem_cons_self ..)) hg hl ?_ (h.modulesAt hf) (h.noModule hn hm)⟩
  simp only [firstOf, List.findSome?_eq_none_iff]
  exact hl'

theorem Sim.noMacro (h : Sim o st μ R) {f : Nat} (hf : f < R.count) {n : Str} (hn : R.macros n = none) : NoMacro st (μ f) n := by
  obtain ⟨a, b, h6, h7⟩ := h.macros
  refine .inr ⟨a, b, ?_, macroAt_none' (hn ▸ h7.2.2 _)⟩
  rw [h.global f hf]; exact h6

theorem exec_unknown {f : Nat} {n : Str} (h : Unknown R f n) : ExecOk f (.sym n) R (.sym n) R := by
  intro o st μ p hs hf hc
  obtain ⟨i, u, rfl, h1, hu⟩ := codeAt_sym hc
  obtain ⟨st', h2, h3⟩ := C27_unknown (i := i) hs.links.old h1 (hs.unknown hf h).2
  have hl := evals_links h2 hs.links (hs.old f hf)
  exact ⟨u, st', μ, h2, .sym h1 (nsp hu), Res.of_extends hs h3 hl⟩

theorem operands_unknown {f : Nat} {R0 R' : Conf} {n : Str} {es : List Sexp} {vs : List Val} (hv : Unknown R0 f n) (ht : OperandsOk f R0 es R vs R') :
    OperandsOk f R0 (.sym n :: es) R (.sym n :: vs) R' := by
  intro o st0 μ0 st μ ps h0 hf hp hs hg
  cases hp with
  | cons hp hps =>
    obtain ⟨i, u, rfl, h1, hu⟩ := codeAt_sym hp
    obtain ⟨ps', qs, st1, μ1, h5, h6, h7, h8⟩ := ht o st0 μ0 st μ _ h0 hf hps hs hg
    exact ⟨_, _, st1, μ1, .cons (.unknown h1 (h0.unknown hf hv).2) h5, .value (by simp) (by simp [NotSpliced, hu]) h6, .cons ⟨i, u, rfl, .sym h1 (nsp hu)⟩ h7, h8⟩

/-! ## Disjunctions -/

theorem bools_nil {f : Nat} : BoolsOk f [] R R := by
  intro o st μ ps hs hf hp
  cases hp
  exact ⟨st, μ, ⟨0, fun _ _ => rfl⟩, Res.refl hs⟩

theorem bools_cons {f : Nat} {e : Sexp} {es : List Sexp} {b : Bool} {R1 R' : Conf} (he : ExecOk f e R (.bool b) R1) (ht : BoolsOk f es R1 R') : BoolsOk f (e :: es) R R' := by
  intro o st μ ps hs hf hp
  cases hp with
  | cons hp hps =>
    obtain ⟨w, st1, μ1, h4, h5, h6⟩ := he o st μ _ hs hf hp
    have hm : μ1 f = μ f := h6.grow.same f hf
    obtain ⟨st2, μ2, ⟨K', h7⟩, h9⟩ := ht o st1 μ1 _ h6.sim (h6.lt hf) (codesAt_grow h6.grow hps)
    obtain ⟨K, h4⟩ := h4.stable
    refine ⟨st2, μ2, ⟨max K K', fun k hk => ?_⟩, h6.trans h9⟩
    rw [hm] at h7
    simp [boolLoop, h4 k (by omega), derefV, M.rd_apply, boolValue_bool (isVal_bool_inv h5), h7 k (by omega)]

theorem exec_bool {f : Nat} {p : Ptr} {st0 st1 : St} {μ1 : Emb} {R1 : Conf} {tl : List Ptr} {b : Bool} (hs : Sim o st μ R) (hf : f < R.count)
    (h1 : IsSpecial st (μ f) p .or tl st0) (h3 : Res o st μ R.count st0 μ R) (hr : ∃ K, ∀ k, K ≤ k → boolLoop (run k) false (μ f) false tl st0 = .ok b st1)
    (h6 : Res o st0 μ R.count st1 μ1 R1) :
    ∃ w st' μ', Evals p (μ f) st (.ok (some w) st') ∧ IsVal st' μ' R1.count w (.bool b) ∧ Res o st μ R.count st' μ' R1 := by
  obtain ⟨K, hr⟩ := hr
  have hE : Evals p (μ f) st (.ok (some (.ofType .bool (.mk st1.next (.bool b)))) { st1 with next := st1.next + 1 }) := by
    rw [evals_special hs.links.old h1]
    refine lim_of (ends_ok _ _) K ?_
    simp [callPrim, ret, bBool, hr K (Nat.le_refl K), mkBool, mkAtom, allocObj, Obj.lispType, Variant.ofType]
  exact ⟨_, _, μ1, hE, .bool ⟨rfl, _, rfl⟩ (nsp rfl), (h3.trans h6).trans (Res.of_extends h6.sim (extends_next _ _ (Nat.le_succ _))
    (links_next h6.sim.links _ (Nat.le_succ _)))⟩

theorem exec_orFalse {f : Nat} {e x : Sexp} {xs : List Sexp} {h d : Str} {R' : Conf} (hF : Form e h (x :: xs)) (hV : Head R f h (.prim d))
    (hd : d ∈ [c!"or", c!"||"]) (hx : ExecOk f x R (.bool false) R') : ExecOk f e R (.bool false) R' := by
  intro o st μ p hs hf hC
  obtain ⟨tl, st0, h1, h2, h3⟩ := isSpecial_of hs hf hF hC hV .or (by simp only [List.mem_cons, List.not_mem_nil, or_false] at hd; rcases hd with rfl | rfl <;> decide)
  cases h2 with
  | cons hp hps =>
    obtain ⟨w, st1, μ1, h4, h5, h6⟩ := hx o st0 μ _ h3.sim hf hp
    obtain ⟨K, h4⟩ := h4.stable
    exact exec_bool hs hf h1 h3 ⟨K, fun k hk => by simp [boolLoop, h4 k hk, derefV, M.rd_apply, boolValue_bool (isVal_bool_inv h5)]⟩ h6

theorem exec_orTrue {f : Nat} {e x : Sexp} {xs : List Sexp} {h d : Str} {R1 R' : Conf} (hF : Form e h (x :: xs)) (hV : Head R f h (.prim d))
    (hd : d ∈ [c!"or", c!"||"]) (hx : ExecOk f x R (.bool true) R1) (hb : BoolsOk f xs R1 R') : ExecOk f e R (.bool true) R' := by
  intro o st μ p hs hf hC
  obtain ⟨tl, st0, h1, h2, h3⟩ := isSpecial_of hs hf hF hC hV .or (by simp only [List.mem_cons, List.not_mem_nil, or_false] at hd; rcases hd with rfl | rfl <;> decide)
  cases h2 with
  | cons hp hps =>
    obtain ⟨w, st1, μ1, h4, h5, h6⟩ := hx o st0 μ _ h3.sim hf hp
    have hm : μ1 f = μ f := h6.grow.same f hf
    obtain ⟨st2, μ2, ⟨K', h7⟩, h9⟩ := hb o st1 μ1 _ h6.sim (h6.lt hf) (codesAt_grow h6.grow hps)
    obtain ⟨K, h4⟩ := h4.stable
    rw [hm] at h7
    exact exec_bool hs hf h1 h3 ⟨max K K', fun k hk => by
      simp [boolLoop, h4 k (by omega), derefV, M.rd_apply, boolValue_bool (isVal_bool_inv h5), h7 k (by omega)]⟩ (h6.trans h9)

/-! ## Computed places -/

theorem isName_of {N : Nat} {v : Val} {n : Str} (hn : Named v n) {w : Variant} (h : IsVal st μ N w v) : IsName w n := by
  cases hn with
  | str => cases h; exact .inr (by assumption)
  | sym => cases h; exact .inl (by assumption)

theorem exec_defAt {f : Nat} {e q x : Sexp} {h n : Str} {v0 v : Val} {R1 R2 : Conf} (hF : Form e h [q, x]) (hV : Head R f h (.prim c!"def"))
    (hq : ∃ hp args, Form q hp args) (h0 : ExecOk f q R v0 R1) (hv : Named v0 n) (hn : n ∉ hidden) (hx : ExecOk f x R1 v R2) : ExecOk f e R v (R2.set f n v) := by
  intro o st μ p hs hf hC
  obtain ⟨tl, st0, h1, h2, h3⟩ := isSpecial_of hs hf hF hC hV .def_ (by decide)
  obtain ⟨pn, px, rfl, h2, hb⟩ := codes_two h2
  obtain ⟨hq1, hq2, hq⟩ := hq
  obtain ⟨i, -, -, -, rfl, -⟩ := form_code hq h2
  obtain ⟨u, st1, μ1, h4, h5, h6⟩ := h0 o st0 μ _ h3.sim hf h2
  have hm1 : μ1 f = μ f := h6.grow.same f hf
  obtain ⟨w, st2, μ2, h7, h8, h9⟩ := hx o st1 μ1 px h6.sim (h6.lt hf) (codeAt_grow h6.grow hb)
  have hm2 : μ2 f = μ f := (h9.grow.same f (h6.lt hf)).trans hm1
  have hu := isName_of hv h5
  have hE : Evals p (μ f) st (.ok (some w) (assigned st2 (μ f) n w)) := by
    rw [evals_special hs.links.old h1]
    obtain ⟨K, h4⟩ := h4.stable
    obtain ⟨K', h7⟩ := h7.stable
    rw [hm1] at h7
    refine lim_of (ends_ok _ _) (max K K' + 2) ?_
    simp [callPrim, ret, bDef, bDefHelper, checkArgs, arg, evalArgIfNeeded, h4 (max K K' + 2) (by omega), derefV, name_type hu, h7 (max K K' + 2) (by omega),
      box, allocObj, M.rd_apply, run_n, varStr_name hu, setVar, modScope, assigned]
  have hl := evals_links hE hs.links (hs.old f hf)
  obtain ⟨h10, h11⟩ := h9.sim.assign (h9.lt (h6.lt hf)) hn h8 (by rw [hm2]; exact assigned_spec _ _ _ _) hl
  exact ⟨w, _, μ2, hE, isVal_grow h11 h8, ((h3.trans h6).trans h9).trans ⟨h10, h11⟩⟩

/-- The state in which places are asked for. -/
def asking (st : St) (s : Nat) : St := { st with scopes := fset st.scopes s { st.scopes s with needsLValue := true } }

theorem sameNames_asking (st : St) (s : Nat) : SameNames st (asking st s) := by
  refine ⟨fun i => ?_, fun i => ?_, fun i => ?_⟩ <;> by_cases h : i = s <;> simp [asking, fset, h]

theorem asking_atToken (st : St) (s : Nat) (t : Option Token) : atToken (asking st s) s t = asking (atToken st s t) s := by
  cases t with
  | none => rfl
  | some t => simp only [atToken, asking, fset_fset]; simp [fset]

theorem fset_id {f : Nat → Scope} {s : Nat} {x : Scope} (h : x = f s) : fset f s x = f := by
  funext i
  by_cases e : i = s
  · subst e; simp [fset, h]
  · simp [fset, e]

theorem noPlaces_asking {s : Nat} (h : (st.scopes s).needsLValue = false) : noPlaces (asking st s) s = st := by
  have : fset (asking st s).scopes s { (asking st s).scopes s with needsLValue := false } = st.scopes := by
    funext i
    by_cases e : i = s
    · subst e; simp [asking, fset]; rw [← h]
    · simp [asking, fset, e]
  show ({ asking st s with scopes := _ } : St) = st
  rw [this]; rfl

theorem modScope_asking (s : Nat) (st : St) : modScope s (fun sc => { sc with needsLValue := true }) st = .ok () (asking st s) := rfl

theorem modScope_noPlaces (s : Nat) (st : St) : modScope s (fun sc => { sc with needsLValue := false }) st = .ok () (noPlaces st s) := rfl

theorem isSpecial_asking {s : Nat} {p : Ptr} {b : Builtin} {args : List Ptr} {st' : St} (h : IsSpecial st s p b args st') : IsSpecial (asking st s) s p b args (asking st' s) := by
  obtain ⟨w, ⟨⟨i, g, h1, h2, ⟨name, q, h3, h4, h5, h6⟩, rfl⟩, h7, h8⟩, h9, h10⟩ := h
  have hn := sameNames_asking st s
  refine ⟨w, ⟨⟨i, g, h1, h2, ⟨name, q, h3, ?_, hn.lookup h5, h6⟩, (asking_atToken _ _ _).symm⟩, h7, ?_⟩, h9, h10⟩
  · unfold NoMacro at *
    simp only [hn.global, hn.binding]
    exact h4
  · unfold TraceOff at *
    rw [hn.global]
    by_cases e : (st.scopes s).global = s
    · rw [e] at h8 ⊢; simp [asking, fset, h8]
    · simp [asking, fset, e, h8]

theorem exec_rval {f : Nat} {e x : Sexp} {h : Str} {v : Val} {R' : Conf} (hF : Form e h [x]) (hV : Head R f h (.prim c!"rval"))
    (hq : ∃ hp args, Form x hp args) (hx : ExecOk f x R v R') : ExecOk f e R v R' := by
  intro o st μ p hs hf hC
  obtain ⟨tl, st0, h1, h2, h3⟩ := isSpecial_of hs hf hF hC hV .rval (by decide)
  obtain ⟨px, rfl, h2'⟩ := codes_one h2
  obtain ⟨hq1, hq2, hq⟩ := hq
  obtain ⟨i, -, -, -, rfl, -⟩ := form_code hq h2'
  obtain ⟨w, st1, μ1, h4, h5, h6⟩ := hx o st0 μ _ h3.sim hf h2'
  have hm : μ1 f = μ f := h6.grow.same f hf
  have e0 : fset st0.scopes (μ f) { st0.scopes (μ f) with needsLValue := false } = st0.scopes := fset_id (by rw [← h3.sim.place f hf])
  have e1 : fset st1.scopes (μ f) { st1.scopes (μ f) with needsLValue := false } = st1.scopes := fset_id (by rw [← hm, ← h6.sim.place f (h6.lt hf)])
  have hE : Evals p (μ f) st (.ok (some w) st1) := by
    rw [evals_special hs.links.old h1]
    obtain ⟨K, h4⟩ := h4.stable
    refine lim_of (ends_ok _ _) K ?_
    simp only [callPrim, bRval, checkArgs, argV, arg, List.length_singleton, M.bind_apply, M.pure_apply, ne_eq, not_true, if_false, if_true, M.lift_apply, toVariant_var,
      M.get, M.rd_apply, modScope, M.modify, List.getElem?_cons_zero, evalArgIfNeeded, e0, h4 K (Nat.le_refl _), h3.sim.place f hf, e1]
  exact ⟨w, st1, μ1, hE, h5, h3.trans h6⟩

theorem exec_setfAt {f g : Nat} {e q y x : Sexp} {h hp n : Str} {v0 v : Val} {R1 R2 : Conf} (hF : Form e h [q, x]) (hV : Head R f h (.prim c!"setf"))
    (hQ : Form q hp [y]) (hW : Head R f hp (.prim c!"rval")) (hy : ∃ hy args, Form y hy args) (h0 : ExecOk f y R v0 R1) (hv : Named v0 n) (hn : n ∉ hidden)
    (hne : n ≠ []) (hx : ExecOk f x R1 v R2) (hi : Innermost R2 n f g) : ExecOk f e R v (R2.set g n v) := by
  intro o st μ p hs hf hC
  obtain ⟨tl, st0, h1, h2, h3⟩ := isSpecial_of hs hf hF hC hV .setf (by decide)
  obtain ⟨pq, px, rfl, h2, hb⟩ := codes_two h2
  obtain ⟨j, -, -, -, hpq, -⟩ := form_code hQ h2
  subst hpq
  obtain ⟨tl', stq, k1, k2, k3⟩ := isSpecial_of h3.sim hf hQ h2 hW .rval (by decide)
  obtain ⟨py, rfl, k2'⟩ := codes_one k2
  obtain ⟨hy1, hy2, hy⟩ := hy
  obtain ⟨i, -, -, -, rfl, -⟩ := form_code hy k2'
  obtain ⟨u, st1, μ1, h4, h5, h6⟩ := h0 o stq μ _ k3.sim hf k2'
  have hm1 : μ1 f = μ f := h6.grow.same f hf
  obtain ⟨w, st2, μ2, h7, h8, h9⟩ := hx o st1 μ1 px h6.sim (h6.lt hf) (codeAt_grow (k3.grow.trans h6.grow) hb)
  have hm2 : μ2 f = μ f := (h9.grow.same f (h6.lt hf)).trans hm1
  have hu := isName_of hv h5
  obtain ⟨hg, ht⟩ := h9.sim.target (h9.lt (h6.lt hf)) hn hi
  rw [hm2] at ht
  -- the place
  obtain ⟨fw, -, hkind, -⟩ := id k1
  have k4 : Evals (.mk j .list) (μ f) (asking st0 (μ f)) (.ok (some u) (asking st1 (μ f))) := by
    rw [evals_special ((sameNames_asking st0 (μ f)).acyclic h3.sim.links.old) (isSpecial_asking k1), ← calls_prim hkind]
    refine (C69_rval hkind).2 ⟨.ok (some u) st1, ?_, ?_⟩
    · rw [noPlaces_asking (k3.sim.place f hf)]; exact h4
    · simp [thenSet, asking, fset_self]
  have e2 : noPlaces (asking st1 (μ f)) (μ f) = st1 := noPlaces_asking (by rw [← hm1]; exact h6.sim.place f (h6.lt hf))
  have hE : Evals p (μ f) st (.ok (some w) (assigned st2 (μ2 g) n w)) := by
    rw [evals_special hs.links.old h1]
    obtain ⟨K, k4⟩ := k4.stable
    obtain ⟨K', h7⟩ := h7.stable
    rw [hm1] at h7
    have k5 := k4 (max K K' + 2) (by omega)
    refine lim_of (ends_ok _ _) (max K K' + 2) ?_
    have hT : ∀ t, Target st2 (μ f) n t → Target { st2 with next := st2.next + 1 } (μ f) n t := by
      intro t ht
      cases ht with
      | here h => exact .here h
      | enclosing h1 h2 h3 h4 h5 => exact .enclosing h1 h2.next h3 h4 h5
      | global h1 h2 h3 h4 => exact .global h1 h2.next h3 h4
    have := setInScopes_target (st := { st2 with next := st2.next + 1 }) h9.sim.links.old hne (hT _ ht) (.mk st2.next (.var w))
    have hty : u.type ≠ .lvalue := by rcases name_type hu with h | h <;> simp [h]
    simp only [callPrim, ret, bSetf, checkArgs, arg, M.bind_apply, M.pure_apply, if_true, M.get, modScope_asking, modScope_noPlaces, evalArgIfNeeded, List.length_cons, List.length_nil,
      List.getElem?_cons_zero, List.getElem?_cons_succ, k5, M.rd_apply, h3.sim.place f hf, e2, h7 (max K K' + 2) (by omega), derefV, run_n, varStr_name hu, hty, if_false, box, allocObj, this]
    simp [setVar, modScope, M.modify, assigned]
  have hl := evals_links hE hs.links (hs.old f hf)
  obtain ⟨h10, h11⟩ := h9.sim.assign hg hn h8 (assigned_spec _ _ _ _) hl
  exact ⟨w, _, μ2, hE, isVal_grow h11 h8, (((h3.trans k3).trans h6).trans h9).trans ⟨h10, h11⟩⟩

/-! ## Data as code -/

theorem codeAt_copy {μ' : Emb} {N N' : Nat} {st' : St} (g : Grow st μ N st' μ' N') {i : Nat} {x : Sexp} (h : CodeAt st (.mk i .list) x) :
    CodeAt (withList st' (st.lists i)) (.mk st'.next .list) x := by
  obtain ⟨c, h1, h2⟩ := h
  cases h1 with
  | list hi h1 =>
    refine ⟨_, .list (Nat.lt_succ_self _) ?_, h2⟩
    have hE := extends_list st' (st.lists i)
    show AreTrees _ ((withList st' (st.lists i)).lists st'.next) _
    rw [show (withList st' (st.lists i)).lists st'.next = st.lists i by simp [withList, fset]]
    exact (h1.mono g.next g.lists).mono hE.next hE.lists

theorem exec_evalCode {f : Nat} {e q x : Sexp} {h hq : Str} {v : Val} {R' : Conf} (hF : Form e h [q]) (hV : Head R f h (.prim c!"eval")) (hQ : Form q hq [x])
    (hW : Head R f hq (.prim c!"quote")) (hx : ∃ hx args, Form x hx args) (hX : ExecOk f x R v R') : ExecOk f e R v R' := by
  intro o st μ p hs hf hC
  obtain ⟨u, tl, st0, h1, h2, h3, h3', h4⟩ := isForm_of hs hf hF hC hV
  obtain ⟨d, he, hd, hfn⟩ := isVal_prim_inv h1
  obtain ⟨h5, h6⟩ := core_entry he (c!"eval", .eval, false) (by decide) hd
  obtain ⟨pq, rfl, h7⟩ := codes_one h3'
  obtain ⟨j, -, -, -, hpq, -⟩ := form_code hQ h7
  subst hpq
  obtain ⟨tl', st1, k1, k2, k3⟩ := isSpecial_of h4.sim hf hQ h7 hW .quote (by decide)
  obtain ⟨px, rfl, k2'⟩ := codes_one k2
  obtain ⟨hx1, hx2, hx⟩ := hx
  obtain ⟨i, -, -, -, rfl, -⟩ := form_code hx k2'
  have hq : Evals (.mk j .list) (μ f) st0 (.ok (some ⟨.list, .mk st1.next .list, .none, none⟩) (withList st1 (st1.lists i))) := by
    rw [evals_special h4.sim.links.old k1]
    exact lim_of (ends_ok _ _) 0 rfl
  have r1 : Res o st1 μ R.count (withList st1 (st1.lists i)) μ R := Res.of_extends k3.sim (extends_list _ _) (evals_links hq h4.sim.links (h4.sim.old f hf))
  generalize hst2 : withList st1 (st1.lists i) = st2 at hq r1
  have r2 : Res o st2 μ R.count { st2 with next := st2.next + 1 } μ R := Res.of_extends r1.sim (extends_next _ _ (Nat.le_succ _)) (links_next r1.sim.links _ (Nat.le_succ _))
  have hl : st2.lists st1.next = st1.lists i := by subst hst2; simp [withList, fset]
  have r3 : Res o { st2 with next := st2.next + 1 } μ R.count (withList { st2 with next := st2.next + 1 } (st1.lists i)) μ R :=
    Res.of_extends r2.sim (extends_list _ _) (links_same (Nat.le_succ _) rfl rfl r2.sim.links)
  have hcode := codeAt_copy (r1.trans r2).grow k2'
  obtain ⟨w, st', μ', g1, g2, g3⟩ := hX o _ μ _ r3.sim hf hcode
  refine ⟨w, st', μ', ?_, g2, ((((h4.trans k3).trans r1).trans r2).trans r3).trans g3⟩
  refine (evals_call hs.links.old (h2 _ hfn) h6 (.cons .list .nil) (.call hq (by simp) .nil)).2 ?_
  exact (C62_list (w := d.wrapper) (l := st1.lists i) (st := { st2 with next := st2.next + 1 }) (by simpa [Entry.wrapper] using h5)
    ⟨st2.next, ⟨.list, .mk st1.next .list, .none, none⟩, rfl, .inl ⟨st1.next, ⟨rfl, rfl⟩, hl⟩⟩).2 g1

/-- A list of data of which the elements mean something, evaluated as a call. -/
theorem meant_args (hs : Sim o st μ R) {f : Nat} (hf : f < R.count) : ∀ {l vs : List Val} {ps : List Ptr}, AreVals st μ R.count ps l → Each (Meant R f) l vs →
    ∃ ps', All2 (Resolved st (μ f)) ps ps' ∧ (∀ st', EvalArgs (μ f) ps' st' ps' st') ∧ Args st μ R.count ps' vs ∧ ∀ p ∈ ps, NotSpliced p := by
  intro l vs ps h hm
  induction hm generalizing ps with
  | nil => cases h; exact ⟨[], .nil, fun _ => .nil, .nil, by simp⟩
  | @cons a b l m hab _ ih =>
    have key : ∃ j u ps1, ps = .mk j (.var u) :: ps1 ∧ IsVal st μ R.count u a ∧ AreVals st μ R.count ps1 l := by
      cases h with
      | value h t => exact ⟨_, _, _, rfl, h, t⟩
      | bare =>
        cases hab with
        | other _ h => cases h
    obtain ⟨j, u, ps1, rfl, h1, h2⟩ := key
    obtain ⟨ps', i1, i2, i3, i4⟩ := ih h2
    have hsp : ∀ p ∈ Ptr.mk j (.var u) :: ps1, NotSpliced p := by
      intro p hp
      rcases List.mem_cons.1 hp with rfl | hp
      · simp [NotSpliced, isVal_unq h1]
      · exact i4 p hp
    cases hab with
    | name hv =>
      obtain ⟨-, q, k1, k, w, rfl, k2⟩ := hs.lookup hf hv
      exact ⟨_, .cons (.symbol (isVal_sym_inv h1) k1) i1, fun st' => .value (by simp) (by simp [NotSpliced, isVal_unq k2]) (i2 st'), .cons ⟨k, w, rfl, k2⟩ i3, hsp⟩
    | unknown hv =>
      exact ⟨_, .cons (.unknown (isVal_sym_inv h1) (hs.unknown hf hv).2) i1, fun st' => .value (by simp) (by simp [NotSpliced, isVal_unq h1]) (i2 st'), .cons ⟨j, u, rfl, h1⟩ i3, hsp⟩
    | other hn hl =>
      have : u.type ≠ .symbol := by
        intro hu
        cases h1 with
        | int hh => rw [hh.1] at hu; cases hu
        | dbl hh => rw [hh.1] at hu; cases hu
        | str hh => rw [hh.1] at hu; cases hu
        | sym hh => exact absurd rfl (hn _)
        | bool hh => rw [hh.1] at hu; cases hu
        | nil hh => rw [show _ = _ from hh] at hu; cases hu
        | undef hh => rw [show _ = _ from hh] at hu; cases hu
        | list hh => rw [hh.1] at hu; cases hu
        | prim _ hh => rw [hh.1] at hu; cases hu
        | clo hh => rw [hh.1] at hu; cases hu
        | dict hh => rw [hh.1] at hu; cases hu
      exact ⟨_, .cons (.value this) i1, fun st' => .value (by simp) (by simp [NotSpliced, isVal_unq h1]) (i2 st'), .cons ⟨j, u, rfl, h1⟩ i3, hsp⟩

/-- The evaluation of a list of which the first element is a function. -/
theorem evals_callFn {sid i j : Nat} {v : Variant} {w : FnW} {tl args' vs : List Ptr} {st1 : St} (ha : Acyclic st) (hl : st.lists i = .mk j (.var v) :: tl) (hv : IsFn v w)
    (hm : ∀ t, NoMacro st sid (c!"function " ++ t)) (ht : TraceOff st sid) (hw : w.special = false) (hr : All2 (Resolved st sid) tl args')
    (hA : Spec.EvalArgs sid args' (atToken st sid v.tok) vs st1) {o : Out (Option Variant)} : Evals (.mk i .list) sid st o ↔ Calls w vs sid st1 o := by
  obtain ⟨K, hA⟩ := evalArgs_of hA
  refine lim_iff (monoSeq_eval _ sid st) (monoSeq_call w vs sid _) (max K 3) 1 fun k hk => ?_
  obtain ⟨m, rfl⟩ : ∃ m, k = m + 3 := ⟨k - 3, by omega⟩
  rw [run_eval (m + 3)]
  have hn := run_n (m + 3)
  have hs := sameNames_atToken st sid v.tok
  have e0 : ptrStr st (m + 3) (.mk j (.var v)) = .ok (c!"function " ++ w.signature) := by
    obtain ⟨hv1, q, hv2⟩ := hv
    rw [ptrStr_var]
    simp only [varStr, hv1, hv2]
  have e1 : resolveElem (atToken st sid v.tok) (m + 3) sid (.mk j (.var v)) = .ok (.mk j (.var v)) := by
    simp [resolveElem, isSymbolPtr, hv.1]
  have e2 : resolveList (atToken st sid v.tok) (m + 3) sid tl = .ok args' := by
    refine resolveList_of (n := m) (hs.acyclic ha) ?_
    clear hA hl
    clear hA
    induction hr with
    | nil => exact .nil
    | cons hab _ ih =>
      refine .cons ?_ ih
      cases hab with
      | symbol a b => exact .symbol a (hs.lookup b)
      | unknown a b => exact .unknown a (hs.lookup b)
      | value a => exact .value a
      | list => exact .list
  simp only [evalStep, M.bind_apply, M.rd_apply, toListRef, hl, evalList, hn, getMacro_none e0 (hm _), M.lift_apply, toVariant]
  have hA := hA (m + 3) (by omega)
  simp only [setCurTok_apply, resolveArgs, e1, bind_ok_R, headFunction_ok ⟨_, _, rfl, hv⟩, hw, Bool.false_eq_true, if_false, e2, traceCall_off (traceOff_atToken _ ht), hA]

theorem apply_evalCall {f : Nat} {c w v : Val} {l vs : List Val} {R' : Conf} (hc : Called R f c w) (hl : Each (Meant R f) l vs) (hA : ApplyOk f w vs R v R') :
    ApplyOk f (.prim c!"eval") [.list (c :: l)] R v R' := by
  intro o st μ u args hs hf hu ha
  obtain ⟨e, he, hn, hfn⟩ := isVal_prim_inv hu
  obtain ⟨h5, h6⟩ := core_entry he (c!"eval", .eval, false) (by decide) hn
  obtain ⟨i, x, rfl, hx⟩ := args_one ha
  obtain ⟨ps, hp1, hp2, -⟩ := isVal_list_inv hx
  have hE : Extends st (withList st ps) := extends_list st ps
  have r0 : Res o st μ R.count (withList st ps) μ R := Res.of_extends hs hE (links_same (Nat.le_succ _) rfl rfl hs.links)
  have hlist : (withList st ps).lists st.next = ps := by simp [withList, fset]
  have hq := areVals_grow r0.grow hp2
  refine ⟨_, hfn, h6, ?_⟩
  rw [show (∃ x' st' μ', Calls e.wrapper [.mk i (.var x)] (μ f) st (.ok (some x') st') ∧ IsVal st' μ' R'.count x' v ∧ Res o st μ R.count st' μ' R') ↔
    ∃ x' st' μ', Evals (.mk st.next .list) (μ f) (withList st ps) (.ok (some x') st') ∧ IsVal st' μ' R'.count x' v ∧ Res o st μ R.count st' μ' R' by
      simp only [C62_list (w := e.wrapper) (by simpa [Entry.wrapper] using h5) ⟨i, x, rfl, hp1⟩]]
  generalize hst : withList st ps = st0 at *
  cases ps with
  | nil => cases hq
  | cons p tl =>
    have key : ∃ j y, p = .mk j (.var y) ∧ IsVal st0 μ R.count y c ∧ AreVals st0 μ R.count tl l := by
      cases hq with
      | value h t => exact ⟨_, _, rfl, h, t⟩
      | bare =>
        cases hc with
        | fn h _ => cases h
    obtain ⟨j, y, rfl, hy, htl⟩ := key
    obtain ⟨ps', i1, i2, i3, i4⟩ := meant_args r0.sim hf htl hl
    have ht : TraceOff st0 (μ f) := by
      unfold TraceOff
      rw [r0.sim.global f hf]; exact r0.sim.tracing
    have r1 : Res o st0 μ R.count (atToken st0 (μ f) y.tok) μ R := Res.of_same r0.sim (same_atToken _ _ _) (links_atToken r0.sim.links _ _)
    cases hc with
    | @name n _ hv =>
      obtain ⟨hnn, q, k1, k, z, rfl, k2⟩ := r0.sim.lookup hf hv.2
      obtain ⟨fw, g1, g2, x', st', μ', g3, g4, g5⟩ := hA o _ μ z ps' r1.sim hf (isVal_grow r1.grow k2) (args_grow r1.grow i3)
      exact ⟨x', st', μ', (evals_call r0.sim.links.old ⟨⟨_, _, rfl, hlist, ⟨n, _, ⟨j, y, rfl, isVal_sym_inv hy⟩, r0.sim.noMacro hf hv.1, k1, ⟨k, z, rfl, g1⟩⟩, rfl⟩, i4, ht⟩ g2 i1 (i2 _)).2 g3, g4, (r0.trans r1).trans g5⟩
    | fn hw hm =>
      obtain ⟨fw, g1, g2, x', st', μ', g3, g4, g5⟩ := hA o _ μ y ps' r1.sim hf (isVal_grow r1.grow hy) (args_grow r1.grow i3)
      exact ⟨x', st', μ', (evals_callFn r0.sim.links.old hlist g1 (fun t => r0.sim.noMacro hf (hm t)) ht g2 i1 (i2 _)).2 g3, g4, (r0.trans r1).trans g5⟩

theorem evals_empty {i s : Nat} (hi : st.lists i = []) : Evals (.mk i .list) s st (.ok (some nilV) st) := by
  refine ⟨ends_ok _ _, 1, ?_⟩
  show (run (0 + 1)).eval _ _ _ = _
  simp [run_eval, evalStep, toListRef, M.rd_apply, hi, evalList]

theorem apply_evalNone {f : Nat} {x : Val} (hx : x = .list [] ∨ x = .nil) : ApplyOk f (.prim c!"eval") [x] R .nil R := by
  intro o st μ u args hs hf hu ha
  obtain ⟨e, he, hn, hfn⟩ := isVal_prim_inv hu
  obtain ⟨h5, h6⟩ := core_entry he (c!"eval", .eval, false) (by decide) hn
  obtain ⟨i, y, rfl, hy⟩ := args_one ha
  have hp : IsListOrNil st y [] := by
    rcases hx with rfl | rfl
    · obtain ⟨ps, hp1, hp2, -⟩ := isVal_list_inv hy
      cases hp2; exact hp1
    · cases hy with | nil h => exact .inr ⟨h, rfl⟩
  have hC := (C62_list (w := e.wrapper) (s := μ f) (by simpa [Entry.wrapper] using h5) ⟨i, y, rfl, hp⟩).2 (evals_empty (st := withList st []) (by simp [withList, fset]))
  exact ⟨_, hfn, h6, _, _, μ, hC, .nil rfl (nsp rfl), Res.of_extends hs (extends_list st []) (calls_links hC hs.links (hs.old f hf))⟩

theorem apply_eval {f : Nat} {v w : Val} (hm : Meant R f v w) : ApplyOk f (.prim c!"eval") [v] R w R := by
  by_cases hnil : v = .nil
  · subst hnil
    cases hm
    exact apply_evalNone (.inr rfl)
  intro o st μ u args hs hf hu ha
  obtain ⟨e, he, hn, hfn⟩ := isVal_prim_inv hu
  obtain ⟨h5, h6⟩ := core_entry he (c!"eval", .eval, false) (by decide) hn
  have hw : e.wrapper.kind = .prim .eval := by simpa [Entry.wrapper] using h5
  obtain ⟨i, y, rfl, hy⟩ := args_one ha
  cases hm with
  | name hv =>
    obtain ⟨-, q, h2, k, z, rfl, h3⟩ := hs.lookup hf hv
    obtain ⟨z', st', h4, h5, h6'⟩ := C62_symbol (i := i) hw hs.links.old (isVal_sym_inv hy) h2 ⟨z, .value⟩
    cases h5
    have hR := Res.of_extends hs h6' (calls_links h4 hs.links (hs.old f hf))
    exact ⟨_, hfn, h6, z, st', μ, h4, isVal_grow hR.grow h3, hR⟩
  | unknown hv =>
    have hsy := isVal_sym_inv hy
    have hx : SameNames st { st with next := st.next + 1 } := ⟨fun _ => rfl, fun _ => rfl, fun _ => rfl⟩
    obtain ⟨st', h1, h2⟩ := C27_unknown (st := { st with next := st.next + 1 }) (i := st.next) hs.links.old hsy (hx.lookup (hs.unknown hf hv).2)
    have hC := (C62_value (i := i) hw (by rw [hsy.1]; simp) (by rw [hsy.1]; simp)).2 h1
    have hR := Res.of_extends hs ((extends_next _ _ (Nat.le_succ _)).trans h2) (calls_links hC hs.links (hs.old f hf))
    exact ⟨_, hfn, h6, y, st', μ, hC, isVal_grow hR.grow hy, hR⟩
  | other hn hl =>
    have ht : y.type ≠ .list ∧ y.type ≠ .nil ∧ y.type ≠ .symbol := by
      cases hy with
      | int h => simp [h.1]
      | dbl h => simp [h.1]
      | str h => simp [h.1]
      | sym h => exact absurd rfl (hn _)
      | bool h => simp [h.1]
      | nil h => exact absurd rfl hnil
      | undef h => simp [show _ = _ from h]
      | list h => cases hl
      | prim _ h => simp [h.1]
      | clo h => simp [h.1]
      | dict h => simp [h.1]
    have hC := C62_constant (i := i) (s := μ f) (st := st) hw ht.1 ht.2.1 ht.2.2
    have hR := Res.of_extends hs (extends_next st (st.next + 1) (Nat.le_succ _)) (calls_links hC hs.links (hs.old f hf))
    exact ⟨_, hfn, h6, y, _, μ, hC, isVal_grow hR.grow hy, hR⟩

/-! ## Floating-point numbers -/

theorem exec_float {f : Nat} {t : Str} {d : Dbl} (h : World.dStod t = some d) : ExecOk f (.float t) R (.dbl d) R := by
  intro o st μ p hs hf hc
  obtain ⟨c, h1, h2⟩ := hc
  cases h2 with
  | float h0 hy u =>
    rw [h0] at h
    cases h
    cases h1
    exact ⟨_, st, μ, evals_atom (by simp [hy.1]) (by simp [hy.1]), .dbl hy (nsp u), Res.refl hs⟩

/-! ## Removed variables -/

theorem Sim.unset (h : Sim o st μ R) {st' : St} {g : Nat} (hg : g < R.count) {n : Str} (hn : n ∉ hidden) (ha : Removed st st' (μ g) n) (hl : Links st') :
    Sim o st' μ (R.unset g n) ∧ Grow st μ R.count st' μ (R.unset g n).count := by
  have gr : Grow st μ R.count st' μ (R.unset g n).count := ⟨ha.rest.next, ha.rest.lists, ha.rest.clos, Nat.le_refl _, fun _ _ => rfl, fun _ _ h => h⟩
  refine ⟨?_, gr⟩
  have hsc : ∀ s, s < st.next → s ≠ μ g → st'.scopes s = st.scopes s := fun s hs hne => by
    have := ha.rest.scopes s hs
    simpa [fset, hne] using this
  have hk : ∀ s, s < st.next → key (st'.scopes s) = key (st.scopes s) := fun s hs => by
    by_cases e : s = μ g
    · subst e; exact (congrArg key ha.scope :)
    · rw [hsc s hs e]
  simp only [key, Prod.mk.injEq] at hk
  have hb : ∀ s, s < st.next → ∀ m, s ≠ μ g ∨ m ≠ n → binding st' s m = binding st s m := fun s hs m hm => by
    by_cases e : s = μ g
    · subst e; exact ha.others m (hm.resolve_left fun h => h rfl)
    · simp only [binding, hsc s hs e]
  have hb' : ∀ f, f < R.count → ∀ m, f ≠ g ∨ m ≠ n → binding st' (μ f) m = binding st (μ f) m := fun f hf m hm =>
    hb _ (h.old f hf) m (hm.imp (fun hne e => hne (h.inj f g hf hg e)) id)
  have hnn : ∀ m ∈ hidden, m ≠ n := fun m hm e => hn (e ▸ hm)
  have hfr : ∀ f, ((R.unset g n).frames f).ret = (R.frames f).ret ∧ ((R.unset g n).frames f).parent = (R.frames f).parent ∧
      ∀ m, ((R.unset g n).frames f).vars m = if f = g ∧ m = n then none else (R.frames f).vars m := by
    intro f
    by_cases e : f = g
    · subst e; refine ⟨by simp [Conf.unset, Conf.withFrame], by simp [Conf.unset, Conf.withFrame], fun m => by simp [Conf.unset, Conf.withFrame]⟩
    · refine ⟨by simp [Conf.unset, Conf.withFrame, e], by simp [Conf.unset, Conf.withFrame, e], fun m => by simp [Conf.unset, Conf.withFrame, e]⟩
  refine ⟨hl, h.pos, fun f hf => Nat.lt_of_lt_of_le (h.old f hf) gr.next, h.inj, fun f hf => ?_, fun f hf => ?_, fun f hf => ?_, fun f hf => ?_, fun f hf => ?_,
    fun f hf m hm hv' => ?_, fun f hf m hm x hx => ?_, fun f hf => ?_, ?_, ?_, h.names, fun f hf h0 => by rw [hb' f hf _ (.inr (hnn _ (by decide)))]; exact h.inner f hf h0, ?_, ?_, ?_, ?_, ?_⟩
  · rw [(hk _ (h.old f hf)).1, h.global f hf]
  · rw [(hk _ (h.old f hf)).2.1, h.place f hf]
  · rw [(hk _ (h.old f hf)).2.2.1, h.ret f hf, (hfr f).1]
  · rw [(hk _ (h.old f hf)).2.2.2.1, h.parent f hf, (hfr f).2.1]
  · rw [(hfr f).2.1]; exact h.below f hf
  · rw [(hfr f).2.2] at hv'
    split at hv'
    · rename_i e
      obtain ⟨rfl, rfl⟩ := e
      exact ha.removed
    · rename_i e
      rw [hb' f hf m (by by_cases e' : f = g <;> simp_all)]
      exact h.unbound f hf m hm hv'
  · rw [(hfr f).2.2] at hx
    split at hx
    · cases hx
    · rename_i e
      rw [hb' f hf m (by by_cases e' : f = g <;> simp_all)]
      obtain ⟨p, h1, i, u, rfl, h2⟩ := h.bound f hf m hm x hx
      exact ⟨_, h1, i, u, rfl, isVal_grow gr h2⟩
  · rw [hb' f hf _ (.inr (hnn _ (by decide))), hb' f hf _ (.inr (hnn _ (by decide)))]
    exact h.buffer f hf
  · obtain ⟨i, m, h1, h2, h3, h4⟩ := h.macros
    refine ⟨i, m, by rw [hb' 0 h.pos _ (.inr (hnn _ (by decide))), h1], Nat.lt_of_lt_of_le h2 gr.next, h3, fun x => ?_⟩
    rw [hb m h2 x (.inl (Ne.symm (h3 g hg)))]
    exact macroAt_grow gr (h4 x)
  · obtain ⟨i, m, h1, h2, h3, h4, h5⟩ := h.modules
    refine ⟨i, m, by rw [hb' 0 h.pos _ (.inr (hnn _ (by decide))), h1], Nat.lt_of_lt_of_le h2 gr.next, h3, fun j m' => ?_, ?_⟩
    · rw [hb' 0 h.pos _ (.inr (hnn _ (by decide)))]; exact h4 j m'
    · rw [hsc m h2 (Ne.symm (h3 g hg))]; exact h5
  · rw [(hk _ (h.old 0 h.pos)).2.2.2.2, h.tracing]
  · have := ha.rest.out
    exact this.trans h.out
  · have := ha.rest.input
    exact this.trans h.input
  · exact h.dicts.keep gr rfl ha.rest.dicts
  · exact fun name file xs hx => (h.lib name file xs hx).congr ha.rest.files ha.rest.libPath

theorem apply_delvar {f : Nat} {v : Val} {n : Str} (hv : Named v n) (hn : n ∉ hidden) :
    ApplyOk f (.prim c!"delvar") [v] R (.bool ((R.frames f).vars n).isSome) (R.unset f n) := by
  intro o st μ u args hs hf hu ha
  obtain ⟨e, he, hne, hfn⟩ := isVal_prim_inv hu
  obtain ⟨h5, h6⟩ := core_entry he (c!"delvar", .delvar, false) (by decide) hne
  obtain ⟨i, y, rfl, hy⟩ := args_one ha
  obtain ⟨r, st', h1, h2, b, h3, h4⟩ := C61_delvar (k := 2) (Nat.le_refl _) (st := st) (s := μ f) ⟨i, y, rfl, isName_of hv hy⟩
  have hC : Calls e.wrapper [.mk i (.var y)] (μ f) st (.ok (some r) st') :=
    (calls_prim (by simpa [Entry.wrapper] using h5)).2 (lim_of (ends_ok _ _) 2 h1)
  obtain ⟨g1, g2⟩ := hs.unset hf hn h2 (calls_links hC hs.links (hs.old f hf))
  have hb : b = ((R.frames f).vars n).isSome := by
    cases hx : (R.frames f).vars n with
    | none =>
      have := hs.unbound f hf n hn hx
      cases b with
      | false => rfl
      | true => obtain ⟨q, hq⟩ := h4.1 rfl; rw [this] at hq; cases hq
    | some x =>
      obtain ⟨q, hq, -⟩ := hs.bound f hf n hn x hx
      exact h4.2 ⟨q, hq⟩
  have hr : r.unq ≠ .splicing := by
    simp [callPrim, ret, bDelVar, checkArgs, argV, arg, run_n, M.rd_apply, toVariant_var, varStr_name (isName_of hv hy), modScope, M.modify, mkBool, mkAtom, allocObj, Variant.ofType] at h1
    rw [← h1.1]; simp
  exact ⟨_, hfn, h6, r, st', μ, hC, .bool (hb ▸ h3) hr, g1, g2⟩

end

end Fuel
