import Verif.LemRun
/-!
# Templates and run-time macros: the interpreter executes them as the reference semantics says
-/

set_option linter.unusedSectionVars false
set_option linter.unusedSimpArgs false

namespace Fuel

open Spec Spec.Core

section
variable [World]

variable {o : Origin} {st : St} {μ : Emb} {R : Conf}

theorem links_list (h : Links st) (l : List Ptr) : Links { st with next := st.next + 1, lists := fset st.lists st.next l } := by
  have := links_next h (st.next + 1) (Nat.le_succ _)
  exact ⟨this.clos, this.old, this.fresh, this.callers⟩

/-! ## Templates -/

/-- A template. -/
def FilledOk (f : Nat) (x : Sexp) (R : Conf) (v : Val) (R' : Conf) : Prop :=
  ∀ o st μ p, Sim o st μ R → f < R.count → CodeAt st p x →
    ∃ q st' μ', ((∃ i u, p = .mk i (.var u) ∧ q = p ∧ st' = st ∧ μ' = μ) ∨
      ∃ i, p = .mk i .list ∧ ∃ K, ∀ k, K ≤ k → (run k).procQ (st.lists i) (μ f) st = .ok (q, false) st') ∧
      AreVals st' μ' R'.count [q] [v] ∧ Res o st μ R.count st' μ' R'

/-- The elements of a template. -/
def FilledAllOk (f : Nat) (l : List Sexp) (R : Conf) (vs : List Val) (R' : Conf) : Prop :=
  ∀ o st μ ps, Sim o st μ R → f < R.count → All2 (CodeAt st) ps l →
    ∃ qs st' μ', (∃ K, ∀ k, K ≤ k → procQLoop (run k) (μ f) ps st = .ok qs st') ∧ AreVals st' μ' R'.count qs vs ∧ Res o st μ R.count st' μ' R'

theorem isVal_unquoted {N : Nat} {v : Variant} {x : Val} (u : Unq) (hu : u ≠ .splicing) (h : IsVal st μ N v x) : IsVal st μ N { v with unq := u } x := by
  cases h with
  | int h => exact .int h hu
  | dbl h => exact .dbl h hu
  | str h => exact .str h hu
  | sym h => exact .sym h hu
  | bool h => exact .bool h hu
  | nil h => exact .nil h hu
  | undef h => exact .undef h hu
  | list h _ hi hl => exact .list h hu hi hl
  | prim he h => exact .prim he h hu
  | clo h _ h1 h2 h3 h4 h5 h6 h7 h8 h9 h10 h11 => exact .clo h hu h1 h2 h3 h4 h5 h6 h7 h8 h9 h10 h11
  | dict h _ ha => exact .dict h hu ha

theorem filled_atom {f : Nat} {x : Sexp} {v : Val} (h1 : ∀ l, x ≠ .list l) (h2 : ∀ k y, x ≠ .pre k y) (hq : Quoted x v) : FilledOk f x R v R := by
  intro o st μ p hs hf hc
  obtain ⟨c, hc1, hc2⟩ := hc
  cases hc1 with
  | val => exact ⟨_, st, μ, .inl ⟨_, _, rfl, rfl, rfl, rfl⟩, .value (quoted_val hc2 hq) .nil, Res.refl hs⟩
  | list =>
    cases hc2 with
    | list => exact absurd rfl (h1 _)
    | pre => exact absurd rfl (h2 _ _)
    | empty => cases hq

/-- A list of two elements that is not an unquotation. -/
theorem filled_copy {f : Nat} {x : Sexp} {v : Val} (hq : Quoted x v) (h : ∀ {st : St} {p : Ptr}, CodeAt st p x →
    ∃ i a b, p = .mk i .list ∧ st.lists i = [a, b] ∧ ∀ k, unquoteKind st (k + 3) a = .ok none) : FilledOk f x R v R := by
  intro o st μ p hs hf hc
  obtain ⟨i, a, b, rfl, h1, h2⟩ := h hc
  have hE := extends_list st [a, b]
  refine ⟨.mk st.next .list, _, μ, .inr ⟨i, rfl, 4, fun k hk => ?_⟩, ?_, Res.of_extends hs hE (links_list hs.links _)⟩
  · obtain ⟨k, rfl⟩ : ∃ m, k = m + 4 := ⟨k - 4, by omega⟩
    rw [run_procQ, h1]
    simp only [procQStep, M.bind_apply, M.rd_apply, run_n, h2, allocList, M.pure_apply]
  · obtain ⟨c, hc1, hc2⟩ := hc
    have key : ∃ vs, v = .list vs ∧ AreVals st μ R.count (st.lists i) vs := by
      cases hc1 with
      | list hi hc1 =>
        cases hc2 with
        | list hc2 => cases hq with | list hq => exact ⟨_, rfl, quoted_list hc1 hc2 hq⟩
        | pre hy u hc2 => cases hq with | pre hq => exact ⟨_, rfl, quoted_list hc1 (.cons (.sym hy u) (.cons hc2 .nil)) (.cons .sym (.cons hq .nil))⟩
        | empty => cases hq
    obtain ⟨vs, rfl, hv⟩ := key
    refine .bare (Nat.lt_succ_self _) ?_ .nil
    rw [h1] at hv
    simpa using areVals_extends hE hv

theorem filled_two {f : Nat} {x y : Sexp} {h : Str} {v : Val} (hF : Form x h [y]) (hn : h ≠ c!"_unquote") (hn' : h ≠ c!"_unquotesplicing") (hq : Quoted x v) :
    FilledOk f x R v R := by
  refine filled_copy hq fun hc => ?_
  obtain ⟨i, j, u, tl, rfl, h1, h2, h3⟩ := form_code hF hc
  obtain ⟨q, rfl, -⟩ := codes_one h3
  refine ⟨i, _, _, rfl, h1, fun k => ?_⟩
  simp only [unquoteKind, h2.1, if_true, varStr_sym h2, bind_ok_R]
  rw [if_neg (show h ≠ unquoteName from hn), if_neg (show h ≠ unquoteSplicingName from hn')]

theorem filled_pair {f : Nat} {a b : Sexp} {v : Val} (ha : ∀ n, a ≠ .sym n) (hq : Quoted (.list [a, b]) v) : FilledOk f (.list [a, b]) R v R := by
  refine filled_copy hq fun {st p} hc => ?_
  obtain ⟨c, hc1, hc2⟩ := hc
  cases hc2 with
  | list hc2 =>
    cases hc1 with
    | @list i _ hi hc1 =>
      have h := codeAt_all hc1 hc2
      generalize hl : st.lists i = l at h
      obtain ⟨p, q, rfl, hp, -⟩ := codes_two h
      refine ⟨i, p, q, rfl, hl, fun k => ?_⟩
      obtain ⟨d, hd1, hd2⟩ := hp
      cases hd1 with
      | list => rfl
      | val =>
        cases hd2 with
        | sym => exact absurd rfl (ha _)
        | int hy => simp [unquoteKind, hy.1]
        | str hy => simp [unquoteKind, hy.1]
        | bool hy => simp [unquoteKind, hy.1]
        | float _ hy => simp [unquoteKind, hy.1]
        | nil hy => simp [unquoteKind, show _ = _ from hy]

/-- Evaluation of an unquoted expression. -/
theorem unquote_run {f : Nat} {x y : Sexp} {w : Val} {R1 : Conf} (sp : Bool) (hF : Form x (if sp then c!"_unquotesplicing" else c!"_unquote") [y])
    (he : ExecOk f y R w R1) (hs : Sim o st μ R) (hf : f < R.count) {p : Ptr} (hc : CodeAt st p x) :
    ∃ i u st1 μ1, p = .mk i .list ∧ IsVal st1 μ1 R1.count u w ∧ Res o st μ R.count { st1 with next := st1.next + 1 } μ1 R1 ∧ Extends st1 { st1 with next := st1.next + 1 } ∧
      ∃ K, ∀ k, K ≤ k → (run k).procQ (st.lists i) (μ f) st =
        .ok (.mk st1.next (.var { u with unq := if sp then .splicing else .unquote }), sp) { st1 with next := st1.next + 1 } := by
  obtain ⟨i, j, v, tl, rfl, h1, h2, h3⟩ := form_code hF hc
  obtain ⟨q, rfl, h4⟩ := codes_one h3
  obtain ⟨u, st1, μ1, h5, h6, h7⟩ := he o st μ q hs hf h4
  obtain ⟨K, hK⟩ := h5.stable
  have hX := extends_next st1 (st1.next + 1) (Nat.le_succ _)
  refine ⟨i, u, st1, μ1, rfl, h6, h7.trans (Res.of_extends h7.sim hX (links_next h7.sim.links _ (Nat.le_succ _))), hX, K + 4, fun k hk => ?_⟩
  obtain ⟨k, rfl⟩ : ∃ m, k = m + 4 := ⟨k - 4, by omega⟩
  have hu : unquoteKind st (k + 3) (.mk j (.var v)) = .ok (some sp) := by
    simp only [unquoteKind, h2.1, if_true, varStr_sym h2, bind_ok_R, unquoteName, unquoteSplicingName]
    cases sp <;> simp
  rw [run_procQ, h1]
  simp only [procQStep, M.bind_apply, M.rd_apply, run_n, hu, hK (k + 3) (by omega), derefV, M.pure_apply, box, allocObj]

theorem filled_unquote {f : Nat} {x y : Sexp} {v : Val} {R' : Conf} (hF : Form x c!"_unquote" [y]) (he : ExecOk f y R v R') : FilledOk f x R v R' := by
  intro o st μ p hs hf hc
  obtain ⟨i, u, st1, μ1, rfl, h1, h2, hX, K, h3⟩ := unquote_run false hF he hs hf hc
  exact ⟨_, _, μ1, .inr ⟨i, rfl, K, h3⟩, .value (isVal_extends hX (isVal_unquoted _ (by simp) h1)) .nil, h2⟩

theorem filled_list {f : Nat} {l : List Sexp} {vs : List Val} {R' : Conf} (hl : l.length ≠ 2) (ha : FilledAllOk f l R vs R') : FilledOk f (.list l) R (.list vs) R' := by
  intro o st μ p hs hf hc
  obtain ⟨c, hc1, hc2⟩ := hc
  cases hc2 with
  | list hc2 =>
    cases hc1 with
    | @list i _ hi hc1 =>
      have hcs := codeAt_all hc1 hc2
      obtain ⟨qs, st1, μ1, ⟨K, hK⟩, h1, h2⟩ := ha o st μ _ hs hf hcs
      have hE := extends_list st1 qs
      refine ⟨.mk st1.next .list, _, μ1, .inr ⟨i, rfl, K + 1, fun k hk => ?_⟩, .bare (Nat.lt_succ_self _) (by simpa using areVals_extends hE h1) .nil,
        h2.trans (Res.of_extends h2.sim hE (links_list h2.sim.links _))⟩
      obtain ⟨k, rfl⟩ : ∃ m, k = m + 1 := ⟨k - 1, by omega⟩
      rw [run_procQ]
      have hlen := all2_length hcs
      generalize st.lists i = ps at *
      have : procQStep (run k) ps (μ f) = (do
          let l' ← procQLoop (run k) (μ f) ps
          let p ← allocList l'
          pure (p, false)) := by
        match ps with
        | [] => rfl
        | [_] => rfl
        | [_, _] => exact absurd hlen.symm hl
        | _ :: _ :: _ :: _ => rfl
      rw [this]
      simp only [M.bind_apply, hK k (by omega), allocList, M.pure_apply]

theorem filledAll_nil {f : Nat} : FilledAllOk f [] R [] R := by
  intro o st μ ps hs hf hp
  cases hp
  exact ⟨[], st, μ, ⟨0, fun _ _ => rfl⟩, .nil, Res.refl hs⟩

theorem filledAll_one {f : Nat} {x : Sexp} {l : List Sexp} {v : Val} {vs : List Val} {R1 R' : Conf} (hx : FilledOk f x R v R1) (hl : FilledAllOk f l R1 vs R') :
    FilledAllOk f (x :: l) R (v :: vs) R' := by
  intro o st μ ps hs hf hp
  cases hp with
  | cons hp hps =>
    obtain ⟨q, st1, μ1, h1, h2, h3⟩ := hx o st μ _ hs hf hp
    have hm : μ1 f = μ f := h3.grow.same f hf
    obtain ⟨qs, st2, μ2, ⟨K, hK⟩, h4, h5⟩ := hl o st1 μ1 _ h3.sim (h3.lt hf) (codesAt_grow h3.grow hps)
    rw [hm] at hK
    have hv : AreVals st2 μ2 R'.count (q :: qs) (v :: vs) := areVals_cons (areVals_grow h5.grow h2) h4
    rcases h1 with ⟨i, u, rfl, rfl, rfl, rfl⟩ | ⟨i, rfl, L, hL⟩
    · refine ⟨_, st2, μ2, ⟨K, fun k hk => ?_⟩, hv, h3.trans h5⟩
      simp only [procQLoop, M.bind_apply, M.pure_apply, hK k hk, List.cons_append, List.nil_append]
    · refine ⟨_, st2, μ2, ⟨max K L, fun k hk => ?_⟩, hv, h3.trans h5⟩
      simp only [procQLoop, M.bind_apply, M.pure_apply, M.get_apply, hL k (by omega), Bool.false_eq_true, if_false, hK k (by omega), List.cons_append, List.nil_append]

theorem filledAll_splice {f : Nat} {x y : Sexp} {l : List Sexp} {w : Val} {ws vs : List Val} {R1 R' : Conf} (hF : Form x c!"_unquotesplicing" [y])
    (he : ExecOk f y R w R1) (hw : AsList w ws) (hl : FilledAllOk f l R1 vs R') : FilledAllOk f (x :: l) R (ws ++ vs) R' := by
  intro o st μ ps hs hf hp
  cases hp with
  | cons hp hps =>
    obtain ⟨i, u, st1, μ1, rfl, h1, h2, hX, L, hL⟩ := unquote_run true hF he hs hf hp
    have hm : μ1 f = μ f := h2.grow.same f hf
    obtain ⟨as, ha, hav⟩ := isVal_asList (isVal_extends hX h1) hw
    have hlv : ∀ n, ({ u with unq := .splicing } : Variant).listValue { st1 with next := st1.next + 1 } n = .ok as := fun n => listValue_list (by
      rcases ha with ⟨a, h, h'⟩ | ⟨h, h'⟩
      · exact .inl ⟨a, h, h'⟩
      · exact .inr ⟨h, h'⟩)
    obtain ⟨qs, st2, μ2, ⟨K, hK⟩, h4, h5⟩ := hl o _ μ1 _ h2.sim (h2.lt hf) (codesAt_grow h2.grow hps)
    rw [hm] at hK
    refine ⟨as ++ qs, st2, μ2, ⟨max K L, fun k hk => ?_⟩, areVals_append (areVals_grow h5.grow hav) h4, h2.trans h5⟩
    simp only [procQLoop, M.bind_apply, M.pure_apply, M.get_apply, hL k (by omega), if_true, toVariant, M.lift_ok, M.rd_apply, hlv, hK k (by omega)]

theorem exec_quasi {f : Nat} {e x : Sexp} {h : Str} {v : Val} {R' : Conf} (hF : Form e h [x]) (hV : Head R f h (.prim c!"quasiquote")) (hx : FilledOk f x R v R') :
    ExecOk f e R v R' := by
  intro o st μ p hs hf hc
  obtain ⟨tl, st0, h1, h2, h3⟩ := isSpecial_of hs hf hF hc hV .quasiquote (by decide)
  obtain ⟨q, rfl, h2'⟩ := codes_one h2
  obtain ⟨r, st1, μ1, h4, h5, h6⟩ := hx o st0 μ q h3.sim hf h2'
  obtain ⟨w, hw1, hw2⟩ := areVals_mkVariant h5
  refine ⟨w, st1, μ1, (evals_special hs.links.old h1).2 ?_, hw2, h3.trans h6⟩
  rcases h4 with ⟨i, u, rfl, rfl, rfl, rfl⟩ | ⟨i, rfl, K, hK⟩
  · cases hw1
    exact lim_of (ends_ok _ _) 0 (by simp [callPrim, ret, bQuasiquote, checkArgs, arg])
  · exact lim_of (ends_ok _ _) K (by simp [callPrim, ret, bQuasiquote, checkArgs, arg, hK K (Nat.le_refl _), hw1])

/-! ## Definitions of macros -/

theorem Sim.defMacro (h : Sim o st μ R) {i m : Nat} (hm : binding st (μ 0) c!"###macros###" = some (.mk i (.scope m))) {n : Str} (hn : n ∉ hidden) {ps : List Str} {body : List Sexp}
    {fs ex : List Ptr} (h1 : All2 (CodeAt st) fs (ps.map .sym)) (h2 : All2 (CodeAt st) ex body) {st' : St}
    (hst : st' = { st with
      next := st.next + 3
      lists := fset (fset st.lists st.next fs) (st.next + 1) ex
      scopes := fset st.scopes m { st.scopes m with vars := mapSet n (.mk (st.next + 2) (.macroRt st.next (st.next + 1))) (st.scopes m).vars } }) :
    Res o st μ R.count st' μ (R.defMacro n ps body) := by
  obtain ⟨i', m', hm', hlt, hne, hall⟩ := h.macros
  rw [hm] at hm'
  cases hm'
  have hnx : st'.next = st.next + 3 := by rw [hst]
  have hli : st'.lists = fset (fset st.lists st.next fs) (st.next + 1) ex := by rw [hst]
  have gr : Grow st μ R.count st' μ (R.defMacro n ps body).count := ⟨by omega, fun i hi => by simp [hli, fset, show i ≠ st.next by omega, show i ≠ st.next + 1 by omega], fun i _ => by rw [hst],
    Nat.le_refl _, fun _ _ => rfl, fun _ _ h => h⟩
  have hk : ∀ s, key (st'.scopes s) = key (st.scopes s) ∧ (st'.scopes s).prev = (st.scopes s).prev := fun s => by
    rw [hst]
    by_cases e : s = m <;> simp [fset, e, key]
  simp only [key, Prod.mk.injEq] at hk
  have hb : ∀ s, s ≠ m → ∀ x, binding st' s x = binding st s x := fun s hs x => by rw [hst]; simp [binding, fset, hs]
  have hbm : ∀ x, binding st' m x = if x = n then some (.mk (st.next + 2) (.macroRt st.next (st.next + 1))) else binding st m x := fun x => by
    rw [← find_eq, ← find_eq, hst]
    simp only [fset_at, mapFind_eq_lookup, lookup_mapSet]
  refine ⟨⟨?_, h.pos, fun f hf => by have := h.old f hf; omega, h.inj, fun f hf => ?_, fun f hf => ?_, fun f hf => ?_, fun f hf => ?_, h.below,
    fun f hf x hx hv => ?_, fun f hf x hx v hv => ?_, fun f hf => ?_, ?_, ?_, fun x hx => ?_, fun f hf h0 => ?_, ?_, ?_, ?_, ?_, ?_⟩, gr⟩
  · have := links_next (links_modScope (s := st) (j := m) (sc := { st.scopes m with vars := mapSet n (.mk (st.next + 2) (.macroRt st.next (st.next + 1))) (st.scopes m).vars }) rfl
      (fun p hp => .inl hp) h.links) (st.next + 3) (Nat.le_add_right _ _)
    rw [hst]
    exact ⟨this.clos, this.old, this.fresh, this.callers⟩
  · rw [(hk _).1.1, h.global f hf]
  · rw [(hk _).1.2.1, h.place f hf]
  · rw [(hk _).1.2.2.1, h.ret f hf]; rfl
  · rw [(hk _).1.2.2.2.1, h.parent f hf]; rfl
  · rw [hb _ (hne f hf)]; exact h.unbound f hf x hx hv
  · rw [hb _ (hne f hf)]
    obtain ⟨p, h1, i, u, rfl, h2⟩ := h.bound f hf x hx v hv
    exact ⟨_, h1, i, u, rfl, isVal_grow gr h2⟩
  · rw [hb _ (hne f hf), hb _ (hne f hf)]; exact h.buffer f hf
  · refine ⟨i, m, by rw [hb _ (hne 0 h.pos), hm], by omega, hne, fun x => ?_⟩
    rw [hbm]
    by_cases e : x = n
    · subst e
      simp only [if_true, Conf.defMacro]
      refine .macro_ (by omega) (by omega) ?_ ?_
      · have : st'.lists st.next = fs := by simp [hli, fset, show st.next ≠ st.next + 1 by omega]
        rw [this]; exact codesAt_grow gr h1
      · have : st'.lists (st.next + 1) = ex := by simp [hli, fset]
        rw [this]; exact codesAt_grow gr h2
    · simp only [if_neg e, Conf.defMacro]
      exact macroAt_grow gr (hall x)
  · obtain ⟨j, q, g1, g2, g3, g4, g5⟩ := h.modules
    refine ⟨j, q, by rw [hb _ (hne 0 h.pos), g1], by omega, g3, fun j' m' => ?_, ?_⟩
    · rw [hb _ (hne 0 h.pos)]; exact g4 j' m'
    · rw [hst]; simp only [fset, if_neg (g4 _ _ hm).symm]; exact g5
  · have : x ≠ n := fun e => hn (e ▸ hx)
    simp only [Conf.defMacro, if_neg this]
    exact h.names x hx
  · rw [hb _ (hne f hf)]; exact h.inner f hf h0
  · rw [(hk _).1.2.2.2.2, h.tracing]
  · rw [hst]; exact h.out
  · rw [hst]; exact h.input
  · exact h.dicts.keep gr rfl fun _ _ => by rw [hst]
  · exact fun name file xs hx => (h.lib name file xs hx).congr (by rw [hst]) (by rw [hst])

theorem codeAt_list {p : Ptr} {l : List Sexp} (h : CodeAt st p (.list l)) : ∃ i, p = .mk i .list ∧ i < st.next ∧ All2 (CodeAt st) (st.lists i) l := by
  obtain ⟨c, h1, h2⟩ := h
  cases h2 with
  | list h2 => cases h1 with | list hi h1 => exact ⟨_, rfl, hi, codeAt_all h1 h2⟩

theorem seq_macro {f : Nat} {r : Option Val} {e : Sexp} {h d n : Str} {ps : List Str} {body es : List Sexp} {v : Val} {R' : Conf}
    (hF : Form e h [.sym n, .list (ps.map .sym), .list body]) (hV : Head R f h (.prim d)) (hd : d ∈ [c!"define-macro", c!"define-macro-eval"]) (hn : n ∉ hidden)
    (hr : (R.frames f).ret = false) (ht : SeqOk f none es (R.defMacro n ps body) v R') : SeqOk f r (e :: es) R v R' := by
  intro o st μ qs rv hs hf hp _
  cases hp with
  | cons hp hps =>
    obtain ⟨i, _, _, _, rfl, -⟩ := form_code hF hp
    obtain ⟨tl, st0, h1, h2, h3⟩ := isSpecial_of hs hf hF hp hV .defineMacroEval
      (by simp only [List.mem_cons, List.not_mem_nil, or_false] at hd; rcases hd with rfl | rfl <;> decide)
    obtain ⟨p0, p1, p2, rfl, g0, g1, g2⟩ := codes_three h2
    obtain ⟨j, u, rfl, hu, -⟩ := codeAt_sym g0
    obtain ⟨a, rfl, -, ha⟩ := codeAt_list g1
    obtain ⟨b, rfl, -, hb⟩ := codeAt_list g2
    obtain ⟨k, m, hm, -⟩ := h3.sim.macros
    have hR := h3.sim.defMacro hm hn ha hb rfl
    have hg : (st0.scopes (μ f)).global = μ 0 := h3.sim.global f hf
    have hE : Evals (.mk i .list) (μ f) st (.ok none _) := (evals_special hs.links.old h1).2 (lim_of (o := .ok none _) (ends_ok _ _) 3 (by
      show bDefineMacroEval (run 3) _ _ _ = _
      simp only [bDefineMacroEval, checkArgs, List.length_cons, List.length_nil, if_true, M.bind_apply, M.pure_apply, M.get_apply, hg, find_eq, macrosKey, hm, arg,
        List.getElem?_cons_succ, List.getElem?_cons_zero, M.rd_apply, toEnumerable, argStr, run_n, ptrStr_sym (n := 0) hu, allocVec, allocObj, setVar, modScope, M.modify_apply]
      rfl))
    have h03 := h3.trans hR
    obtain ⟨w, st2, μ2, h7, h8, h9⟩ := ht o _ μ _ none hR.sim hf (codesAt_grow h03.grow hps) (by rintro _ ⟨⟩)
    exact ⟨w, st2, μ2, .next hE (by rw [hR.sim.ret f hf]; exact hr) h7, h8, h03.trans h9⟩

/-! ## Substitution -/

/-- One element of `substLoop`. -/
def substHead (r : Rec) (sym : Variant) (value : Ptr) (splice : Bool) (e : Ptr) : M (List Ptr) := do
  if (← M.rd fun st => sym.symbolCompare st e) then
    match value with
    | .null => ub .nullDeref
    | .mk id .list => if splice then M.get fun s => s.lists id else pure [value]
    | _ => pure [value]
  else if e.isRawList then do
    let l ← M.rd fun st => toListRef st e
    let l' ← r.subst sym value splice l
    let p ← allocList l'
    pure [p]
  else pure [e]

theorem substLoop_cons (r : Rec) (sym : Variant) (value : Ptr) (splice : Bool) (e : Ptr) (t : List Ptr) :
    substLoop r sym value splice (e :: t) = (do
      let hd ← substHead r sym value splice e
      let tl ← substLoop r sym value splice t
      pure (hd ++ tl)) := by
  funext st
  simp only [substLoop, substHead, M.bind_apply, M.rd_apply]
  cases sym.symbolCompare st e with
  | error _ => rfl
  | ok b =>
    cases b with
    | true =>
      cases value with
      | null => rfl
      | mk id o => cases o <;> first | rfl | (cases splice <;> rfl)
    | false =>
      simp only [Bool.false_eq_true, if_false]
      cases e.isRawList with
      | true =>
        simp only [if_true, M.bind_apply, M.rd_apply]
        cases toListRef st e with
        | error _ => rfl
        | ok l =>
          simp only
          cases r.subst sym value splice l st <;> rfl
      | false => rfl

theorem codeAt_new {st' : St} (h : OnlyNewLists st st') {p : Ptr} {e : Sexp} (hc : CodeAt st p e) : CodeAt st' p e := by
  obtain ⟨c, h1, h2⟩ := hc
  exact ⟨c, h1.new h, h2⟩

theorem codesAt_new {st' : St} (h : OnlyNewLists st st') {ps : List Ptr} {es : List Sexp} (hc : All2 (CodeAt st) ps es) : All2 (CodeAt st') ps es := by
  induction hc with
  | nil => exact .nil
  | cons hc _ ih => exact .cons (codeAt_new h hc) ih

theorem codeAt_of_all {i : Nat} (hi : i < st.next) : ∀ {l : List Sexp}, All2 (CodeAt st) (st.lists i) l → CodeAt st (.mk i .list) (.list l) := by
  have key : ∀ {ps : List Ptr} {l : List Sexp}, All2 (CodeAt st) ps l → ∃ cs, AreTrees st ps cs ∧ CodesOf cs l := by
    intro ps l h
    induction h with
    | nil => exact ⟨[], .nil, .nil⟩
    | cons h _ ih =>
      obtain ⟨c, h1, h2⟩ := h
      obtain ⟨cs, h3, h4⟩ := ih
      exact ⟨c :: cs, .cons h1 h3, .cons h2 h4⟩
  intro l h
  obtain ⟨cs, h1, h2⟩ := key h
  exact ⟨.list cs, .list hi h1, .list h2⟩

/-- The value of an atom is not the name. -/
theorem symbolCompare_atom {v w : Variant} {n : Str} (hv : IsSym v n) {x : Sexp} (hw : CodeOf (.val w) x) (hx : Clean n x) (i : Nat) :
    ∃ b, v.symbolCompare st (.mk i (.var w)) = .ok b ∧ (b = true ↔ x = .sym n) := by
  obtain ⟨-, a, hv⟩ := hv
  cases hw with
  | int h => obtain ⟨-, b, h⟩ := h; simp [Variant.symbolCompare, hv, h, ptrEquals, ptrEq]
  | bool h => obtain ⟨-, b, h⟩ := h; simp [Variant.symbolCompare, hv, h, ptrEquals, ptrEq]
  | float _ h => obtain ⟨-, b, h⟩ := h; simp [Variant.symbolCompare, hv, h, ptrEquals, ptrEq]
  | str h =>
    obtain ⟨-, b, h⟩ := h
    simp only [Clean] at hx
    simp [Variant.symbolCompare, hv, h, ptrEquals, ptrEq, Ne.symm hx]
  | @sym _ s h =>
    obtain ⟨-, b, h⟩ := h
    refine ⟨n == s, by simp only [Variant.symbolCompare, hv, h, ptrEquals, ptrEq], ?_⟩
    simp only [beq_iff_eq, Sexp.sym.injEq]
    exact eq_comm
  | nil h => cases hx

/-- What is put in the place of the name. -/
def SubstArg (st : St) (q : Ptr) (a : Sexp) (splice : Bool) (uses : Prop) : Prop := (splice = false ∧ CodeAt st q a) ∨ ¬ uses

theorem SubstArg.imp {q : Ptr} {a : Sexp} {splice : Bool} {u u' : Prop} (h : SubstArg st q a splice u) (hu : u' → u) : SubstArg st q a splice u' :=
  Or.imp id (fun h h' => h (hu h')) h

theorem SubstArg.new {st' : St} (hn : OnlyNewLists st st') {q : Ptr} {a : Sexp} {splice : Bool} {u : Prop} (h : SubstArg st q a splice u) :
    SubstArg st' q a splice u := Or.imp (fun h => ⟨h.1, codeAt_new hn h.2⟩) id h

mutual
theorem subst_one {v : Variant} {n : Str} (hv : IsSym v n) {q : Ptr} {a : Sexp} {splice : Bool} : ∀ {c : Code} {x : Sexp}, CodeOf c x → ∀ {st : St} {p : Ptr}, IsTree st p c → Clean n x →
    SubstArg st q a splice (Uses n x) →
    ∃ q' st' K, (∀ k, K ≤ k → substHead (run k) v q splice p st = .ok [q'] st') ∧ OnlyNewLists st st' ∧ CodeAt st' q' (subst n a x)
  | .val w, x, hc, st, .mk i _, .val, hx, hq => by
    obtain ⟨b, hcmp, hb⟩ := symbolCompare_atom (st := st) hv hc hx i
    by_cases e : x = .sym n
    · subst e
      rcases hq with ⟨rfl, hq⟩ | hq
      · cases hb.2 rfl
        refine ⟨q, st, 0, fun k _ => ?_, .refl _, by simpa [subst] using hq⟩
        obtain ⟨j, rfl | ⟨u, rfl⟩⟩ := codeAt_isCode hq
        · simp [substHead, M.bind_apply, M.rd_apply, hcmp]
        · simp [substHead, M.bind_apply, M.rd_apply, hcmp]
      · exact absurd rfl hq
    · cases b with
      | true => exact absurd (hb.1 rfl) e
      | false =>
      refine ⟨.mk i (.var w), st, 0, fun k _ => ?_, .refl _, ?_⟩
      · simp [substHead, M.bind_apply, M.rd_apply, hcmp, e, Ptr.isRawList]
      · have : subst n a x = x := by
          cases hc with
          | sym =>
            rw [subst, if_neg]
            intro e'; exact e (by rw [e'])
          | _ => simp [subst]
        rw [this]
        exact ⟨_, .val, hc⟩
  | .list _, .nil, .empty, _, _, _, hx, _ => by cases hx
  | .list [.val w, c], .pre k x, .pre hw hu hc, st, .mk i _, .list hi ht, hx, hq => by
    simp only [Clean] at hx
    generalize hl : st.lists i = l at ht
    cases ht with
    | cons hp ht =>
      cases hp
      cases ht with
      | cons hp ht =>
        cases ht
        rename_i j p
        obtain ⟨q', st', K, h1, h2, h3⟩ := subst_one hv hc hp hx.2 (hq.imp fun h => by simp only [Uses]; exact .inr h)
        obtain ⟨b, hcmp, hb⟩ := symbolCompare_atom (st := st) hv (.sym hw hu) (by simp [Clean]) j
        have hne : b = false := by
          cases b with
          | false => rfl
          | true => exact absurd (hb.1 rfl) fun e => hx.1 (by cases e; rfl)
        subst hne
        have hN := onlyNewLists_list st' [.mk j (.var w), q']
        refine ⟨.mk st'.next .list, _, K + 1, fun m hm => ?_, h2.trans hN, ?_⟩
        · obtain ⟨m, rfl⟩ : ∃ m', m = m' + 1 := ⟨m - 1, by omega⟩
          have e1 : substHead (run m) v q splice (.mk j (.var w)) st = .ok [.mk j (.var w)] st := by
            simp [substHead, M.bind_apply, M.rd_apply, hcmp, Ptr.isRawList]
          have e2 : substLoop (run m) v q splice [.mk j (.var w), p] st = .ok [.mk j (.var w), q'] st' := by
            rw [substLoop_cons, substLoop_cons]
            simp only [M.bind_apply, e1, h1 m (by omega), substLoop, M.pure_apply, List.cons_append, List.nil_append]
          simp only [substHead, M.bind_apply, M.rd_apply, Variant.symbolCompare, Bool.false_eq_true, if_false, Ptr.isRawList, if_true, toListRef, hl, run_subst, e2, allocList, M.pure_apply]
        · obtain ⟨d, hd1, hd2⟩ := codeAt_new hN h3
          rw [subst]
          exact ⟨.list [.val w, d], .list (Nat.lt_succ_self _) (by simp only [fset_at]; exact .cons .val (.cons hd1 .nil)), .pre hw hu hd2⟩
  | .list cs, .list xs, .list hc, st, .mk i _, .list hi ht, hx, hq => by
    obtain ⟨qs, st', K, h1, h2, h3⟩ := subst_all hv hc ht (by simpa [Clean] using hx) (hq.imp fun h => by simpa [Uses] using h)
    have hN := onlyNewLists_list st' qs
    refine ⟨.mk st'.next .list, _, K + 1, fun m hm => ?_, h2.trans hN, ?_⟩
    · obtain ⟨m, rfl⟩ : ∃ m', m = m' + 1 := ⟨m - 1, by omega⟩
      simp only [substHead, M.bind_apply, M.rd_apply, Variant.symbolCompare, Bool.false_eq_true, if_false, Ptr.isRawList, if_true, toListRef, run_subst, h1 m (by omega), allocList, M.pure_apply]
    · rw [subst]
      exact codeAt_of_all (Nat.lt_succ_self _) (by simp only [fset_at]; exact codesAt_new hN h3)
theorem subst_all {v : Variant} {n : Str} (hv : IsSym v n) {q : Ptr} {a : Sexp} {splice : Bool} : ∀ {cs : List Code} {xs : List Sexp}, CodesOf cs xs → ∀ {st : St} {ps : List Ptr},
    AreTrees st ps cs → Cleans n xs → SubstArg st q a splice (UsesAny n xs) →
    ∃ qs st' K, (∀ k, K ≤ k → substLoop (run k) v q splice ps st = .ok qs st') ∧ OnlyNewLists st st' ∧ All2 (CodeAt st') qs (substs n a xs)
  | [], [], .nil, st, [], .nil, _, _ => ⟨[], st, 0, fun _ _ => rfl, .refl _, by rw [substs]; exact .nil⟩
  | _ :: _, _ :: _, .cons hc hcs, st, _ :: _, .cons hp hps, hx, hq => by
    simp only [Cleans] at hx
    obtain ⟨q1, st1, K1, h1, h2, h3⟩ := subst_one hv hc hp hx.1 (hq.imp fun h => by simp only [UsesAny]; exact .inl h)
    obtain ⟨qs, st2, K2, h4, h5, h6⟩ := subst_all hv hcs (hps.new h2) hx.2 ((hq.new h2).imp fun h => by simp only [UsesAny]; exact .inr h)
    refine ⟨q1 :: qs, st2, max K1 K2, fun k hk => ?_, h2.trans h5, by rw [substs]; exact .cons (codeAt_new h5 h3) h6⟩
    rw [substLoop_cons]
    simp only [M.bind_apply, h1 k (by omega), h4 k (by omega), M.pure_apply, List.cons_append, List.nil_append]
end

/-! ## Calls of macros -/

mutual
theorem clean_subst {m n : Str} {a : Sexp} (ha : Clean m a) : ∀ {x : Sexp}, Clean m x → Clean m (subst n a x)
  | .int _, _ => by simp [subst, Clean]
  | .str _, h => by simpa [subst, Clean] using h
  | .bool _, _ => by simp [subst, Clean]
  | .float _, _ => by simp [subst, Clean]
  | .nil, h => by cases h
  | .sym s, _ => by
    rw [subst]
    split
    · exact ha
    · simp [Clean]
  | .pre k x, h => by
    simp only [Clean] at h
    simp only [subst, Clean]
    exact ⟨h.1, clean_subst ha h.2⟩
  | .list l, h => by
    simp only [Clean] at h
    simp only [subst, Clean]
    exact cleans_substs ha h
theorem cleans_substs {m n : Str} {a : Sexp} (ha : Clean m a) : ∀ {l : List Sexp}, Cleans m l → Cleans m (substs n a l)
  | [], _ => by simp [substs, Cleans]
  | _ :: _, h => by
    simp only [Cleans] at h
    simp only [substs, Cleans]
    exact ⟨clean_subst ha h.1, cleans_substs ha h.2⟩
end

mutual
theorem subst_unused {n : Str} {a : Sexp} : ∀ {x : Sexp}, ¬ Uses n x → subst n a x = x
  | .int _, _ => by simp [subst]
  | .str _, _ => by simp [subst]
  | .bool _, _ => by simp [subst]
  | .float _, _ => by simp [subst]
  | .nil, _ => by simp [subst]
  | .sym s, h => by
    simp only [Uses] at h
    rw [subst, if_neg h]
  | .pre k x, h => by
    simp only [Uses, not_or] at h
    rw [subst, subst_unused h.2]
  | .list l, h => by
    simp only [Uses] at h
    rw [subst, substs_unused h]
theorem substs_unused {n : Str} {a : Sexp} : ∀ {l : List Sexp}, ¬ UsesAny n l → substs n a l = l
  | [], _ => by simp [substs]
  | _ :: _, h => by
    simp only [UsesAny, not_or] at h
    rw [substs, subst_unused h.1, substs_unused h.2]
end

mutual
theorem codeOf_heads {n : Str} : ∀ {c : Code} {x : Sexp}, CodeOf c x → Clean n x → Text c x.text ∧ ∀ P, x.Heads P → Heads P c
  | _, _, .int h _, _ => ⟨.int h, fun _ _ => .val (by rw [h.1]; decide)⟩
  | _, _, .str h _, _ => ⟨.str h, fun _ _ => .val (by rw [h.1]; decide)⟩
  | _, _, .sym h _, _ => ⟨.sym h, fun _ _ => .val (by rw [h.1]; decide)⟩
  | _, _, .bool h _, _ => ⟨.bool h, fun _ _ => .val (by rw [h.1]; decide)⟩
  | _, _, .float h0 h _, _ => ⟨by simp only [Sexp.text, h0]; exact .dbl h, fun _ _ => .val (by rw [h.1]; decide)⟩
  | _, _, .nil _ _, h => by cases h
  | _, _, .empty, h => by cases h
  | _, _, .pre hv _ hc, h => by
    simp only [Clean] at h
    obtain ⟨h1, h2⟩ := codeOf_heads hc h.2
    exact ⟨.list (.cons (.sym hv) (.cons h1 .nil)), fun P hP => .list (.sym hv) hP.1 (.cons (.val (by rw [hv.1]; decide)) (.cons (h2 P hP.2) .nil))⟩
  | _, _, .list hc, h => by
    simp only [Clean] at h
    obtain ⟨h1, h2⟩ := codesOf_heads hc h
    refine ⟨.list h1, fun P hP => ?_⟩
    cases hc with
    | nil => exact .nil
    | cons hx ht =>
      simp only [Cleans] at h
      cases h1 with
      | cons h1 _ => exact .list h1 hP.1 (h2 P hP.2)
theorem codesOf_heads {n : Str} : ∀ {cs : List Code} {l : List Sexp}, CodesOf cs l → Cleans n l → Texts cs (Sexp.texts l) ∧ ∀ P, Sexp.HeadsAll P l → HeadsAll P cs
  | _, _, .nil, _ => ⟨.nil, fun _ _ => .nil⟩
  | _, _, .cons hc hcs, h => by
    simp only [Cleans] at h
    obtain ⟨h1, h2⟩ := codeOf_heads hc h.1
    obtain ⟨h3, h4⟩ := codesOf_heads hcs h.2
    exact ⟨.cons h1 h3, fun P hP => .cons (h2 P hP.1) (h4 P hP.2)⟩
end

/-- The expansion of an argument of a macro. -/
theorem expand3_code {s i : Nat} {a : Sexp} {n : Str} (hc : CodeAt st (.mk i .list) a) (hn : Clean n a) (ha : a.Heads (Inert st s)) :
    ∃ q st' K, (∀ k, K ≤ k → ∃ b, (run k).expand3 (.mk i .list) s st = .ok (q, b) st') ∧ OnlyNewLists st st' ∧ CodeAt st' q a := by
  obtain ⟨c, h1, h2⟩ := hc
  have hh := (codeOf_heads h2 hn).2 _ ha
  have h2' := codeOf_nilFree h2
  cases h1 with
  | @list _ l hi h1 =>
    cases hh with
    | nil =>
      refine ⟨.mk i .list, st, 1, fun k hk => ⟨false, ?_⟩, .refl st, ⟨_, .list hi h1, h2⟩⟩
      obtain ⟨m, rfl⟩ : ∃ m, k = m + 1 := ⟨k - 1, by omega⟩
      have : st.lists i = [] := by generalize st.lists i = g at h1; cases h1; rfl
      rw [run_expand3]
      simp [expandStep, M.bind_apply, M.get_apply, this]
    | list ht hp hl =>
      generalize hg : st.lists i = g at h1
      obtain ⟨es, st', K, k1, k2, k3⟩ := expand_codes hl h1
      cases h1 with
      | @cons a' _ r _ hf hr =>
        obtain ⟨K1, h4⟩ := ptrStr_text ht hf
        refine ⟨.mk st'.next .list, _, max K K1 + 1, fun k hk => ⟨false, ?_⟩, k2.trans (onlyNewLists_list st' es), ⟨_, ?_, h2'⟩⟩
        · obtain ⟨m, rfl⟩ : ∃ m, k = m + 1 := ⟨k - 1, by omega⟩
          rw [run_expand3, expandStep_inert hg (h4 m (by omega)) hp]
          simp only [M.bind_apply, k1 m (by omega), allocList, M.pure_apply]
        · rw [Code.nilFree]
          refine .list (Nat.lt_succ_self _) ?_
          simp only [fset_at]
          exact k3.new (onlyNewLists_list st' es)

theorem replaceFormals_ok {s : Nat} {ast : List Ptr} : ∀ (ps : List Str) (as : List Sexp) (i : Nat) (st : St) (es fs ex : List Ptr) (body : List Sexp),
    ast.drop i = es → All2 (CodeAt st) es as → All2 (CodeAt st) fs (ps.map .sym) → All2 (CodeAt st) ex body → ps.length ≤ as.length →
    (∀ p ∈ ps, Cleans p body ∧ Cleans p as) → Sexp.HeadsAll (Inert st s) as →
    ∃ qs st' K, (∀ k, K ≤ k → replaceFormals (run k) ast s fs i ex st = .ok qs st') ∧ OnlyNewLists st st' ∧ All2 (CodeAt st') qs (instantiate ps as body)
  | [], as, i, st, es, fs, ex, body, _, _, hf, hb, _, _, _ => by
    cases hf
    exact ⟨ex, st, 0, fun _ _ => rfl, .refl _, by simpa [instantiate] using hb⟩
  | p :: ps, [], i, st, es, fs, ex, body, _, _, _, _, hlen, _, _ => by simp at hlen
  | p :: ps, a :: as, i, st, es, fs, ex, body, hd, he, hf, hb, hlen, hcl, hh => by
    cases he with
    | @cons e _ es _ he hes =>
    cases hf with
    | @cons f _ fs _ hf hfs =>
    obtain ⟨j, v, rfl, hv, -⟩ := codeAt_sym hf
    have harg : ast[i]? = some e := by rw [← List.head?_drop, hd]; rfl
    have hd' : ast.drop (i + 1) = es := by rw [← List.tail_drop, hd]; rfl
    have hp := hcl p (by simp)
    simp only [Cleans] at hp
    have hval : ∃ q st1 K, (∀ k, K ≤ k → (match e with
        | .null => ub .nullDeref
        | .mk id .list => do
          let (q, _) ← (run k).expand3 (.mk id .list) s
          pure q
        | e => do
          let v ← M.lift (mkVariant e)
          box v : M Ptr) st = .ok q st1) ∧ OnlyNewLists st st1 ∧ CodeAt st1 q a := by
      obtain ⟨x, rfl | ⟨u, rfl⟩⟩ := codeAt_isCode he
      · obtain ⟨q, st1, K, h1, h2, h3⟩ := expand3_code he hp.2.1 hh.1
        refine ⟨q, st1, K, fun k hk => ?_, h2, h3⟩
        obtain ⟨b, h1⟩ := h1 k hk
        simp only [M.bind_apply, h1, M.pure_apply]
      · refine ⟨.mk st.next (.var u), _, 0, fun k _ => by simp only [M.bind_apply, mkVariant, M.lift_ok, box, allocObj], onlyNewLists_next st, ?_⟩
        obtain ⟨c, h1, h2⟩ := he
        cases h1
        exact ⟨_, .val, h2⟩
    obtain ⟨q, st1, K1, h1, h2, h3⟩ := hval
    obtain ⟨cs, ht, hcs⟩ : ∃ cs, AreTrees st1 ex cs ∧ CodesOf cs body := by
      have := codesAt_new h2 hb
      clear hb h1 h3 hcl hp
      induction this with
      | nil => exact ⟨[], .nil, .nil⟩
      | cons h _ ih =>
        obtain ⟨c, h1, h2⟩ := h
        obtain ⟨cs, h3, h4⟩ := ih
        exact ⟨c :: cs, .cons h1 h3, .cons h2 h4⟩
    obtain ⟨qs1, st2, K2, h4, h5, h6⟩ := subst_all (q := q) (a := a) (splice := false) hv hcs ht hp.1 (.inl ⟨rfl, h3⟩)
    have h25 := h2.trans h5
    obtain ⟨qs, st3, K3, h7, h8, h9⟩ := replaceFormals_ok ps as (i + 1) st2 es fs qs1 (substs p a body) hd' (codesAt_new h25 hes) (codesAt_new h25 hfs) h6 (by simpa using hlen)
      (fun p' hp' => by
        have := hcl p' (by simp [hp'])
        simp only [Cleans] at this
        exact ⟨cleans_substs this.2.1 this.1, this.2.2⟩)
      (headsAll_imp (fun _ hi => hi.of_scopes h25.scopes) hh.2)
    refine ⟨qs, st3, max K1 (max K2 K3) + 1, fun k hk => ?_, h25.trans h8, by rw [instantiate]; exact h9⟩
    obtain ⟨k, rfl⟩ : ∃ m, k = m + 1 := ⟨k - 1, by omega⟩
    have e1 := h1 (k + 1) (by omega)
    simp only [replaceFormals, M.bind_apply, arg, harg, M.pure_apply]
    obtain ⟨x, rfl | ⟨u, rfl⟩⟩ := codeAt_isCode he
    · simp only [M.bind_apply] at e1 ⊢
      cases hX : (run (k + 1)).expand3 (.mk x .list) s st with
      | fail => rw [hX] at e1; cases e1
      | ok y s' =>
        rw [hX] at e1
        simp only [M.pure_apply, Out.ok.injEq] at e1
        obtain ⟨rfl, rfl⟩ := e1
        simp only [M.pure_apply, toVariant, M.lift_ok, run_subst, h4 k (by omega), h7 (k + 1) (by omega)]
    · simp only [M.bind_apply, mkVariant, M.lift_ok, box, allocObj, Out.ok.injEq] at e1
      obtain ⟨rfl, rfl⟩ := e1
      simp only [M.bind_apply, mkVariant, M.lift_ok, box, allocObj, toVariant, run_subst, h4 k (by omega), h7 (k + 1) (by omega)]

theorem links_new {st' : St} (h : OnlyNewLists st st') (hl : Links st) : Links st' := by
  have := links_next hl st'.next h.next
  rw [h.rest]
  exact ⟨this.clos, this.old, this.fresh, this.callers⟩

/-- Names that are not executed during the expansion. -/
theorem Sim.inert (h : Sim o st μ R) {f : Nat} (hf : f < R.count) {n : Str} (hn : n ∉ hidden) (hv : ∀ v, (R.frames f).vars n = some v → Passive v) : Inert st (μ f) n := by
  refine ⟨?_, ?_⟩
  · by_cases h0 : f = 0
    · subst h0
      obtain ⟨i, m, h1, -, -, h2⟩ := h.macros
      refine .inr ⟨i, m, h1, ?_⟩
      have := h2 n
      generalize binding st m n = b, R.macros n = c at this
      cases this with
      | none => exact .inl rfl
      | macro_ => exact .inr ⟨_, _, _, rfl⟩
    · exact .inl (h.inner f hf h0)
  · cases hx : (R.frames f).vars n with
    | none => exact .inl (h.unbound f hf n hn hx)
    | some v =>
      obtain ⟨p, h1, i, u, rfl, h2⟩ := h.bound f hf n hn v hx
      have hp := hv v hx
      refine .inr ?_
      cases h2 with
      | prim he hw => exact ⟨_, _, h1, ⟨i, u, rfl, hw⟩, evalInExpand_table _ he hp⟩
      | clo hw _ _ _ hy => exact ⟨_, _, h1, ⟨i, u, rfl, hw⟩, hy⟩
      | _ => cases hp

/-- The code that a call of a macro stands for. -/
theorem replaceArgs_ok (hs : Sim o st μ R) {f : Nat} (hf : f < R.count) {ps : List Str} {args body : List Sexp} (hm : MacroCall R f ps args body) {h : Ptr} {tl fs ex : List Ptr}
    (ht : All2 (CodeAt st) tl args) (hfs : All2 (CodeAt st) fs (ps.map .sym)) (hex : All2 (CodeAt st) ex body) :
    ∃ qs st' K, (∀ k, K ≤ k → replaceArgs (run k) fs (h :: tl) ex (μ f) st = .ok qs st') ∧ OnlyNewLists st st' ∧ All2 (CodeAt st') qs (instantiate ps args body) := by
  generalize hst1 : ({ st with
    next := st.next + 6
    lists := fset (fset st.lists (st.next + 2) tl) (st.next + 4)
      [.mk (st.next + 1) (.var (.ofType .symbol (.mk st.next (.str quoteName)))), .mk (st.next + 3) (.var ⟨.list, .mk (st.next + 2) .list, .none, none⟩)] } : St) = st1
  have hN : OnlyNewLists st st1 := by
    subst hst1
    exact ⟨Nat.le_add_right _ _, fun i hi => by simp [fset, show i ≠ st.next + 2 by omega, show i ≠ st.next + 4 by omega], rfl⟩
  obtain ⟨cs, hcs1, hcs2⟩ : ∃ cs, AreTrees st1 ex cs ∧ CodesOf cs body := by
    have := codesAt_new hN hex
    clear hex hm
    induction this with
    | nil => exact ⟨[], .nil, .nil⟩
    | cons h _ ih =>
      obtain ⟨c, h1, h2⟩ := h
      obtain ⟨cs, h3, h4⟩ := ih
      exact ⟨c :: cs, .cons h1 h3, .cons h2 h4⟩
  obtain ⟨qs1, st2, K1, h1, h2, h3⟩ := subst_all (v := .ofType .symbol (.mk (st.next + 5) (.str c!"quoted-macro-args"))) (n := c!"quoted-macro-args") (q := .mk (st.next + 4) .list) (a := .nil) (splice := true)
    ⟨rfl, _, rfl⟩ hcs2 hcs1 hm.rest.1 (.inr hm.rest.2)
  rw [substs_unused hm.rest.2] at h3
  have h12 := hN.trans h2
  obtain ⟨qs, st3, K2, h4, h5, h6⟩ := replaceFormals_ok (s := μ f) (ast := h :: tl) ps args 1 st2 tl fs qs1 body rfl (codesAt_new h12 ht) (codesAt_new h12 hfs) h3 hm.enough hm.clean
    (headsAll_imp (fun n hn => (hs.inert hf hn.1 hn.2).of_scopes h12.scopes) hm.heads)
  refine ⟨qs, st3, max K1 K2 + 1, fun k hk => ?_, h12.trans h5, h6⟩
  obtain ⟨k, rfl⟩ : ∃ m, k = m + 1 := ⟨k - 1, by omega⟩
  have e1 := h1 k (by omega)
  have e2 := h4 (k + 1) (by omega)
  subst hst1
  simp only [replaceArgs, M.bind_apply, allocObj, box, allocList, List.drop_succ_cons, List.drop_zero, run_subst]
  rw [e1]
  exact e2

theorem exec_macro {f : Nat} {e : Sexp} {h : Str} {args body : List Sexp} {ps : List Str} {v : Val} {R' : Conf} (hF : Form e h args) (hR : R.macros h = some (ps, body))
    (hm : MacroCall R f ps args body) (hx : ExecOk f (.list (instantiate ps args body)) R v R') : ExecOk f e R v R' := by
  intro o st μ p hs hf hc
  obtain ⟨i, j, u, tl, rfl, h1, h2, h3⟩ := form_code hF hc
  obtain ⟨a, m, h4, h5, -, h6⟩ := hs.macros
  have h7 := h6 h
  rw [hR] at h7
  generalize hb : binding st m h = b at h7
  cases h7 with
  | @macro_ z fs ex _ _ hz1 hz2 hfs hex =>
    obtain ⟨qs, st1, K1, g1, g2, g3⟩ := replaceArgs_ok hs hf hm (h := .mk j (.var u)) h3 hfs hex
    have g4 := g2.trans (onlyNewLists_list st1 qs)
    have r1 := Res.of_extends hs g4.extends (links_new g4 hs.links)
    obtain ⟨w, st2, μ2, e1, e2, e3⟩ := hx o _ μ (.mk st1.next .list) r1.sim hf (codeAt_of_all (Nat.lt_succ_self _) (by simp only [fset_at]; exact codesAt_new (onlyNewLists_list st1 qs) g3))
    obtain ⟨K2, e1⟩ := e1.stable
    refine ⟨w, st2, μ2, lim_of (ends_ok _ _) (max K1 K2 + 3 + 1) ?_, e2, r1.trans e3⟩
    have hg : (st.scopes (μ f)).global = μ 0 := hs.global f hf
    have hget : getMacro st (max K1 K2 + 3) (.mk j (.var u)) (μ 0) = .ok (some (.mk z (.macroRt fs ex))) := by
      simp only [getMacro, macroScope, find_eq, macrosKey, h4, bind_ok_R, ptrStr_sym h2, hb]
    show (run (max K1 K2 + 3 + 1)).eval _ _ _ = _
    rw [run_eval]
    simp only [evalStep, M.bind_apply, M.rd_apply, toListRef, h1, evalList, run_n, hg, hget, M.get_apply, g1 _ (show K1 ≤ max K1 K2 + 3 by omega), allocList,
      e1 _ (show K2 ≤ max K1 K2 + 3 by omega)]

end
end Fuel
