import Verif.LemSim
/-!
# The interpreter executes the core language: one lemma for every rule of the reference semantics
-/

set_option linter.unusedSectionVars false
set_option linter.unusedSimpArgs false

namespace Fuel

open Spec Spec.Core

section
variable [World]

/-! ## What is to be shown for each kind of rule -/

/-- The interpreter in state `st'` represents `R'`, and what existed in `st` is unchanged. -/
structure Res (o : Origin) (st : St) (μ : Emb) (N : Nat) (st' : St) (μ' : Emb) (R' : Conf) : Prop where
  sim : Sim o st' μ' R'
  grow : Grow st μ N st' μ' R'.count

theorem Res.trans {o : Origin} {a b c : St} {μ ν ρ : Emb} {N : Nat} {R R' : Conf} (h : Res o a μ N b ν R) (g : Res o b ν R.count c ρ R') :
    Res o a μ N c ρ R' := ⟨g.sim, h.grow.trans g.grow⟩

/-- Evaluation of an expression. -/
def ExecOk (f : Nat) (e : Sexp) (R : Conf) (v : Val) (R' : Conf) : Prop :=
  ∀ o st μ p, Sim o st μ R → f < R.count → CodeAt st p e →
    ∃ w st' μ', Evals p (μ f) st (.ok (some w) st') ∧ IsVal st' μ' R'.count w v ∧ Res o st μ R.count st' μ' R'

/-- Evaluation of the operands of a call. -/
def OperandsOk (f : Nat) (R0 : Conf) (es : List Sexp) (R : Conf) (vs : List Val) (R' : Conf) : Prop :=
  ∀ o st0 μ0 st μ ps, Sim o st0 μ0 R0 → f < R0.count → All2 (CodeAt st0) ps es → Sim o st μ R → Grow st0 μ0 R0.count st μ R.count →
    ∃ ps' qs st' μ', All2 (Resolved st0 (μ0 f)) ps ps' ∧ EvalArgs (μ0 f) ps' st qs st' ∧ Args st' μ' R'.count qs vs ∧ Res o st μ R.count st' μ' R'

/-- Loops. -/
def LoopOk (f : Nat) (c b : Sexp) (r : Val) (R : Conf) (v : Val) (R' : Conf) : Prop :=
  ∀ o st μ pc pb rv, Sim o st μ R → f < R.count → CodeAt st pc c → CodeAt st pb b → IsVal st μ R.count rv r →
    ∃ w st' μ', WhileRun pc pb (μ f) (some rv) st (.ok (some w) st') ∧ IsVal st' μ' R'.count w v ∧ Res o st μ R.count st' μ' R'

/-- Blocks. -/
def SeqOk (f : Nat) (r : Option Val) (es : List Sexp) (R : Conf) (v : Val) (R' : Conf) : Prop :=
  ∀ o st μ ps rv, Sim o st μ R → f < R.count → All2 (CodeAt st) ps es → (∀ x, r = some x → ∃ u, rv = some u ∧ IsVal st μ R.count u x) →
    ∃ w st' μ', DoRun (μ f) rv ps st (.ok (some w) st') ∧ IsVal st' μ' R'.count w v ∧ Res o st μ R.count st' μ' R'

/-- Conjunctions. -/
def ConjOk (f : Nat) (es : List Sexp) (R : Conf) (b : Bool) (R' : Conf) : Prop :=
  ∀ o st μ ps, Sim o st μ R → f < R.count → All2 (CodeAt st) ps es →
    ∃ st' μ', AndRun (μ f) ps st b st' ∧ Res o st μ R.count st' μ' R'

/-- Calls. -/
def ApplyOk (f : Nat) (w : Val) (vs : List Val) (R : Conf) (v : Val) (R' : Conf) : Prop :=
  ∀ o st μ u args, Sim o st μ R → f < R.count → IsVal st μ R.count u w → Args st μ R.count args vs →
    ∃ fw, IsFn u fw ∧ fw.special = false ∧ ∃ x st' μ', Calls fw args (μ f) st (.ok (some x) st') ∧ IsVal st' μ' R'.count x v ∧
      Res o st μ R.count st' μ' R'

/-- Calls for all elements of a list. -/
def Calls1Ok (f : Nat) (w : Val) (l : List Val) (R : Conf) (vs : List Val) (R' : Conf) : Prop :=
  ∀ o st μ u fw ps, Sim o st μ R → f < R.count → IsVal st μ R.count u w → IsFn u fw → AreVals st μ R.count ps l →
    ∃ qs st' μ', (∃ K, ∀ k, K ≤ k → mapLoop (run k) fw (μ f) ps st = .ok qs st') ∧ AreVals st' μ' R'.count qs vs ∧ Res o st μ R.count st' μ' R'

/-- Calls for all elements of a list and the result so far. -/
def Calls2Ok (f : Nat) (w : Val) (a : Val) (l : List Val) (R : Conf) (v : Val) (R' : Conf) : Prop :=
  ∀ o st μ u fw acc ps, Sim o st μ R → f < R.count → IsVal st μ R.count u w → IsFn u fw → IsVal st μ R.count acc a → AreVals st μ R.count ps l →
    ∃ x st' μ', (∃ K, ∀ k, K ≤ k → reduceLoop (run k) fw (μ f) acc ps st = .ok x st') ∧ IsVal st' μ' R'.count x v ∧ Res o st μ R.count st' μ' R'

/-! ## Tools -/

variable {o : Origin} {st : St} {μ : Emb} {R : Conf}

theorem Res.of_same (h : Sim o st μ R) {st' : St} (hs : Same st [] st') (hl : Links st') : Res o st μ R.count st' μ R :=
  ⟨h.same' hs hl, hs.grow _ _⟩

theorem Res.of_extends (h : Sim o st μ R) {st' : St} (hs : Extends st st') (hl : Links st') : Res o st μ R.count st' μ R :=
  Res.of_same h (same_of_extends hs) hl

theorem Res.refl (h : Sim o st μ R) : Res o st μ R.count st μ R := ⟨h, Grow.refl _ _ _⟩

theorem Res.lt {st' : St} {μ' : Emb} {R' : Conf} {N f : Nat} (h : Res o st μ N st' μ' R') (hf : f < N) : f < R'.count :=
  Nat.lt_of_lt_of_le hf h.grow.count

theorem isFn_unique {v : Variant} {w w' : FnW} (h : IsFn v w) (h' : IsFn v w') : w = w' := by
  obtain ⟨-, i, h⟩ := h
  obtain ⟨-, j, h'⟩ := h'
  rw [h] at h'
  cases h'
  rfl

theorem isVal_callable {N : Nat} {u : Variant} {w : Val} (hw : Callable w) (h : IsVal st μ N u w) : ∃ fw, IsFn u fw := by
  cases h with
  | prim _ h => exact ⟨_, h⟩
  | clo h => exact ⟨_, h⟩
  | _ => cases hw

theorem evals_unique {p : Ptr} {s : Nat} {o o' : Out (Option Variant)} (h : Evals p s st o) (h' : Evals p s st o') : o = o' := by
  obtain ⟨K, hK⟩ := h.stable
  obtain ⟨K', hK'⟩ := h'.stable
  rw [← hK (max K K') (by omega), hK' (max K K') (by omega)]

theorem links_next (h : Links st) (n : Nat) (hn : st.next ≤ n) : Links { st with next := n } :=
  ⟨fun i => (h.clos i).imp id fun h => Nat.lt_of_lt_of_le h hn, fun i c hc => h.old i c hc, fun i hi => h.fresh i (Nat.le_trans hn hi), fun i p hp => by
    have := h.callers i p hp; exact ⟨this.1, Nat.lt_of_lt_of_le this.2 hn⟩⟩

/-- A call of a name in the core language. -/
theorem isForm_of (h : Sim o st μ R) {f : Nat} (hf : f < R.count) {p : Ptr} {e : Sexp} {n : Str} {args : List Sexp} (hF : Form e n args)
    (hc : CodeAt st p e) {x : Val} (hv : Head R f n x) :
    ∃ u tl st0, IsVal st0 μ R.count u x ∧ (∀ w, IsFn u w → IsForm st (μ f) p w tl st0) ∧ All2 (CodeAt st) tl args ∧ All2 (CodeAt st0) tl args ∧
      Res o st μ R.count st0 μ R := by
  obtain ⟨i, j, v, tl, rfl, h1, h2, h3⟩ := form_code hF hc
  obtain ⟨hn, q, h4, k, u, rfl, h5⟩ := h.lookup hf hv.2
  have hR : Res o st μ R.count (atToken st (μ f) v.tok) μ R := Res.of_same h (same_atToken _ _ _) (links_atToken h.links _ _)
  refine ⟨u, tl, atToken st (μ f) v.tok, isVal_grow hR.grow h5, fun w hw => ⟨⟨i, _, rfl, h1, ⟨n, _, ⟨j, v, rfl, h2⟩, ?_, h4, k, u, rfl, hw⟩, rfl⟩,
    codesAt_notSpliced h3, ?_⟩, h3, codesAt_grow hR.grow h3, hR⟩
  · obtain ⟨a, b, h6, h7⟩ := h.macros
    refine .inr ⟨a, b, ?_, macroAt_none' (hv.1 ▸ h7.2.2 _)⟩
    rw [h.global f hf]; exact h6
  · show (st.scopes (st.scopes (μ f)).global).tracing = _
    rw [h.global f hf]; exact h.tracing

theorem isSpecial_of (h : Sim o st μ R) {f : Nat} (hf : f < R.count) {p : Ptr} {e : Sexp} {n : Str} {args : List Sexp} (hF : Form e n args)
    (hc : CodeAt st p e) {d : Str} (hv : Head R f n (.prim d)) (b : Builtin) (hd : (d, b, true) ∈ coreTable) :
    ∃ tl st0, IsSpecial st (μ f) p b tl st0 ∧ All2 (CodeAt st0) tl args ∧ Res o st μ R.count st0 μ R := by
  obtain ⟨u, tl, st0, h1, h2, -, h3, h4⟩ := isForm_of h hf hF hc hv
  generalize hx : Val.prim d = x at h1
  cases h1 with
  | prim he hw hu =>
    cases hx
    obtain ⟨h5, h6⟩ := core_entry he _ hd rfl
    exact ⟨tl, st0, ⟨_, h2 _ hw, by simpa [Entry.wrapper] using h5, by simpa [Entry.wrapper] using h6⟩, h3, h4⟩
  | _ => cases hx

theorem codes_one {st : St} {tl : List Ptr} {a : Sexp} (h : All2 (CodeAt st) tl [a]) : ∃ p, tl = [p] ∧ CodeAt st p a := by
  cases h with
  | cons h t => cases t; exact ⟨_, rfl, h⟩

theorem codes_nil {st : St} {tl : List Ptr} (h : All2 (CodeAt st) tl []) : tl = [] := by cases h; rfl

theorem codes_two {st : St} {tl : List Ptr} {a b : Sexp} (h : All2 (CodeAt st) tl [a, b]) : ∃ p q, tl = [p, q] ∧ CodeAt st p a ∧ CodeAt st q b := by
  cases h with
  | cons h t => obtain ⟨q, rfl, g⟩ := codes_one t; exact ⟨_, _, rfl, h, g⟩

theorem codes_three {st : St} {tl : List Ptr} {a b c : Sexp} (h : All2 (CodeAt st) tl [a, b, c]) :
    ∃ p q r, tl = [p, q, r] ∧ CodeAt st p a ∧ CodeAt st q b ∧ CodeAt st r c := by
  cases h with
  | cons h t => obtain ⟨q, r, rfl, g⟩ := codes_two t; exact ⟨_, _, _, rfl, h, g⟩

/-! ## Atoms and variables -/

theorem evals_atom {i s : Nat} {v : Variant} (h1 : v.type ≠ .symbol) (h2 : v.type ≠ .list) : Evals (.mk i (.var v)) s st (.ok (some v) st) := by
  refine ⟨ends_ok _ _, 1, ?_⟩
  show (run (0 + 1)).eval _ _ _ = _
  simp [run_eval, evalStep, h1, h2]

theorem exec_atom {f : Nat} {e : Sexp} {v : Val} (h : (∃ i, e = .int i ∧ v = .int i) ∨ (∃ s, e = .str s ∧ v = .str s) ∨ (∃ b, e = .bool b ∧ v = .bool b) ∨
    (e = .nil ∧ v = .nil) ∨ (e = .list [] ∧ v = .nil)) : ExecOk f e R v R := by
  intro o st μ p hs hf hc
  obtain ⟨c, h1, h2⟩ := hc
  have he : ∀ i, st.lists i = [] → Evals (.mk i .list) (μ f) st (.ok (some nilV) st) := by
    intro i hi
    refine ⟨ends_ok _ _, 1, ?_⟩
    show (run (0 + 1)).eval _ _ _ = _
    simp [run_eval, evalStep, toListRef, M.rd_apply, hi, evalList]
  rcases h with ⟨i, rfl, rfl⟩ | ⟨s, rfl, rfl⟩ | ⟨b, rfl, rfl⟩ | ⟨rfl, rfl⟩ | ⟨rfl, rfl⟩
  · cases h2 with
    | int h u => cases h1; exact ⟨_, st, μ, evals_atom (by simp [h.1]) (by simp [h.1]), .int h (nsp u), Res.refl hs⟩
  · cases h2 with
    | str h u => cases h1; exact ⟨_, st, μ, evals_atom (by simp [h.1]) (by simp [h.1]), .str h (nsp u), Res.refl hs⟩
  · cases h2 with
    | bool h u => cases h1; exact ⟨_, st, μ, evals_atom (by simp [h.1]) (by simp [h.1]), .bool h (nsp u), Res.refl hs⟩
  · cases h2 with
    | nil h u => cases h1; exact ⟨_, st, μ, evals_atom (by simp [show _ = _ from h]) (by simp [show _ = _ from h]), .nil h (nsp u), Res.refl hs⟩
    | empty =>
      cases h1 with
      | list hi h =>
        generalize hl : st.lists _ = l at h
        cases h
        exact ⟨nilV, st, μ, he _ hl, .nil rfl (nsp rfl), Res.refl hs⟩
  · cases h2 with
    | list h2 =>
      cases h2
      cases h1 with
      | list hi h =>
        generalize hl : st.lists _ = l at h
        cases h
        exact ⟨nilV, st, μ, he _ hl, .nil rfl (nsp rfl), Res.refl hs⟩

theorem exec_var {f : Nat} {n : Str} {v : Val} (h : Value R f n v) : ExecOk f (.sym n) R v R := by
  intro o st μ p hs hf hc
  obtain ⟨i, u, rfl, h1, -⟩ := codeAt_sym hc
  obtain ⟨-, q, h2, k, w, rfl, h3⟩ := hs.lookup hf h
  obtain ⟨w', st', h4, h5, h6⟩ := C27_lookup (i := i) hs.links.old h1 h2 ⟨w, .value⟩
  cases h5
  have hl := evals_links h4 hs.links (hs.old f hf)
  have hR := Res.of_extends hs h6 hl
  exact ⟨w, st', μ, h4, isVal_grow hR.grow h3, hR⟩

theorem codesAt_isCode {st : St} {tl : List Ptr} {es : List Sexp} (h : All2 (CodeAt st) tl es) : ∀ p ∈ tl, IsCode p := by
  induction h with
  | nil => simp
  | cons h _ ih =>
    intro p hp
    rcases List.mem_cons.1 hp with rfl | hp
    · exact codeAt_isCode h
    · exact ih p hp

theorem truthy_of {N : Nat} {w : Variant} {v : Val} (h : IsVal st μ N w v) {b : Bool} (hv : truth v = some b) : Truthy w b := by
  cases h <;> simp only [truth, Option.some.injEq, reduceCtorEq] at hv
  · subst hv; exact .int (by assumption)
  · subst hv; exact .dbl (by assumption)
  · subst hv; exact .bool (by assumption)

mutual
theorem quoted_val {N : Nat} {w : Variant} {x : Sexp} {v : Val} : CodeOf (.val w) x → Quoted x v → IsVal st μ N w v
  | .int h u, .int => .int h (nsp u)
  | .str h u, .str => .str h (nsp u)
  | .sym h u, .sym => .sym h (nsp u)
  | .bool h u, .bool => .bool h (nsp u)
  | .float h0 h u, .float h1 => by
    rw [h0] at h1
    cases h1
    exact .dbl h (nsp u)
theorem quoted_list {N : Nat} : ∀ {ps : List Ptr} {cs : List Code} {l : List Sexp} {vs : List Val}, AreTrees st ps cs → CodesOf cs l → Quoteds l vs → AreVals st μ N ps vs
  | _, _, _, _, .nil, .nil, .nil => .nil
  | _, _, _, _, .cons .val t, .cons h g, .cons q qs => .value (quoted_val h q) (quoted_list t g qs)
  | _, _, _, _, .cons (.list hi ht) t, .cons (.list h) g, .cons (.list q) qs => .bare hi (quoted_list ht h q) (quoted_list t g qs)
  | _, _, _, _, .cons (.list (i := i) hi ht) t, .cons (.pre h u hc) g, .cons (.pre q) qs => .bare hi (quoted_list ht (.cons (.sym h u) (.cons hc .nil)) (.cons .sym (.cons q .nil))) (quoted_list t g qs)
end

theorem quoted_copy {N : Nat} {q : Ptr} {x : Sexp} {v : Val} (h : CodeAt st q x) (hq : Quoted x v) :
    ∃ c st' w, copyObj q st = .ok c st' ∧ Extends st st' ∧ mkVariant c = .ok w ∧ IsVal st' μ N w v := by
  obtain ⟨cc, h1, h2⟩ := h
  cases h1 with
  | val => exact ⟨_, _, _, rfl, extends_next _ _ (Nat.le_succ _), rfl, quoted_val h2 hq⟩
  | @list i _ hi h1 =>
    have he := extends_list st (st.lists i)
    cases h2 with
    | list h2 =>
      cases hq with
      | list hq => exact ⟨_, _, _, rfl, he, rfl, .list ⟨rfl, rfl⟩ (nsp rfl) (Nat.lt_succ_self _) (by simpa using areVals_extends he (quoted_list h1 h2 hq))⟩
    | pre h u hc =>
      cases hq with
      | pre hq => exact ⟨_, _, _, rfl, he, rfl, .list ⟨rfl, rfl⟩ (nsp rfl) (Nat.lt_succ_self _) (by
          simpa using areVals_extends he (quoted_list h1 (.cons (.sym h u) (.cons hc .nil)) (.cons .sym (.cons hq .nil))))⟩
    | _ => cases hq

/-! ## Special forms -/

theorem exec_quote {f : Nat} {e x : Sexp} {h : Str} {v : Val} (hF : Form e h [x]) (hV : Head R f h (.prim c!"quote")) (hq : Quoted x v) : ExecOk f e R v R := by
  intro o st μ p hs hf hc
  obtain ⟨tl, st0, h1, h2, h3⟩ := isSpecial_of hs hf hF hc hV .quote (by decide)
  obtain ⟨q, rfl, h2'⟩ := codes_one h2
  obtain ⟨c, s', w, h4, h5, h7, h8⟩ := quoted_copy (μ := μ) (N := R.count) h2' hq
  have hE : Evals p (μ f) st (.ok (some w) s') := by
    rw [evals_special hs.links.old h1]
    refine lim_of (ends_ok _ _) 0 ?_
    simp [callPrim, ret, bQuote, checkArgs, arg, h4, h7]
  exact ⟨w, s', μ, hE, h8, h3.trans (Res.of_extends h3.sim h5 (evals_links hE hs.links (hs.old f hf)))⟩

theorem exec_if {f : Nat} {e c a b : Sexp} {h : Str} {t : Bool} {R1 R2 : Conf} {v : Val} (hF : Form e h [c, a, b]) (hV : Head R f h (.prim c!"if"))
    (hc : ExecOk f c R (.bool t) R1) (hb : ExecOk f (if t then a else b) R1 v R2) : ExecOk f e R v R2 := by
  intro o st μ p hs hf hC
  obtain ⟨tl, st0, h1, h2, h3⟩ := isSpecial_of hs hf hF hC hV .if_ (by decide)
  obtain ⟨pc, pa, pb, rfl, h2, ha, hb'⟩ := codes_three h2
  obtain ⟨w, st1, μ1, h4, h5, h6⟩ := hc o st0 μ pc h3.sim hf h2
  have hm : μ1 f = μ f := h6.grow.same f hf
  have hcode : CodeAt st1 (if t = true then pa else pb) (if t then a else b) := by
    cases t
    · exact codeAt_grow h6.grow hb'
    · exact codeAt_grow h6.grow ha
  obtain ⟨x, st2, μ2, h7, h8, h9⟩ := hb o st1 μ1 _ h6.sim (h6.lt hf) hcode
  exact ⟨x, st2, μ2, (C35_if hs.links.old h1 h4 (isVal_bool_inv h5) _).2 (hm ▸ h7), h8, (h3.trans h6).trans h9⟩

theorem exec_ifThen {f : Nat} {e c a : Sexp} {h : Str} {R1 R2 : Conf} {v : Val} (hF : Form e h [c, a]) (hV : Head R f h (.prim c!"if"))
    (hc : ExecOk f c R (.bool true) R1) (hb : ExecOk f a R1 v R2) : ExecOk f e R v R2 := by
  intro o st μ p hs hf hC
  obtain ⟨tl, st0, h1, h2, h3⟩ := isSpecial_of hs hf hF hC hV .if_ (by decide)
  obtain ⟨pc, pa, rfl, h2, ha⟩ := codes_two h2
  obtain ⟨w, st1, μ1, h4, h5, h6⟩ := hc o st0 μ pc h3.sim hf h2
  have hm : μ1 f = μ f := h6.grow.same f hf
  obtain ⟨x, st2, μ2, h7, h8, h9⟩ := hb o st1 μ1 _ h6.sim (h6.lt hf) (codeAt_grow h6.grow ha)
  exact ⟨x, st2, μ2, (C35_if_then hs.links.old h1 h4 (isVal_bool_inv h5) _).2 (hm ▸ h7), h8, (h3.trans h6).trans h9⟩

theorem exec_while {f : Nat} {e c b : Sexp} {h : Str} {R' : Conf} {v : Val} (hF : Form e h [c, b]) (hV : Head R f h (.prim c!"while"))
    (hl : LoopOk f c b .undef R v R') : ExecOk f e R v R' := by
  intro o st μ p hs hf hC
  obtain ⟨tl, st0, h1, h2, h3⟩ := isSpecial_of hs hf hF hC hV .while_ (by decide)
  obtain ⟨pc, pb, rfl, h2, hb⟩ := codes_two h2
  obtain ⟨w, st1, μ1, h4, h5, h6⟩ := hl o st0 μ pc pb undefinedV h3.sim hf h2 hb (.undef rfl (nsp rfl))
  exact ⟨w, st1, μ1, C37_while hs.links.old h1 h4, h5, h3.trans h6⟩

theorem loop_stop {f : Nat} {c b : Sexp} {r v : Val} {R' : Conf} (hc : ExecOk f c R v R') (hv : truth v = some false) : LoopOk f c b r R r R' := by
  intro o st μ pc pb rv hs hf hpc hpb hr
  obtain ⟨w, st1, μ1, h4, h5, h6⟩ := hc o st μ pc hs hf hpc
  exact ⟨rv, st1, μ1, .stop h4 (truthy_of h5 hv), isVal_grow h6.grow hr, h6⟩

theorem loop_again {f : Nat} {c b : Sexp} {r v r1 r2 : Val} {R1 R2 R3 : Conf} (hc : ExecOk f c R v R1) (hv : truth v = some true) (hb : ExecOk f b R1 r1 R2)
    (hn : (R2.frames f).ret = false) (hl : LoopOk f c b r1 R2 r2 R3) : LoopOk f c b r R r2 R3 := by
  intro o st μ pc pb rv hs hf hpc hpb hr
  obtain ⟨w, st1, μ1, h4, h5, h6⟩ := hc o st μ pc hs hf hpc
  obtain ⟨w2, st2, μ2, h7, h8, h9⟩ := hb o st1 μ1 pb h6.sim (h6.lt hf) (codeAt_grow h6.grow hpb)
  have h69 := h6.trans h9
  have hm : μ1 f = μ f := h6.grow.same f hf
  have hm2 : μ2 f = μ f := h69.grow.same f hf
  obtain ⟨w3, st3, μ3, h10, h11, h12⟩ := hl o st2 μ2 pc pb w2 h9.sim (h69.lt hf) (codeAt_grow h69.grow hpc) (codeAt_grow h69.grow hpb) h8
  exact ⟨w3, st3, μ3, .again h4 (truthy_of h5 hv) (hm ▸ h7) (by rw [← hm2, h9.sim.ret f (h69.lt hf), hn]) (hm2 ▸ h10), h11, h69.trans h12⟩

theorem loop_ret {f : Nat} {c b : Sexp} {r v r1 : Val} {R1 R2 : Conf} (hc : ExecOk f c R v R1) (hv : truth v = some true) (hb : ExecOk f b R1 r1 R2)
    (hn : (R2.frames f).ret = true) : LoopOk f c b r R r1 R2 := by
  intro o st μ pc pb rv hs hf hpc hpb hr
  obtain ⟨w, st1, μ1, h4, h5, h6⟩ := hc o st μ pc hs hf hpc
  obtain ⟨w2, st2, μ2, h7, h8, h9⟩ := hb o st1 μ1 pb h6.sim (h6.lt hf) (codeAt_grow h6.grow hpb)
  have h69 := h6.trans h9
  have hm : μ1 f = μ f := h6.grow.same f hf
  have hm2 : μ2 f = μ f := h69.grow.same f hf
  exact ⟨w2, st2, μ2, .ret h4 (truthy_of h5 hv) (hm ▸ h7) (by rw [← hm2, h9.sim.ret f (h69.lt hf), hn]), h8, h69⟩

theorem exec_block {f : Nat} {e : Sexp} {xs : List Sexp} {h d : Str} {R' : Conf} {v : Val} (hF : Form e h xs) (hV : Head R f h (.prim d))
    (hd : d ∈ [c!"do", c!"begin"]) (hl : SeqOk f (some .undef) xs R v R') : ExecOk f e R v R' := by
  intro o st μ p hs hf hC
  obtain ⟨tl, st0, h1, h2, h3⟩ := isSpecial_of hs hf hF hC hV .do_ (by simp only [List.mem_cons, List.not_mem_nil, or_false] at hd; rcases hd with rfl | rfl <;> decide)
  obtain ⟨w, st1, μ1, h4, h5, h6⟩ := hl o st0 μ tl (some undefinedV) h3.sim hf h2 (by rintro _ ⟨⟩; exact ⟨_, rfl, .undef rfl (nsp rfl)⟩)
  exact ⟨w, st1, μ1, (C38_do hs.links.old h1 (codesAt_isCode h2)).2 h4, h5, h3.trans h6⟩

theorem seq_done {f : Nat} {r : Val} : SeqOk f (some r) [] R r R := by
  intro o st μ ps rv hs hf hp hr
  cases hp
  obtain ⟨u, rfl, hr2⟩ := hr _ rfl
  exact ⟨u, st, μ, .done, hr2, Res.refl hs⟩

theorem seq_next {f : Nat} {r : Option Val} {r1 v : Val} {e : Sexp} {es : List Sexp} {R1 R' : Conf} (hF : ∃ h args, Form e h args) (he : ExecOk f e R r1 R1)
    (hn : (R1.frames f).ret = false) (ht : SeqOk f (some r1) es R1 v R') : SeqOk f r (e :: es) R v R' := by
  intro o st μ ps rv hs hf hp hr
  obtain ⟨h, args, hF⟩ := hF
  cases hp with
  | cons hp hps =>
    obtain ⟨i, _, _, _, rfl, -⟩ := form_code hF hp
    obtain ⟨w, st1, μ1, h4, h5, h6⟩ := he o st μ _ hs hf hp
    have hm : μ1 f = μ f := h6.grow.same f hf
    obtain ⟨w2, st2, μ2, h7, h8, h9⟩ := ht o st1 μ1 _ (some w) h6.sim (h6.lt hf) (codesAt_grow h6.grow hps) (by rintro _ ⟨⟩; exact ⟨_, rfl, h5⟩)
    exact ⟨w2, st2, μ2, .next h4 (by rw [← hm, h6.sim.ret f (h6.lt hf), hn]) (hm ▸ h7), h8, h6.trans h9⟩

theorem seq_skip {f : Nat} {r : Option Val} {v : Val} {e c a : Sexp} {h : Str} {es : List Sexp} {R1 R' : Conf} (hF : Form e h [c, a]) (hV : Head R f h (.prim c!"if"))
    (hc : ExecOk f c R (.bool false) R1) (hn : (R1.frames f).ret = false) (ht : SeqOk f none es R1 v R') : SeqOk f r (e :: es) R v R' := by
  intro o st μ ps rv hs hf hp hr
  cases hp with
  | cons hp hps =>
    obtain ⟨i, _, _, _, rfl, -⟩ := form_code hF hp
    obtain ⟨tl, st0, h1, h2, h3⟩ := isSpecial_of hs hf hF hp hV .if_ (by decide)
    obtain ⟨pc, pa, rfl, h2, ha⟩ := codes_two h2
    obtain ⟨w, st1, μ1, h4, h5, h6⟩ := hc o st0 μ pc h3.sim hf h2
    have hm : μ1 f = μ f := h6.grow.same f hf
    have h36 := h3.trans h6
    obtain ⟨w2, st2, μ2, h7, h8, h9⟩ := ht o st1 μ1 _ none h6.sim (h6.lt hf) (codesAt_grow h36.grow hps) (by rintro _ ⟨⟩)
    exact ⟨w2, st2, μ2, .next (C35_if_no_else hs.links.old h1 h4 (isVal_bool_inv h5)) (by rw [← hm, h6.sim.ret f (h6.lt hf), hn]) (hm ▸ h7), h8, h36.trans h9⟩

theorem seq_ret {f : Nat} {r : Option Val} {v : Val} {e : Sexp} {es : List Sexp} {R' : Conf} (hF : ∃ h args, Form e h args) (he : ExecOk f e R v R')
    (hn : (R'.frames f).ret = true) : SeqOk f r (e :: es) R v R' := by
  intro o st μ ps rv hs hf hp hr
  obtain ⟨h, args, hF⟩ := hF
  cases hp with
  | cons hp hps =>
    obtain ⟨i, _, _, _, rfl, -⟩ := form_code hF hp
    obtain ⟨w, st1, μ1, h4, h5, h6⟩ := he o st μ _ hs hf hp
    have hm : μ1 f = μ f := h6.grow.same f hf
    exact ⟨w, st1, μ1, .ret h4 (by rw [← hm, h6.sim.ret f (h6.lt hf), hn]), h5, h6⟩

theorem exec_and {f : Nat} {e : Sexp} {xs : List Sexp} {h d : Str} {R' : Conf} {b : Bool} (hF : Form e h xs) (hV : Head R f h (.prim d))
    (hd : d ∈ [c!"and", c!"&&"]) (hl : ConjOk f xs R b R') : ExecOk f e R (.bool b) R' := by
  intro o st μ p hs hf hC
  obtain ⟨tl, st0, h1, h2, h3⟩ := isSpecial_of hs hf hF hC hV .and (by simp only [List.mem_cons, List.not_mem_nil, or_false] at hd; rcases hd with rfl | rfl <;> decide)
  obtain ⟨st1, μ1, h4, h6⟩ := hl o st0 μ tl h3.sim hf h2
  obtain ⟨K, hr⟩ := boolLoop_and h4
  have hE : Evals p (μ f) st (.ok (some (.ofType .bool (.mk st1.next (.bool b)))) { st1 with next := st1.next + 1 }) := by
    rw [evals_special hs.links.old h1]
    refine lim_of (ends_ok _ _) K ?_
    simp [callPrim, ret, bBool, hr K (Nat.le_refl K), mkBool, mkAtom, allocObj, Obj.lispType, Variant.ofType]
  exact ⟨_, _, μ1, hE, .bool ⟨rfl, _, rfl⟩ (nsp rfl), (h3.trans h6).trans (Res.of_extends h6.sim (extends_next _ _ (Nat.le_succ _))
    (links_next h6.sim.links _ (Nat.le_succ _)))⟩

theorem conj_all {f : Nat} : ConjOk f [] R true R := by
  intro o st μ ps hs hf hp
  cases hp
  exact ⟨st, μ, .all, Res.refl hs⟩

theorem conj_stop {f : Nat} {e : Sexp} {es : List Sexp} {R' : Conf} (he : ExecOk f e R (.bool false) R') : ConjOk f (e :: es) R false R' := by
  intro o st μ ps hs hf hp
  cases hp with
  | cons hp hps =>
    obtain ⟨w, st1, μ1, h4, h5, h6⟩ := he o st μ _ hs hf hp
    exact ⟨st1, μ1, .stop h4 (isVal_bool_inv h5), h6⟩

theorem conj_next {f : Nat} {e : Sexp} {es : List Sexp} {R1 R' : Conf} {b : Bool} (he : ExecOk f e R (.bool true) R1) (ht : ConjOk f es R1 b R') :
    ConjOk f (e :: es) R b R' := by
  intro o st μ ps hs hf hp
  cases hp with
  | cons hp hps =>
    obtain ⟨w, st1, μ1, h4, h5, h6⟩ := he o st μ _ hs hf hp
    have hm : μ1 f = μ f := h6.grow.same f hf
    obtain ⟨st2, μ2, h7, h9⟩ := ht o st1 μ1 _ h6.sim (h6.lt hf) (codesAt_grow h6.grow hps)
    exact ⟨st2, μ2, .next h4 (isVal_bool_inv h5) (hm ▸ h7), h6.trans h9⟩

/-! ## Assignments -/

theorem exec_def {f : Nat} {e x : Sexp} {h n : Str} {R' : Conf} {v : Val} (hF : Form e h [.sym n, x]) (hV : Head R f h (.prim c!"def")) (hn : n ∉ hidden)
    (hx : ExecOk f x R v R') : ExecOk f e R v (R'.set f n v) := by
  intro o st μ p hs hf hC
  obtain ⟨tl, st0, h1, h2, h3⟩ := isSpecial_of hs hf hF hC hV .def_ (by decide)
  obtain ⟨pn, px, rfl, h2, hb⟩ := codes_two h2
  obtain ⟨i, u, rfl, h4, -⟩ := codeAt_sym h2
  obtain ⟨w, st1, μ1, h5, h6, h7⟩ := hx o st0 μ px h3.sim hf hb
  have hm : μ1 f = μ f := h7.grow.same f hf
  obtain ⟨st', h8, h9⟩ := C28_def hs.links.old h1 ⟨i, u, rfl, .inl h4⟩ h5
  have hl := evals_links h8 hs.links (hs.old f hf)
  obtain ⟨h10, h11⟩ := h7.sim.assign (h7.lt hf) hn h6 (hm.symm ▸ h9) hl
  exact ⟨w, st', μ1, h8, isVal_grow h11 h6, (h3.trans h7).trans ⟨h10, h11⟩⟩

theorem exec_gdef {f : Nat} {e x : Sexp} {h n : Str} {R' : Conf} {v : Val} (hF : Form e h [.sym n, x]) (hV : Head R f h (.prim c!"gdef")) (hn : n ∉ hidden)
    (hx : ExecOk f x R v R') : ExecOk f e R v (R'.set 0 n v) := by
  intro o st μ p hs hf hC
  obtain ⟨tl, st0, h1, h2, h3⟩ := isSpecial_of hs hf hF hC hV .gdef (by decide)
  obtain ⟨pn, px, rfl, h2, hb⟩ := codes_two h2
  obtain ⟨i, u, rfl, h4, -⟩ := codeAt_sym h2
  obtain ⟨w, st1, μ1, h5, h6, h7⟩ := hx o st0 μ px h3.sim hf hb
  have hm : μ1 0 = μ 0 := h7.grow.same 0 hs.pos
  obtain ⟨st', h8, h9⟩ := C28_gdef hs.links.old h1 ⟨i, u, rfl, .inl h4⟩ h5
  rw [hs.global f hf, ← hm] at h9
  have hl := evals_links h8 hs.links (hs.old f hf)
  obtain ⟨h10, h11⟩ := h7.sim.assign h7.sim.pos hn h6 h9 hl
  exact ⟨w, st', μ1, h8, isVal_grow h11 h6, (h3.trans h7).trans ⟨h10, h11⟩⟩

theorem exec_setf {f g : Nat} {e x : Sexp} {h n : Str} {R' : Conf} {v : Val} (hF : Form e h [.sym n, x]) (hV : Head R f h (.prim c!"setf")) (hn : n ∉ hidden)
    (hne : n ≠ []) (hx : ExecOk f x R v R') (hi : Innermost R' n f g) : ExecOk f e R v (R'.set g n v) := by
  intro o st μ p hs hf hC
  obtain ⟨tl, st0, h1, h2, h3⟩ := isSpecial_of hs hf hF hC hV .setf (by decide)
  obtain ⟨pn, px, rfl, h2, hb⟩ := codes_two h2
  obtain ⟨i, u, rfl, h4, -⟩ := codeAt_sym h2
  obtain ⟨w, st1, μ1, h5, h6, h7⟩ := hx o st0 μ px h3.sim hf hb
  have hm : μ1 f = μ f := h7.grow.same f hf
  obtain ⟨hg, ht⟩ := h7.sim.target (h7.lt hf) hn hi
  obtain ⟨st', h8, h9⟩ := C28_setf hs.links.old h7.sim.links.old h1 ⟨i, u, rfl, .inl h4⟩ hne h5 (hm ▸ ht)
  have hl := evals_links h8 hs.links (hs.old f hf)
  obtain ⟨h10, h11⟩ := h7.sim.assign hg hn h6 h9 hl
  exact ⟨w, st', μ1, h8, isVal_grow h11 h6, (h3.trans h7).trans ⟨h10, h11⟩⟩

/-! ## Functions -/

/-- `(fn (p ...) body)`. -/
theorem fn_new {N : Nat} {f : Nat} (hf : f < N) (st : St) {p b : Ptr} {ps : List Str} {body : Sexp} (hp : CodeAt st p (.list (ps.map .sym))) (hb : CodeAt st b body) :
    ∃ v st', (∀ k, callPrim (run k) .fn [p, b] (μ f) st = .ok (some v) st') ∧ Extends st st' ∧ IsVal st' μ N v (.clo ps body f) ∧
      ∃ w, IsFn v w ∧ ∀ d, (st.scopes (μ f)).userDoc = some d → w.signature = d.1 := by
  have hE : Extends st { st with next := st.next + 2, clos := fset st.clos st.next ⟨(match (st.scopes (μ f)).userData with | some d => d | none => []),
      (st.scopes (μ f)).module, [p, b], μ f⟩ } := by
    constructor <;> simp
    intro i hi
    simp [fset, show i ≠ st.next by omega]
  refine ⟨_, _, fun _ => rfl, hE, ?_, _, ⟨rfl, _, rfl⟩, fun d hd => by simp only [hd]⟩
  obtain ⟨cp, hp1, hp2⟩ := hp
  obtain ⟨cb, hb1, hb2⟩ := hb
  cases hp2 with
  | list hp2 =>
    exact .clo (cid := st.next) ⟨rfl, _, rfl⟩ (nsp rfl) rfl rfl rfl (by show st.next < st.next + 1 + 1; omega) hf (by simp) (by simp) (hp1.mono hE.next hE.lists) hp2 (hb1.mono hE.next hE.lists) hb2

theorem exec_fn {f : Nat} {e body : Sexp} {h d : Str} {ps : List Str} (hF : Form e h [.list (ps.map .sym), body]) (hV : Head R f h (.prim d))
    (hd : d ∈ [c!"fn", c!"lambda"]) : ExecOk f e R (.clo ps body f) R := by
  intro o st μ p hs hf hC
  obtain ⟨tl, st0, h1, h2, h3⟩ := isSpecial_of hs hf hF hC hV .fn (by simp only [List.mem_cons, List.not_mem_nil, or_false] at hd; rcases hd with rfl | rfl <;> decide)
  obtain ⟨pn, px, rfl, h2, hb⟩ := codes_two h2
  obtain ⟨v, st', h4, h5, h6, -⟩ := fn_new (μ := μ) hf st0 h2 hb
  have hE : Evals p (μ f) st (.ok (some v) st') := (evals_special hs.links.old h1).2 (lim_of (ends_ok _ _) 0 (h4 0))
  exact ⟨v, st', μ, hE, h6, h3.trans (Res.of_extends h3.sim h5 (evals_links hE hs.links (hs.old f hf)))⟩

theorem same_modScope (st : St) (s : Nat) {sc : Scope} (hk : key sc = key (st.scopes s)) (hv : sc.vars = (st.scopes s).vars) :
    Same st [] { st with scopes := fset st.scopes s sc } := by
  refine ⟨Nat.le_refl _, fun _ _ => rfl, fun _ _ => rfl, fun i _ => ?_, fun i _ n _ => ?_, fun i _ => ?_, fun i _ _ => ?_, by simp, rfl, fun _ _ => rfl, rfl, rfl⟩
  · by_cases h : i = s <;> simp [fset, h, hk]
  · by_cases h : i = s <;> simp [fset, h, binding, hv]
  · by_cases h : i = s <;> simp [fset, h, binding, hv]
  · by_cases h : i = s <;> simp [fset, h, binding, hv]

/-- The built-in function of a name in the global scope. -/
theorem globalFunction_ok (hs : Sim o st μ R) {f : Nat} (hf : f < R.count) {d : Str} (hd : d ∉ hidden) (hv : (R.frames 0).vars d = some (.prim d)) {b : Builtin}
    (ht : (d, b, true) ∈ coreTable) : ∃ w : FnW, w.kind = .prim b ∧ ∀ n, globalFunction n d (μ f) st = .ok w st := by
  obtain ⟨p, h1, i, u, rfl, h2⟩ := hs.bound 0 hs.pos d hd _ hv
  generalize hx : Val.prim d = x at h2
  cases h2 with
  | @prim _ e he hw hu =>
    cases hx
    obtain ⟨h5, h6⟩ := core_entry he _ ht rfl
    refine ⟨e.wrapper, by simpa [Entry.wrapper] using h5, fun n => ?_⟩
    have h1 : mapFind e.name (st.scopes (st.scopes (μ f)).global).vars = some (.mk i (.var u)) := by rw [hs.global f hf, mapFind_eq_lookup]; exact h1
    simp only [globalFunction, M.bind_apply, M.get_apply, h1, toVariant_var, M.lift_ok, M.rd_apply, functionValue_fn hw]
  | _ => cases hx

/-- The signature of a function. -/
theorem updateDoc_ok {p0 p1 p2 : Ptr} {n : Str} {ps : List Str} (h0 : CodeAt st p0 (.sym n)) (h1 : CodeAt st p1 (.list (ps.map .sym))) (s : Nat) :
    ∃ d : Str × Str, d.1 = c!"(" ++ n ++ (if (joined ps).isEmpty then [] else c!" ") ++ joined ps ++ c!")" ∧
      ∀ k, updateDoc (k + 3) [p0, p1, p2] s st = .ok () { st with scopes := fset st.scopes s { st.scopes s with userDoc := some d } } := by
  obtain ⟨i, u, rfl, hu, -⟩ := codeAt_sym h0
  obtain ⟨c, h2, h3⟩ := h1
  cases h3 with
  | list h3 =>
    cases h2 with
    | @list j _ hj h2 =>
      have hsyms : ∀ {qs : List Ptr} {es : List Sexp}, All2 (CodeAt st) qs es → ∀ {ps : List Str}, es = ps.map .sym → ∀ k, All2 (fun q t => ptrStr st (k + 3) q = .ok t) qs ps := by
        intro qs es h
        induction h with
        | nil => intro ps hp k; cases ps with
          | nil => exact .nil
          | cons _ _ => cases hp
        | cons h _ ih => intro ps hp k; cases ps with
          | nil => cases hp
          | cons _ _ =>
            cases hp
            obtain ⟨_, _, rfl, hv, -⟩ := codeAt_sym h
            exact .cons (ptrStr_sym hv) (ih rfl k)
      have hj : ∀ k, joinLoop (ptrStr st (k + 3)) c!" " [] (st.lists j) = .ok (joined ps) := fun k => joinLoop_joined (hsyms (codeAt_all h2 h3) rfl k)
      refine ⟨(c!"(" ++ n ++ (if (joined ps).isEmpty then [] else c!" ") ++ joined ps ++ c!")",
        match previousToken (st.scopes s).tokens (previousToken (st.scopes s).tokens (previousToken (st.scopes s).tokens u.tok)) with
        | some t => if t.type = .comment then t.value.toStr else []
        | none => []), rfl, fun k => ?_⟩
      simp only [updateDoc, M.bind_apply, M.get_apply, arg, List.getElem?_cons_zero, List.getElem?_cons_succ, M.lift_ok, tokenBeforeDefn, argStr, M.rd_apply, ptrStr_sym hu,
        signatureOf, enumerableFromArgs, toEnumerable, hj, bind_ok_R, modScope, M.modify_apply, M.pure_apply]
      cases previousToken (st.scopes s).tokens (previousToken (st.scopes s).tokens (previousToken (st.scopes s).tokens u.tok)) <;> rfl

/-- The assignment in a function definition. -/
theorem assign_call {i j : Nat} {u v : Variant} {n : Str} (hu : IsSym u n) {w : FnW} (hv : IsFn v w) (s : Nat) (g : Bool) :
    ∃ st', (∀ k, callPrim (run (k + 2)) (if g then .gdef else .def_) [.mk i (.var u), .mk j (.var v)] s st = .ok (some v) st') ∧
      Assigned st st' (if g then (st.scopes s).global else s) n v := by
  have he : ∀ k, (run (k + 2)).eval (.mk j (.var v)) s st = .ok (some v) st := fun k => by
    rw [run_eval]
    simp [evalStep, hv.1]
  refine ⟨_, fun k => ?_, assigned_spec st (if g then (st.scopes s).global else s) n v⟩
  cases g <;>
  simp [callPrim, ret, bDef, bGdef, bDefHelper, checkArgs, arg, evalArgIfNeeded, toVariant, derefV, hu.1, he,
    box, allocObj, M.rd_apply, run_n, varStr_sym hu, setVar, modScope, assigned]

theorem exec_defns_shown {f : Nat} {e body : Sexp} {h n : Str} {ps : List Str} (g : Bool) (hF : Form e h [.sym n, .list (ps.map .sym), body])
    (hV : Head R f h (.prim (if g then c!"gdefn" else c!"defn"))) (hn : n ∉ hidden) (hfn : (R.frames 0).vars c!"fn" = some (.prim c!"fn"))
    (hdef : (R.frames 0).vars (if g then c!"gdef" else c!"def") = some (.prim (if g then c!"gdef" else c!"def"))) :
    ∀ o st μ p, Sim o st μ R → f < R.count → CodeAt st p e → ∃ w st' μ', Evals p (μ f) st (.ok (some w) st') ∧
      IsVal st' μ' (R.set (if g then 0 else f) n (.clo ps body f)).count w (.clo ps body f) ∧ Res o st μ R.count st' μ' (R.set (if g then 0 else f) n (.clo ps body f)) ∧
      ∃ fw, IsFn w fw ∧ fw.signature = c!"(" ++ n ++ (if (joined ps).isEmpty then [] else c!" ") ++ joined ps ++ c!")" := by
  intro o st μ p hs hf hC
  obtain ⟨tl, st0, h1, h2, h3⟩ := isSpecial_of hs hf hF hC hV (if g then .gdefn else .defn) (by cases g <;> decide)
  obtain ⟨p0, p1, p2, rfl, c0, c1, c2⟩ := codes_three h2
  obtain ⟨d, hd, hA⟩ := updateDoc_ok (p2 := p2) c0 c1 (μ f)
  obtain ⟨i, u, rfl, hu, -⟩ := codeAt_sym c0
  generalize hsA : ({ st0 with scopes := fset st0.scopes (μ f) { st0.scopes (μ f) with userDoc := some d } } : St) = stA at hA
  have rA : Res o st0 μ R.count stA μ R := by
    subst hsA; exact Res.of_same h3.sim (same_modScope _ _ rfl rfl) (links_modScope rfl (fun p hp => .inl hp) h3.sim.links)
  obtain ⟨wf, k1, hG1⟩ := globalFunction_ok rA.sim hf (by decide) hfn (b := .fn) (by decide)
  generalize hsB : ({ stA with scopes := fset stA.scopes (μ f) { stA.scopes (μ f) with userData := some n } } : St) = stB
  have rB : Res o stA μ R.count stB μ R := by
    subst hsB; exact Res.of_same rA.sim (same_modScope _ _ rfl rfl) (links_modScope rfl (fun p hp => .inl hp) rA.sim.links)
  have gAB := rA.grow.trans rB.grow
  obtain ⟨v, stC, hC1, hC2, hC3, ff, hff, hsig⟩ := fn_new (μ := μ) hf stB (codeAt_grow gAB c1) (codeAt_grow gAB c2)
  have rC : Res o stB μ R.count stC μ R := Res.of_extends rB.sim hC2 (by
    have := links_after (m := callPrim (run 0) .fn [p1, p2] (μ f)) rB.sim.links (rB.sim.old f hf)
    rwa [hC1 0] at this)
  generalize hsD : ({ stC with scopes := fset stC.scopes (μ f) { stC.scopes (μ f) with userData := none } } : St) = stD
  have rD : Res o stC μ R.count stD μ R := by
    subst hsD; exact Res.of_same rC.sim (same_modScope _ _ rfl rfl) (links_modScope rfl (fun p hp => .inl hp) rC.sim.links)
  obtain ⟨wd, k2, hG2⟩ := globalFunction_ok rD.sim hf (by cases g <;> decide) hdef (b := if g then .gdef else .def_) (by cases g <;> decide)
  have rE : Res o stD μ R.count { stD with next := stD.next + 1 } μ R := Res.of_extends rD.sim (extends_next _ _ (Nat.le_succ _)) (links_next rD.sim.links _ (Nat.le_succ _))
  have rCE := rD.trans rE
  obtain ⟨fw, hfw⟩ := isVal_callable (w := .clo ps body f) trivial hC3
  obtain ⟨stF, hF1, hF2⟩ := assign_call (st := { stD with next := stD.next + 1 }) (i := i) (j := stD.next) hu hfw (μ f) g
  have hE : Evals p (μ f) st (.ok (some v) stF) := by
    rw [evals_special hs.links.old h1]
    refine lim_of (ends_ok _ _) 6 ?_
    have e1 : ∀ l, (run 6).call wf l (μ f) = callPrim (run 5) .fn l (μ f) := fun l => by rw [run_call]; simp only [callStep, k1]
    have e2 : ∀ l, (run 6).call wd l (μ f) = callPrim (run 5) (if g then .gdef else .def_) l (μ f) := fun l => by rw [run_call]; simp only [callStep, k2]
    have e3 : callPrim (run 6) (if g then .gdefn else .defn) [.mk i (.var u), p1, p2] (μ f) = bDefn (run 6) (if g then c!"gdef" else c!"def") [.mk i (.var u), p1, p2] (μ f) := by
      cases g <;> rfl
    rw [e3]
    have e4 : checkArgs (if g then c!"gdef" else c!"def") 3 [.mk i (.var u), p1, p2] (μ f) st0 = .ok () st0 := by simp [checkArgs]
    simp only [bDefn, M.bind_apply, e4, run_n, hA 3, hG1, arg, List.getElem?_cons_zero, List.getElem?_cons_succ, M.lift_ok, M.pure_apply, evalArgIfNeeded, toVariant_var, derefV, M.rd_apply,
      varStr_sym hu, modScope, M.modify_apply, hsB, e1, hC1, hsD, hG2, box, allocObj, e2]
    exact hF1 3
  have hl := evals_links hE hs.links (hs.old f hf)
  have h7 := (rA.trans rB).trans (rC.trans rCE)
  have hgl : (if g then (({ stD with next := stD.next + 1 } : St).scopes (μ f)).global else μ f) = μ (if g then 0 else f) := by
    cases g
    · rfl
    · exact rE.sim.global f hf
  rw [hgl] at hF2
  obtain ⟨h10, h11⟩ := rE.sim.assign (g := if g then 0 else f) (by cases g; exact hf; exact rE.sim.pos) hn (isVal_grow rCE.grow hC3) hF2 hl
  exact ⟨v, stF, μ, hE, isVal_grow h11 (isVal_grow rCE.grow hC3), (h3.trans h7).trans ⟨h10, h11⟩, ff, hff, by rw [hsig d (by subst hsB; subst hsA; simp), hd]⟩

theorem exec_defns {f : Nat} {e body : Sexp} {h n : Str} {ps : List Str} (g : Bool) (hF : Form e h [.sym n, .list (ps.map .sym), body])
    (hV : Head R f h (.prim (if g then c!"gdefn" else c!"defn"))) (hn : n ∉ hidden) (hfn : (R.frames 0).vars c!"fn" = some (.prim c!"fn"))
    (hdef : (R.frames 0).vars (if g then c!"gdef" else c!"def") = some (.prim (if g then c!"gdef" else c!"def"))) :
    ExecOk f e R (.clo ps body f) (R.set (if g then 0 else f) n (.clo ps body f)) := fun o st μ p hs hf hC =>
  have ⟨w, st', μ', h1, h2, h3, _⟩ := exec_defns_shown g hF hV hn hfn hdef o st μ p hs hf hC
  ⟨w, st', μ', h1, h2, h3⟩

/-! ## Calls -/

theorem isVal_prim_inv {N : Nat} {u : Variant} {d : Str} (h : IsVal st μ N u (.prim d)) : ∃ e ∈ defaultTable, e.name = d ∧ IsFn u e.wrapper := by
  generalize hx : Val.prim d = x at h
  cases h with
  | prim he hw hu => cases hx; exact ⟨_, he, rfl, hw⟩
  | _ => cases hx

theorem exec_call {f : Nat} {e : Sexp} {h : Str} {args : List Sexp} {w : Val} {vs : List Val} {R1 R2 : Conf} {v : Val} (hF : Form e h args) (hV : Head R f h w)
    (ho : OperandsOk f R args R vs R1) (ha : ApplyOk f w vs R1 v R2) : ExecOk f e R v R2 := by
  intro o st μ p hs hf hC
  obtain ⟨u, tl, st0, h1, h2, h3, -, h4⟩ := isForm_of hs hf hF hC hV
  obtain ⟨ps', qs, st1, μ1, h5, h6, h7, h8⟩ := ho o st μ st0 μ tl hs hf h3 h4.sim h4.grow
  have hm : μ1 f = μ f := h8.grow.same f hf
  obtain ⟨fw, h9, h10, x, st2, μ2, h11, h12, h13⟩ := ha o st1 μ1 u qs h8.sim (h8.lt hf) (isVal_grow h8.grow h1) h7
  exact ⟨x, st2, μ2, (evals_call hs.links.old (h2 _ h9) h10 h5 h6).2 (hm ▸ h11), h12, (h4.trans h8).trans h13⟩

theorem operands_nil {f : Nat} {R0 : Conf} : OperandsOk f R0 [] R [] R := by
  intro o st0 μ0 st μ ps h0 hf hp hs hg
  cases hp
  exact ⟨[], [], st, μ, .nil, .nil, .nil, Res.refl hs⟩

theorem operands_name {f : Nat} {R0 R' : Conf} {n : Str} {es : List Sexp} {v : Val} {vs : List Val} (hv : Value R0 f n v) (ht : OperandsOk f R0 es R vs R') :
    OperandsOk f R0 (.sym n :: es) R (v :: vs) R' := by
  intro o st0 μ0 st μ ps h0 hf hp hs hg
  cases hp with
  | cons hp hps =>
    obtain ⟨i, u, rfl, h1, -⟩ := codeAt_sym hp
    obtain ⟨-, q, h2, k, w, rfl, h3⟩ := h0.lookup hf hv
    obtain ⟨ps', qs, st1, μ1, h5, h6, h7, h8⟩ := ht o st0 μ0 st μ _ h0 hf hps hs hg
    exact ⟨_, _, st1, μ1, .cons (.symbol h1 h2) h5, .value (by simp) (by simp [NotSpliced, isVal_unq h3]) h6,
      .cons ⟨k, w, rfl, isVal_grow (hg.trans h8.grow) h3⟩ h7, h8⟩

theorem operands_other {f : Nat} {R0 R1 R' : Conf} {e : Sexp} {es : List Sexp} {v : Val} {vs : List Val} (hn : ∀ n, e ≠ .sym n) (he : ExecOk f e R v R1)
    (ht : OperandsOk f R0 es R1 vs R') : OperandsOk f R0 (e :: es) R (v :: vs) R' := by
  intro o st0 μ0 st μ ps h0 hf hp hs hg
  have hf' : f < R.count := Nat.lt_of_lt_of_le hf hg.count
  have hm0 : μ f = μ0 f := hg.same f hf
  cases hp with
  | cons hp hps =>
    have hp' := codeAt_grow hg hp
    obtain ⟨x, st1, μ1, h1, h2, h3⟩ := he o st μ _ hs hf' hp'
    obtain ⟨c, h4, h5⟩ := hp
    cases h4 with
    | @val i u =>
      have hu : u.type ≠ .symbol ∧ u.type ≠ .list := by
        cases h5 with
        | int h => simp [h.1]
        | str h => simp [h.1]
        | sym h => exact absurd rfl (hn _)
        | bool h => simp [h.1]
        | float _ h => simp [h.1]
        | nil h => simp [show _ = _ from h]
      have := evals_unique h1 (evals_atom hu.1 hu.2)
      simp only [Out.ok.injEq, Option.some.injEq] at this
      obtain ⟨rfl, rfl⟩ := this
      obtain ⟨ps', qs, st2, μ2, h6, h7, h8, h9⟩ := ht o st0 μ0 _ μ1 _ h0 hf hps h3.sim (hg.trans h3.grow)
      exact ⟨_, _, st2, μ2, .cons (.value hu.1) h6, .value (by simp) (by simp [NotSpliced, isVal_unq h2]) h7, .cons ⟨_, _, rfl, isVal_grow h9.grow h2⟩ h8, h3.trans h9⟩
    | @list i l hi h4 =>
      have h10 : Res o st1 μ1 R1.count { st1 with next := st1.next + 1 } μ1 R1 :=
        Res.of_extends h3.sim (extends_next _ _ (Nat.le_succ _)) (links_next h3.sim.links _ (Nat.le_succ _))
      have h11 := h3.trans h10
      obtain ⟨ps', qs, st2, μ2, h6, h7, h8, h9⟩ := ht o st0 μ0 _ μ1 _ h0 hf hps h10.sim (hg.trans h11.grow)
      exact ⟨_, _, st2, μ2, .cons .list h6, .call (hm0 ▸ h1) (by simp [isVal_unq h2]) h7, .cons ⟨_, _, rfl, isVal_grow (h10.trans h9).grow h2⟩ h8, h11.trans h9⟩

theorem apply_fn {f : Nat} {n : Str} {vs : List Val} {v : Val} (h : Fn n vs v) : ApplyOk f (.prim n) vs R v R := by
  intro o st μ u args hs hf hu ha
  obtain ⟨e, he, hn, hw⟩ := isVal_prim_inv hu
  obtain ⟨h1, k, r, st', h2, h3, h4⟩ := fn_ok h he hn ha (hs.place f hf)
  have hC : Calls e.wrapper args (μ f) st (.ok (some r) st') := (calls_prim rfl).2 (lim_of (ends_ok _ _) k h2)
  exact ⟨_, hw, h1, r, st', μ, hC, h4, Res.of_extends hs h3 (calls_links hC hs.links (hs.old f hf))⟩

theorem stringRep_ok {s : Nat} (hb : binding st s c!"###traceon###" = none ∨ ∃ i t, binding st s c!"###tracebuffer###" = some (.mk i (.str t))) {args : List Ptr} {ts : List Str}
    (h : ∃ K, ∀ n, K ≤ n → All2 (fun p t => ptrStr st n p = .ok t) args ts) :
    ∃ st', (∃ K, ∀ n, K ≤ n → stringRep n args s st = .ok (joined ts) st') ∧ Same st [] st' := by
  obtain ⟨K, hK⟩ := h
  have hj : ∀ n, K ≤ n → joinLoop (ptrStr st n) c!" " [] args = .ok (joined ts) := fun n hn => joinLoop_joined (hK n hn)
  simp only [binding, ← mapFind_eq_lookup] at hb
  cases ht : mapFind traceonKey (st.scopes s).vars with
  | none =>
    exact ⟨st, ⟨K, fun n hn => by simp only [stringRep, M.bind_apply, M.rd_apply, hj n hn, M.get_apply, ht, M.pure_apply]⟩, same_of_extends (Extends.refl _)⟩
  | some p =>
    cases p with
    | null => exact ⟨st, ⟨K, fun n hn => by simp only [stringRep, M.bind_apply, M.rd_apply, hj n hn, M.get_apply, ht, M.pure_apply]⟩, same_of_extends (Extends.refl _)⟩
    | mk i x =>
      rcases hb with hb | ⟨j, t, hb⟩
      · rw [show c!"###traceon###" = traceonKey from rfl, ht] at hb; cases hb
      · refine ⟨{ st with next := st.next + 1, scopes := fset st.scopes s { st.scopes s with vars := mapSet tracebufferKey (.mk st.next (.str (t ++ joined ts))) (st.scopes s).vars } },
          ⟨K + 1, fun n hn => ?_⟩, ?_⟩
        · obtain ⟨n, rfl⟩ : ∃ m, n = m + 1 := ⟨n - 1, by omega⟩
          rw [show c!"###tracebuffer###" = tracebufferKey from rfl] at hb
          have hp : ptrStr st (n + 1) (.mk j (.str t)) = .ok t := by simp [ptrStr]
          simp only [stringRep, M.bind_apply, M.rd_apply, hj (n + 1) (by omega), M.get_apply, ht, hb, hp, allocObj, setVar, modScope, M.modify_apply, M.pure_apply]
        · refine ⟨Nat.le_succ _, fun _ _ => rfl, fun _ _ => rfl, fun k _ => ?_, fun k _ n hn => ?_, fun k _ hk => ?_, fun k _ hk => ?_, by simp, rfl, fun _ _ => rfl, rfl, rfl⟩
          · by_cases h : k = s <;> simp [fset, h, Fuel.key]
          · by_cases h : k = s
            · subst h
              simp only [binding, fset_self, lookup_mapSet]
              exact if_neg hn
            · simp [fset, h, binding]
          · by_cases h : k = s
            · subst h
              refine ⟨st.next, t ++ joined ts, ?_⟩
              simp only [binding, fset_self, lookup_mapSet]
              rfl
            · simpa [fset, h, binding] using hk
          · by_cases h : k = s
            · subst h
              simp only [binding, ← mapFind_eq_lookup, hb] at hk
              cases hk
            · simpa [fset, h, binding] using hk

theorem apply_prints {f : Nat} {n : Str} {vs : List Val} {s t : Str} (h : Prints n vs s t) : ApplyOk f (.prim n) vs R (.str s) (R.write t) := by
  intro o st μ u args hs hf hu ha
  obtain ⟨e, he, hn, hw⟩ := isVal_prim_inv hu
  have key : ∀ {ts : List Str} {b : Builtin}, ShownAll false vs ts → s = joined ts → (n, b, false) ∈ coreTable →
      (∀ k st1 st2, stringRep k args (μ f) st1 = .ok s st2 → callPrim (run k) b args (μ f) st1 =
        .ok (some (.ofType .string (.mk st2.next (.str s)))) { st2 with out := st2.out ++ t, next := st2.next + 1 }) →
      ∃ fw, IsFn u fw ∧ fw.special = false ∧ ∃ x st' μ', Calls fw args (μ f) st (.ok (some x) st') ∧ IsVal st' μ' (R.write t).count x (.str s) ∧
      Res o st μ R.count st' μ' (R.write t) := by
    intro ts b h1 h2 h3 h4
    subst h2
    obtain ⟨h5, h6⟩ := core_entry he _ h3 hn
    obtain ⟨st1, ⟨K, hK⟩, h7⟩ := stringRep_ok (hs.buffer f hf) (shown_args ha h1)
    have hC : Calls e.wrapper args (μ f) st (.ok (some (.ofType .string (.mk st1.next (.str (joined ts))))) { st1 with out := st1.out ++ t, next := st1.next + 1 }) :=
      (calls_prim rfl).2 (lim_of (ends_ok _ _) K (by rw [h5]; exact h4 _ _ _ (hK K (Nat.le_refl _))))
    have hl := calls_links hC hs.links (hs.old f hf)
    have hsame : Same st t { st1 with out := st1.out ++ t, next := st1.next + 1 } :=
      ⟨Nat.le_succ_of_le h7.next, h7.lists, h7.clos, h7.key, h7.vars, h7.buffer, h7.plain, by
        show st1.out ++ t = _; rw [h7.out]; simp, h7.input, h7.dicts, h7.files, h7.libPath⟩
    exact ⟨_, hw, h6, _, _, μ, hC, .str ⟨rfl, _, rfl⟩ (nsp rfl), hs.same hsame hl, hsame.grow _ _⟩
  cases h with
  | print h => exact key h rfl (by decide : (_, Builtin.print, false) ∈ coreTable) (fun k st1 st2 hr => by
      simp [callPrim, ret, bPrint, run_n, hr, write, mkStr, mkAtom, allocObj, Obj.lispType, Variant.ofType])
  | println h => exact key h rfl (by decide : (_, Builtin.println, false) ∈ coreTable) (fun k st1 st2 hr => by
      simp [callPrim, ret, bPrintLn, run_n, hr, writeLine, write, mkStr, mkAtom, allocObj, Obj.lispType, Variant.ofType])

theorem apply_return {f : Nat} {v : Val} : ApplyOk f (.prim c!"return") [v] R v (R.mark f) := by
  intro o st μ u args hs hf hu ha
  obtain ⟨e, he, hn, hw⟩ := isVal_prim_inv hu
  obtain ⟨h5, h6⟩ := core_entry he (c!"return", .return_, false) (by decide) hn
  obtain ⟨i, x, rfl, hx⟩ := args_one ha
  obtain ⟨h7, h8⟩ := hs.returned hf
  have hC : Calls e.wrapper [.mk i (.var x)] (μ f) st (.ok (some x) { st with scopes := fset st.scopes (μ f) { st.scopes (μ f) with isInReturn := true } }) :=
    (calls_prim rfl).2 (lim_of (ends_ok _ _) 0 (by
      rw [h5]
      simp [callPrim, ret, bReturn, modScope, argMk, arg, mkVariant]))
  exact ⟨_, hw, h6, x, _, μ, hC, isVal_grow h8 hx, h7, h8⟩

theorem params_of {fp : Ptr} {ps : List Str} (h : CodeAt st fp (.list (ps.map .sym))) : Params st fp ps := by
  obtain ⟨c, h2, h3⟩ := h
  cases h3 with
  | list h3 =>
    cases h2 with
    | @list j _ hj h2 =>
      have hsyms : ∀ {qs : List Ptr} {es : List Sexp}, All2 (CodeAt st) qs es → ∀ {ps : List Str}, es = ps.map .sym → All2 (fun q n => Holds q (IsSym · n)) qs ps := by
        intro qs es h
        induction h with
        | nil => intro ps hp; cases ps with
          | nil => exact .nil
          | cons _ _ => cases hp
        | cons h _ ih => intro ps hp; cases ps with
          | nil => cases hp
          | cons _ _ =>
            cases hp
            obtain ⟨_, _, rfl, hv, -⟩ := codeAt_sym h
            exact .cons ⟨_, _, rfl, hv⟩ (ih rfl)
      exact .inl ⟨j, rfl, hsyms (codeAt_all h2 h3) rfl⟩

theorem apply_clo {f g : Nat} {ps : List Str} {body : Sexp} {vs : List Val} {v : Val} {R' : Conf} (hd : ps.Nodup) (hh : ∀ p ∈ ps, p ∉ hidden)
    (hb : ExecOk R.count body (R.enter ps vs g) v R') : ApplyOk f (.clo ps body g) vs R v R' := by
  intro o st μ u args hs hf hu ha
  cases hu with
  | @clo _ w cid _ fp bp cs _ c _ hw hu hk hsp _ hc hg h1 h2 h3 h4 h5 h6 =>
    obtain ⟨child, st1, hE, hcall⟩ := C31_call (args := args) (hs.old f hf) hk rfl h2 (params_of ⟨_, h3, .list h4⟩) hd
      (fun h => hh _ h (by decide)) (fun h => hh _ h (by decide))
    obtain ⟨h7, h8⟩ := hs.entered hf hg hE h1 ha hh
    have hcode : CodeAt st1 bp body := codeAt_grow h8 ⟨_, h5, h6⟩
    obtain ⟨x, st2, μ2, h9, h10, h11⟩ := hb o st1 _ bp h7 (Nat.lt_succ_self _) hcode
    simp only [Spec.Core.Emb.enter, fset_self] at h9
    have hC := (hcall (.ok (some x) (popped (μ f) child st2))).2 ⟨_, h9, rfl⟩
    have hl := calls_links hC hs.links (hs.old f hf)
    have hsame := same_popped st2 (μ f) child
    exact ⟨w, hw, hsp, x, _, μ2, hC, isVal_grow (hsame.grow _ _) h10, h11.sim.same' hsame hl, (h8.trans h11.grow).trans (hsame.grow _ _)⟩

theorem copy_notList {N : Nat} {p : Ptr} {ps : List Ptr} {x : Val} {l : List Val} (h : AreVals st μ N (p :: ps) (x :: l)) (hx : NotList x) :
    ∃ i v, p = .mk i (.var v) ∧ IsVal st μ N v x ∧ AreVals st μ N ps l := by
  cases h with
  | value h t => exact ⟨_, _, rfl, h, t⟩
  | bare => cases hx

theorem calls1_nil {f : Nat} {w : Val} : Calls1Ok f w [] R [] R := by
  intro o st μ u fw ps hs hf hu hw hp
  cases hp
  exact ⟨[], st, μ, ⟨0, fun _ _ => rfl⟩, .nil, Res.refl hs⟩

theorem calls1_cons {f : Nat} {w x v : Val} {l vs : List Val} {R1 R2 : Conf} (hx : NotList x) (ha : ApplyOk f w [x] R v R1) (ht : Calls1Ok f w l R1 vs R2) :
    Calls1Ok f w (x :: l) R (v :: vs) R2 := by
  intro o st μ u fw ps hs hf hu hw hp
  cases ps with
  | nil => cases hp
  | cons p ps =>
    obtain ⟨i, y, rfl, hy, hps⟩ := copy_notList hp hx
    have r0 : Res o st μ R.count { st with next := st.next + 1 } μ R := Res.of_extends hs (extends_next _ _ (Nat.le_succ _)) (links_next hs.links _ (Nat.le_succ _))
    obtain ⟨fw', h1, -, z, st1, μ1, h2, h3, h4⟩ := ha o _ μ u [.mk st.next (.var y)] r0.sim hf (isVal_grow r0.grow hu) (.cons ⟨_, _, rfl, isVal_grow r0.grow hy⟩ .nil)
    cases isFn_unique hw h1
    have hm : μ1 f = μ f := h4.grow.same f hf
    have r1 : Res o st1 μ1 R1.count { st1 with next := st1.next + 1 } μ1 R1 :=
      Res.of_extends h4.sim (extends_next _ _ (Nat.le_succ _)) (links_next h4.sim.links _ (Nat.le_succ _))
    have r2 := (r0.trans h4).trans r1
    obtain ⟨qs, st2, μ2, ⟨K2, h5⟩, h6, h7⟩ := ht o _ μ1 u fw ps r1.sim (r2.lt hf) (isVal_grow r2.grow hu) hw (areVals_grow r2.grow hps)
    obtain ⟨K1, h2⟩ := h2.stable
    refine ⟨.mk st1.next (.var z) :: qs, st2, μ2, ⟨max K1 K2, fun k hk => ?_⟩, .value (isVal_grow (r1.trans h7).grow h3) h6, r2.trans h7⟩
    rw [hm] at h5
    simp only [mapLoop, M.bind_apply, copyObj, allocObj, h2 k (by omega), derefV, box, h5 k (by omega), M.pure_apply]

theorem apply_map {f : Nat} {w : Val} {l vs : List Val} {R' : Conf} (hw : Callable w) (hc : Calls1Ok f w l R vs R') :
    ApplyOk f (.prim c!"map") [w, .list l] R (.list vs) R' := by
  intro o st μ u args hs hf hu ha
  obtain ⟨e, he, hn, hfn⟩ := isVal_prim_inv hu
  obtain ⟨h5, h6⟩ := core_entry he (c!"map", .map, false) (by decide) hn
  obtain ⟨i, x, j, y, rfl, hx, hy⟩ := args_two ha
  obtain ⟨fw, hfw⟩ := isVal_callable hw hx
  obtain ⟨ps, hp1, hp2, -⟩ := isVal_list_inv hy
  obtain ⟨qs, st1, μ1, ⟨K, hK⟩, h7, h8⟩ := hc o st μ x fw ps hs hf hx hfw hp2
  have hE := extends_list st1 qs
  have hC : Calls e.wrapper [.mk i (.var x), .mk j (.var y)] (μ f) st (.ok (some ⟨.list, .mk st1.next .list, .none, none⟩) { st1 with next := st1.next + 1, lists := fset st1.lists st1.next qs }) :=
    (calls_prim rfl).2 (lim_of (ends_ok _ _) K (by
      rw [h5]
      simp [callPrim, ret, bMap, checkArgs, arg, checkForFunction, toVariant_var, hfw.1, M.rd_apply, functionValue_fn hfw, checkForList_list _ _ _ ⟨j, y, rfl, hp1⟩, hK K (Nat.le_refl _),
        mkList, allocList]))
  have hl := calls_links hC hs.links (hs.old f hf)
  exact ⟨_, hfn, h6, _, _, μ1, hC, .list ⟨rfl, rfl⟩ (nsp rfl) (Nat.lt_succ_self _) (by simpa using areVals_extends hE h7), h8.trans (Res.of_extends h8.sim hE hl)⟩

theorem calls2_nil {f : Nat} {w a : Val} : Calls2Ok f w a [] R a R := by
  intro o st μ u fw acc ps hs hf hu hw ha hp
  cases hp
  exact ⟨acc, st, μ, ⟨0, fun _ _ => rfl⟩, ha, Res.refl hs⟩

theorem calls2_cons {f : Nat} {w a x v r : Val} {l : List Val} {R1 R2 : Conf} (hx : NotList x) (ha : ApplyOk f w [x, a] R v R1) (ht : Calls2Ok f w v l R1 r R2) :
    Calls2Ok f w a (x :: l) R r R2 := by
  intro o st μ u fw acc ps hs hf hu hw hacc hp
  cases ps with
  | nil => cases hp
  | cons p ps =>
    obtain ⟨i, y, rfl, hy, hps⟩ := copy_notList hp hx
    have r0 : Res o st μ R.count { st with next := st.next + 1 + 1 } μ R :=
      Res.of_extends hs (extends_next _ _ (Nat.le_add_right st.next 2)) (links_next hs.links _ (Nat.le_add_right st.next 2))
    obtain ⟨fw', h1, -, z, st1, μ1, h2, h3, h4⟩ := ha o _ μ u [.mk st.next (.var y), .mk (st.next + 1) (.var acc)] r0.sim hf (isVal_grow r0.grow hu)
      (.cons ⟨_, _, rfl, isVal_grow r0.grow hy⟩ (.cons ⟨_, _, rfl, isVal_grow r0.grow hacc⟩ .nil))
    cases isFn_unique hw h1
    have hm : μ1 f = μ f := h4.grow.same f hf
    have r2 := r0.trans h4
    obtain ⟨q, st2, μ2, ⟨K2, h5⟩, h6, h7⟩ := ht o _ μ1 u fw z ps h4.sim (r2.lt hf) (isVal_grow r2.grow hu) hw h3 (areVals_grow r2.grow hps)
    obtain ⟨K1, h2⟩ := h2.stable
    refine ⟨q, st2, μ2, ⟨max K1 K2, fun k hk => ?_⟩, h6, r2.trans h7⟩
    rw [hm] at h5
    simp only [reduceLoop, M.bind_apply, copyObj, allocObj, box, h2 k (by omega), derefV, h5 k (by omega), M.pure_apply]

theorem apply_reduce {f : Nat} {w a v : Val} {l : List Val} {R' : Conf} (hw : Callable w) (hc : Calls2Ok f w a l R v R') :
    ApplyOk f (.prim c!"reduce") [w, .list l, a] R v R' := by
  intro o st μ u args hs hf hu ha
  obtain ⟨e, he, hn, hfn⟩ := isVal_prim_inv hu
  obtain ⟨h5, h6⟩ := core_entry he (c!"reduce", .reduce, false) (by decide) hn
  obtain ⟨i, x, j, y, k, z, rfl, hx, hy, hz⟩ := args_three ha
  obtain ⟨fw, hfw⟩ := isVal_callable hw hx
  obtain ⟨ps, hp1, hp2, -⟩ := isVal_list_inv hy
  obtain ⟨q, st1, μ1, ⟨K, hK⟩, h7, h8⟩ := hc o st μ x fw z ps hs hf hx hfw hz hp2
  have hC : Calls e.wrapper [.mk i (.var x), .mk j (.var y), .mk k (.var z)] (μ f) st (.ok (some q) st1) :=
    (calls_prim rfl).2 (lim_of (ends_ok _ _) K (by
      rw [h5]
      simp [callPrim, ret, bReduce, checkArgs, arg, argV, checkForFunction, toVariant_var, hfw.1, M.rd_apply, functionValue_fn hfw, checkForList_list _ _ _ ⟨j, y, rfl, hp1⟩, hK K (Nat.le_refl _)]))
  exact ⟨_, hfn, h6, _, _, μ1, hC, h7, h8⟩

theorem areVals_args {N : Nat} {ps : List Ptr} {l : List Val} (h : AreVals st μ N ps l) (hl : ∀ x ∈ l, NotList x) : Args st μ N ps l := by
  induction ps generalizing l with
  | nil => cases h; exact .nil
  | cons p ps ih =>
    cases l with
    | nil => cases h
    | cons x l =>
      obtain ⟨i, v, rfl, h1, h2⟩ := copy_notList h (hl x (by simp))
      exact .cons ⟨i, v, rfl, h1⟩ (ih h2 fun y hy => hl y (by simp [hy]))

theorem apply_apply {f : Nat} {w v : Val} {l : List Val} {R' : Conf} (hl : ∀ x ∈ l, NotList x) (hc : ApplyOk f w l R v R') :
    ApplyOk f (.prim c!"apply") [w, .list l] R v R' := by
  intro o st μ u args hs hf hu ha
  obtain ⟨e, he, hn, hfn⟩ := isVal_prim_inv hu
  obtain ⟨h5, h6⟩ := core_entry he (c!"apply", .apply, false) (by decide) hn
  obtain ⟨i, x, j, y, rfl, hx, hy⟩ := args_two ha
  obtain ⟨ps, hp1, hp2, hty⟩ := isVal_list_inv hy
  obtain ⟨fw, hfw, -, z, st1, μ1, h7, h8, h9⟩ := hc o st μ x ps hs hf hx (areVals_args hp2 hl)
  obtain ⟨K, h7⟩ := h7.stable
  have hev : (run (K + 1)).eval (.mk i (.var x)) (μ f) st = .ok (some x) st := by
    rw [run_eval]; simp [evalStep, hfw.1]
  have hC : Calls e.wrapper [.mk i (.var x), .mk j (.var y)] (μ f) st (.ok (some z) st1) :=
    (calls_prim rfl).2 (lim_of (ends_ok _ _) (K + 1) (by
      rw [h5]
      simp [callPrim, bApply, checkArgs, arg, argV, toVariant_var, hev, isList_of hp1, M.rd_apply, listValue_list hp1, derefV, functionValue_fn hfw, h7 (K + 1) (by omega)]))
  exact ⟨_, hfn, h6, _, _, μ1, hC, h8, h9⟩

end

end Fuel
