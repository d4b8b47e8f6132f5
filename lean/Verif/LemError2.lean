import Verif.LemRun2
import Verif.LemError
import Verif.PropsAssign
/-!
# Errors of the core language: programs
-/

set_option linter.unusedSectionVars false
set_option linter.unusedSimpArgs false
set_option linter.unusedVariables false

namespace Fuel

open Spec Spec.Core

section
variable [World]

/-- The error, and the text written until then. -/
def Err (o : Origin) (msg t : Str) (x : Fail) (st : St) : Prop := ErrIs msg x ∧ st.out = o.out ++ t

/-! ## What is to be shown for each kind of rule -/

def FailsOk (f : Nat) (e : Sexp) (R : Conf) (msg t : Str) : Prop :=
  ∀ o st μ p, Sim o st μ R → f < R.count → CodeAt st p e →
    (∃ i, p = .mk i .list) ∧ ∃ x st', Evals p (μ f) st (.fail x st') ∧ Err o msg t x st'

def OperandsFailOk (f : Nat) (R0 : Conf) (es : List Sexp) (R : Conf) (msg t : Str) : Prop :=
  ∀ o st0 μ0 st μ ps, Sim o st0 μ0 R0 → f < R0.count → All2 (CodeAt st0) ps es → Sim o st μ R → Grow st0 μ0 R0.count st μ R.count →
    ∃ ps' x st', All2 (Resolved st0 (μ0 f)) ps ps' ∧ (∃ K, ∀ k, K ≤ k → evalArgs (run k) false (μ0 f) ps' st = .fail x st') ∧ Err o msg t x st'

def LoopFailsOk (f : Nat) (c b : Sexp) (R : Conf) (msg t : Str) : Prop :=
  ∀ o st μ pc pb r, Sim o st μ R → f < R.count → CodeAt st pc c → CodeAt st pb b →
    ∃ x st', Lim (fun k => whileFrom k pc pb (μ f) r st) (.fail x st') ∧ Err o msg t x st'

def SeqFailsOk (f : Nat) (es : List Sexp) (R : Conf) (msg t : Str) : Prop :=
  ∀ o st μ ps rv, Sim o st μ R → f < R.count → All2 (CodeAt st) ps es →
    ∃ x st', DoRun (μ f) rv ps st (.fail x st') ∧ Err o msg t x st'

def ConjFailsOk (f : Nat) (es : List Sexp) (R : Conf) (msg t : Str) : Prop :=
  ∀ o st μ ps, Sim o st μ R → f < R.count → All2 (CodeAt st) ps es →
    ∃ x st', (∃ K, ∀ k, K ≤ k → boolLoop (run k) true (μ f) true ps st = .fail x st') ∧ Err o msg t x st'

def ApplyFailsOk (f : Nat) (w : Val) (vs : List Val) (R : Conf) (msg t : Str) : Prop :=
  ∀ o st μ u args, Sim o st μ R → f < R.count → IsVal st μ R.count u w → Args st μ R.count args vs →
    ∃ fw, IsFn u fw ∧ fw.special = false ∧ ∃ x st', Calls fw args (μ f) st (.fail x st') ∧ Err o msg t x st'

def Calls1FailOk (f : Nat) (w : Val) (l : List Val) (R : Conf) (msg t : Str) : Prop :=
  ∀ o st μ u fw ps, Sim o st μ R → f < R.count → IsVal st μ R.count u w → IsFn u fw → AreVals st μ R.count ps l →
    ∃ x st', (∃ K, ∀ k, K ≤ k → mapLoop (run k) fw (μ f) ps st = .fail x st') ∧ Err o msg t x st'

def Calls2FailOk (f : Nat) (w a : Val) (l : List Val) (R : Conf) (msg t : Str) : Prop :=
  ∀ o st μ u fw acc ps, Sim o st μ R → f < R.count → IsVal st μ R.count u w → IsFn u fw → IsVal st μ R.count acc a → AreVals st μ R.count ps l →
    ∃ x st', (∃ K, ∀ k, K ≤ k → reduceLoop (run k) fw (μ f) acc ps st = .fail x st') ∧ Err o msg t x st'

def FilledFailsOk (f : Nat) (e : Sexp) (R : Conf) (msg t : Str) : Prop :=
  ∀ o st μ p, Sim o st μ R → f < R.count → CodeAt st p e →
    ∃ i, p = .mk i .list ∧ ∃ x st', (∃ K, ∀ k, K ≤ k → (run k).procQ (st.lists i) (μ f) st = .fail x st') ∧ Err o msg t x st'

def FilledAllFailOk (f : Nat) (l : List Sexp) (R : Conf) (msg t : Str) : Prop :=
  ∀ o st μ ps, Sim o st μ R → f < R.count → All2 (CodeAt st) ps l →
    ∃ x st', (∃ K, ∀ k, K ≤ k → procQLoop (run k) (μ f) ps st = .fail x st') ∧ Err o msg t x st'

/-! ## Names -/

variable {o : Origin} {st : St} {μ : Emb} {R : Conf}

theorem Sim.resolved (h : Sim o st μ R) {f : Nat} (hf : f < R.count) {ps : List Ptr} {es : List Sexp} (hc : All2 (CodeAt st) ps es) :
    ∃ ps', All2 (Resolved st (μ f)) ps ps' := by
  induction hc with
  | nil => exact ⟨[], .nil⟩
  | cons hp _ ih =>
    obtain ⟨ps', ih⟩ := ih
    obtain ⟨c, h1, h2⟩ := hp
    cases h1 with
    | list => exact ⟨_, .cons .list ih⟩
    | @val i u =>
      cases h2 with
      | @sym _ n hy =>
        obtain ⟨r, hr⟩ := h.lookup_total hf n
        cases r with
        | some p => exact ⟨_, .cons (.symbol hy hr) ih⟩
        | none => exact ⟨_, .cons (.unknown hy hr) ih⟩
      | int hy => exact ⟨_, .cons (.value (by simp [hy.1])) ih⟩
      | float _ hy => exact ⟨_, .cons (.value (by simp [hy.1])) ih⟩
      | str hy => exact ⟨_, .cons (.value (by simp [hy.1])) ih⟩
      | bool hy => exact ⟨_, .cons (.value (by simp [hy.1])) ih⟩
      | nil hy => exact ⟨_, .cons (.value (by simp [show _ = _ from hy])) ih⟩

/-! ## The evaluation of a call -/

theorem err_same (hs : Sim o st μ R) {msg : Str} {x : Fail} (hx : ErrIs msg x) {st' : St} (h : st'.out = st.out) : Err o msg R.out x st' :=
  ⟨hx, h.trans hs.out⟩

theorem atToken_out (st : St) (s : Nat) (t : Option Token) : (atToken st s t).out = st.out := by cases t <;> rfl

theorem headFunction_err {st : St} {n sid i : Nat} {v : Variant} {s t : Str} (h : v.type ≠ .function) (hs : v.stringValue st n = .ok s) (hb : Sound s)
    (ht : ptrStr st n (.mk i (.var v)) = .ok t) : headFunction st n sid (.mk i (.var v)) = .error (scopeExn (st.scopes sid) (functionText t)) := by
  have h1 : v.functionValue st n = .error (exnNoScope (castText c!"function" s c!"not found") v.tok) := by
    simp only [Variant.functionValue, if_pos h]
    exact castExn_eq hs hb ⟨by simp [BraceFree], by simp⟩ ⟨by simp [BraceFree], by simp⟩
  obtain ⟨a, b, c, d, e, h2⟩ := errIs_noScope (castText c!"function" s c!"not found") v.tok
  rw [h2] at h1
  simp only [headFunction, toVariant_var, bind_ok_R, h1, ht, functionText]

/-- The head is no function. -/
theorem evals_noFunction {sid i j : Nat} {u : Variant} {tl : List Ptr} {h : Str} {r : Option Ptr} (ha : Acyclic st) (hl : st.lists i = .mk j (.var u) :: tl) (hu : IsSym u h)
    (hm : NoMacro st sid h) (hk : Lookup st sid h r) {k : Nat} {v : Variant} (hr : r.getD (.mk j (.var u)) = .mk k (.var v)) (hv : v.type ≠ .function) {s t : Str} (hb : Sound s)
    {K : Nat} (hs : ∀ n, K ≤ n → v.stringValue (atToken st sid u.tok) n = .ok s ∧ ptrStr (atToken st sid u.tok) n (.mk k (.var v)) = .ok t) :
    ∃ x st', Evals (.mk i .list) sid st (.fail x st') ∧ ErrIs (functionText t) x ∧ st'.out = st.out := by
  refine ⟨scopeExn ((atToken st sid u.tok).scopes sid) (functionText t), atToken st sid u.tok, ?_, errIs_scope _ _, atToken_out _ _ _⟩
  refine lim_of (errIs_exn (errIs_scope _ _) _) (K + 3 + 1) ?_
  show (run (K + 3 + 1)).eval _ _ _ = _
  rw [run_eval]
  have hsn := sameNames_atToken st sid u.tok
  have e1 : resolveElem (atToken st sid u.tok) (K + 3) sid (.mk j (.var u)) = .ok (.mk k (.var v)) := by
    rw [resolveElem_sym (n := K) (hsn.acyclic ha) hu (hsn.lookup hk), hr]
  obtain ⟨e2, e3⟩ := hs (K + 3) (by omega)
  simp only [evalStep, M.bind_apply, M.rd_apply, toListRef, hl, evalList, run_n, getMacro_none (ptrStr_sym hu) hm, M.lift_apply, toVariant]
  simp only [setCurTok_apply, resolveArgs, e1, bind_ok_R, headFunction_err hv e2 hb e3]
  rfl

theorem fails_unknown {f : Nat} {e : Sexp} {h : Str} {args : List Sexp} (hF : Form e h args) (hm : R.macros h = none) (hu : Unknown R f h) (hb : Sound h) :
    FailsOk f e R (functionText h) R.out := by
  intro o st μ p hs hf hc
  obtain ⟨i, j, v, tl, rfl, h1, h2, h3⟩ := form_code hF hc
  obtain ⟨x, st', h4, h5, h6⟩ := evals_noFunction hs.links.old h1 h2 (hs.noMacro hf hm) (hs.unknown hf hu).2 rfl (by simp [h2.1]) (s := h) (t := h) hb (K := 3) fun n hn => by
    obtain ⟨n, rfl⟩ : ∃ m, n = m + 3 := ⟨n - 3, by omega⟩
    refine ⟨?_, ptrStr_sym h2⟩
    obtain ⟨-, a, h2⟩ := h2
    simp [Variant.stringValue, h2, ptrStr]
  exact ⟨⟨i, rfl⟩, x, st', h4, err_same hs h5 h6⟩

theorem fails_noFunction {f : Nat} {e : Sexp} {h s t : Str} {args : List Sexp} {w : Val} (hF : Form e h args) (hV : Head R f h w) (hr : Raw w s) (hb : Sound s) (ht : Shown false w t) :
    FailsOk f e R (functionText t) R.out := by
  intro o st μ p hs hf hc
  obtain ⟨i, j, v, tl, rfl, h1, h2, h3⟩ := form_code hF hc
  obtain ⟨-, q, h4, k, u, rfl, h5⟩ := hs.lookup hf hV.2
  have hg := (Res.of_same hs (same_atToken st (μ f) v.tok) (links_atToken hs.links _ _)).grow
  have h6 := isVal_grow hg h5
  obtain ⟨K, hK⟩ := (shown_ok ht).1 u h6
  have hu : u.type ≠ .function := by rw [isVal_type h5]; cases hr <;> simp [kindOf]
  obtain ⟨x, st', h4, h5, h6⟩ := evals_noFunction hs.links.old h1 h2 (hs.noMacro hf hV.1) h4 rfl hu (s := s) (t := t) hb (K := K + 1) fun n hn => by
    obtain ⟨n, rfl⟩ : ∃ m, n = m + 1 := ⟨n - 1, by omega⟩
    refine ⟨raw_string h6 hr n, ?_⟩
    rw [ptrStr_var]
    exact (hK _ (by omega)).1 rfl
  exact ⟨⟨i, rfl⟩, x, st', h4, err_same hs h5 h6⟩

/-- A special form. -/
theorem special_means (h : Sim o st μ R) {f : Nat} (hf : f < R.count) {p : Ptr} {e : Sexp} {n : Str} {args : List Sexp} (hF : Form e n args)
    (hc : CodeAt st p e) {d : Str} (hv : Head R f n (.prim d)) {b : Builtin} (hd : Means d b true) :
    (∃ i, p = .mk i .list) ∧ ∃ tl st0, IsSpecial st (μ f) p b tl st0 ∧ All2 (CodeAt st0) tl args ∧ Res o st μ R.count st0 μ R := by
  obtain ⟨i, _, _, _, rfl, -⟩ := form_code hF hc
  obtain ⟨u, tl, st0, h1, h2, -, h3, h4⟩ := isForm_of h hf hF hc hv
  obtain ⟨e, he, hn, hfn⟩ := isVal_prim_inv h1
  obtain ⟨h5, h6⟩ := meansFn_entry hd he hn
  exact ⟨⟨i, rfl⟩, tl, st0, ⟨_, h2 _ hfn, by simpa [Entry.wrapper] using h5, by simpa [Entry.wrapper] using h6⟩, h3, h4⟩

theorem means_table {n : Str} {b : Builtin} {s : Bool} (h : ∃ e ∈ defaultTable, e.name = n ∧ e.fn = b ∧ e.special = s) : Means n b s := h

theorem table_core : ∀ c ∈ coreTable, ∃ e ∈ defaultTable, e.name = c.1 ∧ e.fn = c.2.1 ∧ e.special = c.2.2 := by decide +kernel

theorem special_core (h : Sim o st μ R) {f : Nat} (hf : f < R.count) {p : Ptr} {e : Sexp} {n : Str} {args : List Sexp} (hF : Form e n args)
    (hc : CodeAt st p e) {d : Str} (hv : Head R f n (.prim d)) (b : Builtin) (hd : (d, b, true) ∈ coreTable) :
    (∃ i, p = .mk i .list) ∧ ∃ tl st0, IsSpecial st (μ f) p b tl st0 ∧ All2 (CodeAt st0) tl args ∧ Res o st μ R.count st0 μ R :=
  special_means h hf hF hc hv (table_core _ hd)

theorem all2_length' {α β : Type} {P : α → β → Prop} {l : List α} {m : List β} (h : All2 P l m) : l.length = m.length := by
  induction h with
  | nil => rfl
  | cons _ _ ih => simp [ih]

theorem fails_count {f : Nat} {e : Sexp} {h d m : Str} {args : List Sexp} {b : Builtin} {lo hi : Nat} (hF : Form e h args) (hV : Head R f h (.prim d)) (hd : Means d b true)
    (ha : arity b = some (m, lo, hi)) (hn : args.length < lo ∨ hi < args.length) : FailsOk f e R (arityMessage m lo hi args.length) R.out := by
  intro o st μ p hs hf hc
  obtain ⟨hp, tl, st0, h1, h2, h3⟩ := special_means hs hf hF hc hV hd
  have hl := all2_length' h2
  obtain ⟨x, st', g1, rfl, l, a, b, m, rfl⟩ := C63_arity 0 (μ f) st0 ha (args := tl) (by rw [hl]; exact hn)
  exact ⟨hp, _, _, (evals_special hs.links.old h1).2 (lim_of (ends_exn _ _) 0 g1), by rw [hl]; exact ⟨_, _, _, _, _, rfl⟩, h3.sim.out⟩

theorem fails_ifCount {f : Nat} {e : Sexp} {h : Str} {args : List Sexp} (hF : Form e h args) (hV : Head R f h (.prim c!"if")) (hn : args.length < 2 ∨ 3 < args.length) :
    FailsOk f e R (c!"Bad argument count in if, has " ++ natStr args.length ++ c!" expected 18446744073709551615") R.out := by
  intro o st μ p hs hf hc
  obtain ⟨hp, tl, st0, h1, h2, h3⟩ := special_core hs hf hF hc hV .if_ (by decide)
  have hl := all2_length' h2
  obtain ⟨x, st', g1, rfl, l, a, b, m, rfl⟩ := C63_if 0 (args := tl) (μ f) st0 (by rw [hl]; exact hn)
  exact ⟨hp, _, _, (evals_special hs.links.old h1).2 (lim_of (ends_exn _ _) 0 g1), by rw [hl]; exact ⟨_, _, _, _, _, rfl⟩, h3.sim.out⟩

/-- `if` evaluates the condition first. -/
theorem bIf_go {k sid : Nat} {tl : List Ptr} {pc : Ptr} (h : tl.length = 1 ∨ tl.length = 2) : ∃ a b, bIf (run k) (pc :: tl) sid = bIf.go (run k) sid pc a b := by
  match tl, h with
  | [a], _ => exact ⟨_, _, rfl⟩
  | [a, b], _ => exact ⟨_, _, rfl⟩

theorem fails_ifCond {f : Nat} {e c : Sexp} {h msg t : Str} {l : List Sexp} (hF : Form e h (c :: l)) (hV : Head R f h (.prim c!"if")) (hl : l.length = 1 ∨ l.length = 2)
    (hx : FailsOk f c R msg t) : FailsOk f e R msg t := by
  intro o st μ p hs hf hc
  obtain ⟨hp, tl, st0, h1, h2, h3⟩ := special_core hs hf hF hc hV .if_ (by decide)
  cases h2 with
  | @cons pc _ tl _ h2 h2' =>
    obtain ⟨-, x, st', h4, h5⟩ := hx o st0 μ _ h3.sim hf h2
    obtain ⟨K, h4'⟩ := h4.stable
    obtain ⟨a, b, hgo⟩ := bIf_go (k := K) (sid := μ f) (pc := pc) (tl := tl) (by rw [all2_length' h2']; exact hl)
    refine ⟨hp, x, st', (evals_special hs.links.old h1).2 (lim_of h4.1 K ?_), h5⟩
    simp only [callPrim, hgo, bIf.go, M.bind_apply, h4' K (Nat.le_refl _)]

theorem fails_ifBad {f : Nat} {e c : Sexp} {h s : Str} {l : List Sexp} {v : Val} {R1 : Conf} (hF : Form e h (c :: l)) (hV : Head R f h (.prim c!"if")) (hl : l.length = 1 ∨ l.length = 2)
    (hx : ExecOk f c R v R1) (hv : ∀ b, v ≠ .bool b) (hr : Raw v s) (hb : Sound s) : FailsOk f e R (castText c!"bool" s c!"no") R1.out := by
  intro o st μ p hs hf hc
  obtain ⟨hp, tl, st0, h1, h2, h3⟩ := special_core hs hf hF hc hV .if_ (by decide)
  cases h2 with
  | @cons pc _ tl _ h2 h2' =>
    obtain ⟨w, st1, μ1, h4, h5, h6⟩ := hx o st0 μ _ h3.sim hf h2
    obtain ⟨K, h4'⟩ := h4.stable
    obtain ⟨a, b, hgo⟩ := bIf_go (k := K + 1) (sid := μ f) (pc := pc) (tl := tl) (by rw [all2_length' h2']; exact hl)
    refine ⟨hp, _, st1, (evals_special hs.links.old h1).2 (lim_of (errIs_exn (errIs_noScope _ w.tok) _) (K + 1) ?_), errIs_noScope _ w.tok, h6.sim.out⟩
    simp only [callPrim, hgo, bIf.go, M.bind_apply, h4' (K + 1) (by omega), derefV, M.pure_apply, M.rd_apply, run_n, boolValue_bad h5 hv hr hb K]

theorem fails_ifBranch {f : Nat} {e c a b : Sexp} {h msg o : Str} {t : Bool} {R1 : Conf} (hF : Form e h [c, a, b]) (hV : Head R f h (.prim c!"if"))
    (hc : ExecOk f c R (.bool t) R1) (hb : FailsOk f (if t then a else b) R1 msg o) : FailsOk f e R msg o := by
  intro o st μ p hs hf hC
  obtain ⟨hp, tl, st0, h1, h2, h3⟩ := special_core hs hf hF hC hV .if_ (by decide)
  obtain ⟨pc, pa, pb, rfl, h2, ha, hb'⟩ := codes_three h2
  obtain ⟨w, st1, μ1, h4, h5, h6⟩ := hc o st0 μ pc h3.sim hf h2
  have hm : μ1 f = μ f := h6.grow.same f hf
  have hcode : CodeAt st1 (if t = true then pa else pb) (if t then a else b) := by
    cases t
    · exact codeAt_grow h6.grow hb'
    · exact codeAt_grow h6.grow ha
  obtain ⟨-, x, st2, h7, h8⟩ := hb o st1 μ1 _ h6.sim (h6.lt hf) hcode
  exact ⟨hp, x, st2, (C35_if hs.links.old h1 h4 (isVal_bool_inv h5) _).2 (hm ▸ h7), h8⟩

theorem fails_ifThen {f : Nat} {e c a : Sexp} {h msg o : Str} {R1 : Conf} (hF : Form e h [c, a]) (hV : Head R f h (.prim c!"if"))
    (hc : ExecOk f c R (.bool true) R1) (hb : FailsOk f a R1 msg o) : FailsOk f e R msg o := by
  intro o st μ p hs hf hC
  obtain ⟨hp, tl, st0, h1, h2, h3⟩ := special_core hs hf hF hC hV .if_ (by decide)
  obtain ⟨pc, pa, rfl, h2, ha⟩ := codes_two h2
  obtain ⟨w, st1, μ1, h4, h5, h6⟩ := hc o st0 μ pc h3.sim hf h2
  have hm : μ1 f = μ f := h6.grow.same f hf
  obtain ⟨-, x, st2, h7, h8⟩ := hb o st1 μ1 _ h6.sim (h6.lt hf) (codeAt_grow h6.grow ha)
  exact ⟨hp, x, st2, (C35_if_then hs.links.old h1 h4 (isVal_bool_inv h5) _).2 (hm ▸ h7), h8⟩

/-! ## Loops -/

theorem fails_while {f : Nat} {e c b : Sexp} {h msg t : Str} (hF : Form e h [c, b]) (hV : Head R f h (.prim c!"while")) (hl : LoopFailsOk f c b R msg t) : FailsOk f e R msg t := by
  intro o st μ p hs hf hC
  obtain ⟨hp, tl, st0, h1, h2, h3⟩ := special_core hs hf hF hC hV .while_ (by decide)
  obtain ⟨pc, pb, rfl, h2, hb⟩ := codes_two h2
  obtain ⟨x, st1, h4, h5⟩ := hl o st0 μ pc pb (some undefinedV) h3.sim hf h2 hb
  refine ⟨hp, x, st1, (evals_special hs.links.old h1).2 ?_, h5⟩
  refine (lim_iff (monoSeq_prim _ _ _ _) (monoSeq_whileFrom _ _ _ _ _) 0 0 fun k hk => ?_).mpr h4
  simp [callPrim, bWhile, checkArgs, arg, whileFrom]

theorem loopFails_cond {f : Nat} {c b : Sexp} {msg t : Str} (hc : FailsOk f c R msg t) : LoopFailsOk f c b R msg t := by
  intro o st μ pc pb r hs hf hpc hpb
  obtain ⟨-, x, st1, h4, h5⟩ := hc o st μ pc hs hf hpc
  exact ⟨x, st1, whileFrom_run (.condFails h4), h5⟩

theorem loopFails_bad {f : Nat} {c b : Sexp} {s : Str} {v : Val} {R1 : Conf} (hc : ExecOk f c R v R1) (hv : Named v s) (hb : Sound s) :
    LoopFailsOk f c b R (castText c!"bool" s (convertText v c!"bool")) R1.out := by
  intro o st μ pc pb r hs hf hpc hpb
  obtain ⟨w, st1, μ1, h4, h5, h6⟩ := hc o st μ pc hs hf hpc
  obtain ⟨K, h4'⟩ := h4.stable
  refine ⟨_, st1, lim_of (errIs_exn (errIs_noScope _ w.tok) _) (K + 2) ?_, errIs_noScope _ w.tok, h6.sim.out⟩
  simp only [whileFrom, M.bind_apply, h4' (K + 2) (by omega), run_whileL, whileStep, derefV, M.pure_apply, M.rd_apply, run_n, toBool_bad h5 hv hb K]

theorem loopFails_body {f : Nat} {c b : Sexp} {msg t : Str} {v : Val} {R1 : Conf} (hc : ExecOk f c R v R1) (hv : truth v = some true) (hb : FailsOk f b R1 msg t) :
    LoopFailsOk f c b R msg t := by
  intro o st μ pc pb r hs hf hpc hpb
  obtain ⟨w, st1, μ1, h4, h5, h6⟩ := hc o st μ pc hs hf hpc
  have hm : μ1 f = μ f := h6.grow.same f hf
  obtain ⟨-, x, st2, h7, h8⟩ := hb o st1 μ1 pb h6.sim (h6.lt hf) (codeAt_grow h6.grow hpb)
  exact ⟨x, st2, whileFrom_run (.bodyFails h4 (truthy_of h5 hv) (hm ▸ h7)), h8⟩

theorem loopFails_again {f : Nat} {c b : Sexp} {msg t : Str} {v r1 : Val} {R1 R2 : Conf} (hc : ExecOk f c R v R1) (hv : truth v = some true) (hb : ExecOk f b R1 r1 R2)
    (hn : (R2.frames f).ret = false) (hl : LoopFailsOk f c b R2 msg t) : LoopFailsOk f c b R msg t := by
  intro o st μ pc pb r hs hf hpc hpb
  obtain ⟨w, st1, μ1, h4, h5, h6⟩ := hc o st μ pc hs hf hpc
  obtain ⟨w2, st2, μ2, h7, h8, h9⟩ := hb o st1 μ1 pb h6.sim (h6.lt hf) (codeAt_grow h6.grow hpb)
  have h69 := h6.trans h9
  have hm : μ1 f = μ f := h6.grow.same f hf
  have hm2 : μ2 f = μ f := h69.grow.same f hf
  obtain ⟨x, st3, h10, h11⟩ := hl o st2 μ2 pc pb (some w2) h9.sim (h69.lt hf) (codeAt_grow h69.grow hpc) (codeAt_grow h69.grow hpb)
  refine ⟨x, st3, ?_, h11⟩
  obtain ⟨K, h⟩ := h4.stable
  obtain ⟨K', hb⟩ := (hm ▸ h7 : Evals pb (μ f) st1 _).stable
  rw [hm2] at h10
  refine (lim_iff (monoSeq_whileFrom _ _ _ _ _) (monoSeq_whileFrom _ _ _ _ _) (max K K') 1 fun k hk => ?_).mpr h10
  have hr : (st2.scopes (μ f)).isInReturn = false := by rw [← hm2, h9.sim.ret f (h69.lt hf), hn]
  simp [whileFrom, h (k + 1) (by omega), run_whileL, whileStep, derefV, M.rd_apply, toBool_truthy (truthy_of h5 hv), hb k (by omega), hr]

/-! ## Blocks -/

theorem fails_block {f : Nat} {e : Sexp} {h d msg t : Str} {xs : List Sexp} (hF : Form e h xs) (hV : Head R f h (.prim d)) (hd : d ∈ [c!"do", c!"begin"])
    (hl : SeqFailsOk f xs R msg t) : FailsOk f e R msg t := by
  intro o st μ p hs hf hC
  obtain ⟨hp, tl, st0, h1, h2, h3⟩ := special_core hs hf hF hC hV .do_ (by simp only [List.mem_cons, List.not_mem_nil, or_false] at hd; rcases hd with rfl | rfl <;> decide)
  obtain ⟨x, st1, h4, h5⟩ := hl o st0 μ tl (some undefinedV) h3.sim hf h2
  exact ⟨hp, x, st1, (C38_do hs.links.old h1 (codesAt_isCode h2)).2 h4, h5⟩

theorem seqFails_here {f : Nat} {e : Sexp} {es : List Sexp} {msg t : Str} (he : FailsOk f e R msg t) : SeqFailsOk f (e :: es) R msg t := by
  intro o st μ ps rv hs hf hp
  cases hp with
  | cons hp hps =>
    obtain ⟨⟨i, rfl⟩, x, st1, h4, h5⟩ := he o st μ _ hs hf hp
    exact ⟨x, st1, .fails h4, h5⟩

theorem seqFails_atom {f : Nat} {e : Sexp} {es : List Sexp} (he : Atom e) : SeqFailsOk f (e :: es) R c!"List expected in do" R.out := by
  intro o st μ ps rv hs hf hp
  cases hp with
  | cons hp hps =>
    obtain ⟨c, h1, h2⟩ := hp
    cases h1 with
    | val => exact ⟨_, st, .bad, errIs_at _ _ _, hs.out⟩
    | list => cases h2 <;> cases he

theorem seqFails_next {f : Nat} {e : Sexp} {es : List Sexp} {r1 : Val} {R1 : Conf} {msg t : Str} (hF : ∃ h args, Form e h args) (he : ExecOk f e R r1 R1)
    (hn : (R1.frames f).ret = false) (ht : SeqFailsOk f es R1 msg t) : SeqFailsOk f (e :: es) R msg t := by
  intro o st μ ps rv hs hf hp
  obtain ⟨h, args, hF⟩ := hF
  cases hp with
  | cons hp hps =>
    obtain ⟨i, _, _, _, rfl, -⟩ := form_code hF hp
    obtain ⟨w, st1, μ1, h4, h5, h6⟩ := he o st μ _ hs hf hp
    have hm : μ1 f = μ f := h6.grow.same f hf
    obtain ⟨x, st2, h7, h8⟩ := ht o st1 μ1 _ (some w) h6.sim (h6.lt hf) (codesAt_grow h6.grow hps)
    exact ⟨x, st2, .next h4 (by rw [← hm, h6.sim.ret f (h6.lt hf), hn]) (hm ▸ h7), h8⟩

theorem seqFails_skip {f : Nat} {e c a : Sexp} {h : Str} {es : List Sexp} {R1 : Conf} {msg t : Str} (hF : Form e h [c, a]) (hV : Head R f h (.prim c!"if"))
    (hc : ExecOk f c R (.bool false) R1) (hn : (R1.frames f).ret = false) (ht : SeqFailsOk f es R1 msg t) : SeqFailsOk f (e :: es) R msg t := by
  intro o st μ ps rv hs hf hp
  cases hp with
  | cons hp hps =>
    obtain ⟨i, _, _, _, rfl, -⟩ := form_code hF hp
    obtain ⟨tl, st0, h1, h2, h3⟩ := isSpecial_of hs hf hF hp hV .if_ (by decide)
    obtain ⟨pc, pa, rfl, h2, ha⟩ := codes_two h2
    obtain ⟨w, st1, μ1, h4, h5, h6⟩ := hc o st0 μ pc h3.sim hf h2
    have hm : μ1 f = μ f := h6.grow.same f hf
    have h36 := h3.trans h6
    obtain ⟨x, st2, h7, h8⟩ := ht o st1 μ1 _ none h6.sim (h6.lt hf) (codesAt_grow h36.grow hps)
    exact ⟨x, st2, .next (C35_if_no_else hs.links.old h1 h4 (isVal_bool_inv h5)) (by rw [← hm, h6.sim.ret f (h6.lt hf), hn]) (hm ▸ h7), h8⟩

theorem seqFails_macro {f : Nat} {e : Sexp} {h d n : Str} {ps : List Str} {body es : List Sexp} {msg t : Str}
    (hF : Form e h [.sym n, .list (ps.map .sym), .list body]) (hV : Head R f h (.prim d)) (hd : d ∈ [c!"define-macro", c!"define-macro-eval"]) (hn : n ∉ hidden)
    (hr : (R.frames f).ret = false) (ht : SeqFailsOk f es (R.defMacro n ps body) msg t) : SeqFailsOk f (e :: es) R msg t := by
  intro o st μ qs rv hs hf hp
  cases hp with
  | cons hp hps =>
    obtain ⟨i, _, _, _, rfl, -⟩ := form_code hF hp
    obtain ⟨tl, st0, h1, h2, h3⟩ := isSpecial_of hs hf hF hp hV .defineMacroEval
      (by simp only [List.mem_cons, List.not_mem_nil, or_false] at hd; rcases hd with rfl | rfl <;> decide)
    obtain ⟨p0, p1, p2, rfl, g0, g1, g2⟩ := codes_three h2
    obtain ⟨j, u, rfl, hu, -⟩ := codeAt_sym g0
    obtain ⟨a, rfl, -, ha⟩ := codeAt_list g1
    obtain ⟨b, rfl, -, hb⟩ := codeAt_list g2
    obtain ⟨k, m, hm, -⟩ := h3.sim.macros
    have hR := h3.sim.defMacro hm hn ha hb rfl
    have hg : (st0.scopes (μ f)).global = μ 0 := h3.sim.global f hf
    have hE : Evals (.mk i .list) (μ f) st (.ok none _) := (evals_special hs.links.old h1).2 (lim_of (o := .ok none _) (ends_ok _ _) 3 (by
      show bDefineMacroEval (run 3) _ _ _ = _
      simp only [bDefineMacroEval, checkArgs, List.length_cons, List.length_nil, if_true, M.bind_apply, M.pure_apply, M.get_apply, hg, find_eq, macrosKey, hm, arg,
        List.getElem?_cons_succ, List.getElem?_cons_zero, M.rd_apply, toEnumerable, argStr, run_n, ptrStr_sym (n := 0) hu, allocVec, allocObj, setVar, modScope, M.modify_apply]
      rfl))
    have h03 := h3.trans hR
    obtain ⟨x, st2, h7, h8⟩ := ht o _ μ _ none hR.sim hf (codesAt_grow h03.grow hps)
    exact ⟨x, st2, .next hE (by rw [hR.sim.ret f hf]; exact hr) h7, h8⟩

/-! ## Conjunctions -/

theorem fails_and {f : Nat} {e : Sexp} {h d msg t : Str} {xs : List Sexp} (hF : Form e h xs) (hV : Head R f h (.prim d)) (hd : d ∈ [c!"and", c!"&&"])
    (hl : ConjFailsOk f xs R msg t) : FailsOk f e R msg t := by
  intro o st μ p hs hf hC
  obtain ⟨hp, tl, st0, h1, h2, h3⟩ := special_core hs hf hF hC hV .and (by simp only [List.mem_cons, List.not_mem_nil, or_false] at hd; rcases hd with rfl | rfl <;> decide)
  obtain ⟨x, st1, ⟨K, h4⟩, h5⟩ := hl o st0 μ tl h3.sim hf h2
  refine ⟨hp, x, st1, (evals_special hs.links.old h1).2 (lim_of (errIs_exn h5.1 _) K ?_), h5⟩
  simp [callPrim, ret, bBool, h4 K (Nat.le_refl K)]

theorem conjFails_here {f : Nat} {e : Sexp} {es : List Sexp} {msg t : Str} (he : FailsOk f e R msg t) : ConjFailsOk f (e :: es) R msg t := by
  intro o st μ ps hs hf hp
  cases hp with
  | cons hp hps =>
    obtain ⟨-, x, st1, h4, h5⟩ := he o st μ _ hs hf hp
    obtain ⟨K, h4⟩ := h4.stable
    exact ⟨x, st1, ⟨K, fun k hk => by simp [boolLoop, h4 k hk]⟩, h5⟩

theorem conjFails_bad {f : Nat} {e : Sexp} {es : List Sexp} {v : Val} {R1 : Conf} {s : Str} (he : ExecOk f e R v R1) (hv : ∀ b, v ≠ .bool b) (hr : Raw v s) (hb : Sound s) :
    ConjFailsOk f (e :: es) R (castText c!"bool" s c!"no") R1.out := by
  intro o st μ ps hs hf hp
  cases hp with
  | cons hp hps =>
    obtain ⟨w, st1, μ1, h4, h5, h6⟩ := he o st μ _ hs hf hp
    obtain ⟨K, h4⟩ := h4.stable
    refine ⟨_, st1, ⟨K + 1, fun k hk => ?_⟩, errIs_noScope _ w.tok, h6.sim.out⟩
    obtain ⟨k, rfl⟩ : ∃ m, k = m + 1 := ⟨k - 1, by omega⟩
    simp [boolLoop, h4 (k + 1) (by omega), derefV, M.rd_apply, run_n, boolValue_bad h5 hv hr hb k]

theorem conjFails_next {f : Nat} {e : Sexp} {es : List Sexp} {R1 : Conf} {msg t : Str} (he : ExecOk f e R (.bool true) R1) (ht : ConjFailsOk f es R1 msg t) :
    ConjFailsOk f (e :: es) R msg t := by
  intro o st μ ps hs hf hp
  cases hp with
  | cons hp hps =>
    obtain ⟨w, st1, μ1, h4, h5, h6⟩ := he o st μ _ hs hf hp
    have hm : μ1 f = μ f := h6.grow.same f hf
    obtain ⟨x, st2, ⟨K2, h7⟩, h8⟩ := ht o st1 μ1 _ h6.sim (h6.lt hf) (codesAt_grow h6.grow hps)
    obtain ⟨K, h4⟩ := h4.stable
    rw [hm] at h7
    exact ⟨x, st2, ⟨max K K2, fun k hk => by simp [boolLoop, h4 k (by omega), derefV, M.rd_apply, boolValue_bool (isVal_bool_inv h5), h7 k (by omega)]⟩, h8⟩

/-! ## Assignments -/

theorem fails_defName {f : Nat} {e a x : Sexp} {h d : Str} (hF : Form e h [a, x]) (hV : Head R f h (.prim d)) (hd : d ∈ [c!"def", c!"gdef"])
    (ha : (∃ i, a = .int i) ∨ (∃ b, a = .bool b) ∨ (∃ t, a = .float t)) : FailsOk f e R c!"Symbol expected" R.out := by
  intro o st μ p hs hf hC
  have key : ∀ (b : Builtin) (nm : Str) (tg : St → Nat → Nat), (d, b, true) ∈ coreTable →
      (∀ r l s st, callPrim r b l s st = ret (bDefHelper r nm (tg st s) l s) st) → nm.length ≠ 0 → (∃ i, p = .mk i .list) ∧ ∃ x st', Evals p (μ f) st (.fail x st') ∧ Err o c!"Symbol expected" R.out x st' := by
    intro b nm tg hb hcall _
    obtain ⟨hp, tl, st0, h1, h2, h3⟩ := special_core hs hf hF hC hV b hb
    obtain ⟨pa, px, rfl, h2, -⟩ := codes_two h2
    obtain ⟨c, g1, g2⟩ := h2
    have : ∃ i v, pa = .mk i (.var v) ∧ v.type ≠ .symbol ∧ v.type ≠ .string := by
      cases g1 with
      | val =>
        rcases ha with ⟨i, rfl⟩ | ⟨b, rfl⟩ | ⟨t, rfl⟩
        · cases g2 with | int hy => exact ⟨_, _, rfl, by simp [hy.1]⟩
        · cases g2 with | bool hy => exact ⟨_, _, rfl, by simp [hy.1]⟩
        · cases g2 with | float _ hy => exact ⟨_, _, rfl, by simp [hy.1]⟩
      | list => rcases ha with ⟨i, rfl⟩ | ⟨b, rfl⟩ | ⟨t, rfl⟩ <;> cases g2
    obtain ⟨i, v, rfl, hv1, hv2⟩ := this
    refine ⟨hp, _, st0, (evals_special hs.links.old h1).2 (lim_of (errIs_exn (errIs_scope _ (st0.scopes (μ f))) _) 0 ?_), errIs_scope _ _, h3.sim.out⟩
    simp [hcall, ret, bDefHelper, checkArgs, arg, evalArgIfNeeded, toVariant_var, derefV, hv1, hv2, throwScope]
  simp only [List.mem_cons, List.not_mem_nil, or_false] at hd
  rcases hd with rfl | rfl
  · exact key .def_ c!"def" (fun _ s => s) (by decide) (fun _ _ _ _ => rfl) (by decide)
  · exact key .gdef c!"gdef" (fun st s => (st.scopes s).global) (by decide) (fun r l s st => by simp [callPrim, bGdef, ret]) (by decide)

theorem fails_def {f : Nat} {e x : Sexp} {h d n msg t : Str} (hF : Form e h [.sym n, x]) (hV : Head R f h (.prim d)) (hd : d ∈ [c!"def", c!"gdef", c!"setf"])
    (hx : FailsOk f x R msg t) : FailsOk f e R msg t := by
  intro o st μ p hs hf hC
  have key : ∀ (b : Builtin), (d, b, true) ∈ coreTable → (∀ k i u q st0 y st', IsSym u n → (run (k + 3)).eval q (μ f) st0 = .fail y st' →
      callPrim (run (k + 3)) b [.mk i (.var u), q] (μ f) st0 = .fail y st') → (∃ i, p = .mk i .list) ∧ ∃ x st', Evals p (μ f) st (.fail x st') ∧ Err o msg t x st' := by
    intro b hb hcall
    obtain ⟨hp, tl, st0, h1, h2, h3⟩ := special_core hs hf hF hC hV b hb
    obtain ⟨pa, px, rfl, h2, h2'⟩ := codes_two h2
    obtain ⟨i, u, rfl, hu, -⟩ := codeAt_sym h2
    obtain ⟨-, y, st1, h4, h5⟩ := hx o st0 μ px h3.sim hf h2'
    obtain ⟨K, h4'⟩ := h4.stable
    exact ⟨hp, y, st1, (evals_special hs.links.old h1).2 (lim_of h4.1 (K + 3) (hcall _ _ _ _ _ _ _ hu (h4' _ (by omega)))), h5⟩
  simp only [List.mem_cons, List.not_mem_nil, or_false] at hd
  rcases hd with rfl | rfl | rfl
  · exact key .def_ (by decide) fun k i u q st0 y st' hu he => by
      simp [callPrim, ret, bDef, bDefHelper, checkArgs, arg, evalArgIfNeeded, toVariant_var, derefV, hu.1, he]
  · exact key .gdef (by decide) fun k i u q st0 y st' hu he => by
      simp [callPrim, ret, bGdef, bDefHelper, checkArgs, arg, evalArgIfNeeded, toVariant_var, derefV, hu.1, he]
  · exact key .setf (by decide) fun k i u q st0 y st' hu he => by
      simp only [callPrim, ret, M.bind_apply, setf_name (k := k + 1) (sid := μ f) (n := .mk i (.var u)) (e := q) (name := n) ⟨i, u, rfl, .inl hu⟩ st0, he]

theorem fails_setf {f : Nat} {e x : Sexp} {h n : Str} {R' : Conf} {v : Val} (hF : Form e h [.sym n, x]) (hV : Head R f h (.prim c!"setf")) (hx : ExecOk f x R v R')
    (hu : Unknown R' f n) : FailsOk f e R (c!"Symbol " ++ n ++ c!" not found") R'.out := by
  intro o st μ p hs hf hC
  obtain ⟨hp, tl, st0, h1, h2, h3⟩ := special_core hs hf hF hC hV .setf (by decide)
  obtain ⟨pn, px, rfl, h2, hb⟩ := codes_two h2
  obtain ⟨i, u, rfl, h4, -⟩ := codeAt_sym h2
  obtain ⟨w, st1, μ1, h5, h6, h7⟩ := hx o st0 μ px h3.sim hf hb
  have hm : μ1 f = μ f := h7.grow.same f hf
  obtain ⟨st', h8, h9⟩ := C28_setf_unknown hs.links.old h7.sim.links.old h1 ⟨i, u, rfl, .inl h4⟩ h5 (hm ▸ (h7.sim.unknown (h7.lt hf) hu).1)
  exact ⟨hp, _, st', h8, errIs_at _ _ _, h9.out.trans h7.sim.out⟩

/-! ## Templates -/

theorem fails_quasi {f : Nat} {e x : Sexp} {h msg t : Str} (hF : Form e h [x]) (hV : Head R f h (.prim c!"quasiquote")) (hx : FilledFailsOk f x R msg t) : FailsOk f e R msg t := by
  intro o st μ p hs hf hc
  obtain ⟨hp, tl, st0, h1, h2, h3⟩ := special_core hs hf hF hc hV .quasiquote (by decide)
  obtain ⟨q, rfl, h2'⟩ := codes_one h2
  obtain ⟨i, rfl, y, st1, ⟨K, h4⟩, h5⟩ := hx o st0 μ q h3.sim hf h2'
  refine ⟨hp, y, st1, (evals_special hs.links.old h1).2 (lim_of (errIs_exn h5.1 _) K ?_), h5⟩
  simp [callPrim, ret, bQuasiquote, checkArgs, arg, h4 K (Nat.le_refl _)]

/-- The evaluation of an unquoted expression fails. -/
theorem unquote_fails {f : Nat} {x y : Sexp} {msg t : Str} (sp : Bool) (hF : Form x (if sp then c!"_unquotesplicing" else c!"_unquote") [y])
    (he : FailsOk f y R msg t) : FilledFailsOk f x R msg t := by
  intro o st μ p hs hf hc
  obtain ⟨i, j, v, tl, rfl, h1, h2, h3⟩ := form_code hF hc
  obtain ⟨q, rfl, h4⟩ := codes_one h3
  obtain ⟨-, u, st1, h5, h6⟩ := he o st μ q hs hf h4
  obtain ⟨K, hK⟩ := h5.stable
  refine ⟨i, rfl, u, st1, ⟨K + 4, fun k hk => ?_⟩, h6⟩
  obtain ⟨k, rfl⟩ : ∃ m, k = m + 4 := ⟨k - 4, by omega⟩
  have hu : unquoteKind st (k + 3) (.mk j (.var v)) = .ok (some sp) := by
    simp only [unquoteKind, h2.1, if_true, varStr_sym h2, bind_ok_R, unquoteName, unquoteSplicingName]
    cases sp <;> simp
  rw [run_procQ, h1]
  simp only [procQStep, M.bind_apply, M.rd_apply, run_n, hu, hK (k + 3) (by omega)]

theorem filledFails_list {f : Nat} {l : List Sexp} {msg t : Str} (hl : l.length ≠ 2) (ha : FilledAllFailOk f l R msg t) : FilledFailsOk f (.list l) R msg t := by
  intro o st μ p hs hf hc
  obtain ⟨i, rfl, -, hcs⟩ := codeAt_list hc
  obtain ⟨x, st1, ⟨K, hK⟩, h1⟩ := ha o st μ _ hs hf hcs
  refine ⟨i, rfl, x, st1, ⟨K + 1, fun k hk => ?_⟩, h1⟩
  obtain ⟨k, rfl⟩ : ∃ m, k = m + 1 := ⟨k - 1, by omega⟩
  rw [run_procQ]
  have hlen := all2_length' hcs
  generalize st.lists i = ps at *
  have : procQStep (run k) ps (μ f) = (do
      let l' ← procQLoop (run k) (μ f) ps
      let p ← allocList l'
      pure (p, false)) := by
    match ps with
    | [] => rfl
    | [_] => rfl
    | [_, _] => exact absurd hlen.symm hl
    | _ :: _ :: _ :: _ => rfl
  rw [this]
  simp only [M.bind_apply, hK k (by omega)]

theorem filledAllFail_here {f : Nat} {x : Sexp} {l : List Sexp} {msg t : Str} (hx : FilledFailsOk f x R msg t) : FilledAllFailOk f (x :: l) R msg t := by
  intro o st μ ps hs hf hp
  cases hp with
  | cons hp hps =>
    obtain ⟨i, rfl, y, st1, ⟨K, hK⟩, h1⟩ := hx o st μ _ hs hf hp
    exact ⟨y, st1, ⟨K, fun k hk => by simp only [procQLoop, M.bind_apply, M.get_apply, hK k hk]⟩, h1⟩

theorem filledAllFail_one {f : Nat} {x : Sexp} {l : List Sexp} {v : Val} {R1 : Conf} {msg t : Str} (hx : FilledOk f x R v R1) (hl : FilledAllFailOk f l R1 msg t) :
    FilledAllFailOk f (x :: l) R msg t := by
  intro o st μ ps hs hf hp
  cases hp with
  | cons hp hps =>
    obtain ⟨q, st1, μ1, h1, h2, h3⟩ := hx o st μ _ hs hf hp
    have hm : μ1 f = μ f := h3.grow.same f hf
    obtain ⟨y, st2, ⟨K, hK⟩, h4⟩ := hl o st1 μ1 _ h3.sim (h3.lt hf) (codesAt_grow h3.grow hps)
    rw [hm] at hK
    rcases h1 with ⟨i, u, rfl, rfl, rfl, rfl⟩ | ⟨i, rfl, L, hL⟩
    · refine ⟨y, st2, ⟨K, fun k hk => ?_⟩, h4⟩
      simp only [procQLoop, M.bind_apply, M.pure_apply, hK k hk]
    · refine ⟨y, st2, ⟨max K L, fun k hk => ?_⟩, h4⟩
      simp only [procQLoop, M.bind_apply, M.pure_apply, M.get_apply, hL k (by omega), Bool.false_eq_true, if_false, hK k (by omega)]

theorem filledAllFail_splice {f : Nat} {x y : Sexp} {l : List Sexp} {w : Val} {ws : List Val} {R1 : Conf} {msg t : Str} (hF : Form x c!"_unquotesplicing" [y])
    (he : ExecOk f y R w R1) (hw : AsList w ws) (hl : FilledAllFailOk f l R1 msg t) : FilledAllFailOk f (x :: l) R msg t := by
  intro o st μ ps hs hf hp
  cases hp with
  | cons hp hps =>
    obtain ⟨i, u, st1, μ1, rfl, h1, h2, hX, L, hL⟩ := unquote_run true hF he hs hf hp
    have hm : μ1 f = μ f := h2.grow.same f hf
    obtain ⟨as, ha, hav⟩ := isVal_asList (isVal_extends hX h1) hw
    have hlv : ∀ n, ({ u with unq := .splicing } : Variant).listValue { st1 with next := st1.next + 1 } n = .ok as := fun n => listValue_list (by
      rcases ha with ⟨a, h, h'⟩ | ⟨h, h'⟩
      · exact .inl ⟨a, h, h'⟩
      · exact .inr ⟨h, h'⟩)
    obtain ⟨z, st2, ⟨K, hK⟩, h4⟩ := hl o _ μ1 _ h2.sim (h2.lt hf) (codesAt_grow h2.grow hps)
    rw [hm] at hK
    refine ⟨z, st2, ⟨max K L, fun k hk => ?_⟩, h4⟩
    simp only [procQLoop, M.bind_apply, M.pure_apply, M.get_apply, hL k (by omega), if_true, toVariant, M.lift_ok, M.rd_apply, hlv, hK k (by omega)]

/-! ## Calls -/

theorem fails_call {f : Nat} {e : Sexp} {h : Str} {args : List Sexp} {w : Val} {vs : List Val} {R1 : Conf} {msg t : Str} (hF : Form e h args) (hV : Head R f h w)
    (ho : OperandsOk f R args R vs R1) (ha : ApplyFailsOk f w vs R1 msg t) : FailsOk f e R msg t := by
  intro o st μ p hs hf hC
  obtain ⟨i, _, _, _, rfl, -⟩ := form_code hF hC
  obtain ⟨u, tl, st0, h1, h2, h3, -, h4⟩ := isForm_of hs hf hF hC hV
  obtain ⟨ps', qs, st1, μ1, h5, h6, h7, h8⟩ := ho o st μ st0 μ tl hs hf h3 h4.sim h4.grow
  have hm : μ1 f = μ f := h8.grow.same f hf
  obtain ⟨fw, h9, h10, x, st2, h11, h12⟩ := ha o st1 μ1 u qs h8.sim (h8.lt hf) (isVal_grow h8.grow h1) h7
  exact ⟨⟨i, rfl⟩, x, st2, (evals_call hs.links.old (h2 _ h9) h10 h5 h6).2 (hm ▸ h11), h12⟩

/-- The evaluation of an operand fails. -/
theorem evals_call_fails {st st' st1 : St} {sid : Nat} {ast : Ptr} {w : FnW} {args args' : List Ptr} {x : Fail} (ha : Acyclic st)
    (h : IsForm st sid ast w args st') (hw : w.special = false) (hr : All2 (Resolved st sid) args args')
    (hv : ∃ K, ∀ k, K ≤ k → evalArgs (run k) false sid args' st' = .fail x st1) (hx : Ends (.fail x st1 : Out (Option Variant))) : Evals ast sid st (.fail x st1) := by
  obtain ⟨⟨i, f, rfl, hl, ⟨name, p, ⟨j, v, rfl, hv'⟩, hm, hlk, hp⟩, rfl⟩, hpl, ht⟩ := h
  obtain ⟨K, hv⟩ := hv
  refine lim_of hx (K + 3 + 1) ?_
  show (run (K + 3 + 1)).eval _ _ _ = _
  rw [run_eval (K + 3)]
  have hn := run_n (K + 3)
  have hs := sameNames_atToken st sid v.tok
  have e1 : resolveElem (atToken st sid v.tok) (K + 3) sid (.mk j (.var v)) = .ok p :=
    resolveElem_sym (n := K) (hs.acyclic ha) hv' (hs.lookup hlk)
  have e2 : resolveList (atToken st sid v.tok) (K + 3) sid args = .ok args' := by
    refine resolveList_of (n := K) (hs.acyclic ha) ?_
    clear hv hpl hl
    induction hr with
    | nil => exact .nil
    | cons hab _ ih =>
      refine .cons ?_ ih
      cases hab with
      | symbol a b => exact .symbol a (hs.lookup b)
      | unknown a b => exact .unknown a (hs.lookup b)
      | value a => exact .value a
      | list => exact .list
  simp only [evalStep, M.bind_apply, M.rd_apply, toListRef, hl, evalList, hn, getMacro_none (ptrStr_sym hv') hm, M.lift_apply, toVariant]
  have hv := hv (K + 3) (by omega)
  simp only [tokenOf] at hv
  simp only [setCurTok_apply, resolveArgs, e1, bind_ok_R, headFunction_ok hp, hw, Bool.false_eq_true, if_false, e2, traceCall_off (traceOff_atToken _ ht), hv]

theorem ordinary_fn {N : Nat} {u : Variant} {w : Val} (h : IsVal st μ N u w) (ho : Ordinary w) : ∃ fw, IsFn u fw ∧ fw.special = false := by
  cases w with
  | prim n =>
    obtain ⟨b, hb⟩ := ho
    obtain ⟨e, he, hn, hw⟩ := isVal_prim_inv h
    exact ⟨_, hw, by simpa [Entry.wrapper] using (meansFn_entry hb he hn).2⟩
  | clo ps body g =>
    cases h with
    | clo hw hu hk hsp => exact ⟨_, hw, hsp⟩
  | _ => cases ho

theorem fails_operand {f : Nat} {e : Sexp} {h : Str} {args : List Sexp} {w : Val} {msg t : Str} (hF : Form e h args) (hV : Head R f h w) (hw : Ordinary w)
    (ho : OperandsFailOk f R args R msg t) : FailsOk f e R msg t := by
  intro o st μ p hs hf hC
  obtain ⟨i, _, _, _, rfl, -⟩ := form_code hF hC
  obtain ⟨u, tl, st0, h1, h2, h3, -, h4⟩ := isForm_of hs hf hF hC hV
  obtain ⟨ps', x, st1, h5, h6, h7⟩ := ho o st μ st0 μ tl hs hf h3 h4.sim h4.grow
  obtain ⟨fw, h8, h9⟩ := ordinary_fn h1 hw
  exact ⟨⟨i, rfl⟩, x, st1, evals_call_fails hs.links.old (h2 _ h8) h9 h5 h6 (errIs_exn h7.1 _), h7⟩

theorem evalArgs_value {r : Rec} {sid i : Nat} {v : Variant} {t : List Ptr} {st : St} (hp : NotSpliced (.mk i (.var v))) :
    evalArgs r false sid (.mk i (.var v) :: t) st = (do let tl ← evalArgs r false sid t; pure (.mk i (.var v) :: tl) : M (List Ptr)) st := by
  simp [evalArgs, spliced_plain hp]

theorem operandsFail_here {f : Nat} {R0 : Conf} {e : Sexp} {es : List Sexp} {msg t : Str} (he : FailsOk f e R msg t) : OperandsFailOk f R0 (e :: es) R msg t := by
  intro o st0 μ0 st μ ps h0 hf hp hs hg
  have hf' : f < R.count := Nat.lt_of_lt_of_le hf hg.count
  have hm0 : μ f = μ0 f := hg.same f hf
  cases hp with
  | cons hp hps =>
    obtain ⟨⟨i, rfl⟩, x, st1, h1, h2⟩ := he o st μ _ hs hf' (codeAt_grow hg hp)
    obtain ⟨ps', h3⟩ := h0.resolved hf hps
    obtain ⟨K, h1⟩ := h1.stable
    rw [hm0] at h1
    exact ⟨_, x, st1, .cons .list h3, ⟨K, fun k hk => by simp [evalArgs, h1 k hk]⟩, h2⟩

theorem operandsFail_name {f : Nat} {R0 : Conf} {n : Str} {es : List Sexp} {v : Val} {msg t : Str} (hv : Value R0 f n v) (ht : OperandsFailOk f R0 es R msg t) :
    OperandsFailOk f R0 (.sym n :: es) R msg t := by
  intro o st0 μ0 st μ ps h0 hf hp hs hg
  cases hp with
  | cons hp hps =>
    obtain ⟨i, u, rfl, h1, -⟩ := codeAt_sym hp
    obtain ⟨-, q, h2, k, w, rfl, h3⟩ := h0.lookup hf hv
    obtain ⟨ps', x, st1, h5, ⟨K, h6⟩, h7⟩ := ht o st0 μ0 st μ _ h0 hf hps hs hg
    exact ⟨_, x, st1, .cons (.symbol h1 h2) h5, ⟨K, fun k hk => by rw [evalArgs_value (by simp [NotSpliced, isVal_unq h3])]; simp [h6 k hk]⟩, h7⟩

theorem operandsFail_other {f : Nat} {R0 R1 : Conf} {e : Sexp} {es : List Sexp} {v : Val} {msg t : Str} (hn : ∀ n, e ≠ .sym n) (he : ExecOk f e R v R1)
    (ht : OperandsFailOk f R0 es R1 msg t) : OperandsFailOk f R0 (e :: es) R msg t := by
  intro o st0 μ0 st μ ps h0 hf hp hs hg
  have hf' : f < R.count := Nat.lt_of_lt_of_le hf hg.count
  have hm0 : μ f = μ0 f := hg.same f hf
  cases hp with
  | cons hp hps =>
    have hp' := codeAt_grow hg hp
    obtain ⟨x, st1, μ1, h1, h2, h3⟩ := he o st μ _ hs hf' hp'
    obtain ⟨c, h4, h5⟩ := hp
    cases h4 with
    | @val i u =>
      have hu : u.type ≠ .symbol ∧ u.type ≠ .list := by
        cases h5 with
        | int h => simp [h.1]
        | float _ h => simp [h.1]
        | str h => simp [h.1]
        | sym h => exact absurd rfl (hn _)
        | bool h => simp [h.1]
        | nil h => simp [show _ = _ from h]
      have := evals_unique h1 (evals_atom hu.1 hu.2)
      simp only [Out.ok.injEq, Option.some.injEq] at this
      obtain ⟨rfl, rfl⟩ := this
      obtain ⟨ps', y, st2, h6, ⟨K, h7⟩, h8⟩ := ht o st0 μ0 _ μ1 _ h0 hf hps h3.sim (hg.trans h3.grow)
      exact ⟨_, y, st2, .cons (.value hu.1) h6, ⟨K, fun k hk => by rw [evalArgs_value (by simp [NotSpliced, isVal_unq h2])]; simp [h7 k hk]⟩, h8⟩
    | @list i l hi h4 =>
      have h10 : Res o st1 μ1 R1.count { st1 with next := st1.next + 1 } μ1 R1 :=
        Res.of_extends h3.sim (extends_next _ _ (Nat.le_succ _)) (links_next h3.sim.links _ (Nat.le_succ _))
      have h11 := h3.trans h10
      obtain ⟨ps', y, st2, h6, ⟨K, h7⟩, h8⟩ := ht o st0 μ0 _ μ1 _ h0 hf hps h10.sim (hg.trans h11.grow)
      obtain ⟨K', h1⟩ := h1.stable
      rw [hm0] at h1
      have hns : NotSpliced (.mk st1.next (.var x)) := by simp [NotSpliced, isVal_unq h2]
      exact ⟨_, y, st2, .cons .list h6, ⟨max K K', fun k hk => by simp [evalArgs, h1 k (by omega), derefV, spliced_plain hns, h7 k (by omega)]⟩, h8⟩

theorem applyFails_fn {f : Nat} {n msg : Str} {vs : List Val} (h : FnErr n vs msg) : ApplyFailsOk f (.prim n) vs R msg R.out := by
  intro o st μ u args hs hf hu ha
  obtain ⟨e, he, hn, hw⟩ := isVal_prim_inv hu
  obtain ⟨h1, k, x, st', h2, h3, h4⟩ := fnErr_ok h he hn ha (hs.place f hf)
  exact ⟨_, hw, h1, x, st', (calls_prim rfl).2 (lim_of (errIs_exn h3 _) k h2), err_same hs h3 h4⟩

theorem applyFails_clo {f g : Nat} {ps : List Str} {body : Sexp} {vs : List Val} {msg t : Str} (hd : ps.Nodup) (hh : ∀ p ∈ ps, p ∉ hidden)
    (hb : FailsOk R.count body (R.enter ps vs g) msg t) : ApplyFailsOk f (.clo ps body g) vs R msg t := by
  intro o st μ u args hs hf hu ha
  cases hu with
  | @clo _ w cid _ fp bp cs _ c _ hw hu hk hsp _ hc hg h1 h2 h3 h4 h5 h6 =>
    obtain ⟨child, st1, hE, hcall⟩ := C31_call (args := args) (hs.old f hf) hk rfl h2 (params_of ⟨_, h3, .list h4⟩) hd
      (fun h => hh _ h (by decide)) (fun h => hh _ h (by decide))
    obtain ⟨h7, h8⟩ := hs.entered hf hg hE h1 ha hh
    have hcode : CodeAt st1 bp body := codeAt_grow h8 ⟨_, h5, h6⟩
    obtain ⟨-, x, st2, h9, ⟨a, b, c, d, e, rfl⟩, h10⟩ := hb o st1 _ bp h7 (Nat.lt_succ_self _) hcode
    simp only [Spec.Core.Emb.enter, fset_self] at h9
    exact ⟨w, hw, hsp, _, st2, (hcall _).2 ⟨_, h9, rfl⟩, errIs_base _, h10⟩

theorem calls1Fail_here {f : Nat} {w x : Val} {l : List Val} {msg t : Str} (hx : NotList x) (ha : ApplyFailsOk f w [x] R msg t) : Calls1FailOk f w (x :: l) R msg t := by
  intro o st μ u fw ps hs hf hu hw hp
  cases ps with
  | nil => cases hp
  | cons p ps =>
    obtain ⟨i, y, rfl, hy, hps⟩ := copy_notList hp hx
    have r0 : Res o st μ R.count { st with next := st.next + 1 } μ R := Res.of_extends hs (extends_next _ _ (Nat.le_succ _)) (links_next hs.links _ (Nat.le_succ _))
    obtain ⟨fw', h1, -, z, st1, h2, h3⟩ := ha o _ μ u [.mk st.next (.var y)] r0.sim hf (isVal_grow r0.grow hu) (.cons ⟨_, _, rfl, isVal_grow r0.grow hy⟩ .nil)
    cases isFn_unique hw h1
    obtain ⟨K1, h2⟩ := h2.stable
    exact ⟨z, st1, ⟨K1, fun k hk => by simp only [mapLoop, M.bind_apply, copyObj, allocObj, h2 k hk]⟩, h3⟩

theorem calls1Fail_next {f : Nat} {w x v : Val} {l : List Val} {R1 : Conf} {msg t : Str} (hx : NotList x) (ha : ApplyOk f w [x] R v R1) (ht : Calls1FailOk f w l R1 msg t) :
    Calls1FailOk f w (x :: l) R msg t := by
  intro o st μ u fw ps hs hf hu hw hp
  cases ps with
  | nil => cases hp
  | cons p ps =>
    obtain ⟨i, y, rfl, hy, hps⟩ := copy_notList hp hx
    have r0 : Res o st μ R.count { st with next := st.next + 1 } μ R := Res.of_extends hs (extends_next _ _ (Nat.le_succ _)) (links_next hs.links _ (Nat.le_succ _))
    obtain ⟨fw', h1, -, z, st1, μ1, h2, h3, h4⟩ := ha o _ μ u [.mk st.next (.var y)] r0.sim hf (isVal_grow r0.grow hu) (.cons ⟨_, _, rfl, isVal_grow r0.grow hy⟩ .nil)
    cases isFn_unique hw h1
    have hm : μ1 f = μ f := h4.grow.same f hf
    have r1 : Res o st1 μ1 R1.count { st1 with next := st1.next + 1 } μ1 R1 :=
      Res.of_extends h4.sim (extends_next _ _ (Nat.le_succ _)) (links_next h4.sim.links _ (Nat.le_succ _))
    have r2 := (r0.trans h4).trans r1
    obtain ⟨q, st2, ⟨K2, h5⟩, h6⟩ := ht o _ μ1 u fw ps r1.sim (r2.lt hf) (isVal_grow r2.grow hu) hw (areVals_grow r2.grow hps)
    obtain ⟨K1, h2⟩ := h2.stable
    refine ⟨q, st2, ⟨max K1 K2, fun k hk => ?_⟩, h6⟩
    rw [hm] at h5
    simp only [mapLoop, M.bind_apply, copyObj, allocObj, h2 k (by omega), derefV, M.pure_apply, box, h5 k (by omega)]

theorem applyFails_map {f : Nat} {w : Val} {l : List Val} {msg t : Str} (hw : Callable w) (hc : Calls1FailOk f w l R msg t) :
    ApplyFailsOk f (.prim c!"map") [w, .list l] R msg t := by
  intro o st μ u args hs hf hu ha
  obtain ⟨e, he, hn, hfn⟩ := isVal_prim_inv hu
  obtain ⟨h5, h6⟩ := core_entry he (c!"map", .map, false) (by decide) hn
  obtain ⟨i, x, j, y, rfl, hx, hy⟩ := args_two ha
  obtain ⟨fw, hfw⟩ := isVal_callable hw hx
  obtain ⟨ps, hp1, hp2, -⟩ := isVal_list_inv hy
  obtain ⟨z, st1, ⟨K, hK⟩, h7⟩ := hc o st μ x fw ps hs hf hx hfw hp2
  exact ⟨_, hfn, h6, z, st1, (calls_prim rfl).2 (lim_of (errIs_exn h7.1 _) K (by
      rw [h5]
      simp [callPrim, ret, bMap, checkArgs, arg, checkForFunction, toVariant_var, hfw.1, M.rd_apply, functionValue_fn hfw, checkForList_list _ _ _ ⟨j, y, rfl, hp1⟩, hK K (Nat.le_refl _)])), h7⟩

theorem calls2Fail_here {f : Nat} {w a x : Val} {l : List Val} {msg t : Str} (hx : NotList x) (ha : ApplyFailsOk f w [x, a] R msg t) : Calls2FailOk f w a (x :: l) R msg t := by
  intro o st μ u fw acc ps hs hf hu hw hacc hp
  cases ps with
  | nil => cases hp
  | cons p ps =>
    obtain ⟨i, y, rfl, hy, hps⟩ := copy_notList hp hx
    have r0 : Res o st μ R.count { st with next := st.next + 1 + 1 } μ R :=
      Res.of_extends hs (extends_next _ _ (Nat.le_add_right st.next 2)) (links_next hs.links _ (Nat.le_add_right st.next 2))
    obtain ⟨fw', h1, -, z, st1, h2, h3⟩ := ha o _ μ u [.mk st.next (.var y), .mk (st.next + 1) (.var acc)] r0.sim hf (isVal_grow r0.grow hu)
      (.cons ⟨_, _, rfl, isVal_grow r0.grow hy⟩ (.cons ⟨_, _, rfl, isVal_grow r0.grow hacc⟩ .nil))
    cases isFn_unique hw h1
    obtain ⟨K1, h2⟩ := h2.stable
    exact ⟨z, st1, ⟨K1, fun k hk => by simp only [reduceLoop, M.bind_apply, copyObj, allocObj, box, h2 k hk]⟩, h3⟩

theorem calls2Fail_next {f : Nat} {w a x v : Val} {l : List Val} {R1 : Conf} {msg t : Str} (hx : NotList x) (ha : ApplyOk f w [x, a] R v R1) (ht : Calls2FailOk f w v l R1 msg t) :
    Calls2FailOk f w a (x :: l) R msg t := by
  intro o st μ u fw acc ps hs hf hu hw hacc hp
  cases ps with
  | nil => cases hp
  | cons p ps =>
    obtain ⟨i, y, rfl, hy, hps⟩ := copy_notList hp hx
    have r0 : Res o st μ R.count { st with next := st.next + 1 + 1 } μ R :=
      Res.of_extends hs (extends_next _ _ (Nat.le_add_right st.next 2)) (links_next hs.links _ (Nat.le_add_right st.next 2))
    obtain ⟨fw', h1, -, z, st1, μ1, h2, h3, h4⟩ := ha o _ μ u [.mk st.next (.var y), .mk (st.next + 1) (.var acc)] r0.sim hf (isVal_grow r0.grow hu)
      (.cons ⟨_, _, rfl, isVal_grow r0.grow hy⟩ (.cons ⟨_, _, rfl, isVal_grow r0.grow hacc⟩ .nil))
    cases isFn_unique hw h1
    have hm : μ1 f = μ f := h4.grow.same f hf
    have r2 := r0.trans h4
    obtain ⟨q, st2, ⟨K2, h5⟩, h6⟩ := ht o _ μ1 u fw z ps h4.sim (r2.lt hf) (isVal_grow r2.grow hu) hw h3 (areVals_grow r2.grow hps)
    obtain ⟨K1, h2⟩ := h2.stable
    refine ⟨q, st2, ⟨max K1 K2, fun k hk => ?_⟩, h6⟩
    rw [hm] at h5
    simp only [reduceLoop, M.bind_apply, copyObj, allocObj, box, h2 k (by omega), derefV, M.pure_apply, h5 k (by omega)]

theorem applyFails_reduce {f : Nat} {w a : Val} {l : List Val} {msg t : Str} (hw : Callable w) (hc : Calls2FailOk f w a l R msg t) :
    ApplyFailsOk f (.prim c!"reduce") [w, .list l, a] R msg t := by
  intro o st μ u args hs hf hu ha
  obtain ⟨e, he, hn, hfn⟩ := isVal_prim_inv hu
  obtain ⟨h5, h6⟩ := core_entry he (c!"reduce", .reduce, false) (by decide) hn
  obtain ⟨i, x, j, y, k, z, rfl, hx, hy, hz⟩ := args_three ha
  obtain ⟨fw, hfw⟩ := isVal_callable hw hx
  obtain ⟨ps, hp1, hp2, -⟩ := isVal_list_inv hy
  obtain ⟨q, st1, ⟨K, hK⟩, h7⟩ := hc o st μ x fw z ps hs hf hx hfw hz hp2
  exact ⟨_, hfn, h6, q, st1, (calls_prim rfl).2 (lim_of (errIs_exn h7.1 _) K (by
      rw [h5]
      simp [callPrim, ret, bReduce, checkArgs, arg, argV, checkForFunction, toVariant_var, hfw.1, M.rd_apply, functionValue_fn hfw, checkForList_list _ _ _ ⟨j, y, rfl, hp1⟩, hK K (Nat.le_refl _)])), h7⟩

theorem applyFails_apply {f : Nat} {w : Val} {l : List Val} {msg t : Str} (hl : ∀ x ∈ l, NotList x) (hc : ApplyFailsOk f w l R msg t) :
    ApplyFailsOk f (.prim c!"apply") [w, .list l] R msg t := by
  intro o st μ u args hs hf hu ha
  obtain ⟨e, he, hn, hfn⟩ := isVal_prim_inv hu
  obtain ⟨h5, h6⟩ := core_entry he (c!"apply", .apply, false) (by decide) hn
  obtain ⟨i, x, j, y, rfl, hx, hy⟩ := args_two ha
  obtain ⟨ps, hp1, hp2, hty⟩ := isVal_list_inv hy
  obtain ⟨fw, hfw, -, z, st1, h7, h8⟩ := hc o st μ x ps hs hf hx (areVals_args hp2 hl)
  obtain ⟨K, h7⟩ := h7.stable
  have hev : (run (K + 1)).eval (.mk i (.var x)) (μ f) st = .ok (some x) st := by
    rw [run_eval]; simp [evalStep, hfw.1]
  exact ⟨_, hfn, h6, z, st1, (calls_prim rfl).2 (lim_of (errIs_exn h8.1 _) (K + 1) (by
      rw [h5]
      simp [callPrim, bApply, checkArgs, arg, argV, toVariant_var, hev, isList_of hp1, M.rd_apply, listValue_list hp1, derefV, functionValue_fn hfw, h7 (K + 1) (by omega)])), h8⟩

/-! ## Macros -/

theorem fails_macro {f : Nat} {e : Sexp} {h : Str} {args body : List Sexp} {ps : List Str} {msg t : Str} (hF : Form e h args) (hR : R.macros h = some (ps, body))
    (hm : MacroCall R f ps args body) (hx : FailsOk f (.list (instantiate ps args body)) R msg t) : FailsOk f e R msg t := by
  intro o st μ p hs hf hc
  obtain ⟨i, j, u, tl, rfl, h1, h2, h3⟩ := form_code hF hc
  obtain ⟨a, m, h4, h5, -, h6⟩ := hs.macros
  have h7 := h6 h
  rw [hR] at h7
  generalize hb : binding st m h = b at h7
  cases h7 with
  | @macro_ z fs ex _ _ hz1 hz2 hfs hex =>
    obtain ⟨qs, st1, K1, g1, g2, g3⟩ := replaceArgs_ok hs hf hm (h := .mk j (.var u)) h3 hfs hex
    have g4 := g2.trans (onlyNewLists_list st1 qs)
    have r1 := Res.of_extends hs g4.extends (links_new g4 hs.links)
    obtain ⟨-, x, st2, e1, e2⟩ := hx o _ μ (.mk st1.next .list) r1.sim hf (codeAt_of_all (Nat.lt_succ_self _) (by simp only [fset_at]; exact codesAt_new (onlyNewLists_list st1 qs) g3))
    obtain ⟨K2, e1⟩ := e1.stable
    refine ⟨⟨i, rfl⟩, x, st2, lim_of (errIs_exn e2.1 _) (max K1 K2 + 3 + 1) ?_, e2⟩
    have hg : (st.scopes (μ f)).global = μ 0 := hs.global f hf
    have hget : getMacro st (max K1 K2 + 3) (.mk j (.var u)) (μ 0) = .ok (some (.mk z (.macroRt fs ex))) := by
      simp only [getMacro, macroScope, find_eq, macrosKey, h4, bind_ok_R, ptrStr_sym h2, hb]
    show (run (max K1 K2 + 3 + 1)).eval _ _ _ = _
    rw [run_eval]
    simp only [evalStep, M.bind_apply, M.rd_apply, toListRef, h1, evalList, run_n, hg, hget, M.get_apply, g1 _ (show K1 ≤ max K1 K2 + 3 by omega), allocList,
      e1 _ (show K2 ≤ max K1 K2 + 3 by omega)]

end
end Fuel
