import Verif.PropsSession
import Verif.PropsBudget
import Verif.PropsDbg
/-!
# C51: a breakpoint with a condition in the first line

The `do` that is put around every evaluated text has line 1 (Lisp.cpp 45-51).  The text of a condition is evaluated in
this way too, so the evaluation of a condition reaches line 1 and the breakpoint is asked again.
-/

set_option linter.unusedSectionVars false
set_option linter.unusedSimpArgs false

namespace Fuel

open Spec Spec.Core

section
variable [World]

/-! ## Auxiliary evaluators -/

/-- The evaluator under the debugger (`runD`) with a fixed function `eval`: for proofs only, it models no code. -/
def fixedEval (e : Ptr → Nat → M (Option Variant)) : Nat → Rec
  | 0 => { runD 0 with eval := e }
  | k + 1 => {
    n := k + 1
    eval := e
    call := callStepD (fixedEval e k)
    expand := expandLoop (fixedEval e k)
    expand3 := expandStep (fixedEval e k)
    procQ := procQStep (fixedEval e k)
    subst := substLoop (fixedEval e k)
    whileL := whileStep (fixedEval e k) }

theorem expanding_fixed (e : Ptr → Nat → M (Option Variant)) : Expanding (fixedEval e) :=
  ⟨fun k => by cases k <;> rfl, fun _ => rfl, fun _ => rfl⟩

theorem fixed_eval (e : Ptr → Nat → M (Option Variant)) (k : Nat) : (fixedEval e k).eval = e := by cases k <;> rfl

theorem fixed_le (m : Nat) {j k : Nat} (hj : j ≤ m) (h : j ≤ k) : RecLe (runD j) (fixedEval (runD m).eval k) := by
  induction j generalizing k with
  | zero =>
    refine ⟨⟨?_⟩, ?_, ?_, ?_, ?_, ?_, ?_, ?_⟩ <;> intros <;> first | exact Mono.fuel | exact Nat.zero_le _
  | succ j ih =>
    obtain ⟨k, rfl⟩ : ∃ m, k = m + 1 := ⟨k - 1, by omega⟩
    have := ih (k := k) (by omega) (by omega)
    exact ⟨⟨h⟩, fun p s => (runD_le hj).eval p s, fun _ _ _ => inferInstanceAs (Mono (callStepD _ _ _ _) (callStepD _ _ _ _)),
      fun _ _ => inferInstanceAs (Mono (expandLoop _ _ _) (expandLoop _ _ _)), fun _ _ => inferInstanceAs (Mono (expandStep _ _ _) (expandStep _ _ _)),
      fun _ _ => inferInstanceAs (Mono (procQStep _ _ _) (procQStep _ _ _)), fun _ _ _ _ => inferInstanceAs (Mono (substLoop _ _ _ _ _) (substLoop _ _ _ _ _)),
      fun _ _ _ _ _ => inferInstanceAs (Mono (whileStep _ _ _ _ _ _) (whileStep _ _ _ _ _ _))⟩

/-- More budget for the text functions only. -/
theorem moreText_le (k n : Nat) (h : k ≤ n) : RecLe (runD k) { runD k with n := n } := by
  have := runD_le (Nat.le_refl k)
  exact ⟨⟨by rw [runD_n]; exact h⟩, this.eval, this.call, this.expand, this.expand3, this.procQ, this.subst, this.whileL⟩

/-- `eval_special_debug` for any evaluator with enough budget for the text functions. -/
theorem special_step {st st' : St} {g : Nat} {ast : Ptr} {b : Builtin} {args : List Ptr} (ha : Acyclic st) (h : IsSpecial st g ast b args st') :
    ∃ i j v w name, ast = .mk i .list ∧ st.lists i = .mk j (.var v) :: args ∧ IsSym v name ∧ st' = atToken st g v.tok ∧
      ∀ (r : Rec) k, r.n = k + 4 → evalStepD r ast g st = (beforeCall r (.mk j (.var v) :: args) v.tok g >>= fun _ => r.call w args g) st' := by
  obtain ⟨w, ⟨⟨i, f, rfl, hl, ⟨name, p, ⟨j, v, rfl, hv⟩, hm, hlk, hp⟩, rfl⟩, hpl, ht⟩, hw, hs⟩ := h
  refine ⟨i, j, v, w, name, rfl, hl, hv, rfl, fun r k hk => ?_⟩
  have e1 : resolveElem (atToken st g v.tok) (k + 4) g (.mk j (.var v)) = .ok p :=
    resolveElem_sym (n := k + 1) ((sameNames_atToken st g v.tok).acyclic ha) hv ((sameNames_atToken st g v.tok).lookup hlk)
  simp only [evalStepD, M.bind_apply, M.rd_apply, toListRef, hl, evalListD, hk, getMacro_none (ptrStr_sym hv) hm, M.lift_apply, toVariant]
  simp only [setCurTok_apply, resolveArgs, e1, bind_ok_R, headFunction_ok hp, hs, if_true, traceCall_off (traceOff_atToken _ ht), evalArgs_special hpl, tokenOf]

/-! ## The recursion -/

variable {o : Origin} {μ : Emb} {R : Conf} {D : Dbg} {a t : List Bp} {b : Bp}

/-- If the evaluation of the condition does not end, the debugger does not answer. -/
theorem asks (r : Rec) {g : Nat} {st : St} {tok : Option Token} {line : Nat} (ht : posLine tok = line) (hD : st.dbg.stop = false) (hb : st.dbg.bps = a ++ b :: t)
    (ha : ∀ c ∈ a, ¬ Matches c line (st.scopes g).module) (hm : Matches b line (st.scopes g).module) (hc : b.cond ≠ [])
    (h : ∃ s, lispEval r b.cond g (st.scopes g).module false false st = .fail .fuel s) (ast : List Ptr) :
    ∃ s, beforeCall r ast tok g st = .fail .fuel s := by
  obtain ⟨s, h⟩ := h
  refine ⟨s, ?_⟩
  simp only [beforeCall, M.bind_apply, M.get_apply, needsBreak, hD, Bool.false_eq_true, if_false, M.pure_apply, hb, ht, hits_skip ha, hitsBreakpoint, if_pos (matches_iff.mpr hm)]
  rw [if_neg (by simpa using hc)]
  simp only [condHolds, M.bind_apply, tryM, h]

theorem condition_loops {xs : List Sexp} (hx : Sexp.WFs xs) (hw : Written xs b.cond) (hc : b.cond ≠ []) (hl : Literal R 0 (.list (.sym c!"do" :: xs)))
    (hd : Head R 0 c!"do" (.prim c!"do")) {module : Str} (hs : D.stop = false) (hb : D.bps = a ++ b :: t)
    (ha : ∀ c ∈ a, ¬ Matches c 1 module) (hm : Matches b 1 module) (k : Nat) :
    ∀ {st : St}, Sim o st μ R → st.dbg = D → (st.scopes (μ 0)).module = module → ∃ s, lispEval (runD k) b.cond (μ 0) module false false st = .fail .fuel s := by
  induction k with
  | zero =>
    intro st hS _ _
    obtain ⟨p, c, st1, g1, g2, g3, -, K, g5⟩ := script_fam (expanding_fixed (runD 0).eval) hx hw (heads_imp (fun n hn => hS.inert hS.pos hn.1 hn.2) hl) module
    have := fixed_le 0 (Nat.le_refl 0) (Nat.zero_le K)
    rcases ((inferInstance : Mono (lispEval (runD 0) b.cond (μ 0) module false false) (lispEval (fixedEval (runD 0).eval K) b.cond (μ 0) module false false))).le st with h | h
    · exact h
    · rw [h, g5 K (Nat.le_refl _), fixed_eval]; exact ⟨_, rfl⟩
  | succ k ih =>
    intro st hS hdb hmo
    obtain ⟨p, c, st1, g1, g2, g3, ⟨v0, cs, rfl, g4⟩, K, g5⟩ := script_fam (expanding_fixed (runD (k + 1)).eval) hx hw (heads_imp (fun n hn => hS.inert hS.pos hn.1 hn.2) hl) module
    have := fixed_le (k + 1) (j := k + 1) (k := K + (k + 1)) (Nat.le_refl _) (by omega)
    rcases ((inferInstance : Mono (lispEval (runD (k + 1)) b.cond (μ 0) module false false) (lispEval (fixedEval (runD (k + 1)).eval (K + (k + 1))) b.cond (μ 0) module false false))).le st with h | h
    · exact h
    rw [h, g5 _ (by omega), fixed_eval]
    have h5 := hS.started g1
    obtain ⟨tl, s2, k1, k2, k3⟩ := isSpecial_of h5.sim hS.pos .list ⟨_, g2, .list g3⟩ hd .do_ (by decide)
    obtain ⟨i, j, v, w, name, rfl, e1, e2, e3, e4⟩ := special_step h5.sim.links.old k1
    have hv : v.tok = some doToken := by
      cases g2 with
      | list hi hc =>
        rw [e1] at hc
        cases hc with
        | cons q1 q2 => cases q1; exact g4
    have hM : (s2.scopes (μ 0)).module = module := by
      obtain ⟨toks, hsc⟩ := g1.scopes
      rw [e3, hv]
      simp [atToken, hsc, fset]
    have hD2 : s2.dbg = D := by
      rw [e3, hv, ← hdb]
      exact (congrArg St.dbg g1.rest :)
    have := moreText_le k (k + 4) (by omega)
    rcases ((inferInstance : Mono (evalStepD (runD k) (.mk i .list) (μ 0)) (evalStepD { runD k with n := k + 4 } (.mk i .list) (μ 0)))).le st1 with h | h
    · exact h
    show ∃ s, evalStepD (runD k) (.mk i .list) (μ 0) st1 = _
    rw [h, e4 _ k rfl, M.bind_apply]
    obtain ⟨s, hs⟩ := asks { runD k with n := k + 4 } (g := μ 0) (st := s2) (tok := v.tok) (line := 1) (by rw [hv]; rfl) (by rw [hD2]; exact hs) (by rw [hD2]; exact hb) (by rw [hM]; exact ha) (by rw [hM]; exact hm) hc
      (by rw [hM]; exact ih k3.sim hD2 hM) (.mk j (.var v) :: tl)
    exact ⟨s, by rw [hs]⟩

/-- C51 does not hold for conditions in the first line: if the first breakpoint for the first line of the module has a condition, whatever
it is, and the main program is about to make a call in this line, then the debugger never answers: the evaluation of the condition asks for
the same condition again, and every budget of nested calls is exhausted. -/
theorem C51_first_line_wrong {xs : List Sexp} (hx : Sexp.WFs xs) (hw : Written xs b.cond) (hc : b.cond ≠ []) (hl : Literal R 0 (.list (.sym c!"do" :: xs)))
    (hd : Head R 0 c!"do" (.prim c!"do")) {st : St} (hS : Sim o st μ R) (hs : st.dbg.stop = false) (hb : st.dbg.bps = a ++ b :: t)
    (ha : ∀ c ∈ a, ¬ Matches c 1 (st.scopes (μ 0)).module) (hm : Matches b 1 (st.scopes (μ 0)).module) {tok : Option Token} (ht : posLine tok = 1) (ast : List Ptr) (k : Nat) :
    ∃ s, beforeCall (runD k) ast tok (μ 0) st = .fail .fuel s :=
  asks (runD k) ht hs hb ha hm hc (condition_loops hx hw hc hl hd hs hb ha hm k hS rfl rfl) ast

/-- The debugger has stopped before the first step of `(println 1)`, the user has set a breakpoint in line 1 with the condition `(= 1 1)`: a
call in line 1 is never made. -/
example (st : St) (hl : Links st) : ∃ s2 g, (s2.scopes g).module = c!"f.fuel" ∧ s2.dbg = { st.dbg with stop := false, bps := [⟨1, c!"f.fuel", c!"(= 1 1)"⟩] } ∧
    ∀ tok, posLine tok = 1 → ∀ ast k, ∃ s, beforeCall (runD k) ast tok g s2 = .fail .fuel s := by
  have hw : Sexp.WFs [.list [.sym c!"println", .int 1]] := by
    simp [Sexp.WF, Sexp.WFs, SymbolName, Spec.Plain, White, NumberLike, dropSign, Digit, reserved, IsInt32]
  have hw2 : Sexp.WFs [.list [.sym c!"=", .int 1, .int 1]] := by
    simp [Sexp.WF, Sexp.WFs, SymbolName, Spec.Plain, White, NumberLike, dropSign, Digit, reserved, IsInt32]
  obtain ⟨st0, s2, f, tl, h1, h2, h3, h4, h5, h6, h7, -⟩ := debug_start hw (written_sources hw) (by simp [Sexp.Heads, Sexp.HeadsAll, Sexp.text, hidden]) c!"f.fuel" hl
  have h8 := h2.seen st.out [] st.input { st.dbg with stop := false, bps := [⟨1, c!"f.fuel", c!"(= 1 1)"⟩] }
  refine ⟨s2.seen (st.out ++ []) ([] ++ st.input) { st.dbg with stop := false, bps := [⟨1, c!"f.fuel", c!"(= 1 1)"⟩] }, st.next, h5, rfl, fun tok ht ast k => ?_⟩
  exact C51_first_line_wrong (a := []) (t := []) (b := ⟨1, c!"f.fuel", c!"(= 1 1)"⟩) hw2 (written_sources hw2) (by decide)
    ⟨⟨by simp [Sexp.text, hidden], fun v => start_passive (f := 0) (by simp [Sexp.text])⟩, trivial, ⟨⟨by simp [Sexp.text, hidden], fun v => start_passive (f := 0) (by simp [Sexp.text])⟩, trivial, trivial, trivial, trivial⟩, trivial⟩
    ⟨rfl, .locally (by decide) rfl⟩ h8 rfl rfl (by simp) ⟨rfl, .inr (.inr h5.symm)⟩ ht ast k

end

end Fuel
