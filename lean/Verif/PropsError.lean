import Verif.LemError2
import Verif.PropsProg
import Verif.PropsDict
/-!
# C78 Errors of programs: the interpreter stops with the error that the reference semantics says
-/

set_option linter.unusedSectionVars false
set_option linter.unusedSimpArgs false

namespace Fuel

open Spec Spec.Core

section
variable [World]

mutual
theorem fails_ok : ∀ {f : Nat} {e : Sexp} {R : Conf} {msg t : Str}, Fails f e R msg t → FailsOk f e R msg t
  | _, _, _, _, _, .unknown hF hm hu hb => fails_unknown hF hm hu hb
  | _, _, _, _, _, .noFunction hF hV hr hb ht => fails_noFunction hF hV hr hb ht
  | _, _, _, _, _, .count hF hV hd ha hn => fails_count hF hV hd ha hn
  | _, _, _, _, _, .ifCount hF hV hn => fails_ifCount hF hV hn
  | _, _, _, _, _, .ifCond hF hV hl hx => fails_ifCond hF hV hl (fails_ok hx)
  | _, _, _, _, _, .ifBad hF hV hl hx hv hr hb => fails_ifBad hF hV hl (exec_ok hx) hv hr hb
  | _, _, _, _, _, .ifBranch hF hV hc hb => fails_ifBranch hF hV (exec_ok hc) (fails_ok hb)
  | _, _, _, _, _, .ifThen hF hV hc hb => fails_ifThen hF hV (exec_ok hc) (fails_ok hb)
  | _, _, _, _, _, .while_ hF hV hl => fails_while hF hV (loopFails_ok hl)
  | _, _, _, _, _, .block hF hV hd hl => fails_block hF hV hd (seqFails_ok hl)
  | _, _, _, _, _, .and_ hF hV hd hl => fails_and hF hV hd (conjFails_ok hl)
  | _, _, _, _, _, .defName hF hV hd ha => fails_defName hF hV hd ha
  | _, _, _, _, _, .def_ hF hV hd hx => fails_def hF hV hd (fails_ok hx)
  | _, _, _, _, _, .setf hF hV hx hu => fails_setf hF hV (exec_ok hx) hu
  | _, _, _, _, _, .quasi hF hV hx => fails_quasi hF hV (filledFails_ok hx)
  | _, _, _, _, _, .operand hF hV hw ho => fails_operand hF hV hw (operandsFail_ok ho)
  | _, _, _, _, _, .call hF hV ho ha => fails_call hF hV (operands_ok ho) (applyFails_ok ha)
  | _, _, _, _, _, .macro_ hF hR hm hx => fails_macro hF hR hm (fails_ok hx)
theorem filledFails_ok : ∀ {f : Nat} {e : Sexp} {R : Conf} {msg t : Str}, FilledFails f e R msg t → FilledFailsOk f e R msg t
  | _, _, _, _, _, .unquote hF hx => unquote_fails false hF (fails_ok hx)
  | _, _, _, _, _, .list hl ha => filledFails_list hl (filledAllFail_ok ha)
theorem filledAllFail_ok : ∀ {f : Nat} {l : List Sexp} {R : Conf} {msg t : Str}, FilledAllFail f l R msg t → FilledAllFailOk f l R msg t
  | _, _, _, _, _, .here hx => filledAllFail_here (filledFails_ok hx)
  | _, _, _, _, _, .spliced hF hx => filledAllFail_here (unquote_fails true hF (fails_ok hx))
  | _, _, _, _, _, .one hx hl => filledAllFail_one (filled_ok hx) (filledAllFail_ok hl)
  | _, _, _, _, _, .splice hF he hw hl => filledAllFail_splice hF (exec_ok he) hw (filledAllFail_ok hl)
theorem operandsFail_ok : ∀ {f : Nat} {R0 : Conf} {es : List Sexp} {R : Conf} {msg t : Str}, OperandsFail f R0 es R msg t → OperandsFailOk f R0 es R msg t
  | _, _, _, _, _, _, .here he => operandsFail_here (fails_ok he)
  | _, _, _, _, _, _, .name hv ht => operandsFail_name hv (operandsFail_ok ht)
  | _, _, _, _, _, _, .other hn he ht => operandsFail_other hn (exec_ok he) (operandsFail_ok ht)
theorem loopFails_ok : ∀ {f : Nat} {c b : Sexp} {R : Conf} {msg t : Str}, LoopFails f c b R msg t → LoopFailsOk f c b R msg t
  | _, _, _, _, _, _, .cond hc => loopFails_cond (fails_ok hc)
  | _, _, _, _, _, _, .bad hc hv hb => loopFails_bad (exec_ok hc) hv hb
  | _, _, _, _, _, _, .body hc hv hb => loopFails_body (exec_ok hc) hv (fails_ok hb)
  | _, _, _, _, _, _, .again hc hv hb hn hl => loopFails_again (exec_ok hc) hv (exec_ok hb) hn (loopFails_ok hl)
theorem seqFails_ok : ∀ {f : Nat} {es : List Sexp} {R : Conf} {msg t : Str}, SeqFails f es R msg t → SeqFailsOk f es R msg t
  | _, _, _, _, _, .here he => seqFails_here (fails_ok he)
  | _, _, _, _, _, .atom he => seqFails_atom he
  | _, _, _, _, _, .next hF he hn ht => seqFails_next hF (exec_ok he) hn (seqFails_ok ht)
  | _, _, _, _, _, .skip hF hV hc hn ht => seqFails_skip hF hV (exec_ok hc) hn (seqFails_ok ht)
  | _, _, _, _, _, .macro_ hF hV hd hn hr ht => seqFails_macro hF hV hd hn hr (seqFails_ok ht)
theorem conjFails_ok : ∀ {f : Nat} {es : List Sexp} {R : Conf} {msg t : Str}, ConjFails f es R msg t → ConjFailsOk f es R msg t
  | _, _, _, _, _, .here he => conjFails_here (fails_ok he)
  | _, _, _, _, _, .bad he hv hr hb => conjFails_bad (exec_ok he) hv hr hb
  | _, _, _, _, _, .next he ht => conjFails_next (exec_ok he) (conjFails_ok ht)
theorem applyFails_ok : ∀ {f : Nat} {w : Val} {vs : List Val} {R : Conf} {msg t : Str}, ApplyFails f w vs R msg t → ApplyFailsOk f w vs R msg t
  | _, _, _, _, _, _, .fn h => applyFails_fn h
  | _, _, _, _, _, _, .clo hd hh hb => applyFails_clo hd hh (fails_ok hb)
  | _, _, _, _, _, _, .map hw hc => applyFails_map hw (calls1Fail_ok hc)
  | _, _, _, _, _, _, .reduce hw hc => applyFails_reduce hw (calls2Fail_ok hc)
  | _, _, _, _, _, _, .apply hl hc => applyFails_apply hl (applyFails_ok hc)
theorem calls1Fail_ok : ∀ {f : Nat} {w : Val} {l : List Val} {R : Conf} {msg t : Str}, Calls1Fail f w l R msg t → Calls1FailOk f w l R msg t
  | _, _, _, _, _, _, .here hx ha => calls1Fail_here hx (applyFails_ok ha)
  | _, _, _, _, _, _, .next hx ha ht => calls1Fail_next hx (apply_ok ha) (calls1Fail_ok ht)
theorem calls2Fail_ok : ∀ {f : Nat} {w a : Val} {l : List Val} {R : Conf} {msg t : Str}, Calls2Fail f w a l R msg t → Calls2FailOk f w a l R msg t
  | _, _, _, _, _, _, _, .here hx ha => calls2Fail_here hx (applyFails_ok ha)
  | _, _, _, _, _, _, _, .next hx ha ht => calls2Fail_next hx (apply_ok ha) (calls2Fail_ok ht)
end

/-- C78: a program of the core language that makes an error according to the reference semantics ends with an exception of the interpreter
that has the message of the reference semantics, and has written exactly the text that was written until then. -/
theorem C78_error {xs : List Sexp} (hx : Sexp.WFs xs) {text : Str} (hw : Written xs text)
    (hh : Sexp.HeadsAll (fun n => n ∉ hidden ∧ n ≠ c!"define-macro-expand") xs) {st : St} (hr : Reachable st) (module : Str) {msg t : Str}
    (h : SeqFails 0 xs Conf.start msg t) :
    ∃ e st', Runs text module st (.fail (.exn e) st') ∧ e.isLisp = true ∧ e.msg = msg ∧ st'.out = st.out ++ t := by
  obtain ⟨p, c, st0, st1, h1, h2, h3, h4, h5, h6⟩ := script_new hx hw hh module st
  have hl0 : Links st0 := by
    have := (Reachable.create hr).links
    rwa [h1] at this
  have hs := start_sim h2 h3 (started_links h3 hl0) (ls := []) (rest := st.input) rfl
  have hE : Fails 0 (.list (.sym c!"do" :: xs)) Conf.start msg t :=
    .block .list (value_start 0 (b := .do_) (s := true) (by decide) (by decide)) (by simp) h
  obtain ⟨-, x, st', g1, ⟨a, b, c, d, e, rfl⟩, g2⟩ := fails_ok hE _ _ _ p hs Nat.one_pos ⟨_, h4, .list h5⟩
  exact ⟨_, st', (h6 _).2 g1, rfl, rfl, g2⟩

/-- C78: no program both has a value and makes an error, and the error and the text are determined. -/
theorem C78_exclusive {xs : List Sexp} (hx : Sexp.WFs xs) (hh : Sexp.HeadsAll (fun n => n ∉ hidden ∧ n ≠ c!"define-macro-expand") xs) {msg t : Str}
    (h : SeqFails 0 xs Conf.start msg t) :
    (¬ ∃ v R, Seq 0 (some .undef) xs Conf.start v R) ∧ ∀ msg' t', SeqFails 0 xs Conf.start msg' t' → msg' = msg ∧ t' = t := by
  have hr : Reachable ({} : St) := .init rfl (fun _ => rfl) (fun _ => rfl) (fun _ => rfl) (fun _ => rfl)
  obtain ⟨e, st1, h1, -, h2, h3⟩ := C78_error hx (written_sources hx) hh hr c!"m" h
  refine ⟨fun ⟨v, R, hv⟩ => ?_, fun msg' t' h' => ?_⟩
  · obtain ⟨w, st2, μ, g1, -⟩ := C55_core hx (written_sources hx) hh hr c!"m" hv
    cases C33_deterministic_script h1 g1
  · obtain ⟨e', st2, g1, -, g2, g3⟩ := C78_error hx (written_sources hx) hh hr c!"m" h'
    cases C33_deterministic_script h1 g1
    exact ⟨g2.symm.trans h2, List.append_cancel_left (g3.symm.trans h3)⟩

/-! ## Two programs -/

/-- C78: a program that begins with the call of an unknown function ends with this message and writes nothing, whatever follows. -/
theorem C78_unknown {n : Str} {args rest : List Sexp} (hx : Sexp.WFs (.list (.sym n :: args) :: rest)) {text : Str} (hw : Written (.list (.sym n :: args) :: rest) text)
    (hh : Sexp.HeadsAll (fun n => n ∉ hidden ∧ n ≠ c!"define-macro-expand") (.list (.sym n :: args) :: rest)) (hn : n ∉ hidden) (hs : Sound n)
    (hu : (Conf.start.frames 0).vars n = none) {st : St} (hr : Reachable st) (module : Str) :
    ∃ e st', Runs text module st (.fail (.exn e) st') ∧ e.isLisp = true ∧ e.msg = c!"Function \"" ++ n ++ c!"\" not found" ∧ st'.out = st.out := by
  have hi : ∀ g, ¬ Innermost Conf.start n 0 g := by
    intro g hg
    cases hg with
    | here h => rw [hu] at h; cases h
    | up _ hp _ => cases hp
  obtain ⟨e, st', h1, h2, h3, h4⟩ := C78_error hx hw hh hr module (.here (.unknown .list rfl ⟨hn, hu, hi, by simp [Conf.start]⟩ hs))
  exact ⟨e, st', h1, h2, h3, by simpa [Conf.start] using h4⟩

end

namespace Spec.Core

/-- `(if (< n 1) (oops n) (+ 1 (down (- n 1))))` -/
def downBody : Sexp :=
  .list [.sym c!"if", .list [.sym c!"<", .sym c!"n", .int 1], .list [.sym c!"oops", .sym c!"n"],
    .list [.sym c!"+", .int 1, .list [.sym c!"down", .list [.sym c!"-", .sym c!"n", .int 1]]]]

/-- `(defn down (n) (if (< n 1) (oops n) (+ 1 (down (- n 1))))) (println "start") (down m) (println "end")` -/
def downProgram (m : Nat) : List Sexp :=
  [.list [.sym c!"defn", .sym c!"down", .list [.sym c!"n"], downBody], .list [.sym c!"println", .str c!"start"],
   .list [.sym c!"down", .int m], .list [.sym c!"println", .str c!"end"]]

end Spec.Core

section
variable [World]

/-- The names that the function uses have their meaning. -/
structure DownLib (R : Conf) : Prop where
  count : 0 < R.count
  if_ : (R.frames 0).vars c!"if" = some (.prim c!"if")
  lt : (R.frames 0).vars c!"<" = some (.prim c!"<")
  add : (R.frames 0).vars c!"+" = some (.prim c!"+")
  sub : (R.frames 0).vars c!"-" = some (.prim c!"-")
  down : (R.frames 0).vars c!"down" = some (.clo [c!"n"] downBody 0)
  oops : (R.frames 0).vars c!"oops" = none
  parent : (R.frames 0).parent = none
  macros : R.macros = Conf.start.macros
  modules : R.modules = []

theorem down_apply (m : Nat) (hm : IsInt32 m) : ∀ {f : Nat} {R : Conf}, DownLib R → ApplyFails f (.clo [c!"n"] downBody 0) [.int (m : Nat)] R (functionText c!"oops") R.out := by
  induction m with
  | zero =>
    intro f R hL
    have h0 : (0 : Nat) ≠ R.count := Nat.ne_of_lt hL.count
    have hg : ∀ {n : Str} {v : Val}, n ∉ hidden → n ≠ c!"n" → (R.frames 0).vars n = some v → Head (R.enter [c!"n"] [.int (0 : Nat)] 0) R.count n v := fun {n v} h h' hv =>
      ⟨congrFun hL.macros _, .globally h (by simp [Conf.enter, Conf.withFrame, paramVal, h']) (by simpa only [Conf.enter, Conf.withFrame, if_neg h0] using hv)⟩
    have hn : Value (R.enter [c!"n"] [.int (0 : Nat)] 0) R.count c!"n" (.int (0 : Nat)) := .locally (by decide) (by simp [Conf.enter, Conf.withFrame, paramVal])
    refine .clo (by decide) (by decide) (.ifBranch (t := true) .list (hg (by decide) (by decide) hL.if_)
      (.call .list (hg (by decide) (by decide) hL.lt) (.name hn (.other (by simp) .int .nil)) (.fn .lt)) (.unknown .list (congrFun hL.macros _) ⟨by decide, ?_, ?_, fun x hx => by rw [show (R.enter [c!"n"] [.int (0 : Nat)] 0).modules = [] from hL.modules] at hx; cases hx⟩ ⟨by simp [BraceFree], by decide⟩))
    · simpa only [Conf.enter, Conf.withFrame, if_neg h0] using hL.oops
    · intro g hg
      cases hg with
      | here h => simp [Conf.enter, Conf.withFrame, paramVal] at h
      | up _ hp hi =>
        simp only [Conf.enter, Conf.withFrame, if_true, Option.some.injEq] at hp
        subst hp
        cases hi with
        | here h =>
          simp only [Conf.enter, Conf.withFrame, if_neg h0, hL.oops] at h
          cases h
        | up _ hp _ =>
          simp only [Conf.enter, Conf.withFrame, if_neg h0, hL.parent] at hp
          cases hp
  | succ m ih =>
    intro f R hL
    have h0 : (0 : Nat) ≠ R.count := Nat.ne_of_lt hL.count
    have hg : ∀ {n : Str} {v : Val}, n ∉ hidden → n ≠ c!"n" → (R.frames 0).vars n = some v → Head (R.enter [c!"n"] [.int (m + 1 : Nat)] 0) R.count n v := fun {n v} h h' hv =>
      ⟨congrFun hL.macros _, .globally h (by simp [Conf.enter, Conf.withFrame, paramVal, h']) (by simpa only [Conf.enter, Conf.withFrame, if_neg h0] using hv)⟩
    have hn : Value (R.enter [c!"n"] [.int (m + 1 : Nat)] 0) R.count c!"n" (.int (m + 1 : Nat)) := .locally (by decide) (by simp [Conf.enter, Conf.withFrame, paramVal])
    have hc : Exec R.count (.list [.sym c!"<", .sym c!"n", .int 1]) (R.enter [c!"n"] [.int (m + 1 : Nat)] 0) (.bool (decide (((m + 1 : Nat) : Int) < 1)))
        (R.enter [c!"n"] [.int (m + 1 : Nat)] 0) := .call .list (hg (by decide) (by decide) hL.lt) (.name hn (.other (by simp) .int .nil)) (.fn .lt)
    rw [decide_eq_false (by omega)] at hc
    have hL' : DownLib (R.enter [c!"n"] [.int (m + 1 : Nat)] 0) := by
      have hE : (R.enter [c!"n"] [.int (m + 1 : Nat)] 0).frames 0 = R.frames 0 := by simp only [Conf.enter, Conf.withFrame, if_neg h0]
      exact ⟨Nat.succ_pos _, by rw [hE]; exact hL.if_, by rw [hE]; exact hL.lt, by rw [hE]; exact hL.add, by rw [hE]; exact hL.sub, by rw [hE]; exact hL.down,
        by rw [hE]; exact hL.oops, by rw [hE]; exact hL.parent, hL.macros, hL.modules⟩
    have hs : Exec R.count (.list [.sym c!"-", .sym c!"n", .int 1]) (R.enter [c!"n"] [.int (m + 1 : Nat)] 0) (.int (m : Nat)) (R.enter [c!"n"] [.int (m + 1 : Nat)] 0) := by
      have hfold : Folds (· - ·) ((m + 1 : Nat) : Int) [1] (m : Nat) := by
        have : ((m + 1 : Nat) : Int) - 1 = (m : Nat) := by omega
        refine .cons ?_ ?_
        · rw [this]; unfold IsInt32 at *; omega
        · rw [this]; exact .nil
      exact .call .list (hg (by decide) (by decide) hL.sub) (.name hn (.other (by simp) .int .nil)) (.fn (.sub (l := []) (by simp) hfold))
    have hr : Fails R.count (.list [.sym c!"down", .list [.sym c!"-", .sym c!"n", .int 1]]) (R.enter [c!"n"] [.int (m + 1 : Nat)] 0) (functionText c!"oops") R.out :=
      .call .list (hg (by decide) (by decide) hL.down) (.other (by simp) hs .nil) (ih (by unfold IsInt32 at *; omega) (f := R.count) hL')
    exact .clo (by decide) (by decide) (.ifBranch (t := false) .list (hg (by decide) (by decide) hL.if_) hc
      (.operand .list (hg (by decide) (by decide) hL.add) ⟨.add, table_core (c!"+", .add, false) (by decide)⟩ (.other (by simp) .int (.here hr))))

theorem downProgram_wf {m : Nat} (hm : IsInt32 m) : Sexp.WFs (downProgram m) := by
  simp [downProgram, downBody, Sexp.WF, Sexp.WFs, SymbolName, Spec.Plain, White, NumberLike, dropSign, Digit, reserved, hm]
  decide

/-- C78: an error m calls deep ends the whole program: the message is unchanged, what was written before stays and nothing is written after. -/
theorem C78_deep (m : Nat) (hm : IsInt32 m) {text : Str} (hw : Written (downProgram m) text) {st : St} (hr : Reachable st) (module : Str) :
    ∃ e st', Runs text module st (.fail (.exn e) st') ∧ e.isLisp = true ∧ e.msg = c!"Function \"oops\" not found" ∧ st'.out = st.out ++ c!"start\n" := by
  let R := Conf.start.set 0 c!"down" (.clo [c!"n"] downBody 0)
  have hset : ∀ n, n ≠ c!"down" → (R.frames 0).vars n = (Conf.start.frames 0).vars n := fun n hn => by
    simp only [R, Conf.set, Conf.withFrame, if_pos trivial, if_neg hn]
  have hL : DownLib (R.write c!"start\n") := by
    refine ⟨Nat.one_pos, ?_, ?_, ?_, ?_, ?_, ?_, rfl, rfl, rfl⟩
    · exact (hset _ (by decide)).trans (start_vars (b := .if_) (s := true) (by decide))
    · exact (hset _ (by decide)).trans (start_vars (b := .lt) (s := false) (by decide))
    · exact (hset _ (by decide)).trans (start_vars (b := .add) (s := false) (by decide))
    · exact (hset _ (by decide)).trans (start_vars (b := .sub) (s := false) (by decide))
    · simp [R, Conf.set, Conf.withFrame, Conf.write]
    · exact (hset _ (by decide)).trans (by simp only [Conf.start]; exact if_neg (by decide +kernel))
  have e1 : Exec 0 (.list [.sym c!"defn", .sym c!"down", .list [.sym c!"n"], downBody]) Conf.start (.clo [c!"n"] downBody 0) R :=
    .defn (ps := [c!"n"]) .list (value_start 0 (b := .defn) (s := true) (by decide) (by decide)) (by decide) (start_vars (b := .fn) (s := true) (by decide))
      (start_vars (b := .def_) (s := true) (by decide))
  have e2 : Exec 0 (.list [.sym c!"println", .str c!"start"]) R (.str c!"start") (R.write c!"start\n") := by
    have := Prints.println (ShownAll.cons (Shown.str (s := c!"start")) .nil)
    exact .call .list ⟨rfl, .locally (by decide) (by rw [hset _ (by decide)]; exact start_vars (b := .println) (s := false) (by decide))⟩ (.other (by simp) .str .nil) (.prints this)
  have e3 : Fails 0 (.list [.sym c!"down", .int m]) (R.write c!"start\n") (functionText c!"oops") c!"start\n" :=
    .call .list ⟨rfl, .locally (by decide) hL.down⟩ (.other (by simp) .int .nil) (down_apply m hm hL)
  exact C78_error (xs := downProgram m) (downProgram_wf hm) hw (by simp [downProgram, downBody, Sexp.Heads, Sexp.HeadsAll, Sexp.text, hidden]) hr module
    (.next ⟨_, _, .list⟩ e1 rfl (.next ⟨_, _, .list⟩ e2 rfl (.here e3)))

end

/-! ## The hypotheses are met -/

section
attribute [local instance] demoWorld

/-- The error is 1000 calls deep. -/
example : ∃ e st', Runs (Sexp.sources (downProgram 1000)) c!"demo" ({} : St) (.fail (.exn e) st') ∧ e.msg = c!"Function \"oops\" not found" ∧ st'.out = c!"start\n" := by
  obtain ⟨e, st', h1, -, h2, h3⟩ := C78_deep 1000 (by decide) (written_sources (downProgram_wf (by decide))) (st := {})
    (.init rfl (fun _ => rfl) (fun _ => rfl) (fun _ => rfl) (fun _ => rfl)) c!"demo"
  exact ⟨e, st', h1, h2, h3⟩

example : Sexp.sources (downProgram 1000) =
    c!"(defn down (n) (if (< n 1) (oops n) (+ 1 (down (- n 1))))) (println \"start\") (down 1000) (println \"end\")" := by decide +kernel

/-- `(frobnicate 1) (println 2)` -/
example : ∃ e st', Runs (Sexp.sources [.list [.sym c!"frobnicate", .int 1], .list [.sym c!"println", .int 2]]) c!"demo" ({} : St) (.fail (.exn e) st') ∧
    e.msg = c!"Function \"frobnicate\" not found" ∧ st'.out = [] := by
  have hw : Sexp.WFs [.list [.sym c!"frobnicate", .int 1], .list [.sym c!"println", .int 2]] := by
    simp [Sexp.WF, Sexp.WFs, SymbolName, Spec.Plain, White, NumberLike, dropSign, Digit, reserved, IsInt32]
  obtain ⟨e, st', h1, -, h2, h3⟩ := C78_unknown hw (written_sources hw) (by simp [Sexp.Heads, Sexp.HeadsAll, Sexp.text, hidden]) (by decide) ⟨by simp [BraceFree], by decide⟩
    (by simp only [Conf.start]; exact if_neg (by decide +kernel)) (st := {}) (.init rfl (fun _ => rfl) (fun _ => rfl) (fun _ => rfl) (fun _ => rfl)) c!"demo"
  exact ⟨e, st', h1, h2, h3⟩

/-- Errors of built-in functions: a symbol and a number, a condition that is no bool, too many arguments, a list that is none. -/
example : FnErr c!"+" [.int 1, .sym c!"a"] c!"Invalid cast for int, value=a can not convert Symbol to int" :=
  .first (.add (by simp)) (Clash.right (s := c!"a") ⟨by simp [BraceFree], by decide⟩)

example : FnErr c!"not" [.str c!"yes"] c!"Invalid cast for bool, value=yes no" := .not (by simp) (by simp) .str ⟨by simp [BraceFree], by decide⟩

example : FnErr c!"len" [.int 3] c!"Invalid cast for list, value=3 no" := .list (v := .int 3) (by simp) trivial .int ⟨by rw [show intStr 3 = c!"3" by decide]; simp [BraceFree], by decide⟩

example : FnErr c!"reduce" [.prim c!"+", .int 3, .int 0] c!"No list in reduce" := .reduceList trivial (fun l h => by cases h)

/-- C78, negative part: the text `##<NULL>##` stands for "no argument" in the function that makes the messages, so the message of a wrong value
with this text is another one. -/
theorem C78_null_wrong : ∃ full line start stop m,
    demoFail c!"(not \"##<NULL>##\")" = some (.exn (.lisp full c!"Not enough items for format string: Invalid cast for {2}, value={1} {0}" line start stop m)) := by
  have h : (demoFail c!"(not \"##<NULL>##\")").bind (fun f => match f with | .exn (.lisp _ m _ _ _ _) => some m | _ => none) =
    some c!"Not enough items for format string: Invalid cast for {2}, value={1} {0}" := by decide +kernel
  generalize demoFail c!"(not \"##<NULL>##\")" = x at h
  match x, h with
  | some (.exn (.lisp full m line start stop d)), h =>
    cases h
    exact ⟨_, _, _, _, _, rfl⟩

/-- C78, negative part: the same happens if the value contains a place holder that the message does not use. -/
theorem C78_brackets_wrong : ∃ full line start stop m,
    demoFail c!"(not \"{3}\")" = some (.exn (.lisp full c!"Not enough items for format string: Invalid cast for {2}, value={1} {0}" line start stop m)) := by
  have h : (demoFail c!"(not \"{3}\")").bind (fun f => match f with | .exn (.lisp _ m _ _ _ _) => some m | _ => none) =
    some c!"Not enough items for format string: Invalid cast for {2}, value={1} {0}" := by decide +kernel
  generalize demoFail c!"(not \"{3}\")" = x at h
  match x, h with
  | some (.exn (.lisp full m line start stop d)), h =>
    cases h
    exact ⟨_, _, _, _, _, rfl⟩

end

end Fuel
