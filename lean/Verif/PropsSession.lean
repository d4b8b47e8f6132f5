import Verif.SpecSession
import Verif.PropsShell
import Verif.PropsDebug
/-!
# C85: a session with the debugger
-/

set_option linter.unusedSectionVars false
set_option linter.unusedSimpArgs false

namespace Fuel

open Spec Spec.Core

section
variable [World]

theorem runD_n : ∀ k, (runD k).n = k
  | 0 => rfl
  | _ + 1 => rfl
theorem expanding_runD : Expanding runD := ⟨runD_n, fun _ => rfl, fun _ => rfl⟩

/-- The debugger stops before the next call, wherever it is, and there are no breakpoints. -/
structure Armed (d : Dbg) : Prop where
  stop : d.stop = true
  mode : d.mode = .always
  bps : d.bps = []

/-! ## The dialog -/

theorem info_debug {c t : Str} (h : Info c t) (r : Rec) (top cur : Nat) (b : Bool) (script : Str) (st : St) :
    ∃ d : DS, d.cur = cur ∧ dbgCommandD r top b c cur script st = .ok (d, .again) { st with out := st.out ++ t } := by
  have e : manual = (helpLines.map (· ++ c!"\n")).flatten := by decide +kernel
  cases h with
  | help hc =>
    have : dcmd c = .help := by
      simp only [List.mem_cons, List.not_mem_nil, or_false] at hc
      rcases hc with rfl | rfl <;> decide
    exact ⟨{ dbg := st.dbg, cur := cur, script := script }, rfl, by
      simp only [dbgCommandD, dbgCommand, this, M.bind_apply, M.get_apply, writeLines_eq, M.pure_apply, M.modify_apply, e]⟩
  | about =>
    have : dcmd c!"about" = .about := by decide
    exact ⟨{ dbg := st.dbg, cur := cur, script := script }, rfl, by
      simp only [dbgCommandD, dbgCommand, this, M.bind_apply, M.get_apply, showAbout, showVersion, writeLines_eq, M.pure_apply, M.modify_apply]
      simp [banner]⟩
  | version hc =>
    have : dcmd c = .version := by
      simp only [List.mem_cons, List.not_mem_nil, or_false] at hc
      rcases hc with rfl | rfl <;> decide
    exact ⟨{ dbg := st.dbg, cur := cur, script := script }, rfl, by
      simp only [dbgCommandD, dbgCommand, this, M.bind_apply, M.get_apply, showVersion, writeLines_eq, M.pure_apply, M.modify_apply]
      simp [banner]⟩

theorem dialog_loop {i i' : List Str} {b : Bool} {t : Str} (h : Dialog i b i' t) (r : Rec) (top : Nat) {st : St} (hi : st.input = i) (hs : st.dbg.stop = false)
    {n : Nat} (hn : i.length < n) (cur : Nat) (script : Str) :
    if b then ∃ x, dbgLoopD r top false n cur script st = .ok x { st with out := st.out ++ t, input := i' }
    else dbgLoopD r top false n cur script st = .fail (.exn .stopDebugger) { st with out := st.out ++ t, input := i' } := by
  induction h generalizing st n cur script with
  | eof =>
    obtain ⟨n, rfl⟩ : ∃ m, n = m + 1 := ⟨n - 1, by omega⟩
    simp only [Bool.false_eq_true, if_false, dbgLoopD, M.bind_apply, Fuel.write, M.modify_apply, readLine, M.get_apply, hi, M.pure_apply, show trim [] = ([] : Str) from rfl, dbgCommandD, dbgCommand,
      show dcmd [] = .exit from rfl]
    rfl
  | @quit l ls c hc hm =>
    obtain ⟨n, rfl⟩ : ∃ m, n = m + 1 := ⟨n - 1, by omega⟩
    have : dcmd c = .exit := by
      simp only [List.mem_cons, List.not_mem_nil, or_false] at hm
      rcases hm with rfl | rfl | rfl | rfl <;> decide
    simp only [Bool.false_eq_true, if_false, dbgLoopD, M.bind_apply, Fuel.write, M.modify_apply, readLine, M.get_apply, hi, M.pure_apply, typed_trim hc, dbgCommandD, dbgCommand, this]
    rfl
  | @run l ls c hc hm =>
    obtain ⟨n, rfl⟩ : ∃ m, n = m + 1 := ⟨n - 1, by omega⟩
    have hd : st.dbg.doRun = st.dbg := by cases h : st.dbg; simp [Dbg.doRun]; simpa [h] using hs.symm
    simp only [List.mem_cons, List.not_mem_nil, or_false] at hm
    rw [if_pos rfl]
    rcases hm with rfl | rfl | rfl
    · simp only [dbgLoopD, M.bind_apply, Fuel.write, M.modify_apply, readLine, M.get_apply, hi, M.pure_apply, typed_trim hc, dbgCommandD, dbgCommand, show dcmd c!"run" = .run from rfl, hd]
      exact ⟨_, rfl⟩
    · simp only [dbgLoopD, M.bind_apply, Fuel.write, M.modify_apply, readLine, M.get_apply, hi, M.pure_apply, typed_trim hc, dbgCommandD, dbgCommand, show dcmd c!"r" = .run from rfl, hd]
      exact ⟨_, rfl⟩
    · simp only [dbgLoopD, M.bind_apply, Fuel.write, M.modify_apply, readLine, M.get_apply, hi, M.pure_apply, typed_trim hc, dbgCommandD, dbgCommand, show dcmd c!"restart" = .restart from rfl]
      exact ⟨_, rfl⟩
  | @info l ls c t b rest out hc ht _ ih =>
    obtain ⟨n, rfl⟩ : ∃ m, n = m + 1 := ⟨n - 1, by omega⟩
    obtain ⟨d, h1, h2⟩ := info_debug ht r top cur false script { st with out := st.out ++ prompt, input := ls }
    have e : dbgLoopD r top false (n + 1) cur script st = dbgLoopD r top false n d.cur d.script { st with out := st.out ++ prompt ++ t, input := ls } := by
      rw [dbgLoopD]
      simp only [M.bind_apply, Fuel.write, M.modify_apply, readLine, M.get_apply, hi, M.pure_apply, typed_trim hc]
      rw [show (c!"FUEL(isp)-DBG> " : Str) = prompt from rfl, h2]
    rw [e]
    have := ih (st := { st with out := st.out ++ prompt ++ t, input := ls }) rfl hs (n := n) (by simp only [List.length_cons] at hn; omega) d.cur d.script
    simpa only [List.append_assoc] using this

/-- The stop before the first step. -/
theorem stop_first {i' : List Str} {b : Bool} {t : Str} {st : St} (h : Dialog st.input b i' t) {r : Rec} {g : Nat} {f : Ptr} {tl : List Ptr} (ha : Armed st.dbg)
    (hf : ∀ s, ptrStr s r.n f = .ok c!"do") (ht : (st.scopes g).curTok = some doToken) (htr : (st.scopes (st.scopes g).global).tracing = some false) :
    beforeCall r (f :: tl) (some doToken) g st =
      (if b then Out.ok () else Out.fail (.exn .stopDebugger)) (st.seen (st.out ++ (stopLine (st.scopes g).module ++ t)) i' { st.dbg with stop := false }) := by
  have hd := dialog_loop h r g (st := { st with out := st.out ++ stopLine (st.scopes g).module, dbg := { st.dbg with stop := false } }) rfl rfl (n := st.input.length + 1) (by omega) g []
  have hl : (c!"--> " ++ c!"do" ++ c!" line=" ++ intStr doToken.line ++ c!" start=" ++ intStr doToken.start ++ c!" stop=" ++ intStr doToken.stop ++
        c!" module=" ++ (st.scopes g).module ++ c!" token=" ++ doToken.toStr) ++ c!"\n" = stopLine (st.scopes g).module := by
    rw [show c!"--> " ++ c!"do" ++ c!" line=" ++ intStr doToken.line ++ c!" start=" ++ intStr doToken.start ++ c!" stop=" ++ intStr doToken.stop ++ c!" module=" =
      c!"--> do line=1 start=-3 stop=-1 module=" by decide, show doToken.toStr = c!"do" from rfl]
    simp [stopLine]
  simp only [beforeCall, M.bind_apply, M.get_apply, needsBreak, ha.stop, if_true, ha.mode, stopsHere, M.pure_apply, M.modify_apply, stopAt, ht, M.rd_apply, hf, writeLine, Fuel.write, hl,
    interactD, htr]
  simp only [ha.mode] at hd
  cases b with
  | true =>
    rw [if_pos rfl] at hd
    obtain ⟨x, hx⟩ := hd
    rw [hx]
    simp [St.seen]
  | false =>
    rw [if_neg (by decide)] at hd
    rw [hd]
    simp [St.seen]

/-- The evaluation of a special form under the debugger: the debugger is asked, then the function is called. -/
theorem eval_special_debug {st st' : St} {g : Nat} {ast : Ptr} {b : Builtin} {args : List Ptr} (ha : Acyclic st) (h : IsSpecial st g ast b args st') (hb : b ≠ .brk) :
    ∃ i j v name, ast = .mk i .list ∧ st.lists i = .mk j (.var v) :: args ∧ IsSym v name ∧ st' = atToken st g v.tok ∧
      ∀ k, (runD (k + 5)).eval ast g st = (beforeCall (runD (k + 4)) (.mk j (.var v) :: args) v.tok g >>= fun _ => callPrim (runD (k + 3)) b args g) st' := by
  obtain ⟨w, ⟨⟨i, f, rfl, hl, ⟨name, p, ⟨j, v, rfl, hv⟩, hm, hlk, hp⟩, rfl⟩, hpl, ht⟩, hw, hs⟩ := h
  refine ⟨i, j, v, name, rfl, hl, hv, rfl, fun k => ?_⟩
  have e1 : resolveElem (atToken st g v.tok) (k + 4) g (.mk j (.var v)) = .ok p :=
    resolveElem_sym (n := k + 1) ((sameNames_atToken st g v.tok).acyclic ha) hv ((sameNames_atToken st g v.tok).lookup hlk)
  show evalStepD (runD (k + 4)) (.mk i .list) g st = _
  simp only [evalStepD, M.bind_apply, M.rd_apply, toListRef, hl, evalListD, runD_n, getMacro_none (ptrStr_sym hv) hm, M.lift_apply, toVariant]
  simp only [setCurTok_apply, resolveArgs, e1, bind_ok_R, headFunction_ok hp, hs, if_true, traceCall_off (traceOff_atToken _ ht), evalArgs_special hpl, tokenOf]
  cases beforeCall (runD (k + 4)) (.mk j (.var v) :: args) v.tok g (atToken st g v.tok) with
  | fail f s => rfl
  | ok a s =>
    show callStepD (runD (k + 3)) w args g s = _
    unfold callStepD
    rw [hw]
    cases b <;> first | exact absurd rfl hb | rfl

/-! ## One turn -/

theorem create_dbg {st st0 : St} {g : Nat} (h : createDefaultScope st = .ok g st0) : st0.dbg = st.dbg := by
  obtain ⟨vars, n, hn, h1, -⟩ := registerAll_new st defaultTable
  rw [create_pre, h1] at h
  cases h
  rfl

theorem Sim.seen {o : Origin} {st : St} {μ : Emb} {R : Conf} (h : Sim o st μ R) (out : Str) (ls rest : List Str) (d : Dbg) :
    Sim ⟨out, rest⟩ (st.seen (out ++ R.out) (ls ++ rest) d) μ { R with input := ls } := by
  have gr : Grow st μ R.count (st.seen (out ++ R.out) (ls ++ rest) d) μ R.count := ⟨Nat.le_refl _, fun _ _ => rfl, fun _ _ => rfl, Nat.le_refl _, fun _ _ => rfl, fun _ _ h => h⟩
  refine ⟨⟨h.links.clos, h.links.old, h.links.fresh, h.links.callers⟩, h.pos, h.old, h.inj, h.global, h.place, h.ret, h.parent, h.below, h.unbound, fun f hf n hn v hv => ?_, h.buffer, ?_,
    h.modules, h.names, h.inner, h.tracing, rfl, rfl, ?_, fun name file xs hx => (h.lib name file xs hx).congr rfl rfl⟩
  · obtain ⟨p, h1, i, w, rfl, h2⟩ := h.bound f hf n hn v hv
    exact ⟨_, h1, i, w, rfl, isVal_grow gr h2⟩
  · obtain ⟨i, m, h1, h2, h3, h4⟩ := h.macros
    exact ⟨i, m, h1, h2, h3, fun n => macroAt_grow gr (h4 n)⟩
  · exact h.dicts.keep gr rfl fun _ _ => rfl

/-- The program is read and prepared in a new interpreter, and the debugger is asked before the first step. -/
theorem debug_start {xs : List Sexp} (hx : Sexp.WFs xs) {text : Str} (hw : Written xs text)
    (hh : Sexp.HeadsAll (fun n => n ∉ hidden ∧ n ≠ c!"define-macro-expand") xs) (module : Str) {st : St} (hl : Links st) :
    ∃ st0 s2 f tl, createDefaultScope st = .ok st.next st0 ∧ Sim ⟨st.out, st.input⟩ s2 ⟨fun _ => st.next, fun _ => none⟩ { Conf.start with input := [] } ∧ All2 (CodeAt s2) tl xs ∧
      s2.dbg = st.dbg ∧ (s2.scopes st.next).module = module ∧ (s2.scopes st.next).curTok = some doToken ∧ (∀ s k, 3 ≤ k → ptrStr s k f = .ok c!"do") ∧
      ∃ K, ∀ k, K ≤ k → lispEval (runD (k + 5)) text st.next module false false st0 =
        (beforeCall (runD (k + 4)) (f :: tl) (some doToken) st.next >>= fun _ => callPrim (runD (k + 3)) .do_ tl st.next) s2 := by
  obtain ⟨st0, h1, h2⟩ := C48_new st
  have hl0 : Links st0 := by
    have := ((inferInstance : Pres Fresh createDefaultScope).rel st).links hl
    rwa [h1] at this
  have hh' : (Sexp.list (.sym c!"do" :: xs)).Heads (Inert st0 st.next) := by
    refine ⟨inert_new h2 (by simp [Sexp.text, hidden]) (by simp [Sexp.text]), trivial, ?_⟩
    exact headsAll_imp (fun n hn => inert_new h2 hn.1 hn.2) hh
  obtain ⟨p, c, st1, g1, g2, g3, ⟨v0, cs, rfl, g4⟩, K, g5⟩ := script_fam expanding_runD hx hw hh' module
  have hs := start_sim h2 g1 (started_links g1 hl0) (ls := []) (rest := st.input) rfl
  obtain ⟨tl, s2, k1, k2, k3⟩ := isSpecial_of hs Nat.one_pos .list ⟨_, g2, .list g3⟩
    (head_of_frames (R := Conf.start) rfl rfl (value_start 0 (n := c!"do") (b := .do_) (s := true) (by decide) (by decide))) .do_ (by decide)
  obtain ⟨i, j, v, name, rfl, e1, e2, e3, e4⟩ := eval_special_debug hs.links.old k1 (by decide)
  cases g2 with
  | list hi ht =>
  rw [e1] at ht
  cases ht with
  | cons ht _ =>
  cases ht
  have hv : IsSym v0 c!"do" := by
    cases g3 with
    | cons g3 _ => cases g3; assumption
  rw [g4] at e3 e4
  obtain ⟨toks, hsc⟩ := g1.scopes
  refine ⟨st0, s2, .mk j (.var v0), tl, h1, k3.sim, k2, ?_, ?_, ?_, fun s k hk => ?_, K, fun k hk => ?_⟩
  · rw [e3]
    have e : st1.dbg = st0.dbg := (congrArg St.dbg g1.rest :)
    exact e.trans (create_dbg h1)
  · rw [e3]
    simp [atToken, hsc]
  · rw [e3]
    simp [atToken]
  · obtain ⟨m, rfl⟩ : ∃ m, k = m + 3 := ⟨k - 3, by omega⟩
    exact ptrStr_sym hv
  · rw [g5 (k + 5) (by omega)]
    exact e4 k

/-- The text that a turn of the session writes, up to the next start of the program. -/
theorem debug_run {xs : List Sexp} (hx : Sexp.WFs xs) {text : Str} (hw : Written xs text)
    (hh : Sexp.HeadsAll (fun n => n ∉ hidden ∧ n ≠ c!"define-macro-expand") xs) (module : Str) {st : St} (hl : Links st) (ha : Armed st.dbg)
    {ls : List Str} {t : Str} (hd : Dialog st.input true ls t) {v : Val} {R : Conf} (h : Seq 0 (some .undef) xs { Conf.start with input := ls } v R)
    (hb : ¬ breakWarning <:+: st.out ++ (stopLine module ++ t) ++ R.out) :
    ∃ K st0 w st', createDefaultScope st = .ok st.next st0 ∧ (∀ k, K ≤ k → lispEval (runD k) text st.next module false false st0 = .ok (some w) st') ∧
      Links st' ∧ RunsFree st'.dbg ∧ st'.out = st.out ++ (stopLine module ++ t) ++ R.out ∧ st'.input = R.input := by
  obtain ⟨st0, s2, f, tl, h1, h2, h3, h4, h5, h6, h7, K, h8⟩ := debug_start hx hw hh module hl
  have hin : s2.input = st.input := by simpa using h2.input
  have htr : (s2.scopes (s2.scopes st.next).global).tracing = some false := by
    have := h2.global 0 Nat.one_pos
    rw [show (s2.scopes st.next).global = st.next from this]; exact h2.tracing
  have hout : s2.out = st.out := by simpa [Conf.start] using h2.out
  generalize hO : st.out ++ (stopLine module ++ t) = O at hb ⊢
  have h9 : Sim ⟨O, []⟩ (s2.seen (O ++ []) (ls ++ []) { st.dbg with stop := false }) ⟨fun _ => st.next, fun _ => none⟩ { Conf.start with input := ls } := h2.seen O ls [] _
  simp only [List.append_nil] at h9
  generalize hs3 : s2.seen O ls { st.dbg with stop := false } = s3 at h9
  have hc : All2 (CodeAt s3) tl xs := by
    subst hs3
    exact codesAt_grow (st := s2) (st' := s2.seen O ls { st.dbg with stop := false }) (μ := ⟨fun _ => 0, fun _ => none⟩) (N := 0) (μ' := ⟨fun _ => 0, fun _ => none⟩) (N' := 0) ⟨Nat.le_refl _, fun _ _ => rfl, fun _ _ => rfl, Nat.le_refl _, fun _ _ => rfl, fun _ _ h => h⟩ h3
  have hdb : RunsFree s3.dbg := by subst hs3; exact ⟨rfl, ha.bps⟩
  obtain ⟨w, st', μ', g1, g2, g3⟩ := seq_ok h _ _ _ tl (some undefinedV) h9 Nat.one_pos hc (by rintro _ ⟨⟩; exact ⟨_, rfl, .undef rfl (nsp rfl)⟩)
  have hlim : Lim (fun k => callPrim (run k) .do_ tl st.next s3) (.ok (some w) st') := doLoop_run g1
  obtain ⟨K1, hK1⟩ := Lim.stable (monoSeq_prim .do_ tl st.next _) hlim
  have ho : st'.out = O ++ R.out := g3.sim.out
  have hfree : ∀ k, K1 ≤ k → callPrim (runD k) .do_ tl st.next s3 = .ok (some w) st' ∧ RunsFree st'.dbg := by
    intro k hk
    have := run_sim (W := free) k
    have hs : DSim free (callPrim (run k) .do_ tl st.next) (callPrim (runD k) .do_ tl st.next) := sim_callPrim _ _ _ (by decide)
    have := hs.sim s3 s3 ⟨rfl, hdb⟩ (by rw [hK1 k hk]; show ¬ _ <:+: st'.out; rw [ho]; exact hb)
    unfold Watch.Ans at this
    simp only [free, if_true] at this
    obtain ⟨t', q1, rfl, q2⟩ := this _ _ (hK1 k hk)
    exact ⟨q1, q2⟩
  refine ⟨K + K1 + 5, st0, w, st', h1, fun k hk => ?_, g3.sim.links, (hfree K1 (Nat.le_refl _)).2, ho, by simpa using g3.sim.input⟩
  obtain ⟨m, rfl⟩ : ∃ m, k = m + 5 := ⟨k - 5, by omega⟩
  rw [h8 m (by omega), M.bind_apply, stop_first (r := runD (m + 4)) (f := f) (tl := tl) (hin.symm ▸ hd) (h4.symm ▸ ha) (fun s => h7 s _ (by rw [runD_n]; omega)) h6 htr, if_pos rfl]
  rw [h5, h4, hout, hO, hs3]
  exact (hfree (m + 3) (by omega)).1

theorem links_dbg {st : St} (h : Links st) (d : Dbg) (t : Str) : Links { st with dbg := d, out := t } := ⟨h.clos, h.old, h.fresh, h.callers⟩

/-- The state in which a turn starts. -/
def turnStart (script module : Str) (st : St) : St := if module == c!"command-line" then { st with dbg := { st.dbg with script := script } } else st

theorem turn_start (k : Nat) (script module : Str) (prev : Option Variant) (st : St) : debuggerTurn k script module false prev st =
    (createDefaultScope >>= fun g => runProgram k script module false prev g >>= fun p => afterProgram k g p.1 p.2) (turnStart script module st) := by
  unfold debuggerTurn turnStart
  generalize createDefaultScope = c
  by_cases hm : (module == c!"command-line") = true
  · rw [if_pos hm, if_pos hm]; rfl
  · rw [if_neg hm, if_neg hm]

theorem turnStart_links {script module : Str} {st : St} (h : Links st) : Links (turnStart script module st) := by
  unfold turnStart
  split
  · exact ⟨h.clos, h.old, h.fresh, h.callers⟩
  · exact h
theorem turnStart_armed {script module : Str} {st : St} (h : Armed st.dbg) : Armed (turnStart script module st).dbg := by
  unfold turnStart
  split
  · exact ⟨h.stop, h.mode, h.bps⟩
  · exact h
theorem turnStart_out {script module : Str} {st : St} : (turnStart script module st).out = st.out := by unfold turnStart; split <;> rfl
theorem turnStart_input {script module : Str} {st : St} : (turnStart script module st).input = st.input := by unfold turnStart; split <;> rfl

/-- A whole session. -/
theorem session_loop {xs : List Sexp} (hx : Sexp.WFs xs) {text : Str} (hw : Written xs text)
    (hh : Sexp.HeadsAll (fun n => n ∉ hidden ∧ n ≠ c!"define-macro-expand") xs) {module : Str} {i i' : List Str} {out : Str} (h : DebugSession xs module i i' out)
    {st : St} (hi : st.input = i) (hl : Links st) (ha : Armed st.dbg) (hb : ¬ breakWarning <:+: st.out ++ out) :
    ∃ K, ∀ prev, ∃ v st', st'.out = st.out ++ out ∧ st'.input = i' ∧ ∀ k j, K ≤ k → K ≤ j → debuggerLoop k text module false j prev st = .ok v st' := by
  induction h generalizing st with
  | @leave i i' t hd =>
    obtain ⟨st0, s2, f, tl, h1, h2, h3, h4, h5, h6, h7, K, h8⟩ := debug_start hx hw hh module (turnStart_links (script := text) (module := module) hl)
    have hin : s2.input = (turnStart text module st).input := by simpa using h2.input
    have htr : (s2.scopes (s2.scopes (turnStart text module st).next).global).tracing = some false := by
      have := h2.global 0 Nat.one_pos
      rw [show (s2.scopes (turnStart text module st).next).global = (turnStart text module st).next from this]; exact h2.tracing
    have hout : s2.out = (turnStart text module st).out := by simpa [Conf.start] using h2.out
    rw [turnStart_input] at hin
    rw [turnStart_out] at hout
    refine ⟨K + 5, fun prev => ⟨prev, s2.seen (st.out ++ (stopLine module ++ t)) i' { s2.dbg with stop := false }, rfl, rfl, fun k j hk hj => ?_⟩⟩
    obtain ⟨m, rfl⟩ : ∃ m, k = m + 5 := ⟨k - 5, by omega⟩
    obtain ⟨j, rfl⟩ : ∃ m, j = m + 1 := ⟨j - 1, by omega⟩
    have he : lispEval (runD (m + 5)) text (turnStart text module st).next module false false st0 = .fail (.exn .stopDebugger) (s2.seen (st.out ++ (stopLine module ++ t)) i' { s2.dbg with stop := false }) := by
      rw [h8 m (by omega), M.bind_apply, stop_first (r := runD (m + 4)) (f := f) (tl := tl) (by rw [hin, hi]; exact hd) (by rw [h4]; exact turnStart_armed ha) (fun s => h7 s _ (by rw [runD_n]; omega)) h6 htr,
        if_neg (by decide), h5, hout]
    rw [debuggerLoop, M.bind_apply, turn_start, M.bind_apply, h1]
    dsimp only
    rw [M.bind_apply, runProgram, M.bind_apply, tryM, he]
    rfl
  | @run i ls t v R i' out hd hseq _ ih =>
    obtain ⟨K1, st0, w, st1, h1, h2, h3, h4, h5, h6⟩ := debug_run hx hw hh module (turnStart_links (script := text) (module := module) hl) (turnStart_armed ha) (by rw [turnStart_input, hi]; exact hd) hseq
      (by
        rw [turnStart_out]
        intro hc
        refine hb (hc.trans (List.IsPrefix.isInfix ⟨c!"restart program\n" ++ out, ?_⟩))
        simp only [List.append_assoc])
    rw [turnStart_out] at h5
    obtain ⟨K2, h7⟩ := ih (st := { st1 with dbg := st1.dbg.reset, out := st1.out ++ c!"restart program\n" }) h6 (links_dbg h3 _ _) ⟨rfl, rfl, h4.2⟩ (by
      show ¬ _ <:+: st1.out ++ c!"restart program\n" ++ out
      rw [h5]
      simpa only [List.append_assoc] using hb)
    refine ⟨K1 + K2 + 1, fun prev => ?_⟩
    obtain ⟨u, st', e1, e2, e3⟩ := h7 (some w)
    refine ⟨u, st', ?_, e2, fun k j hk hj => ?_⟩
    · rw [e1]
      show st1.out ++ c!"restart program\n" ++ out = _
      rw [h5]
      simp only [List.append_assoc]
    · obtain ⟨j, rfl⟩ : ∃ m, j = m + 1 := ⟨j - 1, by omega⟩
      rw [debuggerLoop, M.bind_apply, turn_start, M.bind_apply, h1]
      dsimp only
      rw [M.bind_apply, runProgram, M.bind_apply, tryM, h2 k (by omega)]
      exact e3 k j (by omega) (by omega)

/-! ## `fuel -d` -/

theorem header_eq (st : St) : loopHeader st = .ok () { st with out := st.out ++ greeting } := by
  simp only [loopHeader, showVersion, M.bind_apply, writeLines_eq]
  simp [greeting, banner]

theorem plan_debug {file : Str} (hf : file.head? ≠ some '-') :
    decideArgs true [c!"-d", file] = .ok (.run ⟨false, false, false, false, false, true, true, [], [file], none⟩) := by
  have hne : ∀ a : Str, IsOption a → a ≠ file := fun a h e => hf (e ▸ h)
  rw [C53_plan true [c!"-d", file] (by simp) (by simp [hne c!"-v" rfl]) (by simp [hne c!"-h" rfl]) none (.none (by
      simp only [NoLib, List.mem_cons, List.not_mem_nil, or_false]
      rintro a (rfl | rfl)
      · decide
      · rintro ⟨b, rfl⟩; exact hf rfl)) (by simp [hne c!"-e" rfl]) (by
      intro a ha
      have h1 : file ≠ a := fun e => hne a ha e.symm
      by_cases h2 : a = c!"-d"
      · subst h2; simp [known, flags, h1]
      · have h3 : c!"-d" ≠ a := fun e => h2 e.symm
        simp [h1, h3])]
  simp [plan, scriptText, files, IsOption, hf, hne c!"-m" rfl, hne c!"-t" rfl, hne c!"--doc" rfl, hne c!"--html" rfl, hne c!"--macro-expand" rfl, hne c!"-x" rfl, hne c!"-i" rfl, hne c!"-e" rfl]

theorem plan_debug_text {text : Str} (hf : text.head? ≠ some '-') :
    decideArgs true [c!"-d", c!"-e", text] = .ok (.run ⟨false, false, false, false, false, true, false, text, [text], none⟩) := by
  have hne : ∀ a : Str, IsOption a → a ≠ text := fun a h e => hf (e ▸ h)
  rw [C53_plan true [c!"-d", c!"-e", text] (by simp) (by simp [hne c!"-v" rfl]) (by simp [hne c!"-h" rfl]) none (.none (by
      simp only [NoLib, List.mem_cons, List.not_mem_nil, or_false]
      rintro a (rfl | rfl | rfl)
      · decide
      · decide
      · rintro ⟨b, rfl⟩; exact hf rfl)) (by simp [files, IsOption, hf]) (by
      intro a ha
      have h1 : text ≠ a := fun e => hne a ha e.symm
      by_cases h2 : a = c!"-d"
      · subst h2; simp [known, flags, h1]
      · by_cases h3 : a = c!"-e"
        · subst h3; simp [known, flags, h1]
        · have h2' : c!"-d" ≠ a := fun e => h2 e.symm
          have h3' : c!"-e" ≠ a := fun e => h3 e.symm
          simp [h1, h2', h3'])]
  simp [plan, scriptText, files, IsOption, hf, hne c!"-m" rfl, hne c!"-t" rfl, hne c!"--doc" rfl, hne c!"--html" rfl, hne c!"--macro-expand" rfl, hne c!"-x" rfl, hne c!"-i" rfl]

/-- C85: `fuel -d FILE` for a program of the core language, with any lines typed by the user: the greeting, then at every start of the
program the position of the stop and the dialog, then what the program writes; the program reads the lines after the command that let it
run, and is started again when it has ended. -/
theorem C85_file {xs : List Sexp} (hx : Sexp.WFs xs) {text : Str} (hw : Written xs text)
    (hh : Sexp.HeadsAll (fun n => n ∉ hidden ∧ n ≠ c!"define-macro-expand") xs) {st : St} (hr : Reachable st) {file : Str} (hf : file.head? ≠ some '-')
    (ht : mapFind file st.files = some text) {rest : List Str} {out : Str} (h : DebugSession xs file st.input rest out)
    (hb : ¬ breakWarning <:+: st.out ++ greeting ++ out) :
    ∃ K st', st'.out = st.out ++ greeting ++ out ∧ st'.input = rest ∧ ∀ k stack, K ≤ k → mainExtended k stack true [c!"-d", file] st = .ok () st' := by
  obtain ⟨K, h1⟩ := session_loop hx hw hh h (st := { st with clock := st.clock + 1, dbg := {}, out := st.out ++ greeting }) rfl
    ⟨hr.links.clos, hr.links.old, hr.links.fresh, hr.links.callers⟩ ⟨rfl, rfl, rfl⟩ hb
  obtain ⟨v, st', h2, h3, h4⟩ := h1 none
  refine ⟨K, st', h2, h3, fun k stack hk => ?_⟩
  have h5 := h4 k k hk hk
  simp only [mainExtended, plan_debug hf, M.bind_apply, M.lift_apply, M.get_apply, M.modify_apply, runPlan, M.pure_apply, runDebugger, if_true, header_eq, ht, h5,
    Bool.false_eq_true, if_false, List.isEmpty_nil]

/-- C85: the same for a program given on the command line. -/
theorem C85_text {xs : List Sexp} (hx : Sexp.WFs xs) {text : Str} (hw : Written xs text)
    (hh : Sexp.HeadsAll (fun n => n ∉ hidden ∧ n ≠ c!"define-macro-expand") xs) {st : St} (hr : Reachable st) (hf : text.head? ≠ some '-')
    (hn : text ≠ []) {rest : List Str} {out : Str} (h : DebugSession xs c!"command-line" st.input rest out)
    (hb : ¬ breakWarning <:+: st.out ++ greeting ++ out) :
    ∃ K st', st'.out = st.out ++ greeting ++ out ∧ st'.input = rest ∧ ∀ k stack, K ≤ k → mainExtended k stack true [c!"-d", c!"-e", text] st = .ok () st' := by
  obtain ⟨K, h1⟩ := session_loop hx hw hh h (st := { st with clock := st.clock + 1, dbg := {}, out := st.out ++ greeting }) rfl
    ⟨hr.links.clos, hr.links.old, hr.links.fresh, hr.links.callers⟩ ⟨rfl, rfl, rfl⟩ hb
  obtain ⟨v, st', h2, h3, h4⟩ := h1 none
  refine ⟨K, st', h2, h3, fun k stack hk => ?_⟩
  have h5 := h4 k k hk hk
  have h6 : text.isEmpty = false := by cases text <;> simp at hn ⊢
  simp only [mainExtended, plan_debug_text hf, M.bind_apply, M.lift_apply, M.get_apply, M.modify_apply, runPlan, M.pure_apply, runDebugger, if_true, header_eq, h5,
    Bool.false_eq_true, if_false, h6]

/-- A run of a program that shows a line of its input. -/
theorem echo_run (l : Str) (ls : List Str) (hl : l ≠ []) : Seq 0 (some .undef) [.list [.sym c!"println", .list [.sym c!"readline"]]] { Conf.start with input := l :: ls } (.str (joined [l]))
    (({ Conf.start with input := ls } : Conf).write (l ++ c!"\n")) := by
  have e : l = joined [l] := by cases l with
    | nil => exact absurd rfl hl
    | cons => simp [joined, List.intercalate]
  have hr : Apply 0 (.prim c!"readline") [] { Conf.start with input := l :: ls } (.str l) { Conf.start with input := ls } := .readline rfl
  have hp : Apply 0 (.prim c!"println") [.str l] { Conf.start with input := ls } (.str (joined [l])) (({ Conf.start with input := ls } : Conf).write (l ++ c!"\n")) := by
    have := Apply.prints (f := 0) (R := { Conf.start with input := ls }) (Prints.println (.cons (.str (s := l)) .nil))
    rwa [← e] at this ⊢
  have h1 : Head { Conf.start with input := l :: ls } 0 c!"println" (.prim c!"println") :=
    head_of_frames (R := Conf.start) rfl rfl (value_start 0 (b := .println) (s := false) (by decide) (by decide))
  have h2 : Head { Conf.start with input := l :: ls } 0 c!"readline" (.prim c!"readline") :=
    head_of_frames (R := Conf.start) rfl rfl (value_start 0 (b := .readline) (s := false) (by decide) (by decide))
  exact .next ⟨_, _, .list⟩ (.call .list h1 (.other (by simp) (.call .list h2 .nil hr) .nil) hp) rfl .done

/-- What is written in the example. -/
def demoTalk : Str := c!"--> do line=1 start=-3 stop=-1 module=f.fuel token=do
FUEL(isp)-DBG> 
FUEL(isp) v0.99.6 (for C++) from 16.12.2023, (C) by Michael Neuroth

FUEL(isp)-DBG> one
restart program
--> do line=1 start=-3 stop=-1 module=f.fuel token=do
FUEL(isp)-DBG> two
restart program
--> do line=1 start=-3 stop=-1 module=f.fuel token=do
FUEL(isp)-DBG> "

set_option maxRecDepth 20000 in
/-- A program that shows a line of its input: the user asks for the version, lets it run, lets it run again, and leaves. -/
example (st : St) (hr : Reachable st) (ho : st.out = []) (hf : mapFind c!"f.fuel" st.files = some c!"(println (readline))")
    (hi : st.input = [c!"ver", c!"run", c!"one", c!" r ", c!"two", c!"q", c!"rest"]) :
    ∃ K st', st'.out = greeting ++ demoTalk ∧ st'.input = [c!"rest"] ∧ ∀ k stack, K ≤ k → mainExtended k stack true [c!"-d", c!"f.fuel"] st = .ok () st' := by
  have hw : Sexp.WFs [.list [.sym c!"println", .list [.sym c!"readline"]]] := by
    simp [Sexp.WF, Sexp.WFs, SymbolName, Spec.Plain, White, NumberLike, dropSign, Digit, reserved]
  have hd : ∃ out, DebugSession [.list [.sym c!"println", .list [.sym c!"readline"]]] c!"f.fuel" st.input [c!"rest"] out ∧ out = demoTalk := by
    rw [hi]
    exact ⟨_, .run (.info (typed_of [] [] rfl (by simp) (by simp) (by simp [Tight, White])) (.version (c := c!"ver") (by simp)) (.run (c := c!"run") (typed_of [] [] rfl (by simp) (by simp) (by simp [Tight, White])) (by simp)))
      (echo_run c!"one" _ (by decide)) (.run (.run (c := c!"r") (typed_of c!" " c!" " rfl (by simp [White]) (by simp [White]) (by simp [Tight, White])) (by simp)) (echo_run c!"two" _ (by decide))
        (.leave (.quit (c := c!"q") (typed_of [] [] rfl (by simp) (by simp) (by simp [Tight, White])) (by simp)))), rfl⟩
  obtain ⟨out, hd, rfl⟩ := hd
  obtain ⟨K, st', h1, h2, h3⟩ := C85_file hw (written_sources hw) (by simp [Sexp.Heads, Sexp.HeadsAll, Sexp.text, hidden]) hr (by decide) hf hd (by
    rw [ho]
    intro h
    have h := h.subset (show 'W' ∈ breakWarning by decide)
    revert h
    decide +kernel)
  exact ⟨K, st', by rw [h1, ho]; rfl, h2, h3⟩

end

end Fuel
