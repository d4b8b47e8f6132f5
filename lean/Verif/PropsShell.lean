import Verif.SpecShell
import Verif.PropsError
import Verif.PropsDoc
import Verif.PropsCli
import Verif.PropsDbg
/-!
# C83: the interactive shell
-/

set_option linter.unusedSectionVars false
set_option linter.unusedSimpArgs false

namespace Fuel

open Spec Spec.Core

section
variable [World]

variable {o : Origin} {st : St} {μ : Emb} {R : Conf}

/-! ## Tools -/

theorem typed_trim {l c : Str} (h : Typed l c) : trim l = c := by
  obtain ⟨a, b, rfl, h1, h2, h3⟩ := h
  exact trim_of_decomp h1 h2 h3

theorem Sim.write (h : Sim o st μ R) (t : Str) : Res o st μ R.count { st with out := st.out ++ t } μ (R.write t) := by
  have hs : Same st t { st with out := st.out ++ t } := ⟨Nat.le_refl _, fun _ _ => rfl, fun _ _ => rfl, fun _ _ => rfl, fun _ _ _ _ => rfl, fun _ _ => id, fun _ _ _ => rfl, rfl, rfl, fun _ _ => rfl, rfl, rfl⟩
  exact ⟨h.same hs ⟨h.links.clos, h.links.old, h.links.fresh, h.links.callers⟩, hs.grow _ _⟩

theorem Sim.asked (h : Sim o st μ R) {l : Str} {ls : List Str} (hi : R.input = l :: ls) :
    ∃ rest, st.input = l :: rest ∧ Res o st μ R.count { st with out := st.out ++ prompt, input := rest } μ (R.asked ls) := by
  obtain ⟨rest, h1, h2⟩ := (h.write prompt).sim.read (l := l) (ls := ls) hi
  exact ⟨rest, h1, (h.write prompt).trans h2⟩

theorem format_result {t : Str} (h : Sound t) : format c!"result={0}" t = .ok (c!"result=" ++ t) := by
  have := format_pieces (args := [t]) (ps := [.lit c!"result=", .hole 0]) (by simp [BraceFree]) (by simp only [List.mem_singleton]; rintro _ rfl; exact h) (by simp [holes]) (by simp [holes])
  simpa [argOr, sources, Piece.source, fill, nullString] using this

theorem writeLines_eq : ∀ (l : List Str) (st : St), writeLines l st = .ok () { st with out := st.out ++ (l.map (· ++ c!"\n")).flatten }
  | [], st => by simp [writeLines]
  | x :: l, st => by
    simp only [writeLines, M.bind_apply, writeLine, write, M.modify_apply, writeLines_eq l]
    simp

theorem dcmd_eval {c : Char} {r : Str} (h : c.isAlpha = false) : dcmd (c :: r) = .eval := by
  have hc : ∀ d : Char, d.isAlpha = true → c ≠ d := fun d hd e => by subst e; rw [h] at hd; cases hd
  have h1 : ∀ (d : Char) (t : Str), d.isAlpha = true → ((c :: r) == (d :: t)) = false := fun d t hd => by
    simp [hc d hd]
  have h2 : ∀ (d : Char) (t : Str), d.isAlpha = true → startsWith (c :: r) (d :: t) = false := fun d t hd => by
    simp [startsWith, hc d hd]
  unfold dcmd
  simp only [h1 'e' _ (by decide), h1 'q' _ (by decide), h1 'h' _ (by decide), h1 'a' _ (by decide), h1 'f' _ (by decide), h1 'm' _ (by decide), h1 'b' _ (by decide),
    h1 's' _ (by decide), h1 'c' _ (by decide), h1 'u' _ (by decide), h1 'd' _ (by decide), h1 'o' _ (by decide), h1 'v' _ (by decide), h1 'r' _ (by decide), h1 'l' _ (by decide),
    h1 'g' _ (by decide), h2 'd' _ (by decide), h2 's' _ (by decide), h2 'c' _ (by decide), h2 'k' _ (by decide), h2 'l' _ (by decide), h2 't' _ (by decide), h2 'b' _ (by decide),
    h2 'u' _ (by decide), h2 'g' _ (by decide), List.isEmpty_cons, Bool.or_false, Bool.false_eq_true, if_false]

theorem runsIn_input {cmd module : Str} {sid : Nat} {out : Out (Option Variant)} (h : RunsIn cmd module sid st out) : (Out.after out).input <:+ st.input := by
  obtain ⟨-, k, rfl⟩ := h
  exact C54_input_scriptIn k cmd sid module false false st

/-- A line of code that has a result. -/
theorem evalCommand_ok {cmd t : Str} {d : DS} {w : Variant} {st1 : St} (h : RunsIn cmd (st.scopes d.cur).module d.cur st (.ok (some w) st1))
    (hw : ∃ K, ∀ n, K ≤ n → varStr st1 n w = .ok t) (ht : Sound t) :
    ∃ K, ∀ k, K ≤ k → evalCommand (run k) cmd d st = .ok { d with script := d.script ++ cmd ++ c!"\n" } { st1 with out := st1.out ++ (c!"result=" ++ t ++ c!"\n") } := by
  obtain ⟨K1, h1⟩ := Lim.stable (monoSeq_lispEval cmd d.cur (st.scopes d.cur).module false false st) h
  obtain ⟨K2, h2⟩ := hw
  refine ⟨max K1 K2, fun k hk => ?_⟩
  simp only [evalCommand, tryM, M.bind_apply, M.get_apply, h1 k (by omega), derefV, M.pure_apply, M.rd_apply, run_n, h2 k (by omega), M.lift_apply, format_result ht, writeLine, write, M.modify_apply,
    List.append_assoc]

/-- A line of code that raises an exception of the interpreter: the message is shown. -/
theorem evalCommand_fails {cmd : Str} {d : DS} {msg : Str} {x : Fail} (hx : ErrIs msg x) {st1 : St} (h : RunsIn cmd (st.scopes d.cur).module d.cur st (.fail x st1)) :
    ∃ K, ∀ k, K ≤ k → evalCommand (run k) cmd d st = .ok d { st1 with out := st1.out ++ (c!"Exception: " ++ msg ++ c!"\n") } := by
  obtain ⟨a, b, c, e, f, rfl⟩ := hx
  obtain ⟨K1, h1⟩ := Lim.stable (monoSeq_lispEval cmd d.cur (st.scopes d.cur).module false false st) h
  refine ⟨K1, fun k hk => ?_⟩
  simp only [evalCommand, tryM, M.bind_apply, M.get_apply, h1 k (by omega), writeLine, write, M.modify_apply, M.pure_apply, List.append_assoc]

/-- One round of the loop in which a line is read. -/
theorem dbgLoop_read {k n top : Nat} {d d' : DS} {l : Str} {rest : List Str} (hi : st.input = l :: rest) {st' : St}
    (h : dbgCommand (run k) top true (trim l) d { st with out := st.out ++ prompt, input := rest } = .ok (d', .again) st') :
    dbgLoop (run k) top true (n + 1) d st = dbgLoop (run k) top true n d' st' := by
  simp only [dbgLoop, M.bind_apply, Fuel.write, M.modify_apply, readLine, M.get_apply, hi, M.pure_apply]
  rw [show (c!"FUEL(isp)-DBG> " : Str) = prompt from rfl, h]

theorem text_ne {ps : List Str} {n : Str} {body : Sexp} {e : Sexp} {h : Str} (hF : Form e h [.sym n, .list (ps.map .sym), body]) (hw : Sexp.WFs [e]) : ∀ p ∈ ps, p ≠ [] := by
  cases hF with
  | list =>
    have := hw.1
    simp only [Sexp.WF, Sexp.WFs] at this
    have h2 := this.2.2.1
    clear this hw
    induction ps with
    | nil => simp
    | cons p ps ih =>
      simp only [List.map_cons, Sexp.WFs, Sexp.WF] at h2
      intro q hq
      rcases List.mem_cons.1 hq with rfl | hq
      · exact h2.1.1
      · exact ih h2.2 q hq

/-- What a line of code shows. -/
theorem answer_ok {xs : List Sexp} {R' : Conf} {t text : Str} (hx : Sexp.WFs xs) (hw : Written xs text) (hl : Literal R 0 (.list (.sym c!"do" :: xs)))
    (h : Answer R xs R' t) (hs : Sim o st μ R) (module : Str) :
    ∃ w st' μ', RunsIn text module (μ 0) st (.ok (some w) st') ∧ (∃ K, ∀ n, K ≤ n → varStr st' n w = .ok t) ∧ Res o st μ R.count st' μ' R' := by
  cases h with
  | value hE hv =>
    obtain ⟨w, st', μ', h1, h2, h3⟩ := runsIn_ok hx hw hl (exec_ok hE) hs hs.pos module
    obtain ⟨K, hK⟩ := (shown_ok hv).1 w h2
    exact ⟨w, st', μ', h1, ⟨K, fun n hn => (hK n hn).1 rfl⟩, h3⟩
  | @function e h n ps body hD hF hV hn hfn hdef =>
    obtain ⟨p, c, st1, h1, h2, h3, h4⟩ := script_code hx hw (heads_imp (fun n hn => hs.inert hs.pos hn.1 hn.2) hl) module
    have h5 := hs.started h1
    obtain ⟨tl, st0, k1, k2, k3⟩ := isSpecial_of h5.sim hs.pos .list ⟨_, h2, .list h3⟩ hD .do_ (by decide)
    cases k2 with
    | @cons q _ tl _ hq htl =>
      cases htl
      obtain ⟨i, _, _, _, rfl, -⟩ := form_code hF hq
      obtain ⟨w, st2, μ2, g1, g2, g3, fw, g4, g5⟩ := exec_defns_shown false hF hV hn hfn hdef o st0 μ _ k3.sim hs.pos hq
      have hd : DoRun (μ 0) (some undefinedV) [.mk i .list] st0 (.ok (some w) st2) := by
        by_cases hr : (st2.scopes (μ 0)).isInReturn = true
        · exact .ret g1 hr
        · exact .next g1 (by simpa using hr) .done
      refine ⟨w, st2, μ2, (h4 _).2 ((C38_do h5.sim.links.old k1 (codesAt_isCode (.cons hq .nil))).2 hd), ⟨3, fun m hm => ?_⟩, (h5.trans k3).trans g3⟩
      obtain ⟨m, rfl⟩ : ∃ m', m = m' + 1 := ⟨m - 1, by omega⟩
      rw [← syntax_joined n (text_ne hF hx), ← g5]
      obtain ⟨ht, j, hj⟩ := g4
      simp [varStr, ht, hj]

/-! ## Every command appends to the output and takes lines from the input -/

/-- The output is appended to and the first lines of the input are taken. -/
structure Consumes (s s' : St) : Prop where
  out : s.out <+: s'.out
  input : s'.input <:+ s.input
instance : Rel Consumes where
  refl _ := ⟨List.prefix_refl _, List.suffix_refl _⟩
  trans h g := ⟨h.out.trans g.out, g.input.trans h.input⟩
  ext h := ⟨h.out ▸ List.prefix_refl _, h.input ▸ List.suffix_refl _⟩
instance (x : Option Variant) : Pres Consumes (derefV x) := by unfold derefV; pres
instance (t : Str) : Pres Consumes (write t) := ⟨fun _ => ⟨List.prefix_append _ _, List.suffix_refl _⟩⟩
instance (t : Str) : Pres Consumes (writeLine t) := inferInstanceAs (Pres Consumes (write _))
instance (k : Nat) (c : Str) (sid : Nat) (m : Str) (t e : Bool) : Pres Consumes (lispEval (run k) c sid m t e) :=
  ⟨fun s => have h := Pres2.any (sid := sid) (m := lispEval (run k) c sid m t e) s; ⟨h.out, h.input⟩⟩
instance : Pres Consumes readLine := ⟨fun s => by
  simp only [readLine, M.bind_apply, M.get_apply]
  cases hi : s.input with
  | nil => exact Rel.refl s
  | cons l ls => exact ⟨List.prefix_refl _, by rw [hi]; exact List.suffix_cons l ls⟩⟩
instance (n : Nat) : Pres Consumes (askClear n) := by
  induction n with
  | zero => unfold askClear; pres
  | succ n ih => unfold askClear; pres
instance (d : Dbg) (c : Str) : Pres Consumes (clearCommand d c) := by unfold clearCommand; pres
instance (n : Nat) (l : List Bp) : Pres Consumes (showBreakpoints n l) := by
  induction l generalizing n with
  | nil => unfold showBreakpoints; pres
  | cons a l ih => unfold showBreakpoints; pres
instance (b : List Bp) (m : Str) (c n : Nat) (l : List Str) : Pres Consumes (showSource b m c n l) := by
  induction l generalizing n with
  | nil => unfold showSource; pres
  | cons a l ih => unfold showSource; pres
instance (n : Nat) (sel : FnW → Bool) (info : FnW → Fuel.R Str) (l : List (Str × Ptr)) : Pres Consumes (dumpFns n sel info l) := by
  induction l with
  | nil => unfold dumpFns; pres
  | cons a l ih => unfold dumpFns; pres
instance (n : Nat) (l : List (Str × Ptr)) : Pres Consumes (dumpHelp n l) := by
  induction l with
  | nil => unfold dumpHelp; pres
  | cons a l ih => unfold dumpHelp; pres
instance (n : Nat) (l : List (Str × Ptr)) : Pres Consumes (dumpVars n l) := by
  induction l with
  | nil => unfold dumpVars; pres
  | cons a l ih => unfold dumpVars; pres
instance (n : Nat) (f : FnW → Fuel.R Str) (l : List (Str × Ptr)) : Pres Consumes (dumpFunctions.go n f l) := by
  induction l with
  | nil => unfold dumpFunctions.go; pres
  | cons a l ih => unfold dumpFunctions.go; pres
instance (n g : Nat) : Pres Consumes (dumpFunctions n g) := by unfold dumpFunctions; pres
instance (l : List Str) : Pres Consumes (writeLines l) := by
  induction l with
  | nil => unfold writeLines; pres
  | cons a l ih => unfold writeLines; pres
instance : Pres Consumes showVersion := by unfold showVersion; pres
instance : Pres Consumes showAbout := by unfold showAbout; pres
instance (k : Nat) (f c : Str) (d : DS) (g : Nat) : Pres Consumes (docCommand (run k) f c d g) := by unfold docCommand; pres
instance {α : Type} {m : M α} [h : Pres Consumes m] : Pres Consumes (tryM m) := ⟨fun s => by
  have := h.rel s
  unfold tryM
  cases e : m s with
  | ok a s' => rw [e] at this; exact this
  | fail f s' =>
    rw [e] at this
    cases f with
    | exn x => exact this
    | _ => exact this⟩
instance (k : Nat) (c : Str) (d : DS) : Pres Consumes (evalCommand (run k) c d) := by
  unfold evalCommand
  have : Pres Consumes (do
      let module ← M.get fun s => (s.scopes d.cur).module
      let v ← derefV (← lispEval (run k) c d.cur module false false)
      let t ← M.rd fun st => varStr st (run k).n v
      let l ← M.lift (format c!"result={0}" t)
      writeLine l) := by pres
  refine Pres.bind inferInstance fun _ => ?_
  pres
instance (k top : Nat) (b : Bool) (c : Str) (d : DS) : Pres Consumes (dbgCommand (run k) top b c d) := by
  unfold dbgCommand
  refine Pres.bind inferInstance fun _ => ?_
  cases dcmd c <;> dsimp only <;> pres
instance (k top : Nat) (b : Bool) (n : Nat) (d : DS) : Pres Consumes (dbgLoop (run k) top b n d) := by
  induction n generalizing d with
  | zero => unfold dbgLoop; pres
  | succ n ih => unfold dbgLoop; pres

/-- One line of a session. -/
theorem turn_ok {R' : Conf} (h : Turn R R') (hs : Sim o st μ R) {d : DS} (hd : d.cur = μ 0) :
    ∃ K st' μ' d', (∀ k, K ≤ k → ∀ n, dbgLoop (run k) (μ 0) true (n + 1) d st = dbgLoop (run k) (μ 0) true n d' st') ∧ Res o st μ R.count st' μ' R' ∧ d'.cur = μ' 0 ∧
      d'.dbg = d.dbg ∧ st'.input.length < st.input.length := by
  cases h with
  | @info l ls c t hi hc ht =>
    obtain ⟨rest, h1, h2⟩ := hs.asked hi
    refine ⟨0, _, μ, d, fun k _ n => dbgLoop_read h1 ?_, h2.trans (h2.sim.write t), hd, rfl, by simp [h1]⟩
    rw [typed_trim hc]
    have e : manual = (helpLines.map (· ++ c!"\n")).flatten := by decide +kernel
    cases ht with
    | help hc =>
      have : dcmd c = .help := by
        simp only [List.mem_cons, List.not_mem_nil, or_false] at hc
        rcases hc with rfl | rfl <;> decide
      simp only [dbgCommand, this, M.bind_apply, M.get_apply, writeLines_eq, M.pure_apply, e]
    | about =>
      have : dcmd c!"about" = .about := by decide
      simp only [dbgCommand, this, M.bind_apply, M.get_apply, showAbout, showVersion, writeLines_eq, M.pure_apply]
      simp [banner]
    | version hc =>
      have : dcmd c = .version := by
        simp only [List.mem_cons, List.not_mem_nil, or_false] at hc
        rcases hc with rfl | rfl <;> decide
      simp only [dbgCommand, this, M.bind_apply, M.get_apply, showVersion, writeLines_eq, M.pure_apply]
      simp [banner]
  | @code ls xs R1 t hc ha ht =>
    obtain ⟨⟨l, text, hi, hty, ⟨c, r, rfl, hal⟩, hw⟩, hx, hl⟩ := hc
    obtain ⟨rest, h1, h2⟩ := hs.asked hi
    generalize hst : ({ st with out := st.out ++ prompt, input := rest } : St) = st0 at h2
    obtain ⟨w, st1, μ1, h3, h4, h5⟩ := answer_ok (R := R.asked ls) hx hw hl ha h2.sim (st0.scopes d.cur).module
    rw [← hd] at h3
    obtain ⟨K, hK⟩ := evalCommand_ok h3 h4 ht
    have h6 := h5.trans (h5.sim.write (c!"result=" ++ t ++ c!"\n"))
    refine ⟨K, _, μ1, { d with script := d.script ++ (c :: r) ++ c!"\n" }, fun k hk n => dbgLoop_read h1 ?_, h2.trans h6, ?_, rfl, ?_⟩
    · rw [typed_trim hty, hst]
      simp only [dbgCommand, dcmd_eval hal, M.bind_apply, M.get_apply, hK k hk, M.pure_apply]
    · rw [h5.grow.same 0 h2.sim.pos]; exact hd
    · have := (runsIn_input h3).length_le
      rw [← hst] at this
      simp only [Out.after, h1, List.length_cons] at this ⊢
      omega

/-- Some lines of a session. -/
theorem turns_ok {R' : Conf} (h : Turns R R') (hs : Sim o st μ R) {d : DS} (hd : d.cur = μ 0) :
    ∃ K st' μ' d', (∀ k, K ≤ k → ∀ n, st.input.length < n → ∃ m, st'.input.length < m ∧ dbgLoop (run k) (μ 0) true n d st = dbgLoop (run k) (μ 0) true m d' st') ∧
      Res o st μ R.count st' μ' R' ∧ d'.cur = μ' 0 ∧ d'.dbg = d.dbg := by
  induction h generalizing st μ d with
  | nil => exact ⟨0, st, μ, d, fun k _ n hn => ⟨n, hn, rfl⟩, .refl hs, hd, rfl⟩
  | cons h1 _ ih =>
    obtain ⟨K1, st1, μ1, d1, a1, a2, a3, a4, a5⟩ := turn_ok h1 hs hd
    obtain ⟨K2, st2, μ2, d2, b1, b2, b3, b4⟩ := ih a2.sim a3
    have e : μ1 0 = μ 0 := a2.grow.same 0 hs.pos
    refine ⟨max K1 K2, st2, μ2, d2, fun k hk n hn => ?_, a2.trans b2, b3, b4.trans a4⟩
    obtain ⟨n, rfl⟩ : ∃ m, n = m + 1 := ⟨n - 1, by omega⟩
    obtain ⟨m, hm, he⟩ := b1 k (by omega) n (by omega)
    rw [e] at he
    exact ⟨m, hm, (a1 k (by omega) n).trans he⟩

/-- The end of a session. -/
theorem leaves_ok {R' : Conf} (h : Leaves R R') (hs : Sim o st μ R) (ho : o.rest = [] ∨ R.input ≠ []) (d : DS) :
    ∃ st', (∀ k n, dbgLoop (run k) (μ 0) true (n + 1) d st = .ok (d, .leave false) st') ∧ Res o st μ R.count st' μ R' := by
  cases h with
  | eof hi =>
    have hi' : st.input = [] := by rw [hs.input, hi]; simpa [hi] using ho
    refine ⟨_, fun k n => ?_, hs.write prompt⟩
    simp only [dbgLoop, M.bind_apply, Fuel.write, M.modify_apply, readLine, M.get_apply, hi', M.pure_apply, dbgCommand, show trim [] = ([] : Str) from rfl,
      show dcmd [] = .exit from rfl]
    rfl
  | @quit l ls c hi hc hm =>
    obtain ⟨rest, h1, h2⟩ := hs.asked hi
    refine ⟨_, fun k n => ?_, h2⟩
    have : dcmd c = .exit := by
      simp only [List.mem_cons, List.not_mem_nil, or_false] at hm
      rcases hm with rfl | rfl | rfl | rfl <;> decide
    simp only [dbgLoop, M.bind_apply, Fuel.write, M.modify_apply, readLine, M.get_apply, h1, M.pure_apply, typed_trim hc, dbgCommand, this]
    rfl

/-! ## The shell -/

theorem plan_shell : decideArgs true [c!"-i"] = .ok (.run ⟨false, false, false, false, true, false, true, [], [], none⟩) := by decide

/-- The state in which the shell asks for the first line. -/
theorem shell_start {st : St} (hl : Links st) : ∃ st0 st1, createDefaultScope st = .ok st.next st0 ∧
    modScope st.next (fun sc => { sc with tracing := some false }) st0 = .ok () st1 ∧ st1.input = st.input ∧
    Sim ⟨st.out, []⟩ st1 ⟨fun _ => st.next, fun _ => none⟩ { Conf.start with input := st.input } := by
  obtain ⟨st0, h1, h2⟩ := C48_new st
  have hl0 : Links st0 := by
    have := ((inferInstance : Pres Fresh createDefaultScope).rel st).links hl
    rwa [h1] at this
  have hi : st0.input = st.input := by
    have := ((inferInstance : Pres Fresh createDefaultScope).rel st).input
    rwa [h1] at this
  have hs : Started (st0.scopes st.next).module st.next st0 { st0 with scopes := fset st0.scopes st.next { st0.scopes st.next with tracing := some false } } :=
    ⟨Nat.le_refl _, fun _ _ => rfl, ⟨(st0.scopes st.next).tokens, rfl⟩, rfl⟩
  exact ⟨st0, _, h1, rfl, hi, start_sim h2 hs (started_links hs hl0) (by simp)⟩

/-- The shell is the loop in a new interpreter. -/
theorem shell_main {st : St} (hl : Links st) : ∃ st1, Sim ⟨st.out ++ greeting, []⟩ st1 ⟨fun _ => st.next, fun _ => none⟩ { Conf.start with input := st.input } ∧
    ∀ k stack, mainExtended k stack true [c!"-i"] st = match dbgLoop (run k) st.next true (st1.input.length + 1) { dbg := {}, cur := st.next } st1 with
      | .ok _ s => .ok () s
      | .fail f s => .fail f s := by
  have hl : Links { st with clock := st.clock + 1, out := st.out ++ greeting } := ⟨hl.clos, hl.old, hl.fresh, hl.callers⟩
  obtain ⟨st0, st1, c1, c2, c3, c4⟩ := shell_start hl
  refine ⟨st1, c4, fun k stack => ?_⟩
  have hg : loopHeader { st with clock := st.clock + 1 } = .ok () { st with clock := st.clock + 1, out := st.out ++ greeting } := by
    simp only [loopHeader, showVersion, M.bind_apply, writeLines_eq]
    simp [greeting, banner]
  simp only [mainExtended, plan_shell, M.bind_apply, M.lift_apply, M.get_apply, M.modify_apply, runPlan, M.pure_apply, runShell, if_true, hg, c1, c2, interactiveLoop,
    Bool.false_eq_true, if_false, Bool.not_true, Bool.and_false, Bool.not_false, List.isEmpty_nil]
  cases dbgLoop (run k) st.next true (st1.input.length + 1) { dbg := {}, cur := st.next } st1 <;> rfl

/-- C83: `fuel -i` in any state of the program: after the greeting the output of the session is that of the reference semantics. -/
theorem C83_session {st : St} (hr : Reachable st) {R : Conf} (h : ShellSession { Conf.start with input := st.input } R) :
    ∃ K, ∀ k, K ≤ k → ∀ stack, ∃ st', mainExtended k stack true [c!"-i"] st = .ok () st' ∧ st'.out = st.out ++ greeting ++ R.out ∧ st'.input = R.input := by
  obtain ⟨R1, h1, h2⟩ := h
  obtain ⟨st1, c1, c2⟩ := shell_main hr.links
  obtain ⟨K, st2, μ2, d2, t1, t2, t3, t4⟩ := turns_ok h1 c1 (d := { dbg := {}, cur := st.next }) rfl
  obtain ⟨st3, e1, e2⟩ := leaves_ok h2 t2.sim (.inl rfl) d2
  have e : μ2 0 = st.next := t2.grow.same 0 c1.pos
  rw [e] at e1
  refine ⟨K, fun k hk stack => ⟨st3, ?_, e2.sim.out, by simpa using e2.sim.input⟩⟩
  obtain ⟨m, hm, hloop⟩ := t1 k hk (st1.input.length + 1) (by omega)
  obtain ⟨m, rfl⟩ : ∃ m', m = m' + 1 := ⟨m - 1, by omega⟩
  rw [c2, hloop, e1]

/-- A line of code that makes an error: the shell shows the message after the text the line has written and goes on with the next line. -/
theorem mistake_ok {msg t : Str} (h : Mistake R msg t) (hs : Sim o st μ R) {d : DS} (hd : d.cur = μ 0) :
    ∃ K st', (∀ k, K ≤ k → ∀ n, dbgLoop (run k) (μ 0) true (n + 1) d st = dbgLoop (run k) (μ 0) true n d st') ∧
      st'.out = o.out ++ t ++ (c!"Exception: " ++ msg ++ c!"\n") ∧ st'.input.length < st.input.length := by
  obtain ⟨ls, xs, ⟨⟨l, text, hi, hty, ⟨c, r, rfl, hal⟩, hw⟩, hx, hl⟩, hf⟩ := h
  obtain ⟨rest, h1, h2⟩ := hs.asked hi
  generalize hst : ({ st with out := st.out ++ prompt, input := rest } : St) = st0 at h2
  obtain ⟨p, c', st1, k1, k2, k3, k4⟩ := script_code hx hw (heads_imp (fun n hn => h2.sim.inert h2.sim.pos hn.1 hn.2) hl) (st0.scopes d.cur).module
  obtain ⟨-, x, st2, e1, e2, e3⟩ := fails_ok hf o st1 μ p (h2.sim.started k1).sim h2.sim.pos ⟨_, k2, .list k3⟩
  have hr := (k4 _).2 e1
  rw [← hd] at hr
  obtain ⟨K, hK⟩ := evalCommand_fails e2 hr
  refine ⟨K, { st2 with out := st2.out ++ (c!"Exception: " ++ msg ++ c!"\n") }, fun k hk n => dbgLoop_read h1 ?_, by rw [← e3], ?_⟩
  · rw [typed_trim hty, hst]
    simp only [dbgCommand, dcmd_eval hal, M.bind_apply, M.get_apply, hK k hk, M.pure_apply]
  · have := (runsIn_input hr).length_le
    rw [← hst] at this
    simp only [Out.after, h1, List.length_cons] at this ⊢
    omega

/-- C83: after some lines of a session a line makes an error: the shell shows the message after the text the line has written, does not end and asks for the next line. -/
theorem C83_mistake {st : St} (hr : Reachable st) {R : Conf} (h : Turns { Conf.start with input := st.input } R) {msg t : Str} (hm : Mistake R msg t) :
    ∃ K, ∀ k, K ≤ k → ∀ stack, st.out ++ greeting ++ t ++ (c!"Exception: " ++ msg ++ c!"\n") ++ prompt <+: (Out.after (mainExtended k stack true [c!"-i"] st)).out := by
  obtain ⟨st1, c1, c2⟩ := shell_main hr.links
  obtain ⟨K, st2, μ2, d2, t1, t2, t3, t4⟩ := turns_ok h c1 (d := { dbg := {}, cur := st.next }) rfl
  obtain ⟨K2, st3, e1, e2, e3⟩ := mistake_ok hm t2.sim t3
  have e : μ2 0 = st.next := t2.grow.same 0 c1.pos
  rw [e] at e1
  refine ⟨max K K2, fun k hk stack => ?_⟩
  obtain ⟨m, hm, hloop⟩ := t1 k (by omega) (st1.input.length + 1) (by omega)
  obtain ⟨m, rfl⟩ : ∃ m', m = m' + 2 := ⟨m - 2, by omega⟩
  rw [e1 k (by omega) (m + 1)] at hloop
  have hp : st3.out ++ prompt <+: (dbgLoop (run k) st.next true (m + 1) d2 st3).st.out := by
    rw [dbgLoop, M.bind_apply]
    have h : Pres Consumes (do
      let line ← readLine
      match (← dbgCommand (run k) st.next true (trim line) d2) with
      | (d, .again) => dbgLoop (run k) st.next true m d
      | res => pure res : M (DS × Ctl)) := by pres
    exact (h.rel { st3 with out := st3.out ++ prompt }).out
  rw [e2] at hp
  rw [c2, hloop]
  cases hd : dbgLoop (run k) st.next true (m + 1) d2 st3 with
  | ok a s' => rw [hd] at hp; exact hp
  | fail f s' => rw [hd] at hp; exact hp

/-- C83: the number of rounds that the model gives to the loop is no limit: every number of rounds that is larger than the number of lines of the
input has the same effect, whatever the lines are. -/
theorem C83_rounds (k top : Nat) (fromMain : Bool) (d : DS) (st : St) (n m : Nat) (hn : st.input.length < n) (hm : st.input.length < m) :
    dbgLoop (run k) top fromMain n d st = dbgLoop (run k) top fromMain m d st := by
  induction n generalizing m d st with
  | zero => omega
  | succ n ih =>
    obtain ⟨m, rfl⟩ : ∃ m', m = m' + 1 := ⟨m - 1, by omega⟩
    simp only [dbgLoop, M.bind_apply, Fuel.write, M.modify_apply, readLine, M.get_apply]
    cases hi : st.input with
    | nil => simp only [M.pure_apply, M.bind_apply, dbgCommand, show trim [] = ([] : Str) from rfl, show dcmd [] = .exit from rfl, M.get_apply]; cases fromMain <;> rfl
    | cons l ls =>
      simp only [M.pure_apply, M.bind_apply, M.modify_apply]
      generalize hs : ({ st with out := _, input := ls } : St) = s1
      have h1 := ((inferInstance : Pres Consumes (dbgCommand (run k) top fromMain (trim l) d)).rel s1).input.length_le
      cases e : dbgCommand (run k) top fromMain (trim l) d s1 with
      | fail f s' => rfl
      | ok a s' =>
        obtain ⟨d', c⟩ := a
        cases c with
        | again =>
          rw [e, ← hs] at h1
          simp only [Out.st, hi, List.length_cons] at h1 hn hm
          exact ih d' s' m (by omega) (by omega)
        | _ => rfl

/-- C54: the interactive loop only appends to the output and only takes lines from the beginning of the standard input, whatever the commands are. -/
theorem C54_shell (k top : Nat) (fromMain : Bool) (dbg : Dbg) (st : St) :
    st.out <+: (Out.after (interactiveLoop (run k) dbg top fromMain st)).out ∧ (Out.after (interactiveLoop (run k) dbg top fromMain st)).input <:+ st.input := by
  rw [after_eq]
  have h : Pres Consumes (interactiveLoop (run k) dbg top fromMain) := by unfold interactiveLoop; pres
  exact ⟨(h.rel st).out, (h.rel st).input⟩

/-! ## A session -/

/-- A function is defined, a question is asked, and a line of the input is read by the code of another line. -/
def demoInput : List Str := [c!"  (defn f (a) a)", c!"version", c!"(readline)\t", c!"hello", c!"q"]

theorem typed_of {l c : Str} (a b : Str) (h : l = a ++ c ++ b) (h1 : ∀ x ∈ a, White x) (h2 : ∀ x ∈ b, White x) (h3 : Tight c) : Typed l c := ⟨a, b, h, h1, h2, h3⟩

theorem start_passive {f : Nat} {n : Str} (h : n ≠ c!"define-macro-expand") {v : Val} (hv : (Conf.start.frames f).vars n = some v) : Passive v := by
  simp only [Conf.start] at hv
  split at hv
  · cases hv; exact h
  · cases hv

example : ∃ R, ShellSession { Conf.start with input := demoInput } R ∧ R.input = [] ∧ R.out = c!"FUEL(isp)-DBG> result=function (f a)
FUEL(isp)-DBG> 
FUEL(isp) v0.99.6 (for C++) from 16.12.2023, (C) by Michael Neuroth

FUEL(isp)-DBG> result=hello
FUEL(isp)-DBG> " := by
  have hw : Sexp.WFs [.list [.sym c!"defn", .sym c!"f", .list [.sym c!"a"], .sym c!"a"]] := by
    simp [Sexp.WF, Sexp.WFs, SymbolName, Spec.Plain, White, NumberLike, dropSign, Digit, reserved]
  have hw2 : Sexp.WFs [.list [.sym c!"readline"]] := by
    simp [Sexp.WF, Sexp.WFs, SymbolName, Spec.Plain, White, NumberLike, dropSign, Digit, reserved]
  have p1 : ∀ {n v}, n ≠ c!"define-macro-expand" → (Conf.start.frames 0).vars n = some v → Passive v := fun h => start_passive h
  have p2 : ∀ {n v}, n ≠ c!"define-macro-expand" → ((Conf.start.set 0 c!"f" (.clo [c!"a"] (.sym c!"a") 0)).frames 0).vars n = some v → Passive v := by
    intro n v h hv
    simp only [Conf.set, Conf.withFrame, if_true] at hv
    split at hv
    · cases hv; trivial
    · exact start_passive h hv
  have t1 : Turn { Conf.start with input := demoInput } _ := .code (xs := [.list [.sym c!"defn", .sym c!"f", .list [.sym c!"a"], .sym c!"a"]])
    ⟨⟨_, c!"(defn f (a) a)", rfl, typed_of c!"  " [] (by simp) (by simp [White]) (by simp) (by simp [Tight, White]), ⟨_, _, rfl, by decide⟩, written_sources hw⟩, hw, by
      refine ⟨⟨by simp [Sexp.text, hidden], fun v => p1 (by simp [Sexp.text, hidden])⟩, trivial, ⟨⟨by simp [Sexp.text, hidden], fun v => p1 (by simp [Sexp.text, hidden])⟩, trivial, trivial, ⟨⟨by simp [Sexp.text, hidden], fun v => p1 (by simp [Sexp.text, hidden])⟩, trivial, trivial⟩, trivial, trivial⟩, trivial⟩⟩
    (.function (n := c!"f") (ps := [c!"a"]) (body := .sym c!"a") ⟨rfl, .locally (by decide) rfl⟩ .list ⟨rfl, .locally (by decide) rfl⟩ (by decide) rfl rfl)
    ⟨by simp [BraceFree, syntaxText], by simp⟩
  have t2 : ∀ R : Conf, R.input = [c!"version", c!"(readline)\t", c!"hello", c!"q"] → Turn R ((R.asked [c!"(readline)\t", c!"hello", c!"q"]).write banner) :=
    fun R h => .info (c := c!"version") h (typed_of [] [] rfl (by simp) (by simp) (by simp [Tight, White])) (.version (by simp))
  have t3 : ∀ R : Conf, R.input = [c!"(readline)\t", c!"hello", c!"q"] → R.macros = Conf.start.macros → R.frames = (Conf.start.set 0 c!"f" (.clo [c!"a"] (.sym c!"a") 0)).frames →
      Turn R (({ R.asked [c!"hello", c!"q"] with input := [c!"q"] } : Conf).write c!"result=hello\n") := by
    intro R h hm hf
    have hq : ∀ {n}, n ≠ c!"define-macro-expand" → ∀ v, (R.frames 0).vars n = some v → Passive v := fun hn v hv => p2 hn (hf ▸ hv)
    have hh : ∀ {n}, n ∉ hidden → ((Conf.start.set 0 c!"f" (.clo [c!"a"] (.sym c!"a") 0)).frames 0).vars n = some (.prim n) → Head (R.asked [c!"hello", c!"q"]) 0 n (.prim n) :=
      fun h1 h2 => ⟨congrFun hm _, .locally h1 ((congrArg (fun F : Nat → Frame => (F 0).vars _) hf).trans h2)⟩
    have hr : ((R.asked [c!"hello", c!"q"]).frames 0).ret = false := congrArg (fun F : Nat → Frame => (F 0).ret) hf
    exact .code (t := c!"hello") (xs := [.list [.sym c!"readline"]])
      ⟨⟨_, c!"(readline)", h, typed_of [] c!"\t" rfl (by simp) (by simp [White]) (by simp [Tight, White]), ⟨_, _, rfl, by decide⟩, written_sources hw2⟩, hw2,
        ⟨⟨by simp [Sexp.text, hidden], hq (by simp [Sexp.text, hidden])⟩, trivial, ⟨⟨by simp [Sexp.text, hidden], hq (by simp [Sexp.text, hidden])⟩, trivial, trivial⟩, trivial⟩⟩
      (.value (.block .list (hh (by decide) rfl) (by simp) (.next ⟨_, _, .list⟩ (.call .list (hh (by decide) rfl) .nil (.readline rfl)) hr .done)) .str)
      ⟨by simp [BraceFree], by simp⟩
  refine ⟨_, ⟨_, .cons t1 (.cons (t2 _ rfl) (.cons (t3 _ rfl rfl rfl) .nil)), .quit (c := c!"q") rfl (typed_of [] [] rfl (by simp) (by simp) (by simp [Tight, White])) (by simp)⟩, rfl, ?_⟩
  decide +kernel

/-- The first line calls a function that does not exist. -/
example (st : St) (hr : Reachable st) (hi : st.input = [c!"(oops)", c!"q"]) : ∃ K, ∀ k, K ≤ k → ∀ stack,
    st.out ++ greeting ++ c!"FUEL(isp)-DBG> " ++ c!"Exception: Function \"oops\" not found\n" ++ c!"FUEL(isp)-DBG> " <+: (Out.after (mainExtended k stack true [c!"-i"] st)).out := by
  have hw : Sexp.WFs [.list [.sym c!"oops"]] := by
    simp [Sexp.WF, Sexp.WFs, SymbolName, Spec.Plain, White, NumberLike, dropSign, Digit, reserved]
  have hu : Unknown (({ Conf.start with input := st.input } : Conf).asked [c!"q"]) 0 c!"oops" :=
    have h : (Conf.start.frames 0).vars c!"oops" = none := by simp only [Conf.start]; exact if_neg (by decide +kernel)
    ⟨by decide, h, (fun g hg => by cases hg with
      | here h1 => cases h.symm.trans h1
      | up _ h1 _ => cases h1), fun x hx => (nomatch hx)⟩
  have hm : Mistake { Conf.start with input := st.input } c!"Function \"oops\" not found" c!"FUEL(isp)-DBG> " := ⟨[c!"q"], [.list [.sym c!"oops"]],
    ⟨⟨_, c!"(oops)", hi, typed_of [] [] rfl (by simp) (by simp) (by simp [Tight, White]), ⟨_, _, rfl, by decide⟩, written_sources hw⟩, hw,
      ⟨⟨by simp [Sexp.text, hidden], fun v => start_passive (f := 0) (by simp [Sexp.text])⟩, trivial, ⟨⟨by simp [Sexp.text, hidden], fun v => start_passive (f := 0) (by simp [Sexp.text])⟩, trivial, trivial⟩, trivial⟩⟩,
    .block .list ⟨rfl, .locally (by decide) rfl⟩ (by simp) (.here (.unknown .list rfl hu ⟨by simp [BraceFree], by decide⟩))⟩
  exact C83_mistake hr .nil hm

end

/-! ## Sessions that go wrong -/

attribute [local instance] demoWorld

/-- What `fuel -i` writes for these lines of the standard input. -/
def demoShell (lines : List Str) : Option Str :=
  match mainExtended 60 [] true [c!"-i"] { input := lines } with
  | .ok _ st => some (st.out.drop greeting.length)
  | .fail _ _ => none

/-- How `fuel -i` crashes for these lines of the standard input. -/
def demoCrash (lines : List Str) : Option Fail :=
  match mainExtended 60 [] true [c!"-i"] { input := lines } with
  | .ok _ _ => none
  | .fail f _ => some f

/-- The definition of a macro has no result, and the shell reads through a null pointer to show it. -/
theorem C83_macro_wrong : demoCrash [c!"(define-macro m (a) (list a))"] = some (.ub .nullDeref) := by decide +kernel

/-- A parameter with the name of a global variable that is no function: the list of the parameters is taken for a call when the macros of the line are expanded. -/
theorem C83_parameter_wrong : demoShell [c!"(def x 5)", c!"(defn g (x) (+ x 1))"] =
    some c!"FUEL(isp)-DBG> result=5\nFUEL(isp)-DBG> Exception: Invalid cast for function, value=5 not found\nFUEL(isp)-DBG> " := by decide +kernel

/-- A result with a brace that looks like a placeholder of the format text is not shown. -/
theorem C83_brace_wrong : demoShell [c!"(list 1 \"{1}\")"] =
    some c!"FUEL(isp)-DBG> Exception: Not enough items for format string: result={0}\nFUEL(isp)-DBG> " := by decide +kernel

/-- The name of a variable alone is no line of code. -/
theorem C83_name_wrong : demoShell [c!"(def x 5)", c!"x"] = some c!"FUEL(isp)-DBG> result=5\nFUEL(isp)-DBG> Exception: List expected in do\nFUEL(isp)-DBG> " := by
  decide +kernel

/-- After an error in the place of an assignment the shell does not show values any more: the scope still evaluates to places. -/
theorem C83_place_wrong : demoShell [c!"(def l (list 1 2))", c!"(nth 0 l)", c!"(setf (foo l) 9)", c!"(nth 0 l)"] =
    some c!"FUEL(isp)-DBG> result=(1 2)\nFUEL(isp)-DBG> result=1\nFUEL(isp)-DBG> Exception: Function \"foo\" not found\nFUEL(isp)-DBG> result=?\nFUEL(isp)-DBG> " := by
  decide +kernel

/-- After a line with `return` only the first expression of every line is executed. -/
theorem C83_return_wrong : demoShell [c!"(return 1)", c!"(def z 5) (def z 6)", c!"(println z)"] =
    some c!"FUEL(isp)-DBG> result=1\nFUEL(isp)-DBG> result=5\nFUEL(isp)-DBG> 5\nresult=5\nFUEL(isp)-DBG> " := by decide +kernel

end Fuel
