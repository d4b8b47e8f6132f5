import Verif.LemForever
import Verif.PropsError
/-!
# C81 Programs that do not end
-/

set_option linter.unusedSectionVars false
set_option linter.unusedSimpArgs false

namespace Fuel

open Spec Spec.Core

section
variable [World]

/-- A script that runs forever: every budget is used up, and what is written at a place of the path is written if the budget is large enough. -/
theorem script_forever {xs : List Sexp} (hx : Sexp.WFs xs) {text : Str} (hw : Written xs text)
    (hh : Sexp.HeadsAll (fun n => n ∉ hidden ∧ n ≠ c!"define-macro-expand") xs) {st : St} (hr : Reachable st) (module : Str) {path : Nat → Task}
    (h0 : path 0 = .seq 0 xs Conf.start) (h : Path path) (n : Nat) :
    ∃ K, ∀ k, K ≤ k → ∃ st', lispEvalNew k text module false false st = .fail .fuel st' ∧ (st.out ++ (path n).conf.out) <+: st'.out := by
  obtain ⟨st0, h1, h2⟩ := C48_new st
  have hh' : (Sexp.list (.sym c!"do" :: xs)).Heads (Inert st0 st.next) :=
    ⟨inert_new h2 (by simp [Sexp.text, hidden]) (by simp [Sexp.text]), trivial, headsAll_imp (fun n hn => inert_new h2 hn.1 hn.2) hh⟩
  obtain ⟨p, c, st1, h3, h4, h5, K, h6⟩ := script_run hx hw hh' module
  have hl0 : Links st0 := by
    have := (Reachable.create hr).links
    rwa [h1] at this
  have hs := start_sim h2 h3 (started_links h3 hl0) (ls := []) (rest := st.input) rfl
  let path' : Nat → Task := fun i => match i with
    | 0 => .eval 0 (.list (.sym c!"do" :: xs)) Conf.start
    | i + 1 => path i
  have hp : Path path' := fun i => by
    cases i with
    | zero =>
      show Begins _ (path 0)
      rw [h0]
      exact .block .list (value_start 0 (b := .do_) (s := true) (by decide) (by decide)) (by simp)
    | succ i => exact h i
  obtain ⟨L, hL⟩ := path_out hp _ (n + 1) 0 _ ⟨_, _, p, hs, Nat.one_pos, ⟨_, h4, .list h5⟩, rfl⟩
  refine ⟨max K L, fun k hk => ?_⟩
  obtain ⟨s, e, hs⟩ := hL k (by omega)
  refine ⟨s, ?_, by simpa [path'] using hs⟩
  have e := fz_some.1 e
  simp only [lispEvalNew, M.bind_apply, h1, h6 k (by omega)]
  exact e

/-- C81: a program of the core language that runs forever according to the reference semantics has no outcome: no value, no exception, and
nothing else, whatever the source text is like. -/
theorem C81_forever {xs : List Sexp} (hx : Sexp.WFs xs) {text : Str} (hw : Written xs text)
    (hh : Sexp.HeadsAll (fun n => n ∉ hidden ∧ n ≠ c!"define-macro-expand") xs) {st : St} (hr : Reachable st) (module : Str)
    (h : Forever (.seq 0 xs Conf.start)) (o : Out (Option Variant)) : ¬ Runs text module st o := by
  obtain ⟨path, h0, h⟩ := h
  obtain ⟨K, hK⟩ := script_forever hx hw hh hr module h0 h 0
  rintro ⟨ho, k, e⟩
  obtain ⟨st', e', -⟩ := hK (max K k) (by omega)
  rcases monoSeq_lispEvalNew text module false false st k (max K k) (by omega) with ⟨s, e2⟩ | e2
  · exact ho s (e.symm.trans e2)
  · exact ho st' (e.symm.trans (e2.trans e'))

/-- C81: what such a program has written at any place of its infinite path has been written by the interpreter after finitely many steps, and
the interpreter goes on. -/
theorem C81_output {xs : List Sexp} (hx : Sexp.WFs xs) {text : Str} (hw : Written xs text)
    (hh : Sexp.HeadsAll (fun n => n ∉ hidden ∧ n ≠ c!"define-macro-expand") xs) {st : St} (hr : Reachable st) (module : Str) {path : Nat → Task}
    (h0 : path 0 = .seq 0 xs Conf.start) (h : Path path) (n : Nat) :
    ∃ K, ∀ k, K ≤ k → ∃ st', lispEvalNew k text module false false st = .fail .fuel st' ∧ (st.out ++ (path n).conf.out) <+: st'.out :=
  script_forever hx hw hh hr module h0 h n

/-- C81: a program of the core language that runs forever neither has a value nor makes an error. -/
theorem C81_exclusive {xs : List Sexp} (hx : Sexp.WFs xs) (hh : Sexp.HeadsAll (fun n => n ∉ hidden ∧ n ≠ c!"define-macro-expand") xs)
    (h : Forever (.seq 0 xs Conf.start)) : (¬ ∃ v R, Seq 0 (some .undef) xs Conf.start v R) ∧ ¬ ∃ msg t, SeqFails 0 xs Conf.start msg t := by
  have hr : Reachable ({} : St) := .init rfl (fun _ => rfl) (fun _ => rfl) (fun _ => rfl) (fun _ => rfl)
  have hn := C81_forever hx (written_sources hx) hh hr c!"m" h
  refine ⟨fun ⟨v, R, hv⟩ => ?_, fun ⟨msg, t, hv⟩ => ?_⟩
  · obtain ⟨w, st2, μ, g1, -⟩ := C55_core hx (written_sources hx) hh hr c!"m" hv
    exact hn _ g1
  · obtain ⟨e, st1, h1, -⟩ := C78_error hx (written_sources hx) hh hr c!"m" hv
    exact hn _ h1

/-! ## Loops -/

/-- A loop, round after round. -/
def loopPath (f : Nat) (c b : Sexp) (S : Nat → Conf) (n : Nat) : Task := .loop f c b (S n)

theorem loopPath_path {f : Nat} {c b : Sexp} {S : Nat → Conf} (h : ∀ n, ∃ v R1 r, Exec f c (S n) v R1 ∧ truth v = some true ∧ Exec f b R1 r (S (n + 1)) ∧ ((S (n + 1)).frames f).ret = false) :
    Path (loopPath f c b S) := fun n => by
  obtain ⟨v, R1, r, h1, h2, h3, h4⟩ := h n
  exact .loopAgain h1 h2 h3 h4

/-- A path after two steps. -/
def afterTwo (t t' : Task) (path : Nat → Task) : Nat → Task
  | 0 => t
  | 1 => t'
  | n + 2 => path n

theorem afterTwo_path {t t' : Task} {path : Nat → Task} (h : Path path) (h1 : Begins t t') (h2 : Begins t' (path 0)) : Path (afterTwo t t' path)
  | 0 => h1
  | 1 => h2
  | n + 2 => h n

/-- C81: a program that begins with a loop does not end if the condition is true and the body is executed again and again: then the
interpreter writes what the rounds write, as many as one likes. -/
theorem C81_while {c b : Sexp} {rest : List Sexp} (hx : Sexp.WFs (.list [.sym c!"while", c, b] :: rest)) {text : Str} (hw : Written (.list [.sym c!"while", c, b] :: rest) text)
    (hh : Sexp.HeadsAll (fun n => n ∉ hidden ∧ n ≠ c!"define-macro-expand") (.list [.sym c!"while", c, b] :: rest)) {st : St} (hr : Reachable st) (module : Str)
    {S : Nat → Conf} (h0 : S 0 = Conf.start)
    (h : ∀ n, ∃ v R1 r, Exec 0 c (S n) v R1 ∧ truth v = some true ∧ Exec 0 b R1 r (S (n + 1)) ∧ ((S (n + 1)).frames 0).ret = false) :
    (∀ o, ¬ Runs text module st o) ∧
      ∀ n, ∃ K, ∀ k, K ≤ k → ∃ st', lispEvalNew k text module false false st = .fail .fuel st' ∧ (st.out ++ (S n).out) <+: st'.out := by
  have hp : Path (afterTwo (.seq 0 (.list [.sym c!"while", c, b] :: rest) Conf.start) (.eval 0 (.list [.sym c!"while", c, b]) Conf.start) (loopPath 0 c b S)) := by
    refine afterTwo_path (loopPath_path h) .seqHere ?_
    show Begins _ (.loop 0 c b (S 0))
    rw [h0]
    exact .while_ .list (value_start 0 (b := .while_) (s := true) (by decide) (by decide))
  refine ⟨C81_forever hx hw hh hr module ⟨_, rfl, hp⟩, fun n => ?_⟩
  exact C81_output hx hw hh hr module rfl hp (n + 2)

/-- C81: `(while #t (println i))` writes the number again and again and does not end, whatever follows. -/
theorem C81_println {i : Int} (hi : IsInt32 i) {rest : List Sexp} (hx : Sexp.WFs rest) {text : Str}
    (hw : Written (.list [.sym c!"while", .bool true, .list [.sym c!"println", .int i]] :: rest) text)
    (hh : Sexp.HeadsAll (fun n => n ∉ hidden ∧ n ≠ c!"define-macro-expand") rest) {st : St} (hr : Reachable st) (module : Str) :
    (∀ o, ¬ Runs text module st o) ∧
      ∀ n, ∃ K, ∀ k, K ≤ k → ∃ st', lispEvalNew k text module false false st = .fail .fuel st' ∧ (st.out ++ (List.replicate n (intStr i ++ c!"\n")).flatten) <+: st'.out := by
  let S : Nat → Conf := fun n => { Conf.start with out := (List.replicate n (intStr i ++ c!"\n")).flatten }
  refine C81_while (S := S) ?_ hw ?_ hr module rfl fun n => ?_
  · have : Sexp.WF (.list [.sym c!"while", .bool true, .list [.sym c!"println", .int i]]) := by
      simp [Sexp.WF, Sexp.WFs, SymbolName, Spec.Plain, White, NumberLike, dropSign, Digit, reserved, hi]
    exact ⟨this, hx⟩
  · exact ⟨by simp [Sexp.Heads, Sexp.HeadsAll, Sexp.text, hidden], hh⟩
  · refine ⟨.bool true, S n, .str (intStr i), .bool, rfl, ?_, rfl⟩
    have hp : Prints c!"println" [.int i] (intStr i) (intStr i ++ c!"\n") := by
      have := Prints.println (ShownAll.cons (Shown.int (q := false) (i := i)) .nil)
      simpa only [intStr_shown] using this
    have : S (n + 1) = (S n).write (intStr i ++ c!"\n") := by
      simp [S, Conf.write, List.replicate_succ', List.flatten_append]
    rw [this]
    exact .call .list ⟨rfl, .locally (by decide) (start_vars (b := .println) (s := false) (by decide))⟩ (.other (by simp) .int .nil) (.prints hp)

/-! ## Recursion -/

/-- Coinduction: if every task with a property begins a task with the property, tasks with the property run forever. -/
theorem forever_coind {P : Task → Prop} (h : ∀ t, P t → ∃ t', Begins t t' ∧ P t') {t : Task} (ht : P t) : Forever t := by
  let next : {t // P t} → {t // P t} := fun x => ⟨Classical.choose (h x.1 x.2), (Classical.choose_spec (h x.1 x.2)).2⟩
  let path : Nat → {t // P t} := fun n => Nat.rec ⟨t, ht⟩ (fun _ x => next x) n
  exact ⟨fun n => (path n).1, rfl, fun n => (Classical.choose_spec (h (path n).1 (path n).2)).1⟩

/-- A task that begins a task that runs forever runs forever. -/
theorem forever_step {t t' : Task} (h : Begins t t') (hf : Forever t') : Forever t := by
  obtain ⟨path, h0, hp⟩ := hf
  refine ⟨fun n => match n with | 0 => t | n + 1 => path n, rfl, fun n => ?_⟩
  cases n with
  | zero =>
    show Begins t (path 0)
    rw [h0]
    exact h
  | succ n => exact hp n

/-- `(defn again (n) (again n)) (again m) …` -/
def againProgram (m : Int) (rest : List Sexp) : List Sexp :=
  .list [.sym c!"defn", .sym c!"again", .list [.sym c!"n"], .list [.sym c!"again", .sym c!"n"]] :: .list [.sym c!"again", .int m] :: rest

/-- In `R`, the function `again` is defined. -/
structure AgainLib (R : Conf) : Prop where
  count : 0 < R.count
  again : (R.frames 0).vars c!"again" = some (.clo [c!"n"] (.list [.sym c!"again", .sym c!"n"]) 0)
  macros : R.macros = Conf.start.macros

theorem again_forever {f : Nat} {R : Conf} (h : AgainLib R) (v : Val) (hv : paramVal [c!"n"] [v] c!"n" = some v) :
    Forever (.apply f (.clo [c!"n"] (.list [.sym c!"again", .sym c!"n"]) 0) [v] R) := by
  refine forever_coind (P := fun t => ∃ f R, AgainLib R ∧ (t = .apply f (.clo [c!"n"] (.list [.sym c!"again", .sym c!"n"]) 0) [v] R ∨
    t = .eval R.count (.list [.sym c!"again", .sym c!"n"]) (R.enter [c!"n"] [v] 0))) ?_ ⟨f, R, h, .inl rfl⟩
  rintro t ⟨f, R, hL, rfl | rfl⟩
  · exact ⟨_, .body (by decide) (by decide), f, R, hL, .inr rfl⟩
  · have h0 : (0 : Nat) ≠ R.count := Nat.ne_of_lt hL.count
    have hE : (R.enter [c!"n"] [v] 0).frames 0 = R.frames 0 := by simp only [Conf.enter, Conf.withFrame, if_neg h0]
    have hh : Head (R.enter [c!"n"] [v] 0) R.count c!"again" (.clo [c!"n"] (.list [.sym c!"again", .sym c!"n"]) 0) :=
      ⟨congrFun hL.macros _, .globally (by decide) (by simp [Conf.enter, Conf.withFrame, paramVal]) (by rw [hE]; exact hL.again)⟩
    have hn : Value (R.enter [c!"n"] [v] 0) R.count c!"n" v := .locally (by decide) (by simpa [Conf.enter, Conf.withFrame] using hv)
    exact ⟨_, .call .list hh (.name hn .nil), R.count, R.enter [c!"n"] [v] 0, ⟨Nat.succ_pos _, by rw [hE]; exact hL.again, hL.macros⟩, .inl rfl⟩

/-- C81: a function that always calls itself does not end: `(defn again (n) (again n)) (again m)` has no outcome, whatever follows. -/
theorem C81_recursion {m : Int} (hm : IsInt32 m) {rest : List Sexp} (hx : Sexp.WFs rest) {text : Str} (hw : Written (againProgram m rest) text)
    (hh : Sexp.HeadsAll (fun n => n ∉ hidden ∧ n ≠ c!"define-macro-expand") rest) {st : St} (hr : Reachable st) (module : Str) (o : Out (Option Variant)) :
    ¬ Runs text module st o := by
  let R := Conf.start.set 0 c!"again" (.clo [c!"n"] (.list [.sym c!"again", .sym c!"n"]) 0)
  have hL : AgainLib R := ⟨Nat.one_pos, by simp [R, Conf.set, Conf.withFrame], rfl⟩
  have e1 : Exec 0 (.list [.sym c!"defn", .sym c!"again", .list [.sym c!"n"], .list [.sym c!"again", .sym c!"n"]]) Conf.start
      (.clo [c!"n"] (.list [.sym c!"again", .sym c!"n"]) 0) R :=
    .defn (ps := [c!"n"]) .list (value_start 0 (b := .defn) (s := true) (by decide) (by decide)) (by decide) (start_vars (b := .fn) (s := true) (by decide))
      (start_vars (b := .def_) (s := true) (by decide))
  refine C81_forever (xs := againProgram m rest) ?_ hw ?_ hr module ?_ o
  · have : Sexp.WF (.list [.sym c!"defn", .sym c!"again", .list [.sym c!"n"], .list [.sym c!"again", .sym c!"n"]]) ∧ Sexp.WF (.list [.sym c!"again", .int m]) := by
      simp [Sexp.WF, Sexp.WFs, SymbolName, Spec.Plain, White, NumberLike, dropSign, Digit, reserved, hm]
    exact ⟨this.1, this.2, hx⟩
  · exact ⟨by simp [Sexp.Heads, Sexp.HeadsAll, Sexp.text, hidden], by simp [Sexp.Heads, Sexp.HeadsAll, Sexp.text, hidden], hh⟩
  · exact forever_step (.seqNext ⟨_, _, .list⟩ e1 rfl) (forever_step .seqHere (forever_step (.call .list ⟨rfl, .locally (by decide) hL.again⟩ (.other (by simp) .int .nil))
      (again_forever hL _ (by simp [paramVal]))))

end

/-! ## The hypotheses are met -/

attribute [local instance] demoWorld

example (n : Nat) : ∃ K, ∀ k, K ≤ k → ∃ st', lispEvalNew k c!"(while #t (println 7)) (println 8)" c!"demo" false false ({} : St) = .fail .fuel st' ∧
    (List.replicate n c!"7\n").flatten <+: st'.out := by
  have hx : Sexp.WFs [.list [.sym c!"println", .int 8]] := by simp [Sexp.WF, Sexp.WFs, SymbolName, Spec.Plain, White, NumberLike, dropSign, Digit, reserved, IsInt32]
  have hx' : Sexp.WFs [.list [.sym c!"while", .bool true, .list [.sym c!"println", .int 7]], .list [.sym c!"println", .int 8]] := by
    simp [Sexp.WF, Sexp.WFs, SymbolName, Spec.Plain, White, NumberLike, dropSign, Digit, reserved, IsInt32]
  have hs : Sexp.sources [.list [.sym c!"while", .bool true, .list [.sym c!"println", .int 7]], .list [.sym c!"println", .int 8]] =
    c!"(while #t (println 7)) (println 8)" := by decide +kernel
  have := (C81_println (i := 7) (by decide) hx (hs ▸ written_sources hx') (by simp [Sexp.Heads, Sexp.HeadsAll, Sexp.text, hidden]) (st := {})
    (.init rfl (fun _ => rfl) (fun _ => rfl) (fun _ => rfl) (fun _ => rfl)) c!"demo").2 n
  simpa [show intStr 7 = c!"7" by decide] using this

example (o : Out (Option Variant)) : ¬ Runs c!"(defn again (n) (again n)) (again 3)" c!"demo" ({} : St) o := by
  have hs : Sexp.sources (againProgram 3 []) = c!"(defn again (n) (again n)) (again 3)" := by decide +kernel
  have hx' : Sexp.WFs (againProgram 3 []) := by
    simp [againProgram, Sexp.WF, Sexp.WFs, SymbolName, Spec.Plain, White, NumberLike, dropSign, Digit, reserved, IsInt32]
  exact C81_recursion (m := 3) (rest := []) (by decide) trivial (hs ▸ written_sources hx') trivial (.init rfl (fun _ => rfl) (fun _ => rfl) (fun _ => rfl) (fun _ => rfl)) c!"demo" o

end Fuel
