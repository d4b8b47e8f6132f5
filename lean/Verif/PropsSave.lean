import Verif.SpecSave
import Verif.PropsRun
import Verif.PropsCall
import Verif.PropsCli
import Verif.PropsProg
/-!
# Evaluation with error report; runs of the command line program
-/

set_option linter.unusedSectionVars false
set_option linter.unusedSimpArgs false

namespace Fuel

open Spec

section
variable [World]

/-! ## C44 errors become error values -/

theorem saveEval_ends {k : Nat} {stack : Str} {w : Bool} {code module : Str} {verbose t e : Bool} {st : St}
    (h : Ends (saveEval k stack w code module verbose t e st)) : Ends (lispEvalNew k code module t e st) := by
  intro s hs
  refine h s ?_
  simp only [saveEval, hs]

theorem saveEval_mono {k k' : Nat} (hk : k ≤ k') {stack : Str} {w : Bool} {code module : Str} {verbose t e : Bool} {st : St}
    (h : Ends (saveEval k stack w code module verbose t e st)) :
    saveEval k' stack w code module verbose t e st = saveEval k stack w code module verbose t e st := by
  have := ((monoSeq_lispEvalNew code module t e st k k' hk).resolve_left fun ⟨s, hs⟩ => saveEval_ends h s hs).symm
  simp only [saveEval, this]

theorem Spec.Saves.stable {stack : Str} {w : Bool} {code module : Str} {verbose : Bool} {st : St} {o : Out (Option Variant)}
    (h : Saves stack w code module verbose st o) : ∃ K, ∀ k, K ≤ k → saveEval k stack w code module verbose false false st = o := by
  obtain ⟨h1, K, h2⟩ := h
  exact ⟨K, fun k hk => by rw [saveEval_mono hk (by rw [h2]; exact h1), h2]⟩

/-- The evaluation with error report has only one outcome. -/
theorem Spec.Saves.unique {stack : Str} {w : Bool} {code module : Str} {verbose : Bool} {st : St} {o o' : Out (Option Variant)}
    (h : Saves stack w code module verbose st o) (h' : Saves stack w code module verbose st o') : o = o' := by
  obtain ⟨K, h⟩ := h.stable
  obtain ⟨K', h'⟩ := h'.stable
  rw [← h (max K K') (by omega), h' _ (by omega)]

/-- C44: a script that ends without exception is not affected. -/
theorem C44_ok {code module : Str} {st st' : St} {v : Option Variant} (h : Runs code module st (.ok v st')) (stack : Str) (writer verbose : Bool) :
    Saves stack writer code module verbose st (.ok v st') := by
  obtain ⟨_, k, h⟩ := h
  exact ⟨ends_ok _ _, k, by simp only [saveEval, h]⟩

theorem format_report {msg module : Str} (hm : Insertable msg) (hd : Insertable module) (line start stop : Int) :
    format c!"\nError executing script.\n\n{0} --> line={1} start={2} stop={3} module={4}" msg (intStr line) (intStr start) (intStr stop) module =
      .ok (c!"\nError executing script.\n\n" ++ msg ++ c!" --> line=" ++ intStr line ++ c!" start=" ++ intStr start ++ c!" stop=" ++
        intStr stop ++ c!" module=" ++ module) := by
  have := format_pieces (args := [msg, intStr line, intStr start, intStr stop, module])
    (ps := [.lit c!"\nError executing script.\n\n", .hole 0, .lit c!" --> line=", .hole 1, .lit c!" start=", .hole 2, .lit c!" stop=", .hole 3,
      .lit c!" module=", .hole 4])
    (by simp [BraceFree]) (by
      intro a ha
      simp only [List.mem_cons, List.not_mem_nil, or_false] at ha
      rcases ha with rfl | rfl | rfl | rfl | rfl
      · exact hm
      · exact intStr_text _
      · exact intStr_text _
      · exact intStr_text _
      · exact hd) (by simp [holes]) (by simp [holes])
  simpa [argOr, sources, Piece.source, fill, nullString] using this

theorem format_stack {stack : Str} (hs : Insertable stack) : format c!"\nCallstack:\n{0}" stack = .ok (c!"\nCallstack:\n" ++ stack) := by
  have := format_pieces (args := [stack]) (ps := [.lit c!"\nCallstack:\n", .hole 0]) (by simp [BraceFree])
    (by intro a ha; simp only [List.mem_cons, List.not_mem_nil, or_false] at ha; exact ha ▸ hs) (by simp [holes]) (by simp [holes])
  simpa [argOr, sources, Piece.source, fill, nullString] using this

theorem writeErr_eq (writer : Bool) (l : Str) (st : St) : writeErr writer l st = .ok () { st with out := st.out ++ lineTwice writer l } := by
  cases writer <;> simp [writeErr, writeLine, write, M.bind_apply, M.modify_apply, M.pure_apply, lineTwice]

/-- C44: a script that ends with a Lisp exception gives an error value with its message; the report is appended to the output. -/
theorem C44_error {code module : Str} {st st' : St} {msg m : Str} {line start stop : Int}
    (h : Runs code module st (.fail (.exn (.lisp true msg line start stop m)) st')) {stack : Str} (hm : Insertable msg) (hd : Insertable m)
    (hs : Insertable stack) (writer verbose : Bool) :
    ∃ w st'', Saves stack writer code module verbose st (.ok (some w) st'') ∧ IsError w msg ∧
      st''.out = st'.out ++ errorReport stack writer verbose msg line start stop m := by
  obtain ⟨_, k, h⟩ := h
  have hk : saveEval k stack writer code module verbose false false st = .ok (some (.ofType .error (.mk st'.next (.str msg))))
      { st' with out := st'.out ++ errorReport stack writer verbose msg line start stop m, next := st'.next + 1 } := by
    cases verbose with
    | false =>
      simp only [saveEval, h, format_report hm hd, format_stack hs, M.bind_apply, M.lift_ok, writeErr_eq, Bool.false_eq_true, if_false, M.pure_apply,
        errorValue, allocObj]
      simp [errorReport]
    | true =>
      simp only [saveEval, h, format_report hm hd, format_stack hs, M.bind_apply, M.lift_ok, writeErr_eq, if_true, M.pure_apply,
        errorValue, allocObj, writeLine, write, M.modify_apply]
      simp [errorReport]
  exact ⟨_, _, ⟨ends_ok _ _, k, hk⟩, ⟨rfl, _, rfl⟩, rfl⟩

/-- C44: the same for exceptions that carry only a message; nothing is written. -/
theorem C44_base_error {code module : Str} {st st' : St} {msg m : Str} {line start stop : Int}
    (h : Runs code module st (.fail (.exn (.lisp false msg line start stop m)) st')) (stack : Str) (writer verbose : Bool) :
    ∃ w st'', Saves stack writer code module verbose st (.ok (some w) st'') ∧ IsError w msg ∧ st''.out = st'.out := by
  obtain ⟨_, k, h⟩ := h
  have hk : saveEval k stack writer code module verbose false false st = .ok (some (.ofType .error (.mk st'.next (.str msg)))) { st' with next := st'.next + 1 } := by
    simp only [saveEval, h, M.bind_apply, M.pure_apply, errorValue, allocObj]
  exact ⟨_, _, ⟨ends_ok _ _, k, hk⟩, ⟨rfl, _, rfl⟩, rfl⟩

/-- C44: a Lisp exception never escapes: the evaluation with error report ends with a value, a native exception or undefined behaviour, if
the texts of exceptions, modules and call stack can be inserted into the report. -/
theorem C44_never {code module : Str} {st st' : St} {stack : Str} {writer verbose : Bool} {f : Fail}
    (h : Saves stack writer code module verbose st (.fail f st')) (hs : Insertable stack)
    (hi : ∀ msg line start stop m st1, Runs code module st (.fail (.exn (.lisp true msg line start stop m)) st1) → Insertable msg ∧ Insertable m) :
    (∀ full msg line start stop m, f ≠ .exn (.lisp full msg line start stop m)) ∧ Runs code module st (.fail f st') := by
  obtain ⟨h1, k, h2⟩ := h
  have he := saveEval_ends (k := k) (by rw [h2]; exact h1)
  generalize ho : lispEvalNew k code module false false st = o at he
  have hr : Runs code module st o := ⟨he, k, ho⟩
  have hx : ∀ {v st2}, Saves stack writer code module verbose st (.ok v st2) → False := fun hx => by
    have := Spec.Saves.unique hx ⟨h1, k, h2⟩
    cases this
  cases o with
  | ok v s => exact (hx (C44_ok hr stack writer verbose)).elim
  | fail g s =>
    have hg : ∀ full msg line start stop m, g ≠ .exn (.lisp full msg line start stop m) := by
      rintro full msg line start stop m rfl
      cases full with
      | true =>
        obtain ⟨i1, i2⟩ := hi _ _ _ _ _ _ hr
        obtain ⟨w, st2, g1, _⟩ := C44_error hr i1 i2 hs writer verbose
        exact hx g1
      | false =>
        obtain ⟨w, st2, g1, _⟩ := C44_base_error hr stack writer verbose
        exact hx g1
    have h3 : saveEval k stack writer code module verbose false false st = .fail g s := by
      simp only [saveEval, ho]
      split
      · rename_i heq; cases heq; exact (hg _ _ _ _ _ _ rfl).elim
      · rename_i heq; cases heq; exact (hg _ _ _ _ _ _ rfl).elim
      · rfl
    rw [h2] at h3
    cases h3
    exact ⟨hg, hr⟩

/-! ## C53 runs of the command line program -/

theorem find_lookup {f : Str} {l : List (Str × Str)} : mapFind f l = (l.find? fun e => e.1 = f).map Prod.snd := by
  induction l with
  | nil => rfl
  | cons e t ih =>
    obtain ⟨a, v⟩ := e
    by_cases h : a = f
    · simp [mapFind, h]
    · simp [mapFind, h, ih]

theorem runFiles_ok {stack : Str} {fs : List Str} {p : Plan} {st st' : St} (ht : p.trace = false) (he : p.expand = false)
    (h : FilesRun stack p.lengthy fs st st') : ∀ res, ∃ K v, ∀ k, K ≤ k → runFiles k stack p res fs st = .ok v st' := by
  induction h with
  | nil => exact fun res => ⟨0, res, fun k _ => rfl⟩
  | @cons f fs st v st1 st2 h1 _ ih =>
    intro res
    obtain ⟨K, h1⟩ := h1.stable
    obtain ⟨K', w, h2⟩ := ih v
    refine ⟨max K K', w, fun k hk => ?_⟩
    have hf : fileText st f = (mapFind f st.files).getD [] := by rw [find_lookup]; rfl
    rw [hf] at h1
    cases hm : mapFind f st.files <;> rw [hm] at h1 <;> simp only [Option.getD] at h1 <;>
      simp only [runFiles, M.bind_apply, M.get_apply, ht, he, hm, h1 k (by omega : K ≤ k)] <;> exact h2 k (by omega)

/-- C53: called with script files, and perhaps the option `-x`, the program runs the files in their order. -/
theorem C53_run {args : List Str} (hne : args ≠ []) (ho : ∀ a ∈ args, IsOption a → a = c!"-x") (hx : args.count c!"-x" ≤ 1) (hasDebugger : Bool)
    {stack : Str} {st st' : St} (h : FilesRun stack (decide (c!"-x" ∈ args)) (files args) { st with clock := st.clock + 1 } st') :
    ∃ K, ∀ k, K ≤ k → mainExtended k stack hasDebugger args st = .ok () st' := by
  have hn : ∀ o, IsOption o → o ≠ c!"-x" → o ∉ args := fun o h1 h2 h3 => h2 (ho o h3 h1)
  have hp := C53_plan hasDebugger args hne (hn _ (by decide) (by decide)) (hn _ (by decide) (by decide)) none
    (.none fun a ha hl => by
      obtain ⟨t, rfl⟩ := hl
      have := ho _ ha (by simp [IsOption])
      simp at this)
    (fun hm => absurd hm (hn _ (by decide) (by decide)))
    (fun a ha => by
      by_cases hm : a ∈ args
      · have := ho a hm ha
        subst this
        have : known hasDebugger none c!"-x" = 1 := by cases hasDebugger <;> decide
        omega
      · rw [List.count_eq_zero.2 hm]; exact Nat.zero_le _)
  have n1 := hn c!"-m" (by decide) (by decide)
  have n2 := hn c!"--doc" (by decide) (by decide)
  have n3 := hn c!"--html" (by decide) (by decide)
  have n4 := hn c!"--macro-expand" (by decide) (by decide)
  have n5 := hn c!"-t" (by decide) (by decide)
  have n6 := hn c!"-e" (by decide) (by decide)
  have n7 := hn c!"-i" (by decide) (by decide)
  have n8 := hn c!"-d" (by decide) (by decide)
  have hplan : plan hasDebugger args none = ⟨false, false, false, decide (c!"-x" ∈ args), false, false, true, [], files args, none⟩ := by
    simp only [plan, n1, n2, n3, n4, n5, n6, n7, n8, or_self, scriptText, if_false, not_false_eq_true, decide_true, decide_false, Bool.and_false]
  rw [hplan] at hp
  obtain ⟨K, v, h1⟩ := runFiles_ok (p := ⟨false, false, false, decide (c!"-x" ∈ args), false, false, true, [], files args, none⟩) rfl rfl h (some undefinedV)
  refine ⟨K, fun k hk => ?_⟩
  simp only [mainExtended, hp, M.bind_apply, M.lift_ok, M.get_apply, M.modify_apply, runPlan, Bool.false_eq_true, if_false, M.pure_apply,
    Bool.not_false, Bool.and_true, if_true, h1 k hk]

/-- C53: called with `-e` and a script, the program runs the script. -/
theorem C53_run_script {args : List Str} (ho : ∀ a ∈ args, IsOption a → a = c!"-e") (hx : args.count c!"-e" = 1) (hasDebugger : Bool) {script : Str}
    {fs : List Str} (hf : files args = script :: fs) (hne : script ≠ [])
    {stack : Str} {st st' : St} {v : Option Variant} (h : Saves stack true script c!"cmdline" false { st with clock := st.clock + 1 } (.ok v st')) :
    ∃ K, ∀ k, K ≤ k → mainExtended k stack hasDebugger args st = .ok () st' := by
  have hn : ∀ o, IsOption o → o ≠ c!"-e" → o ∉ args := fun o h1 h2 h3 => h2 (ho o h3 h1)
  have hin : c!"-e" ∈ args := List.count_pos_iff.1 (by omega)
  have hp := C53_plan hasDebugger args (fun h => by simp [h] at hin) (hn _ (by decide) (by decide)) (hn _ (by decide) (by decide)) none
    (.none fun a ha hl => by
      obtain ⟨t, rfl⟩ := hl
      have := ho _ ha (by simp [IsOption])
      simp at this)
    (fun _ => by simp [hf])
    (fun a ha => by
      by_cases hm : a ∈ args
      · have := ho a hm ha
        subst this
        have : known hasDebugger none c!"-e" = 1 := by cases hasDebugger <;> decide
        omega
      · rw [List.count_eq_zero.2 hm]; exact Nat.zero_le _)
  have n1 := hn c!"-m" (by decide) (by decide)
  have n2 := hn c!"--doc" (by decide) (by decide)
  have n3 := hn c!"--html" (by decide) (by decide)
  have n4 := hn c!"--macro-expand" (by decide) (by decide)
  have n5 := hn c!"-t" (by decide) (by decide)
  have n6 := hn c!"-x" (by decide) (by decide)
  have n7 := hn c!"-i" (by decide) (by decide)
  have n8 := hn c!"-d" (by decide) (by decide)
  have hplan : plan hasDebugger args none = ⟨false, false, false, false, false, false, false, script, files args, none⟩ := by
    simp only [plan, n1, n2, n3, n4, n5, n6, n7, n8, hin, or_self, or_true, scriptText, if_true, not_true_eq_false, decide_false, Bool.and_false, hf, List.headD]
  rw [hplan] at hp
  obtain ⟨K, h1⟩ := h.stable
  refine ⟨K, fun k hk => ?_⟩
  have he : script.isEmpty = false := by cases script <;> simp_all
  simp only [mainExtended, hp, M.bind_apply, M.lift_ok, M.get_apply, M.modify_apply, runPlan, Bool.false_eq_true, if_false, M.pure_apply,
    Bool.not_false, Bool.and_true, Bool.false_and, if_true, he, h1 k hk]

theorem saves_fail {k : Nat} {stack code module : Str} {writer verbose : Bool} {st : St} {e : Exn}
    (h : (match saveEval k stack writer code module verbose false false st with | .fail (.exn x) _ => decide (x = e) | _ => false) = true) :
    ∃ st', Saves stack writer code module verbose st (.fail (.exn e) st') := by
  unfold Saves
  cases ho : saveEval k stack writer code module verbose false false st with
  | ok v s => rw [ho] at h; cases h
  | fail f s =>
    rw [ho] at h
    cases f with
    | exn x => rw [← of_decide_eq_true h]; exact ⟨s, ends_exn _ _, k, ho⟩
    | _ => cases h

end

section
attribute [local instance] demoWorld

/-- The negation of C44 for native exceptions: a number literal that does not fit escapes. -/
theorem C44_native_wrong : ∃ st', Saves c!"stack" true c!"(print 99999999999)" c!"m" false {} (.fail (.exn .outOfRange) st') :=
  saves_fail (k := 60) (by decide +kernel)

/-- The negation of C44 for curly brackets in the value of a failing conversion: the native exception `std::invalid_argument` escapes. -/
theorem C44_brace_wrong : ∃ st', Saves c!"stack" true c!"(not \"{2,x}\")" c!"m" false {} (.fail (.exn .invalidArgument) st') :=
  saves_fail (k := 60) (by decide +kernel)

/-- The negation of C44 for the module name `##<NULL>##`: a Lisp exception escapes. -/
theorem C44_module_wrong : ∃ st' msg, Saves c!"stack" true c!"(foo 2)" c!"##<NULL>##" false {} (.fail (.exn (.lisp false msg 0 0 0 [])) st') := by
  obtain ⟨st', h⟩ := saves_fail (k := 60) (stack := c!"stack") (writer := true) (code := c!"(foo 2)") (module := c!"##<NULL>##") (verbose := false) (st := {})
    (e := .lisp false (c!"Not enough items for format string: \nError executing script.\n\n{0} --> line={1} start={2} stop={3} module={4}") 0 0 0 [])
    (by decide +kernel)
  exact ⟨st', _, h⟩

/-- The negation of C44 for curly brackets in the message: the report shows the line number in place of the function name. -/
theorem C44_placeholder_wrong : (match saveEval 60 c!"stack" false c!"({1} 2)" c!"m" false false false {} with | .ok _ s => s.out | _ => []) =
    c!"\nError executing script.\n\nFunction \"1\" not found --> line={1} start=1 stop=4 module=m\n\nCallstack:\nstack\n" := by decide +kernel

theorem runs_fail {k : Nat} {code module : Str} {st : St} {e : Exn}
    (h : (match lispEvalNew k code module false false st with | .fail (.exn x) _ => decide (x = e) | _ => false) = true) :
    ∃ st', Runs code module st (.fail (.exn e) st') := by
  unfold Runs
  cases ho : lispEvalNew k code module false false st with
  | ok v s => rw [ho] at h; cases h
  | fail f s =>
    rw [ho] at h
    cases f with
    | exn x => rw [← of_decide_eq_true h]; exact ⟨s, ends_exn _ _, k, ho⟩
    | _ => cases h

/-- A call of an unknown function after some output. -/
example : ∃ w, ∃ st' st'' : St, Saves c!"stack" true c!"(print 1) (foo 2)" c!"m" false {} (.ok (some w) st'') ∧ IsError w c!"Function \"foo\" not found" ∧
    st''.out = st'.out ++ errorReport c!"stack" true false c!"Function \"foo\" not found" 1 11 14 c!"m" := by
  obtain ⟨st', h⟩ := runs_fail (k := 60) (code := c!"(print 1) (foo 2)") (module := c!"m") (st := {}) (e := .lisp true c!"Function \"foo\" not found" 1 11 14 c!"m")
    (by decide +kernel)
  obtain ⟨w, st'', h1, h2, h3⟩ := C44_error h (stack := c!"stack") (by simp [Insertable, BraceFree]) (by simp [Insertable, BraceFree])
    (by simp [Insertable, BraceFree]) true false
  exact ⟨w, st', st'', h1, h2, h3⟩

/-- `fuel fact.fuel`, where the file has the factorial program. -/
example : ∃ K st', (∀ k, K ≤ k → mainExtended k c!"stack" true [c!"fact.fuel"] { files := [(c!"fact.fuel", Sexp.sources (Spec.Core.factProgram 12))] } = .ok () st') ∧
    st'.out = c!"479001600\n" := by
  obtain ⟨w, st', h1, h2⟩ := C56_factorial 12 (by decide) (written_sources (factProgram_wf (by decide)))
    (st := { files := [(c!"fact.fuel", Sexp.sources (Spec.Core.factProgram 12))], clock := 0 + 1 })
    (.init rfl (fun _ => rfl) (fun _ => rfl) (fun _ => rfl) (fun _ => rfl)) c!"fact.fuel"
  obtain ⟨K, h3⟩ := C53_run (args := [c!"fact.fuel"]) (by decide) (by decide) (by decide) true (stack := c!"stack")
    (st := { files := [(c!"fact.fuel", Sexp.sources (Spec.Core.factProgram 12))] }) (.cons (C44_ok h1 c!"stack" true false) .nil)
  exact ⟨K, st', h3, h2.trans (by decide +kernel)⟩

/-- `fuel -e "(println \"hello\")"` -/
example : ∃ K st', (∀ k, K ≤ k → mainExtended k c!"stack" true [c!"-e", Sexp.sources [.list [.sym c!"println", .str c!"hello"]]] {} = .ok () st') ∧
    st'.out = c!"hello\n" := by
  obtain ⟨w, st', h1, _, h2⟩ := C47_println (s := c!"hello") (written_sources (by simp [Sexp.WF, Sexp.WFs, SymbolName, Spec.Plain, White, NumberLike, dropSign, Digit, reserved]))
    (st := { clock := 0 + 1 }) (.init rfl (fun _ => rfl) (fun _ => rfl) (fun _ => rfl) (fun _ => rfl)) c!"cmdline"
  obtain ⟨K, h3⟩ := C53_run_script (args := [c!"-e", Sexp.sources [.list [.sym c!"println", .str c!"hello"]]]) (by decide +kernel) (by decide +kernel) true
    (stack := c!"stack") (st := {}) (fs := []) (script := Sexp.sources [.list [.sym c!"println", .str c!"hello"]]) (by decide +kernel) (by decide +kernel)
    (C44_ok h1 c!"stack" true false)
  exact ⟨K, st', h3, h2⟩

end

end Fuel
