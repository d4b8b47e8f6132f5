import Verif.PropsSave
/-!
# C53: the options `-t` and `-m` for a script of the command line
-/

set_option linter.unusedSectionVars false
set_option linter.unusedSimpArgs false

namespace Fuel

open Spec

namespace Spec

variable [World]

/-- The text of a value in a state. -/
def HasText (st : St) (v : Variant) (t : Str) : Prop := ∃ K, ∀ n, K ≤ n → varStr st n v = .ok t

/-- The line with the result. -/
def resultLine (t : Str) : Str := c!"Result=" ++ t ++ c!"\n"

/-- The line with the time between two readings of the clock. -/
def timeLine (start stop : Nat) : Str := c!"Execution time = " ++ World.seconds (World.tick stop - World.tick start) ++ c!" s\n"

end Spec

section
variable [World]

theorem format_time {t : Str} (h : Insertable t) : format c!"Execution time = {0} s" t = .ok (c!"Execution time = " ++ t ++ c!" s") := by
  have := format_pieces (args := [t]) (ps := [.lit c!"Execution time = ", .hole 0, .lit c!" s"]) (by simp [BraceFree]) (by simp only [List.mem_singleton]; rintro _ rfl; exact h)
    (by simp [holes]) (by simp [holes])
  simpa [argOr, sources, Piece.source, fill, nullString] using this

/-- C53: called with `-e` and a script, in any order with `-t` and `-m`: the program runs the script; with `-t` it then writes the result, and with `-m` the time that has passed
since it was started (its text has no curly brackets). -/
theorem C53_run_report {args : List Str} (ho : ∀ a ∈ args, IsOption a → a = c!"-e" ∨ a = c!"-t" ∨ a = c!"-m") (hx : args.count c!"-e" = 1) (hx1 : args.count c!"-t" ≤ 1)
    (hx2 : args.count c!"-m" ≤ 1) (hasDebugger : Bool) {script : Str} {fs : List Str} (hf : files args = script :: fs) (hne : script ≠ [])
    {stack : Str} {st st' : St} {v : Variant} (h : Saves stack true script c!"cmdline" false { st with clock := st.clock + 1 } (.ok (some v) st')) {t : Str} (ht : HasText st' v t)
    (hs : ∀ i, Insertable (World.seconds i)) :
    ∃ K, ∀ k, K ≤ k → mainExtended k stack hasDebugger args st = .ok () { st' with
      out := st'.out ++ (if c!"-t" ∈ args then resultLine t else []) ++ (if c!"-m" ∈ args then timeLine st.clock st'.clock else [])
      clock := if c!"-m" ∈ args then st'.clock + 1 else st'.clock } := by
  have hn : ∀ o, IsOption o → o ≠ c!"-e" → o ≠ c!"-t" → o ≠ c!"-m" → o ∉ args := fun o h1 h2 h3 h4 h5 => by
    rcases ho o h5 h1 with h | h | h <;> contradiction
  have hin : c!"-e" ∈ args := List.count_pos_iff.1 (by omega)
  have hp := C53_plan hasDebugger args (fun h => by simp [h] at hin) (hn _ (by decide) (by decide) (by decide) (by decide)) (hn _ (by decide) (by decide) (by decide) (by decide)) none
    (.none fun a ha hl => by
      obtain ⟨t, rfl⟩ := hl
      have := ho _ ha (by simp [IsOption])
      simp at this)
    (fun _ => by simp [hf])
    (fun a ha => by
      by_cases hm : a ∈ args
      · have h1 : known hasDebugger none c!"-e" = 1 := by cases hasDebugger <;> decide
        have h2 : known hasDebugger none c!"-t" = 1 := by cases hasDebugger <;> decide
        have h3 : known hasDebugger none c!"-m" = 1 := by cases hasDebugger <;> decide
        rcases ho a hm ha with rfl | rfl | rfl
        · omega
        · omega
        · omega
      · rw [List.count_eq_zero.2 hm]; exact Nat.zero_le _)
  have n2 := hn c!"--doc" (by decide) (by decide) (by decide) (by decide)
  have n3 := hn c!"--html" (by decide) (by decide) (by decide) (by decide)
  have n4 := hn c!"--macro-expand" (by decide) (by decide) (by decide) (by decide)
  have n6 := hn c!"-x" (by decide) (by decide) (by decide) (by decide)
  have n7 := hn c!"-i" (by decide) (by decide) (by decide) (by decide)
  have n8 := hn c!"-d" (by decide) (by decide) (by decide) (by decide)
  have hplan : plan hasDebugger args none = ⟨decide (c!"-m" ∈ args), decide (c!"-t" ∈ args), false, false, false, false, false, script, files args, none⟩ := by
    simp only [plan, n2, n3, n4, n6, n7, n8, hin, or_self, or_true, or_false, false_or, scriptText, if_true, not_true_eq_false, decide_false, Bool.and_false, hf, List.headD]
  rw [hplan] at hp
  obtain ⟨K, h1⟩ := h.stable
  obtain ⟨K', h2⟩ := ht
  refine ⟨max K K', fun k hk => ?_⟩
  have he : script.isEmpty = false := by cases script <;> simp_all
  simp only [mainExtended, hp, M.bind_apply, M.lift_ok, M.get_apply, M.modify_apply, runPlan, Bool.false_eq_true, if_false, M.pure_apply,
    Bool.not_false, Bool.and_true, Bool.false_and, if_true, he, h1 k (by omega)]
  by_cases ht : c!"-t" ∈ args
  · by_cases hm : c!"-m" ∈ args
    · simp only [ht, hm, decide_true, if_true, M.bind_apply, derefV, M.pure_apply, M.rd_apply, h2 k (by omega), writeLine, write, M.modify_apply, M.get_apply, M.lift_apply,
        format_time (hs _), resultLine, timeLine, List.append_assoc]
      rfl
    · simp only [ht, hm, decide_true, decide_false, Bool.false_eq_true, if_false, if_true, M.bind_apply, derefV, M.pure_apply, M.rd_apply, h2 k (by omega), writeLine, write, M.modify_apply,
        resultLine, List.append_assoc, List.append_nil]
  · by_cases hm : c!"-m" ∈ args
    · simp only [ht, hm, decide_true, decide_false, Bool.false_eq_true, if_false, if_true, M.bind_apply, M.pure_apply, writeLine, write, M.modify_apply, M.get_apply, M.lift_apply,
        format_time (hs _), timeLine, List.append_assoc, List.nil_append]
      rfl
    · simp only [ht, hm, decide_false, Bool.false_eq_true, if_false, M.pure_apply, List.append_nil]

end

section
attribute [local instance] demoWorld

theorem saves_value {k : Nat} {stack code module : Str} {writer verbose : Bool} {st : St} {t out : Str}
    (h : (match saveEval k stack writer code module verbose false false st with
      | .ok (some v) s => decide (varStr s k v = .ok t ∧ s.out = out) | _ => false) = true) :
    ∃ v st', Saves stack writer code module verbose st (.ok (some v) st') ∧ HasText st' v t ∧ st'.out = out := by
  unfold Saves
  cases ho : saveEval k stack writer code module verbose false false st with
  | ok v s =>
    rw [ho] at h
    cases v with
    | none => cases h
    | some v =>
      have h := of_decide_eq_true h
      refine ⟨v, s, ⟨ends_ok _ _, k, ho⟩, ⟨k, fun n hn => ?_⟩, h.2⟩
      rcases ((leR_text s k n hn).2.1 v).le with e | e
      · rw [h.1] at e; cases e
      · rw [← e, h.1]
  | fail f s => rw [ho] at h; cases h

-- `fuel -t -e "(print 1) (list 2 3)"` writes what the script writes and the result
example : ∃ K st', (∀ k, K ≤ k → mainExtended k c!"stack" true [c!"-t", c!"-e", c!"(print 1) (list 2 3)"] {} = .ok () st') ∧ st'.out = c!"1Result=(2 3)\n" := by
  obtain ⟨v, st', h1, h2, h3⟩ := saves_value (k := 60) (stack := c!"stack") (writer := true) (code := c!"(print 1) (list 2 3)") (module := c!"cmdline") (verbose := false)
    (st := { clock := 0 + 1 }) (t := c!"(2 3)") (out := c!"1") (by decide +kernel)
  obtain ⟨K, h4⟩ := C53_run_report (args := [c!"-t", c!"-e", c!"(print 1) (list 2 3)"]) (by decide +kernel) (by decide +kernel) (by decide +kernel) (by decide +kernel) true
    (script := c!"(print 1) (list 2 3)") (fs := []) (by decide +kernel) (by decide +kernel) (stack := c!"stack") (st := {}) h1 h2 (fun i => intStr_text i)
  exact ⟨K, _, h4, by simp [h3, resultLine]⟩

end

end Fuel
