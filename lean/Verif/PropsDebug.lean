import Verif.LemDebug2
/-!
# C76: the debugger does not change the program
-/

set_option linter.unusedSectionVars false

namespace Fuel

open Spec

section
variable [World]

theorem Spec.SameProgram.seen {s s' : St} (h : SameProgram s s') : s' = s.seen s'.out s'.input s'.dbg := by
  obtain ⟨h1, h2, h3, h4, h5, h6, h7, h8⟩ := h
  cases s'
  cases h1; cases h2; cases h3; cases h4; cases h5; cases h6; cases h7; cases h8
  rfl

theorem Sees.sameProgram {s s' : St} (h : Sees s s') : SameProgram s s' := by
  have := h.same
  rw [this]
  exact ⟨rfl, rfl, rfl, rfl, rfl, rfl, rfl, rfl⟩

theorem sees_run {k : Nat} {script module : Str} {g : Nat} {tracing : Bool} {s s' : St} (h : Sees s s') (hne : s.input ≠ [])
    (hread : (lispEval (run k) script g module tracing false s).st.input = s.input) {v : Option Variant} {t' : St}
    (hd : lispEval (runD k) script g module tracing false s' = .ok v t') :
    ∃ t, lispEval (run k) script g module tracing false s = .ok v t ∧ Sees t t' := by
  have := run_sim (W := sees) k
  have hs : DSim sees (lispEval (run k) script g module tracing false) (lispEval (runD k) script g module tracing false) := inferInstance
  have := hs.sim s s' h ⟨hne, by rw [hread]⟩
  unfold Watch.Ans at this
  simp only [sees, Bool.false_eq_true, if_false] at this
  exact this v t' hd

/-- A program runs to its end under the debugger, stopping wherever breakpoints, steps or `(break)` make it stop, and the user only types
commands that evaluate nothing: then the program without the debugger, if it leaves alone the line that waits in its input, has the same
result and the same variables, lists, dictionaries, functions and files, and its output is the output of the debugged run without the text
of the debugger. -/
theorem C76_same_result {k : Nat} {script module : Str} {g : Nat} {tracing : Bool} {s s' : St} (hs : SameProgram s s') (ho : Shown s.out s'.out)
    (hp : ∀ l ∈ s'.input, Passive l) (hc : NoCondition s'.dbg) (hne : s.input ≠ [])
    (hread : (lispEval (run k) script g module tracing false s).st.input = s.input) {v : Option Variant} {t' : St}
    (hd : lispEval (runD k) script g module tracing false s' = .ok v t') :
    ∃ t, lispEval (run k) script g module tracing false s = .ok v t ∧ SameProgram t t' ∧ Shown t.out t'.out := by
  obtain ⟨t, h1, h2⟩ := sees_run (s' := s') ⟨hs.seen, ho, fun l hl => (hp l hl).harmless, hc⟩ hne hread hd
  exact ⟨t, h1, h2.sameProgram, h2.out⟩

theorem sim_register (sid : Nat) (e : Entry) : DSim sees (register sid e) (register sid e) := by unfold register; sim
theorem sim_registerAll (sid : Nat) (l : List Entry) : DSim sees (registerAll sid l) (registerAll sid l) := by
  induction l with
  | nil => unfold registerAll; sim
  | cons e l ih => unfold registerAll; exact DSim.bind (sim_register sid e) fun _ => ih
theorem sim_create : DSim sees createDefaultScope createDefaultScope := by
  unfold createDefaultScope
  generalize defaultTable = table
  have := fun sid => sim_registerAll sid table
  sim

theorem shown_reset {s s' : St} (h : Sees s s') (w : Str) : SameProgram s { s' with dbg := s'.dbg.reset, out := s'.out ++ w } ∧ Shown s.out (s'.out ++ w) := by
  refine ⟨?_, .debugger w h.out⟩
  have := h.sameProgram
  exact ⟨this.1, this.2, this.3, this.4, this.5, this.6, this.7, this.8⟩

theorem after_some {k g : Nat} {a : Option Variant} {b again : Bool} {v : Variant} {y t : St} (h : afterProgram k g a b y = .ok (some v, again) t) :
    a = some v ∧ again = b ∧ t = if b then { y with out := y.out ++ c!"restart program\n" } else y := by
  unfold afterProgram at h
  cases b with
  | false => cases h; exact ⟨rfl, rfl, rfl⟩
  | true =>
    rw [if_pos rfl, M.bind_apply] at h
    cases a with
    | some a => cases h; exact ⟨rfl, rfl, rfl⟩
    | none =>
      exfalso
      revert h
      cases writeLine c!"restart program" y with
      | fail f y => intro h; cases h
      | ok _ y =>
        dsimp only
        rw [M.bind_apply]
        cases interactD (runD k) g true y with
        | fail f y => intro h; cases h
        | ok _ y => intro h; cases h

theorem program_some {k g : Nat} {script module : Str} {tracing : Bool} {v : Variant} {b : Bool} {s t : St}
    (h : runProgram k script module tracing none g s = .ok (some v, b) t) :
    ∃ z, lispEval (runD k) script g module tracing false s = .ok (some v) z ∧ b = true ∧ t = { z with dbg := z.dbg.reset } := by
  unfold runProgram at h
  rw [M.bind_apply] at h
  unfold tryM at h
  cases he : lispEval (runD k) script g module tracing false s with
  | ok r z => rw [he] at h; cases h; exact ⟨z, rfl, rfl, rfl⟩
  | fail f z =>
    exfalso
    rw [he] at h
    cases f with
    | ub _ => cases h
    | fuel => cases h
    | unmodelled => cases h
    | exn e =>
      cases e with
      | stopDebugger => cases h
      | outOfRange => cases h
      | invalidArgument => cases h
      | lisp a1 msg a2 a3 a4 a5 =>
        dsimp only at h
        rw [M.bind_apply, M.lift_apply] at h
        revert h
        cases format c!"\nException: {0}" (c!"EXCEPTION: " ++ msg) with
        | error e => intro h; cases h
        | ok l =>
          dsimp only
          rw [M.bind_apply]
          cases writeLine l z with
          | fail f y => intro h; cases h
          | ok _ y =>
            dsimp only
            rw [M.bind_apply, M.lift_apply]
            cases format c!"\nStack:\n{0}" c!"<TODO>" with
            | error e => intro h; cases h
            | ok l =>
              dsimp only
              rw [M.bind_apply]
              cases writeLine l y with
              | fail f y => intro h; cases h
              | ok _ y =>
                dsimp only
                rw [M.bind_apply]
                cases interactD (runD k) g true y with
                | fail f y => intro h; cases h
                | ok _ y => intro h; cases h

/-- The program run by `fuel -d`: if one run of the program ends with a value, the program without the debugger computes this value. -/
theorem C76_run {k : Nat} {script module : Str} {tracing : Bool} {s s' : St} (hs : SameProgram s s') (ho : Shown s.out s'.out)
    (hp : ∀ l ∈ s'.input, Passive l) (hc : NoCondition s'.dbg) (hne : s.input ≠ [])
    (hread : (lispEvalNew k script module tracing false s).st.input = s.input)
    {v : Variant} {again : Bool} {t' : St} (hd : debuggerTurn k script module tracing none s' = .ok (some v, again) t') :
    ∃ t, lispEvalNew k script module tracing false s = .ok (some v) t ∧ SameProgram t t' ∧ Shown t.out t'.out := by
  have hsees : Sees s s' := ⟨hs.seen, ho, fun l hl => (hp l hl).harmless, hc⟩
  have hsim : DSim sees (lispEvalNew k script module tracing false) (createDefaultScope >>= fun g => lispEval (runD k) script g module tracing false) := by
    unfold lispEvalNew
    have := run_sim (W := sees) k
    exact DSim.bind sim_create fun g => inferInstance
  have hu : ∃ u, Sees s u ∧ ∃ t, (createDefaultScope >>= fun g => lispEval (runD k) script g module tracing false) u = .ok (some v) t ∧
      t' = { t with dbg := t.dbg.reset, out := t.out ++ c!"restart program\n" } := by
    unfold debuggerTurn at hd
    generalize createDefaultScope = c at hd ⊢
    have key : ∀ u, (c >>= fun g => runProgram k script module tracing none g >>= fun p => afterProgram k g p.1 p.2) u = .ok (some v, again) t' →
      ∃ t, (c >>= fun g => lispEval (runD k) script g module tracing false) u = .ok (some v) t ∧
        t' = { t with dbg := t.dbg.reset, out := t.out ++ c!"restart program\n" } := by
      intro u h
      rw [M.bind_apply] at h ⊢
      cases hm : c u with
      | fail f w => rw [hm] at h; cases h
      | ok g w =>
        rw [hm] at h
        dsimp only at h ⊢
        rw [M.bind_apply] at h
        cases hp : runProgram k script module tracing none g w with
        | fail f y => rw [hp] at h; cases h
        | ok p y =>
          rw [hp] at h
          obtain ⟨a, b⟩ := p
          obtain ⟨rfl, rfl, rfl⟩ := after_some h
          obtain ⟨z, hz, rfl, rfl⟩ := program_some hp
          exact ⟨z, hz, rfl⟩
    by_cases hm : (module == c!"command-line") = true
    · rw [if_pos hm, M.bind_apply, M.modify_apply] at hd
      exact ⟨_, hsees.dbg (d := { s'.dbg with script := script }) hsees.cond, key _ hd⟩
    · rw [if_neg hm] at hd
      exact ⟨_, hsees, key _ hd⟩
  obtain ⟨u, hu, w, hw, rfl⟩ := hu
  have := hsim.sim s u hu ⟨hne, by rw [hread]⟩
  unfold Watch.Ans at this
  simp only [sees, Bool.false_eq_true, if_false] at this
  obtain ⟨t, ht, hr⟩ := this _ _ hw
  exact ⟨t, ht, shown_reset hr _⟩

/-- While nothing stops the program, the debugger has no effect at all: if the program ends without an error and `(break)` is not called,
the debugged run has the same result and the same state. -/
theorem C76_free {k : Nat} {script module : Str} {g : Nat} {tracing : Bool} {s : St} (hf : RunsFree s.dbg) {v : Option Variant} {t : St}
    (h : lispEval (run k) script g module tracing false s = .ok v t) (hb : ¬ breakWarning <:+: t.out) :
    lispEval (runD k) script g module tracing false s = .ok v t := by
  have := run_sim (W := free) k
  have hs : DSim free (lispEval (run k) script g module tracing false) (lispEval (runD k) script g module tracing false) := inferInstance
  have := hs.sim s s ⟨rfl, hf⟩ (by rw [h]; exact hb)
  unfold Watch.Ans at this
  simp only [free, if_true] at this
  obtain ⟨t', h1, rfl, _⟩ := this v t h
  exact h1

/-- An expression typed at the prompt of the debugger, while there are no breakpoints, is evaluated as in the interactive shell without debugger. -/
theorem C76_prompt {k : Nat} {cmd : Str} {d : DS} {s : St} (hf : RunsFree s.dbg) {v : Option Variant} {t : St}
    (h : lispEval (run k) cmd d.cur (s.scopes d.cur).module false false s = .ok v t) (hb : ¬ breakWarning <:+: t.out) :
    evalCommand (runD k) cmd d s = evalCommand (run k) cmd d s := by
  have h' := C76_free hf h hb
  have hn : (runD k).n = (run k).n := (run_sim (W := free) k).n
  unfold evalCommand
  rw [M.bind_apply, M.bind_apply]
  have : tryM (do
      let module ← M.get fun s => (s.scopes d.cur).module
      let v ← derefV (← lispEval (runD k) cmd d.cur module false false)
      let t ← M.rd fun st => varStr st (runD k).n v
      let l ← M.lift (format c!"result={0}" t)
      writeLine l) s = tryM (do
      let module ← M.get fun s => (s.scopes d.cur).module
      let v ← derefV (← lispEval (run k) cmd d.cur module false false)
      let t ← M.rd fun st => varStr st (run k).n v
      let l ← M.lift (format c!"result={0}" t)
      writeLine l) s := by
    unfold tryM
    simp only [M.bind_apply, M.get_apply, h, h', hn]
  rw [this]

end

/-! ## Examples and counterexamples -/

section

attribute [local instance] demoWorld

/-- One run of a program under the debugger, with the lines typed by the user: whether it has a result, whether the program is started again,
and the output. -/
def demoDebug (code : Str) (lines : List Str) : Option (Bool × Bool × Str) :=
  match debuggerTurn 60 code [] false none { input := lines } with
  | .ok (v, b) st => some (v.isSome, b, st.out)
  | .fail _ _ => none

/-- A breakpoint, a listing of the variables and of the breakpoints, `clear`, `run`, and a stop at `(break)`. -/
def demoCode : Str := c!"(def a 1)
(println (+ a 2))
(println 7)
(break)"

def demoLines : List Str := [c!"b 3", c!"run", c!"locals", c!"list", c!"clear 1", c!"run", c!"run"]

theorem demoDebug_code : demoDebug demoCode demoLines = some (true, true,
  c!"--> do line=1 start=-3 stop=-1 module= token=do
FUEL(isp)-DBG> FUEL(isp)-DBG> 3
--> println line=3 start=29 stop=36 module= token=println
FUEL(isp)-DBG>                    a --> 1                                        : Int 
FUEL(isp)-DBG> Breakpoints:
#1   line=3     module=                          condition=
FUEL(isp)-DBG> FUEL(isp)-DBG> 7
break -> call stack:
-->    1 name=<main>                              lineno=4    module=

FUEL(isp)-DBG> restart program
") := by decide +kernel

theorem demoLines_passive : ∀ l ∈ demoLines, Passive l := by
  intro l hl
  have h3 : Numeral c!"3" ((3 : Nat) : Int) := ⟨c!"3", by simp, by simp [Digit], Or.inl ⟨rfl, rfl⟩⟩
  have h1 : Numeral c!"1" 1 := ⟨c!"1", by simp, by simp [Digit], Or.inl ⟨rfl, rfl⟩⟩
  simp only [demoLines, List.mem_cons, List.not_mem_nil, or_false] at hl
  rcases hl with rfl | rfl | rfl | rfl | rfl | rfl | rfl
  · exact .brk (name := c!"b") (text := c!"3") (by decide) (.inl rfl) fun current => ⟨3, current, by decide, .line h3⟩
  · exact .plain (by decide)
  · exact .plain (by decide)
  · exact .plain (by decide)
  · exact .clear (num := c!"1") (by decide) h1
  · exact .plain (by decide)
  · exact .plain (by decide)

/-- The run ended with a value. -/
def endsWithValue : Out (Option Variant × Bool) → Bool
  | .ok (some _, _) _ => true
  | _ => false

theorem demo_same {k : Nat} {code : Str} {s s' : St} (hs : SameProgram s s') (ho : Shown s.out s'.out) (hp : ∀ l ∈ s'.input, Passive l) (hc : s'.dbg.bps = [])
    (hne : s.input ≠ []) (h : endsWithValue (debuggerTurn k code [] false none s') = true)
    (hread : (lispEvalNew k code [] false false s).st.input = s.input) :
    ∃ v t t' again, debuggerTurn k code [] false none s' = .ok (some v, again) t' ∧
      lispEvalNew k code [] false false s = .ok (some v) t ∧ SameProgram t t' ∧ Shown t.out t'.out := by
  cases hd : debuggerTurn k code [] false none s' with
  | fail f t' => rw [hd] at h; cases h
  | ok x t' =>
    obtain ⟨v, again⟩ := x
    cases v with
    | none => rw [hd] at h; cases h
    | some v =>
      obtain ⟨t, h1, h2, h3⟩ := C76_run hs ho hp (fun b hb => by rw [hc] at hb; cases hb) hne hread hd
      exact ⟨v, t, t', again, rfl, h1, h2, h3⟩

/-- The session meets the hypotheses of `C76_run`: so the program without debugger has the same result and its output is contained in the
output of the session. -/
example : ∃ v t t' again, debuggerTurn 60 demoCode [] false none { input := demoLines } = .ok (some v, again) t' ∧
    lispEvalNew 60 demoCode [] false false { input := [c!"waiting"] } = .ok (some v) t ∧ SameProgram t t' ∧ Shown t.out t'.out :=
  demo_same ⟨rfl, rfl, rfl, rfl, rfl, rfl, rfl, rfl⟩ .start demoLines_passive rfl (by simp) (by decide +kernel) (by decide +kernel)

/-- The code runs to its end in a new interpreter, whose debugger is in run mode, and writes the text. -/
def demoFree (k : Nat) (code out : Str) (s0 : St) : Bool :=
  match createDefaultScope s0 with
  | .ok g s => match lispEval (run k) code g [] false false s with
    | .ok _ t => !s.dbg.stop && s.dbg.bps.isEmpty && t.out == out
    | _ => false
  | _ => false

theorem demo_free {k : Nat} {code out : Str} {s0 : St} (h : demoFree k code out s0 = true) :
    ∃ g s v t, createDefaultScope s0 = .ok g s ∧ RunsFree s.dbg ∧ lispEval (run k) code g [] false false s = .ok v t ∧ t.out = out := by
  unfold demoFree at h
  generalize createDefaultScope s0 = o at h ⊢
  cases o with
  | fail f s => cases h
  | ok g s =>
    dsimp only at h
    cases he : lispEval (run k) code g [] false false s with
    | fail f t => rw [he] at h; cases h
    | ok v t =>
      rw [he] at h
      simp at h
      exact ⟨g, s, v, t, rfl, ⟨h.1.1, h.1.2⟩, he, h.2⟩

/-- A case of `C76_free`. -/
example : ∃ g s v t, createDefaultScope { dbg := { stop := false } } = .ok g s ∧
    lispEval (run 60) c!"(defn f (n) (if (< n 1) 0 (f (- n 1)))) (println (f 3))" g [] false false s = .ok v t ∧
    lispEval (runD 60) c!"(defn f (n) (if (< n 1) 0 (f (- n 1)))) (println (f 3))" g [] false false s = .ok v t := by
  obtain ⟨g, s, v, t, h1, h2, h3, h4⟩ := demo_free (k := 60) (code := c!"(defn f (n) (if (< n 1) 0 (f (- n 1)))) (println (f 3))") (out := c!"0\n")
    (s0 := { dbg := { stop := false } }) (by decide +kernel)
  exact ⟨g, s, v, t, h1, h3, C76_free h2 h3 (by
    rw [h4]
    intro h
    have := h.length_le
    revert this
    decide)⟩

/-- `restart`, typed where the program stopped, does not start the program again: it goes on, as after `run`. -/
theorem C76_restart_wrong : demoDebug c!"(println 1)" [c!"restart"] = demoDebug c!"(println 1)" [c!"run"] ∧
    demoDebug c!"(println 1)" [c!"restart"] = some (true, true, c!"--> do line=1 start=-3 stop=-1 module= token=do
FUEL(isp)-DBG> 1
restart program
") := by decide +kernel

/-- At a breakpoint with a condition the debugger shows the position of the condition instead of the position of the program. -/
theorem C76_position_wrong :
    demoDebug c!"(println 1)\n(println 2)" [c!"b 2", c!"run", c!"run"] = some (true, true, c!"--> do line=1 start=-3 stop=-1 module= token=do
FUEL(isp)-DBG> FUEL(isp)-DBG> 1
--> println line=2 start=13 stop=20 module= token=println
FUEL(isp)-DBG> 2
restart program
") ∧ demoDebug c!"(println 1)\n(println 2)" [c!"b 2 (= 1 1)", c!"run", c!"run"] = some (true, true, c!"--> do line=1 start=-3 stop=-1 module= token=do
FUEL(isp)-DBG> FUEL(isp)-DBG> 1
--> println line=1 start=1 stop=2 module= token==
FUEL(isp)-DBG> 2
restart program
") := by decide +kernel

/-- Stepping into a function whose body was computed by the program dereferences a null pointer, although the program runs well without
debugger. -/
theorem C76_null_wrong :
    (match debuggerTurn 60 c!"(def f (eval (list 'lambda (list) (list (sym \"nop\")))))\n(f)" [] false none { input := [c!"b 2", c!"run", c!"step"] } with
      | .fail (.ub .nullDeref) _ => true
      | _ => false) = true ∧
    (match lispEvalNew 60 c!"(def f (eval (list 'lambda (list) (list (sym \"nop\")))))\n(f)" [] false false {} with
      | .ok (some _) _ => true
      | _ => false) = true := by decide +kernel

end

end Fuel
