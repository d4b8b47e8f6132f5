import Verif.PropsRun
import Verif.DebugRun
import Verif.Cli
import Verif.DemoEval
/-!
# C33 for the shell, the debugger and the whole program
-/

set_option linter.unusedSectionVars false
set_option linter.unusedSimpArgs false

namespace Fuel

open Spec

section
variable [World] {α β : Type} {n n' : Nat} [hn : LeN n n']

/-! ## Commands of the interactive loop -/

omit hn in
theorem mono_tryM {m m' : M α} (h : Mono m m') : Mono (tryM m) (tryM m') := ⟨fun s => by
  unfold tryM
  rcases h.le s with ⟨s', h⟩ | h
  · exact .inl ⟨s', by rw [h]⟩
  · exact .inr (by rw [h])⟩
instance (sel : FnW → Bool) (info : FnW → Fuel.R Str) (l : List (Str × Ptr)) : Mono (dumpFns n sel info l) (dumpFns n' sel info l) := by
  induction l with
  | nil => unfold dumpFns; mono
  | cons a l ih => unfold dumpFns; mono
instance (l : List (Str × Ptr)) : Mono (dumpHelp n l) (dumpHelp n' l) := by
  induction l with
  | nil => unfold dumpHelp; mono
  | cons a l ih => unfold dumpHelp; mono
instance (f : FnW → Fuel.R Str) (l : List (Str × Ptr)) : Mono (dumpFunctions.go n f l) (dumpFunctions.go n' f l) := by
  induction l with
  | nil => unfold dumpFunctions.go; mono
  | cons a l ih => unfold dumpFunctions.go; mono
instance (g : Nat) : Mono (dumpFunctions n g) (dumpFunctions n' g) := by unfold dumpFunctions; mono

variable {r r' : Rec} [hr : RecLe r r']

instance (f c : Str) (d : DS) (g : Nat) : Mono (docCommand r f c d g) (docCommand r' f c d g) := by unfold docCommand; mono
instance (c : Str) (d : DS) : Mono (evalCommand r c d) (evalCommand r' c d) := by
  unfold evalCommand
  refine Mono.bind (mono_tryM ?_) fun _ => ?_
  · mono
  · mono
instance mono_command (top : Nat) (b : Bool) (c : Str) (d : DS) : Mono (dbgCommand r top b c d) (dbgCommand r' top b c d) := by
  unfold dbgCommand
  refine Mono.bind inferInstance fun _ => ?_
  cases dcmd c <;> dsimp only <;> mono
instance (top : Nat) (b : Bool) (n : Nat) (d : DS) : Mono (dbgLoop r top b n d) (dbgLoop r' top b n d) := by
  induction n generalizing d with
  | zero => unfold dbgLoop; mono
  | succ n ih => unfold dbgLoop; mono
instance (d : Dbg) (top : Nat) (b : Bool) : Mono (interactiveLoop r d top b) (interactiveLoop r' d top b) := by unfold interactiveLoop; mono
instance (top : Nat) (b : Bool) (c : Str) (cur : Nat) (t : Str) : Mono (dbgCommandD r top b c cur t) (dbgCommandD r' top b c cur t) := by
  unfold dbgCommandD
  refine Mono.bind inferInstance fun _ => Mono.bind inferInstance fun x => ?_
  exact Mono.refl _
instance (top : Nat) (b : Bool) (n cur : Nat) (t : Str) : Mono (dbgLoopD r top b n cur t) (dbgLoopD r' top b n cur t) := by
  induction n generalizing cur t with
  | zero => unfold dbgLoopD; mono
  | succ n ih => unfold dbgLoopD; mono
instance (top : Nat) (b : Bool) : Mono (interactD r top b) (interactD r' top b) := by unfold interactD; mono
instance (sid : Nat) (l : List Ptr) : Mono (stopAt r sid l) (stopAt r' sid l) := by unfold stopAt; mono

/-! ## Breakpoints -/

theorem mono_cond {ev ev' : Str → M (Option Variant)} (h : ∀ c, Mono (ev c) (ev' c)) (b : Bp) : Mono (condHolds n ev b) (condHolds n' ev' b) := by
  have := h b.cond
  unfold condHolds
  refine Mono.bind (mono_tryM ?_) fun _ => ?_
  · mono
  · mono
theorem mono_hits {ev ev' : Str → M (Option Variant)} (h : ∀ c, Mono (ev c) (ev' c)) (line : Nat) (m : Str) (l : List Bp) :
    Mono (hitsBreakpoint n ev line m l) (hitsBreakpoint n' ev' line m l) := by
  have := fun b => mono_cond (n := n) (n' := n') h b
  induction l with
  | nil => unfold hitsBreakpoint; mono
  | cons a l ih => unfold hitsBreakpoint; mono
theorem mono_needs {ev ev' : Str → M (Option Variant)} (h : ∀ c, Mono (ev c) (ev' c)) (d : Dbg) (sid line : Nat) :
    Mono (needsBreak n ev d sid line) (needsBreak n' ev' d sid line) := by
  have := fun l m b => mono_hits (n := n) (n' := n') h l m b
  unfold needsBreak; mono
instance (l : List Ptr) (t : Option Token) (sid : Nat) : Mono (beforeCall r l t sid) (beforeCall r' l t sid) := by
  have := fun d m line => mono_needs (n := r.n) (n' := r'.n) (ev := fun c => lispEval r c sid m false false) (ev' := fun c => lispEval r' c sid m false false)
    (fun c => inferInstance) d sid line
  unfold beforeCall; mono

/-! ## The evaluator under the debugger -/

instance (l : List Ptr) (sid : Nat) : Mono (evalListD r l sid) (evalListD r' l sid) := by unfold evalListD; mono
instance (p : Ptr) (sid : Nat) : Mono (evalStepD r p sid) (evalStepD r' p sid) := by unfold evalStepD; mono
instance (sid : Nat) : Mono (bBreakD r sid) (bBreakD r' sid) := by unfold bBreakD; mono
theorem mono_catchD {m m' : M (Option Variant)} (h : Mono m m') (child : Nat) (body : Ptr) : Mono (catchD r child body m) (catchD r' child body m') := ⟨fun s => by
  unfold catchD
  rcases h.le s with ⟨s', h⟩ | h
  · exact .inl ⟨s', by rw [h]⟩
  · rw [h]
    split
    · exact Mono.le (m := (_ : M (Option Variant))) (m' := (_ : M (Option Variant))) (self := by mono) _
    · exact .inr rfl⟩
instance (c : Closure) (l : List Ptr) (child : Nat) : Mono (callBodyD r c l child) (callBodyD r' c l child) := by
  unfold callBodyD
  mono
  all_goals exact mono_catchD inferInstance _ _
instance (c : Nat) (l : List Ptr) (sid : Nat) : Mono (callClosureD r c l sid) (callClosureD r' c l sid) := by unfold callClosureD; mono
instance (f : FnW) (l : List Ptr) (sid : Nat) : Mono (callStepD r f l sid) (callStepD r' f l sid) := by
  unfold callStepD
  split
  · unfold ret; mono
  · mono
  · mono

omit hn hr in
theorem runD_le {k k' : Nat} (h : k ≤ k') : RecLe (runD k) (runD k') := by
  induction k generalizing k' with
  | zero =>
    refine ⟨⟨?_⟩, ?_, ?_, ?_, ?_, ?_, ?_, ?_⟩ <;> intros <;> first | exact Mono.fuel | exact Nat.zero_le _
  | succ k ih =>
    obtain ⟨k', rfl⟩ : ∃ m, k' = m + 1 := ⟨k' - 1, by omega⟩
    have := ih (k' := k') (by omega)
    exact ⟨⟨h⟩, fun _ _ => inferInstanceAs (Mono (evalStepD _ _ _) (evalStepD _ _ _)), fun _ _ _ => inferInstanceAs (Mono (callStepD _ _ _ _) (callStepD _ _ _ _)),
      fun _ _ => inferInstanceAs (Mono (expandLoop _ _ _) (expandLoop _ _ _)), fun _ _ => inferInstanceAs (Mono (expandStep _ _ _) (expandStep _ _ _)),
      fun _ _ => inferInstanceAs (Mono (procQStep _ _ _) (procQStep _ _ _)), fun _ _ _ _ => inferInstanceAs (Mono (substLoop _ _ _ _ _) (substLoop _ _ _ _ _)),
      fun _ _ _ _ _ => inferInstanceAs (Mono (whileStep _ _ _ _ _ _) (whileStep _ _ _ _ _ _))⟩
end

section
variable [World]

/-! ## The program -/

variable {k k' : Nat}

theorem mono_runProgram (h : k ≤ k') (c m : Str) (t : Bool) (p : Option Variant) (g : Nat) : Mono (runProgram k c m t p g) (runProgram k' c m t p g) := by
  have := runD_le h
  unfold runProgram
  refine Mono.bind (mono_tryM inferInstance) fun _ => ?_
  mono
theorem mono_afterProgram (h : k ≤ k') (g : Nat) (p : Option Variant) (a : Bool) : Mono (afterProgram k g p a) (afterProgram k' g p a) := by
  have := runD_le h
  unfold afterProgram; mono
theorem mono_turn (h : k ≤ k') (c m : Str) (t : Bool) (p : Option Variant) : Mono (debuggerTurn k c m t p) (debuggerTurn k' c m t p) := by
  have h1 := fun g => mono_runProgram h c m t p g
  have h2 := fun g p a => mono_afterProgram h g p a
  unfold debuggerTurn
  generalize createDefaultScope = cs
  mono
theorem mono_debuggerLoop (h : k ≤ k') (c m : Str) (t : Bool) {j j' : Nat} (hj : j ≤ j') (p : Option Variant) : Mono (debuggerLoop k c m t j p) (debuggerLoop k' c m t j' p) := by
  have h1 := fun p => mono_turn h c m t p
  induction j generalizing p j' with
  | zero => exact Mono.fuel
  | succ j ih =>
    obtain ⟨j', rfl⟩ : ∃ m, j' = m + 1 := ⟨j' - 1, by omega⟩
    have ih := fun p => ih (j' := j') (by omega) p
    unfold debuggerLoop; mono
theorem mono_shell (h : k ≤ k') (t : Bool) : Mono (runShell k t) (runShell k' t) := by
  have := run_le h
  unfold runShell
  generalize createDefaultScope = cs
  mono
theorem mono_debugger (h : k ≤ k') (p : Plan) (d : Dbg) : Mono (runDebugger k p d) (runDebugger k' p d) := by
  have h1 := fun c m t p => mono_debuggerLoop h c m t h p
  unfold runDebugger; mono
theorem mono_saveEval (h : k ≤ k') (stack : Str) (outp : Bool) (c m : Str) (v t o : Bool) : Mono (saveEval k stack outp c m v t o) (saveEval k' stack outp c m v t o) := ⟨fun s => by
  rcases monoSeq_lispEvalNew c m t o s k k' h with ⟨s', e⟩ | e
  · exact .inl ⟨s', by simp only [saveEval, e]⟩
  · exact .inr (by simp only [saveEval, e])⟩
theorem mono_runFiles (h : k ≤ k') (stack : Str) (p : Plan) (v : Option Variant) (l : List Str) : Mono (runFiles k stack p v l) (runFiles k' stack p v l) := by
  have h1 := fun outp c m v t o => mono_saveEval h stack outp c m v t o
  induction l generalizing v with
  | nil => unfold runFiles; mono
  | cons a l ih => unfold runFiles; mono
theorem mono_plan (h : k ≤ k') (stack : Str) (start : Int) (p : Plan) : Mono (runPlan k stack start p) (runPlan k' stack start p) := by
  have h1 := fun outp c m v t o => mono_saveEval h stack outp c m v t o
  have h2 := fun p v l => mono_runFiles h stack p v l
  have h3 := fun p d => mono_debugger h p d
  have h4 := fun t => mono_shell h t
  have : LeN k k' := ⟨h⟩
  unfold runPlan; mono
theorem mono_main (h : k ≤ k') (stack : Str) (b : Bool) (args : List Str) : Mono (mainExtended k stack b args) (mainExtended k' stack b args) := by
  have h1 := fun s p => mono_plan h stack s p
  unfold mainExtended; mono

theorem mono_ends {α : Type} {m m' : M α} (h : Mono m m') {st : St} (he : Ends (m st)) : m' st = m st :=
  ((h.le st).resolve_left fun ⟨s, hs⟩ => he s hs).symm

/-- C33: evaluation with an attached debugger, whatever is typed when it stops: unless the budget is exhausted, a larger one gives the same outcome. -/
theorem C33_debug (h : k ≤ k') (ast : Ptr) (sid : Nat) (st : St) (he : Ends ((runD k).eval ast sid st)) :
    (runD k').eval ast sid st = (runD k).eval ast sid st :=
  mono_ends ((runD_le h).eval ast sid) he

/-- C33: the same for function calls with an attached debugger. -/
theorem C33_debug_call (h : k ≤ k') (f : FnW) (args : List Ptr) (sid : Nat) (st : St) (he : Ends ((runD k).call f args sid st)) :
    (runD k').call f args sid st = (runD k).call f args sid st :=
  mono_ends ((runD_le h).call f args sid) he

/-- C33: the same for the interactive loop. -/
theorem C33_shell (h : k ≤ k') (dbg : Dbg) (top : Nat) (fromMain : Bool) (st : St) (he : Ends (interactiveLoop (run k) dbg top fromMain st)) :
    interactiveLoop (run k') dbg top fromMain st = interactiveLoop (run k) dbg top fromMain st :=
  have := run_le h
  mono_ends inferInstance he

/-- C33: the same for the whole program with any arguments, its scripts, its shell and its debugger. -/
theorem C33_program (h : k ≤ k') (stack : Str) (hasDebugger : Bool) (args : List Str) (st : St) (he : Ends (mainExtended k stack hasDebugger args st)) :
    mainExtended k' stack hasDebugger args st = mainExtended k stack hasDebugger args st :=
  mono_ends (mono_main h stack hasDebugger args) he
end

/-- A program that reads a line, run under the debugger with the commands "run", a line for the program, and "quit". -/
def demoBudget (k : Nat) : Out Unit := @mainExtended demoWorld k [] true [c!"-d", c!"-e", c!"(println (readline))"] { input := [c!"r", c!"x", c!"q"] }

/-- Does it end normally? -/
def isOk {α : Type} : Out α → Bool
  | .ok _ _ => true
  | .fail _ _ => false

theorem demoBudget_ends : isOk (demoBudget 40) = true := by decide +kernel

-- the program of the example ends with budget 40 and so it does the same with every larger one
example (k : Nat) (h : 40 ≤ k) : demoBudget k = demoBudget 40 :=
  @C33_program demoWorld 40 k h _ _ _ _ fun s hs => by
    have := demoBudget_ends
    rw [show demoBudget 40 = .fail .fuel s from hs] at this
    exact Bool.noConfusion this

end Fuel
