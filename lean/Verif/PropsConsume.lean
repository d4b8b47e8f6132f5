import Verif.LemConsume
import Verif.DemoEval
/-!
# C54 for the debugger and for the whole program

Whatever the arguments of the program, the commands of the debugger and the outcome are: output is only appended and lines are
only taken from the beginning of the standard input.
-/

set_option linter.unusedSectionVars false
set_option linter.unusedSimpArgs false

namespace Fuel

open Spec

section
variable [World] {sid n : Nat} {α : Type} {r : Rec} [RecConsumes r]

instance (p) : Pres Consumes (evalStep r p sid) := by unfold evalStep; pres

/-! ## Commands -/

instance consumes_doc (f c : Str) (d : DS) (g : Nat) : Pres Consumes (docCommand r f c d g) := by unfold docCommand; pres
instance consumes_eval (c : Str) (d : DS) : Pres Consumes (evalCommand r c d) := by
  unfold evalCommand
  have : Pres Consumes (do
      let module ← M.get fun s => (s.scopes d.cur).module
      let v ← derefV (← lispEval r c d.cur module false false)
      let t ← M.rd fun st => varStr st r.n v
      let l ← M.lift (format c!"result={0}" t)
      writeLine l) := by pres
  refine Pres.bind inferInstance fun _ => ?_
  pres
instance consumes_command (top : Nat) (b : Bool) (c : Str) (d : DS) : Pres Consumes (dbgCommand r top b c d) := by
  unfold dbgCommand
  refine Pres.bind inferInstance fun _ => ?_
  cases dcmd c <;> dsimp only <;> pres
instance (top : Nat) (b : Bool) (c : Str) (cur : Nat) (t : Str) : Pres Consumes (dbgCommandD r top b c cur t) := by
  unfold dbgCommandD
  refine Pres.bind inferInstance fun _ => Pres.bind inferInstance fun x => ?_
  have h (d : Dbg) : Pres Consumes (M.modify fun s => { s with dbg := d }) := pres_quiet fun _ => ⟨rfl, rfl⟩
  cases dcmd c <;> dsimp only <;> pres
instance (top : Nat) (b : Bool) (n cur : Nat) (t : Str) : Pres Consumes (dbgLoopD r top b n cur t) := by
  induction n generalizing cur t with
  | zero => unfold dbgLoopD; pres
  | succ n ih => unfold dbgLoopD; pres
instance (top : Nat) (b : Bool) : Pres Consumes (interactD r top b) := by unfold interactD; pres
instance (l : List Ptr) : Pres Consumes (stopAt r sid l) := by unfold stopAt; pres

/-! ## Breakpoints -/

theorem consumes_cond {ev : Str → M (Option Variant)} (h : ∀ c, Pres Consumes (ev c)) (b : Bp) : Pres Consumes (condHolds n ev b) := by
  have := h b.cond
  have h1 : Pres Consumes (do
      let v ← derefV (← ev b.cond)
      M.rd fun st => v.boolValue st n) := by pres
  unfold condHolds
  refine Pres.bind inferInstance fun _ => ?_
  pres
theorem consumes_hits {ev : Str → M (Option Variant)} (h : ∀ c, Pres Consumes (ev c)) (line : Nat) (m : Str) (l : List Bp) : Pres Consumes (hitsBreakpoint n ev line m l) := by
  have := fun b => consumes_cond (n := n) h b
  induction l with
  | nil => unfold hitsBreakpoint; pres
  | cons a l ih => unfold hitsBreakpoint; pres
instance (m : StepMode) : Pres Consumes (stopsHere m sid) := by unfold stopsHere; pres
theorem consumes_needs {ev : Str → M (Option Variant)} (h : ∀ c, Pres Consumes (ev c)) (d : Dbg) (line : Nat) : Pres Consumes (needsBreak n ev d sid line) := by
  have := fun l m b => consumes_hits (n := n) h l m b
  unfold needsBreak; pres
instance (l : List Ptr) (t : Option Token) : Pres Consumes (beforeCall r l t sid) := by
  have := fun d m line => consumes_needs (n := r.n) (sid := sid) (ev := fun c => lispEval r c sid m false false) (fun c => inferInstance) d line
  have h : Pres Consumes (M.modify fun s => { s with dbg := { s.dbg with stop := false } }) := pres_quiet fun _ => ⟨rfl, rfl⟩
  unfold beforeCall; pres

/-! ## The evaluator under the debugger -/

instance (l : List Ptr) : Pres Consumes (evalListD r l sid) := by unfold evalListD; pres
instance (p : Ptr) : Pres Consumes (evalStepD r p sid) := by unfold evalStepD; pres
instance : Pres Consumes (bBreakD r sid) := by unfold bBreakD; pres
instance {m : M (Option Variant)} [h : Pres Consumes m] (child : Nat) (body : Ptr) : Pres Consumes (catchD r child body m) := ⟨fun s => by
  have h0 := h.rel s
  unfold catchD
  split
  · rename_i e; rw [e] at h0
    exact Rel.trans h0 (Pres.rel (R := Consumes) (m := (_ : M (Option Variant))) (self := by pres) _)
  · exact h0⟩
instance (c : Closure) (l : List Ptr) (child : Nat) : Pres Consumes (callBodyD r c l child) := by unfold callBodyD; pres
instance (c : Nat) (l : List Ptr) : Pres Consumes (callClosureD r c l sid) := by unfold callClosureD; pres
instance (f : FnW) (l : List Ptr) : Pres Consumes (callStepD r f l sid) := by unfold callStepD; pres

omit [RecConsumes r] in
theorem consumes_zero : RecConsumes (run 0) := by
  constructor <;> intros <;> exact ⟨fun s => Rel.refl s⟩
instance run_consumes (k : Nat) : RecConsumes (run k) := by
  induction k with
  | zero => exact consumes_zero
  | succ k ih =>
    constructor <;> intros
    · exact inferInstanceAs (Pres Consumes (evalStep _ _ _))
    · exact inferInstanceAs (Pres Consumes (callStep _ _ _ _))
    · exact inferInstanceAs (Pres Consumes (expandLoop _ _ _))
    · exact inferInstanceAs (Pres Consumes (expandStep _ _ _))
    · exact inferInstanceAs (Pres Consumes (procQStep _ _ _))
    · exact inferInstanceAs (Pres Consumes (substLoop _ _ _ _ _))
    · exact inferInstanceAs (Pres Consumes (whileStep _ _ _ _ _ _))
instance runD_consumes (k : Nat) : RecConsumes (runD k) := by
  induction k with
  | zero => exact consumes_zero
  | succ k ih =>
    constructor <;> intros
    · exact inferInstanceAs (Pres Consumes (evalStepD _ _ _))
    · exact inferInstanceAs (Pres Consumes (callStepD _ _ _ _))
    · exact inferInstanceAs (Pres Consumes (expandLoop _ _ _))
    · exact inferInstanceAs (Pres Consumes (expandStep _ _ _))
    · exact inferInstanceAs (Pres Consumes (procQStep _ _ _))
    · exact inferInstanceAs (Pres Consumes (substLoop _ _ _ _ _))
    · exact inferInstanceAs (Pres Consumes (whileStep _ _ _ _ _ _))
end

section
variable [World]

/-! ## The program -/

instance consumes_scope : Pres Consumes createDefaultScope := ⟨fun s => by
  have h := (inferInstance : Pres Fresh createDefaultScope).rel s
  generalize createDefaultScope = c at *
  exact ⟨by rw [h.out]; exact List.prefix_refl _, by rw [h.input]; exact List.suffix_refl _⟩⟩
instance (k : Nat) (c m : Str) (t : Bool) (p : Option Variant) (g : Nat) : Pres Consumes (runProgram k c m t p g) := by
  have h : Pres Consumes (M.modify fun s => { s with dbg := s.dbg.reset }) := pres_quiet fun _ => ⟨rfl, rfl⟩
  unfold runProgram; pres
instance (k g : Nat) (p : Option Variant) (a : Bool) : Pres Consumes (afterProgram k g p a) := by unfold afterProgram; pres
instance (k : Nat) (c m : Str) (t : Bool) (p : Option Variant) : Pres Consumes (debuggerTurn k c m t p) := by
  have h : Pres Consumes (M.modify fun s => { s with dbg := { s.dbg with script := c } }) := pres_quiet fun _ => ⟨rfl, rfl⟩
  unfold debuggerTurn
  have h0 := consumes_scope
  generalize createDefaultScope = cs at *
  pres
instance (k : Nat) (c m : Str) (t : Bool) (j : Nat) (p : Option Variant) : Pres Consumes (debuggerLoop k c m t j p) := by
  induction j generalizing p with
  | zero => unfold debuggerLoop; pres
  | succ j ih => unfold debuggerLoop; pres
instance : Pres Consumes loopHeader := by unfold loopHeader; pres
instance consumes_loop {r : Rec} [RecConsumes r] (top : Nat) (b : Bool) (n : Nat) (d : DS) : Pres Consumes (dbgLoop r top b n d) := by
  induction n generalizing d with
  | zero => unfold dbgLoop; pres
  | succ n ih => unfold dbgLoop; pres
instance (k : Nat) (t : Bool) : Pres Consumes (runShell k t) := by
  unfold runShell interactiveLoop
  have h0 := consumes_scope
  generalize createDefaultScope = cs at *
  pres
instance (k : Nat) (p : Plan) (d : Dbg) : Pres Consumes (runDebugger k p d) := by
  have h : Pres Consumes (M.modify fun s => { s with dbg := d }) := pres_quiet fun _ => ⟨rfl, rfl⟩
  unfold runDebugger; pres
instance (o : Bool) (t : Str) : Pres Consumes (writeErr o t) := by unfold writeErr; pres
instance (t : Str) : Pres Consumes (errorValue t) := by unfold errorValue; pres
instance (k : Nat) (c m : Str) (t o : Bool) : Pres Consumes (lispEvalNew k c m t o) := ⟨fun s => by
  have h1 := C54_script k c m t o s
  have h2 := C54_input k c m t o s
  rw [after_eq] at h1 h2
  exact ⟨h1, h2⟩⟩
instance (k : Nat) (stack : Str) (outp : Bool) (c m : Str) (v t o : Bool) : Pres Consumes (saveEval k stack outp c m v t o) := ⟨fun s => by
  have h := (inferInstance : Pres Consumes (lispEvalNew k c m t o)).rel s
  unfold saveEval
  split
  · rename_i e; rw [e] at h
    exact Rel.trans h (Pres.rel (R := Consumes) (m := (_ : M (Option Variant))) (self := by pres) _)
  · rename_i e; rw [e] at h
    exact Rel.trans h (Pres.rel (R := Consumes) (m := (_ : M (Option Variant))) (self := by pres) _)
  · exact h⟩
instance (k : Nat) (stack : Str) (p : Plan) (v : Option Variant) (l : List Str) : Pres Consumes (runFiles k stack p v l) := by
  induction l generalizing v with
  | nil => unfold runFiles; pres
  | cons a l ih => unfold runFiles; pres
instance (b : Bool) : Pres Consumes (usage b) := by unfold usage; pres
instance (k : Nat) (stack : Str) (start : Int) (p : Plan) : Pres Consumes (runPlan k stack start p) := by
  unfold runPlan; pres
instance (k : Nat) (stack : Str) (b : Bool) (args : List Str) : Pres Consumes (mainExtended k stack b args) := by
  unfold mainExtended; pres

theorem consumes_after {α : Type} {m : M α} [h : Pres Consumes m] (st : St) : st.out <+: (Out.after (m st)).out ∧ (Out.after (m st)).input <:+ st.input := by
  rw [after_eq]
  exact ⟨(h.rel st).out, (h.rel st).input⟩

/-- C54: evaluating code with an attached debugger, whatever breakpoints there are and whatever commands are given when it stops, only appends to the
output and only takes lines from the beginning of the standard input. -/
theorem C54_debug (k : Nat) (ast : Ptr) (sid : Nat) (st : St) :
    st.out <+: (Out.after ((runD k).eval ast sid st)).out ∧ (Out.after ((runD k).eval ast sid st)).input <:+ st.input :=
  consumes_after st

/-- C54: calling a function with an attached debugger. -/
theorem C54_debug_call (k : Nat) (f : FnW) (args : List Ptr) (sid : Nat) (st : St) :
    st.out <+: (Out.after ((runD k).call f args sid st)).out ∧ (Out.after ((runD k).call f args sid st)).input <:+ st.input :=
  consumes_after st

/-- C54: a program that is run, and run again, under the debugger. -/
theorem C54_debug_loop (k : Nat) (script module : Str) (tracing : Bool) (j : Nat) (prev : Option Variant) (st : St) :
    st.out <+: (Out.after (debuggerLoop k script module tracing j prev st)).out ∧ (Out.after (debuggerLoop k script module tracing j prev st)).input <:+ st.input :=
  consumes_after st

/-- C54: the whole program with any arguments: scripts, expressions, the shell and the debugger. -/
theorem C54_program (k : Nat) (stack : Str) (hasDebugger : Bool) (args : List Str) (st : St) :
    st.out <+: (Out.after (mainExtended k stack hasDebugger args st)).out ∧ (Out.after (mainExtended k stack hasDebugger args st)).input <:+ st.input :=
  consumes_after st
end

/-- A program that reads a line, run under the debugger with the commands "run", a line for the program, and "quit". -/
def demoDebugged : St :=
  Out.after (@mainExtended demoWorld 40 [] true [c!"-d", c!"-e", c!"(println (readline))"] { input := [c!"r", c!"x", c!"q", c!"rest"], out := c!"old\n" })

-- the earlier output stays, and the last line is not read
example : c!"old\n\nFUEL(isp)" <+: demoDebugged.out ∧ c!"FUEL(isp)-DBG> x\nrestart program\n" <:+: demoDebugged.out ∧ demoDebugged.input = [c!"rest"] := by
  decide +kernel

end Fuel
