import Verif.LemDisk
import Verif.DemoEval
/-!
# C90: what a program can do to the files
-/

set_option linter.unusedSectionVars false
set_option linter.unusedSimpArgs false

namespace Fuel

open Spec

section
variable [World] {sid n : Nat} {α : Type} {r : Rec} [RecDisk r]

instance (p) : Pres Disk (evalStep r p sid) := by unfold evalStep; pres

/-! ## Commands -/

instance disk_doc (f c : Str) (d : DS) (g : Nat) : Pres Disk (docCommand r f c d g) := by unfold docCommand; pres
instance disk_eval (c : Str) (d : DS) : Pres Disk (evalCommand r c d) := by
  unfold evalCommand
  have : Pres Disk (do
      let module ← M.get fun s => (s.scopes d.cur).module
      let v ← derefV (← lispEval r c d.cur module false false)
      let t ← M.rd fun st => varStr st r.n v
      let l ← M.lift (format c!"result={0}" t)
      writeLine l) := by pres
  refine Pres.bind inferInstance fun _ => ?_
  pres
instance disk_command (top : Nat) (b : Bool) (c : Str) (d : DS) : Pres Disk (dbgCommand r top b c d) := by
  unfold dbgCommand
  refine Pres.bind inferInstance fun _ => ?_
  cases dcmd c <;> dsimp only <;> pres
instance (top : Nat) (b : Bool) (c : Str) (cur : Nat) (t : Str) : Pres Disk (dbgCommandD r top b c cur t) := by
  unfold dbgCommandD
  refine Pres.bind inferInstance fun _ => Pres.bind inferInstance fun x => ?_
  have h (d : Dbg) : Pres Disk (M.modify fun s => { s with dbg := d }) := pres_disk fun _ => ⟨rfl, rfl⟩
  cases dcmd c <;> dsimp only <;> pres
instance (top : Nat) (b : Bool) (n cur : Nat) (t : Str) : Pres Disk (dbgLoopD r top b n cur t) := by
  induction n generalizing cur t with
  | zero => unfold dbgLoopD; pres
  | succ n ih => unfold dbgLoopD; pres
instance (top : Nat) (b : Bool) : Pres Disk (interactD r top b) := by unfold interactD; pres
instance (l : List Ptr) : Pres Disk (stopAt r sid l) := by unfold stopAt; pres

/-! ## Breakpoints -/

theorem disk_cond {ev : Str → M (Option Variant)} (h : ∀ c, Pres Disk (ev c)) (b : Bp) : Pres Disk (condHolds n ev b) := by
  have := h b.cond
  have h1 : Pres Disk (do
      let v ← derefV (← ev b.cond)
      M.rd fun st => v.boolValue st n) := by pres
  unfold condHolds
  refine Pres.bind inferInstance fun _ => ?_
  pres
theorem disk_hits {ev : Str → M (Option Variant)} (h : ∀ c, Pres Disk (ev c)) (line : Nat) (m : Str) (l : List Bp) : Pres Disk (hitsBreakpoint n ev line m l) := by
  have := fun b => disk_cond (n := n) h b
  induction l with
  | nil => unfold hitsBreakpoint; pres
  | cons a l ih => unfold hitsBreakpoint; pres
instance (m : StepMode) : Pres Disk (stopsHere m sid) := by unfold stopsHere; pres
theorem disk_needs {ev : Str → M (Option Variant)} (h : ∀ c, Pres Disk (ev c)) (d : Dbg) (line : Nat) : Pres Disk (needsBreak n ev d sid line) := by
  have := fun l m b => disk_hits (n := n) h l m b
  unfold needsBreak; pres
instance (l : List Ptr) (t : Option Token) : Pres Disk (beforeCall r l t sid) := by
  have := fun d m line => disk_needs (n := r.n) (sid := sid) (ev := fun c => lispEval r c sid m false false) (fun c => inferInstance) d line
  have h : Pres Disk (M.modify fun s => { s with dbg := { s.dbg with stop := false } }) := pres_disk fun _ => ⟨rfl, rfl⟩
  unfold beforeCall; pres

/-! ## The evaluator under the debugger -/

instance (l : List Ptr) : Pres Disk (evalListD r l sid) := by unfold evalListD; pres
instance (p : Ptr) : Pres Disk (evalStepD r p sid) := by unfold evalStepD; pres
instance : Pres Disk (bBreakD r sid) := by unfold bBreakD; pres
instance {m : M (Option Variant)} [h : Pres Disk m] (child : Nat) (body : Ptr) : Pres Disk (catchD r child body m) := ⟨fun s => by
  have h0 := h.rel s
  unfold catchD
  split
  · rename_i e; rw [e] at h0
    exact Rel.trans h0 (Pres.rel (R := Disk) (m := (_ : M (Option Variant))) (self := by pres) _)
  · exact h0⟩
instance (c : Closure) (l : List Ptr) (child : Nat) : Pres Disk (callBodyD r c l child) := by unfold callBodyD; pres
instance (c : Nat) (l : List Ptr) : Pres Disk (callClosureD r c l sid) := by unfold callClosureD; pres
instance (f : FnW) (l : List Ptr) : Pres Disk (callStepD r f l sid) := by unfold callStepD; pres

omit [RecDisk r] in
theorem disk_zero : RecDisk (run 0) := by
  constructor <;> intros <;> exact ⟨fun s => Rel.refl s⟩
instance run_disk (k : Nat) : RecDisk (run k) := by
  induction k with
  | zero => exact disk_zero
  | succ k ih =>
    constructor <;> intros
    · exact inferInstanceAs (Pres Disk (evalStep _ _ _))
    · exact inferInstanceAs (Pres Disk (callStep _ _ _ _))
    · exact inferInstanceAs (Pres Disk (expandLoop _ _ _))
    · exact inferInstanceAs (Pres Disk (expandStep _ _ _))
    · exact inferInstanceAs (Pres Disk (procQStep _ _ _))
    · exact inferInstanceAs (Pres Disk (substLoop _ _ _ _ _))
    · exact inferInstanceAs (Pres Disk (whileStep _ _ _ _ _ _))
instance runD_disk (k : Nat) : RecDisk (runD k) := by
  induction k with
  | zero => exact disk_zero
  | succ k ih =>
    constructor <;> intros
    · exact inferInstanceAs (Pres Disk (evalStepD _ _ _))
    · exact inferInstanceAs (Pres Disk (callStepD _ _ _ _))
    · exact inferInstanceAs (Pres Disk (expandLoop _ _ _))
    · exact inferInstanceAs (Pres Disk (expandStep _ _ _))
    · exact inferInstanceAs (Pres Disk (procQStep _ _ _))
    · exact inferInstanceAs (Pres Disk (substLoop _ _ _ _ _))
    · exact inferInstanceAs (Pres Disk (whileStep _ _ _ _ _ _))
end

section
variable [World]

/-! ## The program -/

instance (j : Nat) (e : Entry) : Pres Disk (register j e) := by unfold register; pres
instance (j : Nat) (l : List Entry) : Pres Disk (registerAll j l) := by
  induction l with
  | nil => unfold registerAll; pres
  | cons e l ih => unfold registerAll; pres
instance disk_scope : Pres Disk createDefaultScope := by unfold createDefaultScope; pres
instance (k : Nat) (c m : Str) (t : Bool) (p : Option Variant) (g : Nat) : Pres Disk (runProgram k c m t p g) := by
  have h : Pres Disk (M.modify fun s => { s with dbg := s.dbg.reset }) := pres_disk fun _ => ⟨rfl, rfl⟩
  unfold runProgram; pres
instance (k g : Nat) (p : Option Variant) (a : Bool) : Pres Disk (afterProgram k g p a) := by unfold afterProgram; pres
instance (k : Nat) (c m : Str) (t : Bool) (p : Option Variant) : Pres Disk (debuggerTurn k c m t p) := by
  have h : Pres Disk (M.modify fun s => { s with dbg := { s.dbg with script := c } }) := pres_disk fun _ => ⟨rfl, rfl⟩
  unfold debuggerTurn
  have h0 := disk_scope
  generalize createDefaultScope = cs at *
  pres
instance (k : Nat) (c m : Str) (t : Bool) (j : Nat) (p : Option Variant) : Pres Disk (debuggerLoop k c m t j p) := by
  induction j generalizing p with
  | zero => unfold debuggerLoop; pres
  | succ j ih => unfold debuggerLoop; pres
instance : Pres Disk loopHeader := by unfold loopHeader; pres
instance disk_loop {r : Rec} [RecDisk r] (top : Nat) (b : Bool) (n : Nat) (d : DS) : Pres Disk (dbgLoop r top b n d) := by
  induction n generalizing d with
  | zero => unfold dbgLoop; pres
  | succ n ih => unfold dbgLoop; pres
instance (k : Nat) (t : Bool) : Pres Disk (runShell k t) := by
  unfold runShell interactiveLoop
  have h0 := disk_scope
  generalize createDefaultScope = cs at *
  pres
instance (k : Nat) (p : Plan) (d : Dbg) : Pres Disk (runDebugger k p d) := by
  have h : Pres Disk (M.modify fun s => { s with dbg := d }) := pres_disk fun _ => ⟨rfl, rfl⟩
  unfold runDebugger; pres
instance (o : Bool) (t : Str) : Pres Disk (writeErr o t) := by unfold writeErr; pres
instance (t : Str) : Pres Disk (errorValue t) := by unfold errorValue; pres
instance (k : Nat) (c m : Str) (t o : Bool) : Pres Disk (lispEvalNew k c m t o) := by
  unfold lispEvalNew
  have h0 := disk_scope
  generalize createDefaultScope = cs at *
  pres
instance (k : Nat) (stack : Str) (outp : Bool) (c m : Str) (v t o : Bool) : Pres Disk (saveEval k stack outp c m v t o) := ⟨fun s => by
  have h := (inferInstance : Pres Disk (lispEvalNew k c m t o)).rel s
  unfold saveEval
  split
  · rename_i e; rw [e] at h
    exact Rel.trans h (Pres.rel (R := Disk) (m := (_ : M (Option Variant))) (self := by pres) _)
  · rename_i e; rw [e] at h
    exact Rel.trans h (Pres.rel (R := Disk) (m := (_ : M (Option Variant))) (self := by pres) _)
  · exact h⟩
instance (k : Nat) (stack : Str) (p : Plan) (v : Option Variant) (l : List Str) : Pres Disk (runFiles k stack p v l) := by
  induction l generalizing v with
  | nil => unfold runFiles; pres
  | cons a l ih => unfold runFiles; pres
instance (b : Bool) : Pres Disk (usage b) := by unfold usage; pres
instance (k : Nat) (stack : Str) (start : Int) (p : Plan) : Pres Disk (runPlan k stack start p) := by
  unfold runPlan; pres
instance (k : Nat) (stack : Str) (b : Bool) (args : List Str) : Pres Disk (mainExtended k stack b args) := by
  unfold mainExtended; pres


theorem disk_after {α : Type} {m : M α} [h : Pres Disk m] (st : St) : Disk st (Out.after (m st)) := by
  rw [after_eq]
  exact h.rel st

/-- C90: evaluating code, whatever the outcome is. -/
theorem C90_eval (k : Nat) (ast : Ptr) (sid : Nat) (st : St) : Disk st (Out.after ((run k).eval ast sid st)) := disk_after st

/-- C90: calling a function, whatever the outcome is. -/
theorem C90_call (k : Nat) (f : FnW) (args : List Ptr) (sid : Nat) (st : St) : Disk st (Out.after ((run k).call f args sid st)) := disk_after st

/-- C90: a script in an existing or a new interpreter. -/
theorem C90_script (k : Nat) (code module : Str) (tracing onlyExpand : Bool) (st : St) :
    (∀ sid, Disk st (Out.after (lispEval (run k) code sid module tracing onlyExpand st))) ∧ Disk st (Out.after (lispEvalNew k code module tracing onlyExpand st)) :=
  ⟨fun _ => disk_after st, disk_after st⟩

/-- C90: code with an attached debugger, whatever breakpoints there are and whatever commands are given. -/
theorem C90_debug (k : Nat) (ast : Ptr) (sid : Nat) (st : St) : Disk st (Out.after ((runD k).eval ast sid st)) := disk_after st

/-- C90: the whole program with any arguments and any input. -/
theorem C90_program (k : Nat) (stack : Str) (hasDebugger : Bool) (args : List Str) (st : St) :
    Disk st (Out.after (mainExtended k stack hasDebugger args st)) := disk_after st

/-- C90: where nothing can be written, the program leaves every file as it is and creates none. -/
theorem C90_read_only (h : ∀ name, World.canWrite name = false) (k : Nat) (stack : Str) (hasDebugger : Bool) (args : List Str) (st : St) (name : Str) :
    (Out.after (mainExtended k stack hasDebugger args st)).files.lookup name = st.files.lookup name :=
  (C90_program k stack hasDebugger args st).same name (h name)
end

/-- A file that cannot be written. -/
@[reducible] def lockedWorld : World := { demoWorld with canWrite := fun name => name != c!"locked" }

/-- A program that tries to write two files. -/
def demoDisk : St :=
  Out.after (@mainExtended lockedWorld 40 [] true [c!"-e", c!"(do (File-WriteAllText \"a\" \"x\") (File-WriteAllText \"locked\" \"y\"))"]
    { files := [(c!"a", c!"old"), (c!"b", c!"b"), (c!"locked", c!"keep")] })

-- the first is written, the second is not
example : demoDisk.files = [(c!"a", c!"x"), (c!"b", c!"b"), (c!"locked", c!"keep")] := by decide +kernel
-- the hypotheses of the theorems
example : @World.canWrite lockedWorld c!"locked" = false ∧ @World.canWrite lockedWorld c!"a" = true := by decide +kernel
example : ∀ name, @World.canWrite { demoWorld with canWrite := fun _ => false } name = false := fun _ => rfl

end Fuel
