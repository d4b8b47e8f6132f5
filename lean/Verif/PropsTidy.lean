import Verif.LemTidy
import Verif.DemoEval
/-!
# C49 for the debugger and for the whole program
-/

set_option linter.unusedSectionVars false
set_option linter.unusedSimpArgs false

namespace Fuel

open Spec

section
variable [World] {sid n : Nat} {α : Type} {r : Rec} [RecTidy r]

instance (p) : Tidy (evalStep r p sid) := by unfold evalStep; tidy

/-! ## Commands -/

instance tidy_doc (f c : Str) (d : DS) (g : Nat) : Tidy (docCommand r f c d g) := by unfold docCommand; tidy
instance tidy_eval (c : Str) (d : DS) : Tidy (evalCommand r c d) := by
  unfold evalCommand
  have : Tidy (do
      let module ← M.get fun s => (s.scopes d.cur).module
      let v ← derefV (← lispEval r c d.cur module false false)
      let t ← M.rd fun st => varStr st r.n v
      let l ← M.lift (format c!"result={0}" t)
      writeLine l) := by tidy
  refine Tidy.bind inferInstance fun _ => ?_
  tidy
instance tidy_command (top : Nat) (b : Bool) (c : Str) (d : DS) : Tidy (dbgCommand r top b c d) := by
  unfold dbgCommand
  refine Tidy.bind inferInstance fun _ => ?_
  cases dcmd c <;> dsimp only <;> tidy
omit [RecTidy r] in
theorem post_dbgCommand (r : Rec) (top : Nat) (fromMain : Bool) (cmd : Str) (d : DS) (hd : Distinct d.dbg.bps) :
    Post (dbgCommand r top fromMain cmd d) fun x => Distinct x.1.dbg.bps := by
  unfold dbgCommand
  refine Post.bind (Post.true _) fun gid _ => ?_
  split
  case h_10 =>
    exact Post.bind (post_clearCommand hd cmd) fun _ h => .pure h
  case h_14 =>
    refine Post.bind (Post.true _) fun _ _ => Post.bind (Post.true _) fun b _ => ?_
    split
    · exact .pure (effect_distinct (replaceOrAdd_effect ..) hd)
    · exact Post.bind (Post.true _) fun _ _ => .pure hd
  case h_25 =>
    refine Post.bind (Q := fun x => Distinct x.dbg.bps) ?_ fun _ h => .pure h
    unfold evalCommand
    refine Post.bind (Post.true _) fun x _ => ?_
    split
    · exact .pure hd
    · exact Post.bind (Post.true _) fun _ _ => .pure hd
    · exact Post.bind (Post.true _) fun _ _ => .pure hd
  all_goals
    repeat' (first
      | with_reducible exact .pure hd
      | with_reducible refine Post.bind (Post.true _) fun _ _ => ?_
      | split
      | dsimp only)
  all_goals exact Post.pure hd
theorem tidy_set {d : Dbg} (h : Distinct d.bps) : Tidy (M.modify fun s => { s with dbg := d }) := ⟨fun _ _ => h⟩
instance (top : Nat) (b : Bool) (c : Str) (cur : Nat) (t : Str) : Tidy (dbgCommandD r top b c cur t) := ⟨fun s hs => by
  unfold dbgCommandD
  rw [M.bind_apply, M.get_apply]
  dsimp only
  rw [M.bind_apply]
  have h1 := Tidy.rel (m := dbgCommand r top b c { dbg := s.dbg, cur := cur, script := t }) s hs
  have h2 := (post_dbgCommand r top b c { dbg := s.dbg, cur := cur, script := t } hs).post s
  cases e : dbgCommand r top b c { dbg := s.dbg, cur := cur, script := t } s with
  | fail f s' => rw [e] at h1; exact h1
  | ok x s' =>
    rw [e] at h1
    have h3 := tidy_set (h2 x s' e)
    dsimp only
    refine Tidy.rel (m := (_ : M (DS × Ctl))) (self := ?_) s' h1
    cases dcmd c <;> dsimp only <;> tidy⟩
instance (top : Nat) (b : Bool) (n cur : Nat) (t : Str) : Tidy (dbgLoopD r top b n cur t) := by
  induction n generalizing cur t with
  | zero => unfold dbgLoopD; tidy
  | succ n ih => unfold dbgLoopD; tidy
instance (top : Nat) (b : Bool) : Tidy (interactD r top b) := by unfold interactD; tidy
instance (l : List Ptr) : Tidy (stopAt r sid l) := by unfold stopAt; tidy

/-! ## Breakpoints -/

theorem tidy_cond {ev : Str → M (Option Variant)} (h : ∀ c, Tidy (ev c)) (b : Bp) : Tidy (condHolds n ev b) := by
  have := h b.cond
  have h1 : Tidy (do
      let v ← derefV (← ev b.cond)
      M.rd fun st => v.boolValue st n) := by tidy
  unfold condHolds
  refine Tidy.bind inferInstance fun _ => ?_
  tidy
theorem tidy_hits {ev : Str → M (Option Variant)} (h : ∀ c, Tidy (ev c)) (line : Nat) (m : Str) (l : List Bp) : Tidy (hitsBreakpoint n ev line m l) := by
  have := fun b => tidy_cond (n := n) h b
  induction l with
  | nil => unfold hitsBreakpoint; tidy
  | cons a l ih => unfold hitsBreakpoint; tidy
instance (m : StepMode) : Tidy (stopsHere m sid) := by unfold stopsHere; tidy
theorem tidy_needs {ev : Str → M (Option Variant)} (h : ∀ c, Tidy (ev c)) (d : Dbg) (line : Nat) : Tidy (needsBreak n ev d sid line) := by
  have := fun l m b => tidy_hits (n := n) h l m b
  unfold needsBreak; tidy
instance (l : List Ptr) (t : Option Token) : Tidy (beforeCall r l t sid) := by
  have := fun d m line => tidy_needs (n := r.n) (sid := sid) (ev := fun c => lispEval r c sid m false false) (fun c => inferInstance) d line
  have h : Tidy (M.modify fun s => { s with dbg := { s.dbg with stop := false } }) := ⟨fun _ h => h⟩
  unfold beforeCall; tidy

/-! ## The evaluator under the debugger -/

instance (l : List Ptr) : Tidy (evalListD r l sid) := by unfold evalListD; tidy
instance (p : Ptr) : Tidy (evalStepD r p sid) := by unfold evalStepD; tidy
instance : Tidy (bBreakD r sid) := by unfold bBreakD; tidy
instance {m : M (Option Variant)} [h : Tidy m] (child : Nat) (body : Ptr) : Tidy (catchD r child body m) := ⟨fun s hs => by
  have h0 := h.rel s hs
  unfold catchD
  split
  · rename_i e; rw [e] at h0
    exact Tidy.rel (m := (_ : M (Option Variant))) (self := by tidy) _ h0
  · exact h0⟩
instance (c : Closure) (l : List Ptr) (child : Nat) : Tidy (callBodyD r c l child) := by unfold callBodyD; tidy
instance (c : Nat) (l : List Ptr) : Tidy (callClosureD r c l sid) := by unfold callClosureD; tidy
instance (f : FnW) (l : List Ptr) : Tidy (callStepD r f l sid) := by unfold callStepD; tidy

omit [RecTidy r] in
theorem tidy_zero : RecTidy (run 0) := by
  constructor <;> intros <;> exact ⟨fun s => id⟩
instance run_tidy (k : Nat) : RecTidy (run k) := by
  induction k with
  | zero => exact tidy_zero
  | succ k ih =>
    constructor <;> intros
    · exact inferInstanceAs (Tidy (evalStep _ _ _))
    · exact inferInstanceAs (Tidy (callStep _ _ _ _))
    · exact inferInstanceAs (Tidy (expandLoop _ _ _))
    · exact inferInstanceAs (Tidy (expandStep _ _ _))
    · exact inferInstanceAs (Tidy (procQStep _ _ _))
    · exact inferInstanceAs (Tidy (substLoop _ _ _ _ _))
    · exact inferInstanceAs (Tidy (whileStep _ _ _ _ _ _))
instance runD_tidy (k : Nat) : RecTidy (runD k) := by
  induction k with
  | zero => exact tidy_zero
  | succ k ih =>
    constructor <;> intros
    · exact inferInstanceAs (Tidy (evalStepD _ _ _))
    · exact inferInstanceAs (Tidy (callStepD _ _ _ _))
    · exact inferInstanceAs (Tidy (expandLoop _ _ _))
    · exact inferInstanceAs (Tidy (expandStep _ _ _))
    · exact inferInstanceAs (Tidy (procQStep _ _ _))
    · exact inferInstanceAs (Tidy (substLoop _ _ _ _ _))
    · exact inferInstanceAs (Tidy (whileStep _ _ _ _ _ _))
end

section
variable [World] {α β : Type}

/-! ## The program -/

instance (j : Nat) (e : Entry) : Tidy (register j e) := by unfold register; tidy
instance (j : Nat) (l : List Entry) : Tidy (registerAll j l) := by
  induction l with
  | nil => unfold registerAll; tidy
  | cons e l ih => unfold registerAll; tidy
instance tidy_scope : Tidy createDefaultScope := by unfold createDefaultScope; tidy
instance (k : Nat) (c m : Str) (t : Bool) (p : Option Variant) (g : Nat) : Tidy (runProgram k c m t p g) := by
  have h : Tidy (M.modify fun s => { s with dbg := s.dbg.reset }) := ⟨fun _ h => h⟩
  unfold runProgram; tidy
instance (k g : Nat) (p : Option Variant) (a : Bool) : Tidy (afterProgram k g p a) := by unfold afterProgram; tidy
instance (k : Nat) (c m : Str) (t : Bool) (p : Option Variant) : Tidy (debuggerTurn k c m t p) := by
  have h : Tidy (M.modify fun s => { s with dbg := { s.dbg with script := c } }) := ⟨fun _ h => h⟩
  unfold debuggerTurn
  have h0 := tidy_scope
  generalize createDefaultScope = cs at *
  tidy
instance (k : Nat) (c m : Str) (t : Bool) (j : Nat) (p : Option Variant) : Tidy (debuggerLoop k c m t j p) := by
  induction j generalizing p with
  | zero => unfold debuggerLoop; tidy
  | succ j ih => unfold debuggerLoop; tidy
instance : Tidy loopHeader := by unfold loopHeader; tidy
instance tidy_loop {r : Rec} [RecTidy r] (top : Nat) (b : Bool) (n : Nat) (d : DS) : Tidy (dbgLoop r top b n d) := by
  induction n generalizing d with
  | zero => unfold dbgLoop; tidy
  | succ n ih => unfold dbgLoop; tidy
instance (k : Nat) (t : Bool) : Tidy (runShell k t) := by
  unfold runShell interactiveLoop
  have h0 := tidy_scope
  generalize createDefaultScope = cs at *
  tidy
theorem post_runShell (k : Nat) (t : Bool) : Post (runShell k t) fun d => Distinct d.bps := by
  unfold runShell interactiveLoop
  generalize createDefaultScope = cs
  refine Post.bind (Post.true _) fun _ _ => Post.bind (Post.true _) fun _ _ => Post.bind (Post.true _) fun _ _ => ?_
  refine Post.bind (Q := fun x => Distinct x.1.dbg.bps) (Post.bind (Post.true _) fun _ _ => ?_) fun _ h => .pure h
  exact ⟨fun s a s' e => C49_loop k _ true _ _ (show Distinct ({} : Dbg).bps from List.Pairwise.nil) e⟩
theorem tidy_runDebugger (k : Nat) (p : Plan) {d : Dbg} (hd : Distinct d.bps) : Tidy (runDebugger k p d) := by
  have h := tidy_set hd
  unfold runDebugger; tidy
instance (o : Bool) (t : Str) : Tidy (writeErr o t) := by unfold writeErr; tidy
instance (t : Str) : Tidy (errorValue t) := by unfold errorValue; tidy
instance (k : Nat) (c m : Str) (t o : Bool) : Tidy (lispEvalNew k c m t o) := by
  unfold lispEvalNew
  have h0 := tidy_scope
  generalize createDefaultScope = cs at *
  tidy
instance (k : Nat) (stack : Str) (outp : Bool) (c m : Str) (v t o : Bool) : Tidy (saveEval k stack outp c m v t o) := ⟨fun s hs => by
  have h := (inferInstance : Tidy (lispEvalNew k c m t o)).rel s hs
  unfold saveEval
  split
  · rename_i e; rw [e] at h
    exact Tidy.rel (m := (_ : M (Option Variant))) (self := by tidy) _ h
  · rename_i e; rw [e] at h
    exact Tidy.rel (m := (_ : M (Option Variant))) (self := by tidy) _ h
  · exact h⟩
instance (k : Nat) (stack : Str) (p : Plan) (v : Option Variant) (l : List Str) : Tidy (runFiles k stack p v l) := by
  induction l generalizing v with
  | nil => unfold runFiles; tidy
  | cons a l ih => unfold runFiles; tidy
instance (b : Bool) : Tidy (usage b) := by unfold usage; tidy
theorem distinct_new : Distinct ({} : Dbg).bps := List.Pairwise.nil
theorem Tidy.pureBind {a : α} {f : α → M β} (h : Tidy (f a)) : Tidy (Pure.pure a >>= f) := ⟨fun s hs => h.rel s hs⟩
theorem Tidy.bindPost {m : M α} {f : α → M β} {Q : α → Prop} (h : Tidy m) (hq : Post m Q) (hf : ∀ a, Q a → Tidy (f a)) : Tidy (m >>= f) := ⟨fun s hs => by
  have := h.rel s hs
  rw [M.bind_apply]
  cases hm : m s with
  | ok a s' => rw [hm] at this; exact (hf a (hq.post s a s' hm)).rel s' this
  | fail f s' => rw [hm] at this; exact this⟩
instance (k : Nat) (stack : Str) (start : Int) (p : Plan) : Tidy (runPlan k stack start p) := by
  unfold runPlan
  repeat' (first
    | infer_instance
    | with_reducible exact tidy_runDebugger k p (by assumption)
    | with_reducible refine Tidy.bindPost (m := runShell _ _) inferInstance (post_runShell k p.trace) fun _ _ => ?_
    | with_reducible exact tidy_runDebugger k p distinct_new
    | with_reducible refine Tidy.pureBind ?_
    | with_reducible refine Tidy.bind ?_ fun _ => ?_
    | split
    | dsimp only)
instance (k : Nat) (stack : Str) (b : Bool) (args : List Str) : Tidy (mainExtended k stack b args) := by
  unfold mainExtended; tidy



theorem tidy_after {α : Type} {m : M α} [h : Tidy m] {st : St} (hs : Distinct st.dbg.bps) : Distinct (Out.after (m st)).dbg.bps := by
  rw [after_eq]
  exact h.rel st hs

/-- C49: evaluating code with an attached debugger, whatever commands are given at the stops and in the stops within them, never leads to two
breakpoints for the same line of a module, whatever the outcome is. -/
theorem C49_debug (k : Nat) (ast : Ptr) (sid : Nat) {st : St} (hs : Distinct st.dbg.bps) : Distinct (Out.after ((runD k).eval ast sid st)).dbg.bps := tidy_after hs

/-- C49: the loop of the debugger at a stop, whatever the user types. -/
theorem C49_stop (k top : Nat) (fromMain : Bool) {st : St} (hs : Distinct st.dbg.bps) : Distinct (Out.after (interactD (runD k) top fromMain st)).dbg.bps := tidy_after hs

/-- C49: a program that is run, and run again, under the debugger. -/
theorem C49_debug_loop (k : Nat) (script module : Str) (tracing : Bool) (j : Nat) (prev : Option Variant) {st : St} (hs : Distinct st.dbg.bps) :
    Distinct (Out.after (debuggerLoop k script module tracing j prev st)).dbg.bps := tidy_after hs

/-- C49: the whole program with any arguments and any input; at its start there are no breakpoints. -/
theorem C49_program (k : Nat) (stack : Str) (hasDebugger : Bool) (args : List Str) {st : St} (hs : Distinct st.dbg.bps) :
    Distinct (Out.after (mainExtended k stack hasDebugger args st)).dbg.bps := tidy_after hs
end

/-- A program under the debugger: three breakpoints are set, two of them for the same line. -/
def demoTidy : St :=
  Out.after (@mainExtended demoWorld 40 [] true [c!"-d", c!"-e", c!"(println 1)"]
    { input := [c!"break 3", c!"break 5", c!"break 3 (= 1 1)", c!"r", c!"q"] })

-- the third command has changed the condition of the first breakpoint
example : demoTidy.dbg.bps = [⟨3, c!"command-line", c!"(= 1 1)"⟩, ⟨5, c!"command-line", []⟩] := by decide +kernel

end Fuel
