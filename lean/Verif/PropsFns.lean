import Verif.LemFns
import Verif.DemoEval
/-!
# C91: functions do not change
-/

set_option linter.unusedSectionVars false
set_option linter.unusedSimpArgs false

namespace Fuel

open Spec

section
variable [World] {sid n : Nat} {α : Type} {r : Rec} [RecFns r]

instance (p) : Pres SameFns (evalStep r p sid) := by unfold evalStep; pres

/-! ## Commands -/

instance fns_doc (f c : Str) (d : DS) (g : Nat) : Pres SameFns (docCommand r f c d g) := by unfold docCommand; pres
instance fns_eval (c : Str) (d : DS) : Pres SameFns (evalCommand r c d) := by
  unfold evalCommand
  have : Pres SameFns (do
      let module ← M.get fun s => (s.scopes d.cur).module
      let v ← derefV (← lispEval r c d.cur module false false)
      let t ← M.rd fun st => varStr st r.n v
      let l ← M.lift (format c!"result={0}" t)
      writeLine l) := by pres
  refine Pres.bind inferInstance fun _ => ?_
  pres
instance fns_command (top : Nat) (b : Bool) (c : Str) (d : DS) : Pres SameFns (dbgCommand r top b c d) := by
  unfold dbgCommand
  refine Pres.bind inferInstance fun _ => ?_
  cases dcmd c <;> dsimp only <;> pres
instance (top : Nat) (b : Bool) (c : Str) (cur : Nat) (t : Str) : Pres SameFns (dbgCommandD r top b c cur t) := by
  unfold dbgCommandD
  refine Pres.bind inferInstance fun _ => Pres.bind inferInstance fun x => ?_
  have h (d : Dbg) : Pres SameFns (M.modify fun s => { s with dbg := d }) := pres_fns fun s => ⟨Nat.le_refl s.next, rfl⟩
  cases dcmd c <;> dsimp only <;> pres
instance (top : Nat) (b : Bool) (n cur : Nat) (t : Str) : Pres SameFns (dbgLoopD r top b n cur t) := by
  induction n generalizing cur t with
  | zero => unfold dbgLoopD; pres
  | succ n ih => unfold dbgLoopD; pres
instance (top : Nat) (b : Bool) : Pres SameFns (interactD r top b) := by unfold interactD; pres
instance (l : List Ptr) : Pres SameFns (stopAt r sid l) := by unfold stopAt; pres

/-! ## Breakpoints -/

theorem fns_cond {ev : Str → M (Option Variant)} (h : ∀ c, Pres SameFns (ev c)) (b : Bp) : Pres SameFns (condHolds n ev b) := by
  have := h b.cond
  have h1 : Pres SameFns (do
      let v ← derefV (← ev b.cond)
      M.rd fun st => v.boolValue st n) := by pres
  unfold condHolds
  refine Pres.bind inferInstance fun _ => ?_
  pres
theorem fns_hits {ev : Str → M (Option Variant)} (h : ∀ c, Pres SameFns (ev c)) (line : Nat) (m : Str) (l : List Bp) : Pres SameFns (hitsBreakpoint n ev line m l) := by
  have := fun b => fns_cond (n := n) h b
  induction l with
  | nil => unfold hitsBreakpoint; pres
  | cons a l ih => unfold hitsBreakpoint; pres
instance (m : StepMode) : Pres SameFns (stopsHere m sid) := by unfold stopsHere; pres
theorem fns_needs {ev : Str → M (Option Variant)} (h : ∀ c, Pres SameFns (ev c)) (d : Dbg) (line : Nat) : Pres SameFns (needsBreak n ev d sid line) := by
  have := fun l m b => fns_hits (n := n) h l m b
  unfold needsBreak; pres
instance (l : List Ptr) (t : Option Token) : Pres SameFns (beforeCall r l t sid) := by
  have := fun d m line => fns_needs (n := r.n) (sid := sid) (ev := fun c => lispEval r c sid m false false) (fun c => inferInstance) d line
  have h : Pres SameFns (M.modify fun s => { s with dbg := { s.dbg with stop := false } }) := pres_fns fun s => ⟨Nat.le_refl s.next, rfl⟩
  unfold beforeCall; pres

/-! ## The evaluator under the debugger -/

instance (l : List Ptr) : Pres SameFns (evalListD r l sid) := by unfold evalListD; pres
instance (p : Ptr) : Pres SameFns (evalStepD r p sid) := by unfold evalStepD; pres
instance : Pres SameFns (bBreakD r sid) := by unfold bBreakD; pres
instance {m : M (Option Variant)} [h : Pres SameFns m] (child : Nat) (body : Ptr) : Pres SameFns (catchD r child body m) := ⟨fun s => by
  have h0 := h.rel s
  unfold catchD
  split
  · rename_i e; rw [e] at h0
    exact Rel.trans h0 (Pres.rel (R := SameFns) (m := (_ : M (Option Variant))) (self := by pres) _)
  · exact h0⟩
instance (c : Closure) (l : List Ptr) (child : Nat) : Pres SameFns (callBodyD r c l child) := by unfold callBodyD; pres
instance (c : Nat) (l : List Ptr) : Pres SameFns (callClosureD r c l sid) := by unfold callClosureD; pres
instance (f : FnW) (l : List Ptr) : Pres SameFns (callStepD r f l sid) := by unfold callStepD; pres

omit [RecFns r] in
theorem fns_zero : RecFns (run 0) := by
  constructor <;> intros <;> exact ⟨fun s => Rel.refl s⟩
instance run_fns (k : Nat) : RecFns (run k) := by
  induction k with
  | zero => exact fns_zero
  | succ k ih =>
    constructor <;> intros
    · exact inferInstanceAs (Pres SameFns (evalStep _ _ _))
    · exact inferInstanceAs (Pres SameFns (callStep _ _ _ _))
    · exact inferInstanceAs (Pres SameFns (expandLoop _ _ _))
    · exact inferInstanceAs (Pres SameFns (expandStep _ _ _))
    · exact inferInstanceAs (Pres SameFns (procQStep _ _ _))
    · exact inferInstanceAs (Pres SameFns (substLoop _ _ _ _ _))
    · exact inferInstanceAs (Pres SameFns (whileStep _ _ _ _ _ _))
instance runD_fns (k : Nat) : RecFns (runD k) := by
  induction k with
  | zero => exact fns_zero
  | succ k ih =>
    constructor <;> intros
    · exact inferInstanceAs (Pres SameFns (evalStepD _ _ _))
    · exact inferInstanceAs (Pres SameFns (callStepD _ _ _ _))
    · exact inferInstanceAs (Pres SameFns (expandLoop _ _ _))
    · exact inferInstanceAs (Pres SameFns (expandStep _ _ _))
    · exact inferInstanceAs (Pres SameFns (procQStep _ _ _))
    · exact inferInstanceAs (Pres SameFns (substLoop _ _ _ _ _))
    · exact inferInstanceAs (Pres SameFns (whileStep _ _ _ _ _ _))
end

section
variable [World]

/-! ## The program -/

instance (j : Nat) (e : Entry) : Pres SameFns (register j e) := by unfold register; pres
instance (j : Nat) (l : List Entry) : Pres SameFns (registerAll j l) := by
  induction l with
  | nil => unfold registerAll; pres
  | cons e l ih => unfold registerAll; pres
instance fns_scope : Pres SameFns createDefaultScope := by unfold createDefaultScope; pres
instance (k : Nat) (c m : Str) (t : Bool) (p : Option Variant) (g : Nat) : Pres SameFns (runProgram k c m t p g) := by
  have h : Pres SameFns (M.modify fun s => { s with dbg := s.dbg.reset }) := pres_fns fun s => ⟨Nat.le_refl s.next, rfl⟩
  unfold runProgram; pres
instance (k g : Nat) (p : Option Variant) (a : Bool) : Pres SameFns (afterProgram k g p a) := by unfold afterProgram; pres
instance (k : Nat) (c m : Str) (t : Bool) (p : Option Variant) : Pres SameFns (debuggerTurn k c m t p) := by
  have h : Pres SameFns (M.modify fun s => { s with dbg := { s.dbg with script := c } }) := pres_fns fun s => ⟨Nat.le_refl s.next, rfl⟩
  unfold debuggerTurn
  have h0 := fns_scope
  generalize createDefaultScope = cs at *
  pres
instance (k : Nat) (c m : Str) (t : Bool) (j : Nat) (p : Option Variant) : Pres SameFns (debuggerLoop k c m t j p) := by
  induction j generalizing p with
  | zero => unfold debuggerLoop; pres
  | succ j ih => unfold debuggerLoop; pres
instance : Pres SameFns loopHeader := by unfold loopHeader; pres
instance fns_loop {r : Rec} [RecFns r] (top : Nat) (b : Bool) (n : Nat) (d : DS) : Pres SameFns (dbgLoop r top b n d) := by
  induction n generalizing d with
  | zero => unfold dbgLoop; pres
  | succ n ih => unfold dbgLoop; pres
instance (k : Nat) (t : Bool) : Pres SameFns (runShell k t) := by
  unfold runShell interactiveLoop
  have h0 := fns_scope
  generalize createDefaultScope = cs at *
  pres
instance (k : Nat) (p : Plan) (d : Dbg) : Pres SameFns (runDebugger k p d) := by
  have h : Pres SameFns (M.modify fun s => { s with dbg := d }) := pres_fns fun s => ⟨Nat.le_refl s.next, rfl⟩
  unfold runDebugger; pres
instance (o : Bool) (t : Str) : Pres SameFns (writeErr o t) := by unfold writeErr; pres
instance (t : Str) : Pres SameFns (errorValue t) := by unfold errorValue; pres
instance (k : Nat) (c m : Str) (t o : Bool) : Pres SameFns (lispEvalNew k c m t o) := by
  unfold lispEvalNew
  have h0 := fns_scope
  generalize createDefaultScope = cs at *
  pres
instance (k : Nat) (stack : Str) (outp : Bool) (c m : Str) (v t o : Bool) : Pres SameFns (saveEval k stack outp c m v t o) := ⟨fun s => by
  have h := (inferInstance : Pres SameFns (lispEvalNew k c m t o)).rel s
  unfold saveEval
  split
  · rename_i e; rw [e] at h
    exact Rel.trans h (Pres.rel (R := SameFns) (m := (_ : M (Option Variant))) (self := by pres) _)
  · rename_i e; rw [e] at h
    exact Rel.trans h (Pres.rel (R := SameFns) (m := (_ : M (Option Variant))) (self := by pres) _)
  · exact h⟩
instance (k : Nat) (stack : Str) (p : Plan) (v : Option Variant) (l : List Str) : Pres SameFns (runFiles k stack p v l) := by
  induction l generalizing v with
  | nil => unfold runFiles; pres
  | cons a l ih => unfold runFiles; pres
instance (b : Bool) : Pres SameFns (usage b) := by unfold usage; pres
instance (k : Nat) (stack : Str) (start : Int) (p : Plan) : Pres SameFns (runPlan k stack start p) := by
  unfold runPlan; pres
instance (k : Nat) (stack : Str) (b : Bool) (args : List Str) : Pres SameFns (mainExtended k stack b args) := by
  unfold mainExtended; pres


theorem fns_after {α : Type} {m : M α} [h : Pres SameFns m] (st : St) : SameFns st (Out.after (m st)) := by
  rw [after_eq]
  exact h.rel st

/-- C91: evaluating code, whatever the outcome is. -/
theorem C91_eval (k : Nat) (ast : Ptr) (sid : Nat) (st : St) : SameFns st (Out.after ((run k).eval ast sid st)) := fns_after st

/-- C91: calling a function, whatever the outcome is. -/
theorem C91_call (k : Nat) (f : FnW) (args : List Ptr) (sid : Nat) (st : St) : SameFns st (Out.after ((run k).call f args sid st)) := fns_after st

/-- C91: a script in an existing or a new interpreter. -/
theorem C91_script (k : Nat) (code module : Str) (tracing onlyExpand : Bool) (st : St) :
    (∀ sid, SameFns st (Out.after (lispEval (run k) code sid module tracing onlyExpand st))) ∧ SameFns st (Out.after (lispEvalNew k code module tracing onlyExpand st)) :=
  ⟨fun _ => fns_after st, fns_after st⟩

/-- C91: code with an attached debugger, whatever breakpoints there are and whatever commands are given. -/
theorem C91_debug (k : Nat) (ast : Ptr) (sid : Nat) (st : St) : SameFns st (Out.after ((runD k).eval ast sid st)) := fns_after st

/-- C91: the whole program with any arguments and any input. -/
theorem C91_program (k : Nat) (stack : Str) (hasDebugger : Bool) (args : List Str) (st : St) :
    SameFns st (Out.after (mainExtended k stack hasDebugger args st)) := fns_after st

/-- The scopes around an existing scope stay the same. -/
theorem enclosing_kept {a b : St} (hl : ∀ i c, (a.scopes i).closure = some c → c < i) (hc : ∀ j, j < a.next → (b.scopes j).closure = (a.scopes j).closure)
    {s : Nat} {l : List Nat} (h : Enclosing a s l) : s < a.next → Enclosing b s l := by
  induction h with
  | nil e => exact fun hs => .nil (by rw [hc _ hs]; exact e)
  | cons e _ ih => exact fun hs => .cons (by rw [hc _ hs]; exact e) (ih (Nat.lt_trans (hl _ _ e) hs))

/-- C91: the scopes that a function sees stay the same, with the same global scope: evaluating code. -/
theorem C91_scopes_eval {st : St} (h : Reachable st) (k : Nat) (ast : Ptr) {sid : Nat} (hs : sid < st.next) {i : Nat} (hi : i < st.next) {l : List Nat}
    (he : Enclosing st (st.clos i).scope l) :
    Enclosing (Out.after ((run k).eval ast sid st)) ((Out.after ((run k).eval ast sid st)).clos i).scope l ∧
    ∀ s, s < st.next → ((Out.after ((run k).eval ast sid st)).scopes s).global = (st.scopes s).global := by
  have hp := Pres2.any (sid := sid) (m := (run k).eval ast sid) st
  rw [after_eq, hp.clos i hi]
  exact ⟨enclosing_kept h.links.old (hp.closure hs) he (by have := h.links.clos i; omega), hp.glob hs⟩

/-- C91: the same for calls of functions. -/
theorem C91_scopes_call {st : St} (h : Reachable st) (k : Nat) (f : FnW) (args : List Ptr) {sid : Nat} (hs : sid < st.next) {i : Nat} (hi : i < st.next) {l : List Nat}
    (he : Enclosing st (st.clos i).scope l) :
    Enclosing (Out.after ((run k).call f args sid st)) ((Out.after ((run k).call f args sid st)).clos i).scope l ∧
    ∀ s, s < st.next → ((Out.after ((run k).call f args sid st)).scopes s).global = (st.scopes s).global := by
  have hp := Pres2.any (sid := sid) (m := (run k).call f args sid) st
  rw [after_eq, hp.clos i hi]
  exact ⟨enclosing_kept h.links.old (hp.closure hs) he (by have := h.links.clos i; omega), hp.glob hs⟩

/-- C91: the same for scripts. -/
theorem C91_scopes_script {st : St} (h : Reachable st) (k : Nat) (code module : Str) (tracing onlyExpand : Bool) {sid : Nat} (hs : sid < st.next) {i : Nat} (hi : i < st.next)
    {l : List Nat} (he : Enclosing st (st.clos i).scope l) :
    Enclosing (Out.after (lispEval (run k) code sid module tracing onlyExpand st)) ((Out.after (lispEval (run k) code sid module tracing onlyExpand st)).clos i).scope l ∧
    ∀ s, s < st.next → ((Out.after (lispEval (run k) code sid module tracing onlyExpand st)).scopes s).global = (st.scopes s).global := by
  have hp := Pres2.any (sid := sid) (m := lispEval (run k) code sid module tracing onlyExpand) st
  rw [after_eq, hp.clos i hi]
  exact ⟨enclosing_kept h.links.old (hp.closure hs) he (by have := h.links.clos i; omega), hp.glob hs⟩
end

/-- C91 does not hold for the code in the body: a list from which a function was made with `eval` is its body, and `push` to this list changes
what the function computes. -/
theorem C91_body_wrong :
    (Out.after (@lispEvalNew demoWorld 60 c!"(do (def body '(+ 1 2)) (def f (eval (list 'fn '() body))) (println (f)) (push 10 body 1) (println (f)))" [] false false {})).out =
      c!"3\n13\n" := by decide +kernel

/-- A program in which a function creates another function. -/
def demoMaker : St := Out.after (@lispEvalNew demoWorld 60 c!"(do (defn mk (x) (fn (y) (+ x y))) (def g (mk 1)))" [] false false {})

-- the function with the number 347 is the second one: it sees the scope of the call of the first one, and behind it the global scope
example : ∃ s l, Enclosing demoMaker (demoMaker.clos 347).scope (s :: l) ∧ 347 < demoMaker.next := by
  have h : 347 < demoMaker.next ∧ (demoMaker.scopes (demoMaker.clos 347).scope).closure = some 0 ∧ (demoMaker.scopes 0).closure = none := by decide +kernel
  exact ⟨0, [], .cons h.2.1 (.nil h.2.2), h.1⟩

-- the state can be reached
example : @Reachable demoWorld demoMaker := by
  letI := demoWorld
  have h0 : Reachable {} := .init rfl (fun _ => rfl) (fun _ => rfl) (fun _ => rfl) (fun _ => rfl)
  obtain ⟨s', h, hn⟩ := create_ok {}
  have h1 := Reachable.create h0
  rw [h] at h1
  have h2 := Reachable.script 60 c!"(do (defn mk (x) (fn (y) (+ x y))) (def g (mk 1)))" 0 [] false false h1 hn
  unfold demoMaker lispEvalNew
  rw [M.bind_apply, h]
  exact h2

end Fuel
