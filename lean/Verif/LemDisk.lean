import Verif.PropsConsume
import Verif.PropsConv
/-!
# What the evaluator and the debugger do to the files
-/

set_option linter.unusedSectionVars false
set_option linter.unusedSimpArgs false

namespace Fuel

namespace Spec

/-- No file is removed, the files that cannot be written keep their texts, and the clock does not go back. -/
structure Disk [World] (st st' : St) : Prop where
  kept : ∀ name, st.files.lookup name ≠ none → st'.files.lookup name ≠ none
  same : ∀ name, World.canWrite name = false → st'.files.lookup name = st.files.lookup name
  clock : st.clock ≤ st'.clock

end Spec

open Spec

variable [World] {sid n : Nat} {α : Type}

instance : Rel Disk where
  refl _ := ⟨fun _ h => h, fun _ _ => rfl, Nat.le_refl _⟩
  trans h g := ⟨fun f hf => g.kept f (h.kept f hf), fun f hf => (g.same f hf).trans (h.same f hf), Nat.le_trans h.clock g.clock⟩
  ext h := ⟨fun _ hf => by rw [h.files]; exact hf, fun _ _ => by rw [h.files], by rw [h.clock]; exact Nat.le_refl _⟩

/-! ## Steps that do not touch the files -/

theorem pres_disk {m : M α} (h : ∀ s, (m s).st.files = s.files ∧ (m s).st.clock = s.clock) : Pres Disk m :=
  ⟨fun s => ⟨fun _ hf => by rw [(h s).1]; exact hf, fun _ _ => by rw [(h s).1], by rw [(h s).2]; exact Nat.le_refl _⟩⟩
instance (t : Str) : Pres Disk (write t) := pres_disk fun _ => ⟨rfl, rfl⟩
instance : Pres Disk (M.modify fun s => { s with clock := s.clock + 1 }) := ⟨fun _ => ⟨fun _ h => h, fun _ _ => rfl, Nat.le_succ _⟩⟩
instance : Pres Disk readLine := by
  have h (l : List Str) : Pres Disk (M.modify fun s => { s with input := l }) := pres_disk fun _ => ⟨rfl, rfl⟩
  unfold readLine; pres
instance (x : Option Variant) : Pres Disk (derefV x) := by unfold derefV; pres
instance (t : Str) : Pres Disk (writeLine t) := inferInstanceAs (Pres Disk (write _))
instance (n : Nat) : Pres Disk (askClear n) := by
  induction n with
  | zero => unfold askClear; pres
  | succ n ih => unfold askClear; pres
instance (d : Dbg) (c : Str) : Pres Disk (clearCommand d c) := by unfold clearCommand; pres
instance (n : Nat) (l : List Bp) : Pres Disk (showBreakpoints n l) := by
  induction l generalizing n with
  | nil => unfold showBreakpoints; pres
  | cons a l ih => unfold showBreakpoints; pres
instance (b : List Bp) (m : Str) (c n : Nat) (l : List Str) : Pres Disk (showSource b m c n l) := by
  induction l generalizing n with
  | nil => unfold showSource; pres
  | cons a l ih => unfold showSource; pres
instance (n : Nat) (sel : FnW → Bool) (info : FnW → Fuel.R Str) (l : List (Str × Ptr)) : Pres Disk (dumpFns n sel info l) := by
  induction l with
  | nil => unfold dumpFns; pres
  | cons a l ih => unfold dumpFns; pres
instance (n : Nat) (l : List (Str × Ptr)) : Pres Disk (dumpHelp n l) := by
  induction l with
  | nil => unfold dumpHelp; pres
  | cons a l ih => unfold dumpHelp; pres
instance (n : Nat) (l : List (Str × Ptr)) : Pres Disk (dumpVars n l) := by
  induction l with
  | nil => unfold dumpVars; pres
  | cons a l ih => unfold dumpVars; pres
instance (n : Nat) (f : FnW → Fuel.R Str) (l : List (Str × Ptr)) : Pres Disk (dumpFunctions.go n f l) := by
  induction l with
  | nil => unfold dumpFunctions.go; pres
  | cons a l ih => unfold dumpFunctions.go; pres
instance (n g : Nat) : Pres Disk (dumpFunctions n g) := by unfold dumpFunctions; pres
instance (l : List Str) : Pres Disk (writeLines l) := by
  induction l with
  | nil => unfold writeLines; pres
  | cons a l ih => unfold writeLines; pres
instance : Pres Disk showVersion := by unfold showVersion; pres
instance : Pres Disk showAbout := by unfold showAbout; pres
instance {α : Type} {m : M α} [h : Pres Disk m] : Pres Disk (tryM m) := ⟨fun s => by
  have := h.rel s
  unfold tryM
  cases e : m s with
  | ok a s' => rw [e] at this; exact this
  | fail f s' =>
    rw [e] at this
    cases f with
    | exn x => exact this
    | _ => exact this⟩
instance (j f) : Pres Disk (modScope j f) := pres_disk fun _ => ⟨rfl, rfl⟩
instance (j name v) : Pres Disk (setVar j name v) := pres_disk fun _ => ⟨rfl, rfl⟩
instance (i l) : Pres Disk (setList i l) := pres_disk fun _ => ⟨rfl, rfl⟩
instance (i d) : Pres Disk (setDict i d) := pres_disk fun _ => ⟨rfl, rfl⟩
instance (c) : Pres Disk (allocScope c) := pres_disk fun _ => ⟨rfl, rfl⟩
instance (c) : Pres Disk (allocClosure c) := pres_disk fun _ => ⟨rfl, rfl⟩
instance (i j) : Pres Disk (pushNext i j) := by unfold pushNext; pres
instance (i) : Pres Disk (popNext i) := by unfold popNext; pres
instance (t) : Pres Disk (setCurTok sid t) := by unfold setCurTok; pres
instance (f : Dbg → Dbg) : Pres Disk (M.modify fun s => { s with dbg := f s.dbg }) := pres_disk fun _ => ⟨rfl, rfl⟩
instance (l) : Pres Disk (M.modify fun s => { s with libPath := l }) := pres_disk fun _ => ⟨rfl, rfl⟩
instance (args) : Pres Disk (bReadLine args sid) := by
  have h (l : List Str) : Pres Disk (M.modify fun s => { s with input := l }) := pres_disk fun _ => ⟨rfl, rfl⟩
  unfold bReadLine; pres
instance {m : M α} [h : Pres Disk m] : Pres Disk (sliceExn m) := ⟨fun s => by
  have := h.rel s
  unfold sliceExn
  cases e : m s with
  | ok a s' => rw [e] at this; exact this
  | fail f s' =>
    rw [e] at this
    cases f with
    | exn x => cases x <;> exact this
    | _ => exact this⟩
instance (sx : Sx) : Pres Disk (allocSx sx) := ⟨fun s => Rel.ext ((inferInstance : Pres Grows (allocSx sx)).rel s)⟩
instance (l : List Sx) : Pres Disk (allocSxs l) := ⟨fun s => Rel.ext ((inferInstance : Pres Grows (allocSxs l)).rel s)⟩

/-! ## Builtin functions -/

instance (i name v) : Pres Disk (setInScopes i name v) := by unfold setInScopes; pres
instance (args j) : Pres Disk (stringRep n args j) := by unfold stringRep; pres
instance (t) : Pres Disk (dumpDocumentation t) := by unfold dumpDocumentation; pres
instance (f args j) : Pres Disk (searchDocumentation n f args j) := by unfold searchDocumentation; pres
instance (j) : Pres Disk (bHelp j) := by unfold bHelp; pres
instance (args j) : Pres Disk (bDoc n args j) := by unfold bDoc; pres
instance (args j) : Pres Disk (bSearchDoc n args j) := by unfold bSearchDoc; pres
instance (j) : Pres Disk (bHtmlDoc n j) := by unfold bHtmlDoc; pres
instance (j) : Pres Disk (bBreak j) := by unfold bBreak; pres
instance (j) : Pres Disk (bVars n j) := by unfold bVars; pres
instance (args) : Pres Disk (bDelVar n args sid) := by unfold bDelVar; pres
instance (args) : Pres Disk (bTrace n args sid) := by unfold bTrace; pres
instance (args) : Pres Disk (bTickCount args sid) := by unfold bTickCount; pres
instance : Pres Disk bDatetime := by unfold bDatetime; pres
instance (args) : Pres Disk (bReturn args sid) := by unfold bReturn; pres
instance (args j) : Pres Disk (bPrint n args j) := by unfold bPrint; pres
instance (args j) : Pres Disk (bPrintLn n args j) := by unfold bPrintLn; pres
instance (args) : Pres Disk (bPush n args sid) := by unfold bPush; pres
instance (args) : Pres Disk (bPop n args sid) := by unfold bPop; pres
instance (args) : Pres Disk (bDictSet n args sid) := by unfold bDictSet; pres
instance (args) : Pres Disk (bDictRemove n args sid) := by unfold bDictRemove; pres
instance (args) : Pres Disk (bDictClear args sid) := by unfold bDictClear; pres
theorem disk_write {name : Str} (text : Str) (h : World.canWrite name = true) : Pres Disk (M.modify fun s => { s with files := mapSet name text s.files }) := ⟨fun s => by
  simp only [M.modify, Out.st]
  refine ⟨fun f hf => ?_, fun f hf => ?_, Nat.le_refl _⟩
  · simp only [lookup_mapSet']
    split
    · exact fun h => by cases h
    · exact hf
  · simp only [lookup_mapSet']
    rw [if_neg (fun e => by rw [e, h] at hf; cases hf)]⟩
instance (args) : Pres Disk (bFileWrite n args sid) := by
  unfold bFileWrite
  refine Pres.bind inferInstance fun _ => Pres.bind inferInstance fun v => Pres.bind inferInstance fun w => Pres.bind inferInstance fun name =>
    Pres.bind inferInstance fun text => ?_
  by_cases h : World.canWrite name = true
  · rw [if_pos h]
    have := disk_write text h
    pres
  · rw [if_neg h]; pres

/-! ## The evaluator -/

/-- Every entry point of the evaluator has the described effect. -/
class RecDisk (r : Rec) : Prop where
  eval : ∀ p sid, Pres Disk (r.eval p sid)
  call : ∀ f l sid, Pres Disk (r.call f l sid)
  expand : ∀ p sid, Pres Disk (r.expand p sid)
  expand3 : ∀ p sid, Pres Disk (r.expand3 p sid)
  procQ : ∀ l sid, Pres Disk (r.procQ l sid)
  subst : ∀ v p b l, Pres Disk (r.subst v p b l)
  whileL : ∀ c b sid v w, Pres Disk (r.whileL c b sid v w)

attribute [instance] RecDisk.eval RecDisk.call RecDisk.expand RecDisk.expand3 RecDisk.procQ RecDisk.subst RecDisk.whileL

variable {r : Rec} [RecDisk r]

instance (l) : Pres Disk (evalArgIfNeeded r l sid) := by unfold evalArgIfNeeded; pres
instance (l) : Pres Disk (bRval r l sid) := by unfold bRval; pres


instance (p) : Pres Disk (convertList n p) := by unfold convertList; pres
instance (p) : Pres Disk (expandLoop r p sid) := by unfold expandLoop; pres
instance (a b c l) : Pres Disk (substLoop r a b c l) := by
  induction l with
  | nil => unfold substLoop; pres
  | cons e l ih => unfold substLoop; pres
instance (ast f i e) : Pres Disk (replaceFormals r ast sid f i e) := by
  induction f generalizing i e with
  | nil => unfold replaceFormals; pres
  | cons a f ih => unfold replaceFormals; pres
instance (f a e) : Pres Disk (replaceArgs r f a e sid) := by unfold replaceArgs; pres
instance (l) : Pres Disk (expandElems r sid l) := by
  induction l with
  | nil => unfold expandElems; pres
  | cons e l ih => unfold expandElems; pres
instance (l f) : Pres Disk (expandMacroOrElems r l f sid) := by unfold expandMacroOrElems; pres
instance (p) : Pres Disk (expandStep r p sid) := by unfold expandStep; pres
instance (p) : Pres Disk (spliced n p) := by unfold spliced; pres
instance (a l) : Pres Disk (evalArgs r a sid l) := by
  induction l with
  | nil => unfold evalArgs; pres
  | cons e l ih => unfold evalArgs; pres
instance (p j) : Pres Disk (traceCall n p j) := by unfold traceCall; pres
instance (l) : Pres Disk (evalList r l sid) := by unfold evalList; pres
instance (p) : Pres Disk (evalStep r p sid) := by unfold evalStep; pres
instance (p) : Pres Disk (evalArgIfNeeded r p sid) := by unfold evalArgIfNeeded; pres
instance (a b l) : Pres Disk (bDefHelper r a b l sid) := by unfold bDefHelper; pres
instance (l) : Pres Disk (bDef r l sid) := by unfold bDef; pres
instance (l) : Pres Disk (bGdef r l sid) := by unfold bGdef; pres
instance (p k x) : Pres Disk (lvalSet n p k x) := by unfold lvalSet; pres
instance (l) : Pres Disk (bSetf r l sid) := by unfold bSetf; pres

/-- The evaluation of a place or value with the flag switched to `b` and back. -/
instance (f l) : Pres Disk (mapLoop r f sid l) := by
  induction l with
  | nil => unfold mapLoop; pres
  | cons e l ih => unfold mapLoop; pres
instance (f a l) : Pres Disk (reduceLoop r f sid a l) := by
  induction l generalizing a with
  | nil => unfold reduceLoop; pres
  | cons e l ih => unfold reduceLoop; pres
instance (l) : Pres Disk (bMap r l sid) := by unfold bMap; pres
instance (l) : Pres Disk (bReduce r l sid) := by unfold bReduce; pres
instance (l) : Pres Disk (bApply r l sid) := by unfold bApply; pres
instance (l) : Pres Disk (bEval r l sid) := by unfold bEval; pres
instance (k) : Pres Disk (padNil k) := by
  induction k with
  | zero => unfold padNil; pres
  | succ k ih => unfold padNil; pres
instance (j f l) : Pres Disk (bindFormals n j f l) := by
  induction f generalizing l with
  | nil => unfold bindFormals; pres
  | cons a f ih => cases l <;> (unfold bindFormals; pres)
instance (c o) : Pres Disk (evalCode r c sid o) := by unfold evalCode; pres
instance (c m t o) : Pres Disk (lispEval r c sid m t o) := by unfold lispEval; pres
instance (c : Closure) (l) (child : Nat) : Pres Disk (callBody r c l child) := by unfold callBody; pres
instance (c l) : Pres Disk (callClosure r c l sid) := by unfold callClosure; pres
instance (n g f c) : Pres Disk (importBody r g f c n) := by unfold importBody; pres
instance (f c) : Pres Disk (importOne r sid f c) := by unfold importOne; pres
instance (l) : Pres Disk (bEvalStr r l sid) := by unfold bEvalStr; pres

instance (v l) : Pres Disk (importLoop r sid v l) := by
  induction l generalizing v with
  | nil => unfold importLoop; pres
  | cons a l ih => unfold importLoop; pres
instance (l) : Pres Disk (bImport r l sid) := by unfold bImport; pres
instance (a v l) : Pres Disk (boolLoop r a sid v l) := by
  induction l generalizing v with
  | nil => unfold boolLoop; pres
  | cons a l ih => unfold boolLoop; pres
instance (a l) : Pres Disk (bBool r a l sid) := by unfold bBool; pres
instance (l) : Pres Disk (bDefineMacroEval r l sid) := by unfold bDefineMacroEval; pres
instance (l) : Pres Disk (bDefineMacroExpand r l sid) := by unfold bDefineMacroExpand; pres
instance (l) : Pres Disk (procQLoop r sid l) := by
  induction l with
  | nil => unfold procQLoop; pres
  | cons a l ih => unfold procQLoop; pres
instance (l) : Pres Disk (procQStep r l sid) := by unfold procQStep; pres
instance (l) : Pres Disk (bQuasiquote r l sid) := by unfold bQuasiquote; pres
instance (l) : Pres Disk (bIf r l sid) := by unfold bIf bIf.go; pres
instance (c b v w) : Pres Disk (whileStep r c b sid v w) := by unfold whileStep; pres
instance (l) : Pres Disk (bWhile r l sid) := by unfold bWhile; pres
instance (v l) : Pres Disk (doLoop r sid v l) := by
  induction l generalizing v with
  | nil => unfold doLoop; pres
  | cons a l ih => unfold doLoop; pres
instance (l) : Pres Disk (bFn l sid) := by unfold bFn; pres
instance (l) : Pres Disk (updateDoc n l sid) := by unfold updateDoc; pres
instance (c) : Pres Disk (globalFunction n c sid) := by unfold globalFunction; pres
instance (c l) : Pres Disk (bDefn r c l sid) := by unfold bDefn; pres
instance (b l) : Pres Disk (callPrim r b l sid) := by cases b <;> (unfold callPrim; pres)
instance (f l) : Pres Disk (callStep r f l sid) := by unfold callStep; pres


end Fuel
