import Verif.PropsConsume
/-!
# The evaluator and the debugger never change a function
-/

set_option linter.unusedSectionVars false
set_option linter.unusedSimpArgs false

namespace Fuel

namespace Spec

/-- The functions that exist before exist afterwards, with the same name, module, parameters, body and scope. -/
structure SameFns (st st' : St) : Prop where
  next : st.next ≤ st'.next
  same : ∀ i, i < st.next → st'.clos i = st.clos i

end Spec

open Spec

variable [World] {sid n : Nat} {α : Type}

instance : Rel SameFns where
  refl _ := ⟨Nat.le_refl _, fun _ _ => rfl⟩
  trans h g := ⟨Nat.le_trans h.next g.next, fun i hi => (g.same i (Nat.lt_of_lt_of_le hi h.next)).trans (h.same i hi)⟩
  ext h := ⟨h.next, h.clos⟩

/-! ## Steps that create no function -/

theorem pres_fns {m : M α} (h : ∀ s, s.next ≤ (m s).st.next ∧ (m s).st.clos = s.clos) : Pres SameFns m :=
  ⟨fun s => ⟨(h s).1, fun i _ => by rw [(h s).2]⟩⟩
instance (t : Str) : Pres SameFns (write t) := pres_fns fun s => ⟨Nat.le_refl s.next, rfl⟩
instance : Pres SameFns (M.modify fun s => { s with clock := s.clock + 1 }) := pres_fns fun s => ⟨Nat.le_refl s.next, rfl⟩
instance (f : List (Str × Str) → List (Str × Str)) : Pres SameFns (M.modify fun s => { s with files := f s.files }) := pres_fns fun s => ⟨Nat.le_refl s.next, rfl⟩
instance : Pres SameFns readLine := by
  have h (l : List Str) : Pres SameFns (M.modify fun s => { s with input := l }) := pres_fns fun s => ⟨Nat.le_refl s.next, rfl⟩
  unfold readLine; pres
instance (x : Option Variant) : Pres SameFns (derefV x) := by unfold derefV; pres
instance (t : Str) : Pres SameFns (writeLine t) := inferInstanceAs (Pres SameFns (write _))
instance (n : Nat) : Pres SameFns (askClear n) := by
  induction n with
  | zero => unfold askClear; pres
  | succ n ih => unfold askClear; pres
instance (d : Dbg) (c : Str) : Pres SameFns (clearCommand d c) := by unfold clearCommand; pres
instance (n : Nat) (l : List Bp) : Pres SameFns (showBreakpoints n l) := by
  induction l generalizing n with
  | nil => unfold showBreakpoints; pres
  | cons a l ih => unfold showBreakpoints; pres
instance (b : List Bp) (m : Str) (c n : Nat) (l : List Str) : Pres SameFns (showSource b m c n l) := by
  induction l generalizing n with
  | nil => unfold showSource; pres
  | cons a l ih => unfold showSource; pres
instance (n : Nat) (sel : FnW → Bool) (info : FnW → Fuel.R Str) (l : List (Str × Ptr)) : Pres SameFns (dumpFns n sel info l) := by
  induction l with
  | nil => unfold dumpFns; pres
  | cons a l ih => unfold dumpFns; pres
instance (n : Nat) (l : List (Str × Ptr)) : Pres SameFns (dumpHelp n l) := by
  induction l with
  | nil => unfold dumpHelp; pres
  | cons a l ih => unfold dumpHelp; pres
instance (n : Nat) (l : List (Str × Ptr)) : Pres SameFns (dumpVars n l) := by
  induction l with
  | nil => unfold dumpVars; pres
  | cons a l ih => unfold dumpVars; pres
instance (n : Nat) (f : FnW → Fuel.R Str) (l : List (Str × Ptr)) : Pres SameFns (dumpFunctions.go n f l) := by
  induction l with
  | nil => unfold dumpFunctions.go; pres
  | cons a l ih => unfold dumpFunctions.go; pres
instance (n g : Nat) : Pres SameFns (dumpFunctions n g) := by unfold dumpFunctions; pres
instance (l : List Str) : Pres SameFns (writeLines l) := by
  induction l with
  | nil => unfold writeLines; pres
  | cons a l ih => unfold writeLines; pres
instance : Pres SameFns showVersion := by unfold showVersion; pres
instance : Pres SameFns showAbout := by unfold showAbout; pres
instance {α : Type} {m : M α} [h : Pres SameFns m] : Pres SameFns (tryM m) := ⟨fun s => by
  have := h.rel s
  unfold tryM
  cases e : m s with
  | ok a s' => rw [e] at this; exact this
  | fail f s' =>
    rw [e] at this
    cases f with
    | exn x => exact this
    | _ => exact this⟩
instance (j f) : Pres SameFns (modScope j f) := pres_fns fun s => ⟨Nat.le_refl s.next, rfl⟩
instance (j name v) : Pres SameFns (setVar j name v) := pres_fns fun s => ⟨Nat.le_refl s.next, rfl⟩
instance (i l) : Pres SameFns (setList i l) := pres_fns fun s => ⟨Nat.le_refl s.next, rfl⟩
instance (i d) : Pres SameFns (setDict i d) := pres_fns fun s => ⟨Nat.le_refl s.next, rfl⟩
instance (c) : Pres SameFns (allocScope c) := pres_fns fun s => ⟨Nat.le_succ s.next, rfl⟩
instance (c) : Pres SameFns (allocClosure c) := ⟨fun s => ⟨Nat.le_succ s.next, fun _ hi => fset_ne _ _ (Nat.ne_of_lt hi)⟩⟩
instance (i j) : Pres SameFns (pushNext i j) := by unfold pushNext; pres
instance (i) : Pres SameFns (popNext i) := by unfold popNext; pres
instance (t) : Pres SameFns (setCurTok sid t) := by unfold setCurTok; pres
instance (f : Dbg → Dbg) : Pres SameFns (M.modify fun s => { s with dbg := f s.dbg }) := pres_fns fun s => ⟨Nat.le_refl s.next, rfl⟩
instance (l) : Pres SameFns (M.modify fun s => { s with libPath := l }) := pres_fns fun s => ⟨Nat.le_refl s.next, rfl⟩
instance (args) : Pres SameFns (bReadLine args sid) := by
  have h (l : List Str) : Pres SameFns (M.modify fun s => { s with input := l }) := pres_fns fun s => ⟨Nat.le_refl s.next, rfl⟩
  unfold bReadLine; pres
instance {m : M α} [h : Pres SameFns m] : Pres SameFns (sliceExn m) := ⟨fun s => by
  have := h.rel s
  unfold sliceExn
  cases e : m s with
  | ok a s' => rw [e] at this; exact this
  | fail f s' =>
    rw [e] at this
    cases f with
    | exn x => cases x <;> exact this
    | _ => exact this⟩
instance (sx : Sx) : Pres SameFns (allocSx sx) := ⟨fun s => Rel.ext ((inferInstance : Pres Grows (allocSx sx)).rel s)⟩
instance (l : List Sx) : Pres SameFns (allocSxs l) := ⟨fun s => Rel.ext ((inferInstance : Pres Grows (allocSxs l)).rel s)⟩

/-! ## Builtin functions -/

instance (i name v) : Pres SameFns (setInScopes i name v) := by unfold setInScopes; pres
instance (args j) : Pres SameFns (stringRep n args j) := by unfold stringRep; pres
instance (t) : Pres SameFns (dumpDocumentation t) := by unfold dumpDocumentation; pres
instance (f args j) : Pres SameFns (searchDocumentation n f args j) := by unfold searchDocumentation; pres
instance (j) : Pres SameFns (bHelp j) := by unfold bHelp; pres
instance (args j) : Pres SameFns (bDoc n args j) := by unfold bDoc; pres
instance (args j) : Pres SameFns (bSearchDoc n args j) := by unfold bSearchDoc; pres
instance (j) : Pres SameFns (bHtmlDoc n j) := by unfold bHtmlDoc; pres
instance (j) : Pres SameFns (bBreak j) := by unfold bBreak; pres
instance (j) : Pres SameFns (bVars n j) := by unfold bVars; pres
instance (args) : Pres SameFns (bDelVar n args sid) := by unfold bDelVar; pres
instance (args) : Pres SameFns (bTrace n args sid) := by unfold bTrace; pres
instance (args) : Pres SameFns (bTickCount args sid) := by unfold bTickCount; pres
instance : Pres SameFns bDatetime := by unfold bDatetime; pres
instance (args) : Pres SameFns (bReturn args sid) := by unfold bReturn; pres
instance (args j) : Pres SameFns (bPrint n args j) := by unfold bPrint; pres
instance (args j) : Pres SameFns (bPrintLn n args j) := by unfold bPrintLn; pres
instance (args) : Pres SameFns (bPush n args sid) := by unfold bPush; pres
instance (args) : Pres SameFns (bPop n args sid) := by unfold bPop; pres
instance (args) : Pres SameFns (bDictSet n args sid) := by unfold bDictSet; pres
instance (args) : Pres SameFns (bDictRemove n args sid) := by unfold bDictRemove; pres
instance (args) : Pres SameFns (bDictClear args sid) := by unfold bDictClear; pres
instance (args) : Pres SameFns (bFileWrite n args sid) := by unfold bFileWrite; pres

/-! ## The evaluator -/

/-- Every entry point of the evaluator has the described effect. -/
class RecFns (r : Rec) : Prop where
  eval : ∀ p sid, Pres SameFns (r.eval p sid)
  call : ∀ f l sid, Pres SameFns (r.call f l sid)
  expand : ∀ p sid, Pres SameFns (r.expand p sid)
  expand3 : ∀ p sid, Pres SameFns (r.expand3 p sid)
  procQ : ∀ l sid, Pres SameFns (r.procQ l sid)
  subst : ∀ v p b l, Pres SameFns (r.subst v p b l)
  whileL : ∀ c b sid v w, Pres SameFns (r.whileL c b sid v w)

attribute [instance] RecFns.eval RecFns.call RecFns.expand RecFns.expand3 RecFns.procQ RecFns.subst RecFns.whileL

variable {r : Rec} [RecFns r]

instance (l) : Pres SameFns (evalArgIfNeeded r l sid) := by unfold evalArgIfNeeded; pres
instance (l) : Pres SameFns (bRval r l sid) := by unfold bRval; pres


instance (p) : Pres SameFns (convertList n p) := by unfold convertList; pres
instance (p) : Pres SameFns (expandLoop r p sid) := by unfold expandLoop; pres
instance (a b c l) : Pres SameFns (substLoop r a b c l) := by
  induction l with
  | nil => unfold substLoop; pres
  | cons e l ih => unfold substLoop; pres
instance (ast f i e) : Pres SameFns (replaceFormals r ast sid f i e) := by
  induction f generalizing i e with
  | nil => unfold replaceFormals; pres
  | cons a f ih => unfold replaceFormals; pres
instance (f a e) : Pres SameFns (replaceArgs r f a e sid) := by unfold replaceArgs; pres
instance (l) : Pres SameFns (expandElems r sid l) := by
  induction l with
  | nil => unfold expandElems; pres
  | cons e l ih => unfold expandElems; pres
instance (l f) : Pres SameFns (expandMacroOrElems r l f sid) := by unfold expandMacroOrElems; pres
instance (p) : Pres SameFns (expandStep r p sid) := by unfold expandStep; pres
instance (p) : Pres SameFns (spliced n p) := by unfold spliced; pres
instance (a l) : Pres SameFns (evalArgs r a sid l) := by
  induction l with
  | nil => unfold evalArgs; pres
  | cons e l ih => unfold evalArgs; pres
instance (p j) : Pres SameFns (traceCall n p j) := by unfold traceCall; pres
instance (l) : Pres SameFns (evalList r l sid) := by unfold evalList; pres
instance (p) : Pres SameFns (evalStep r p sid) := by unfold evalStep; pres
instance (p) : Pres SameFns (evalArgIfNeeded r p sid) := by unfold evalArgIfNeeded; pres
instance (a b l) : Pres SameFns (bDefHelper r a b l sid) := by unfold bDefHelper; pres
instance (l) : Pres SameFns (bDef r l sid) := by unfold bDef; pres
instance (l) : Pres SameFns (bGdef r l sid) := by unfold bGdef; pres
instance (p k x) : Pres SameFns (lvalSet n p k x) := by unfold lvalSet; pres
instance (l) : Pres SameFns (bSetf r l sid) := by unfold bSetf; pres

/-- The evaluation of a place or value with the flag switched to `b` and back. -/
instance (f l) : Pres SameFns (mapLoop r f sid l) := by
  induction l with
  | nil => unfold mapLoop; pres
  | cons e l ih => unfold mapLoop; pres
instance (f a l) : Pres SameFns (reduceLoop r f sid a l) := by
  induction l generalizing a with
  | nil => unfold reduceLoop; pres
  | cons e l ih => unfold reduceLoop; pres
instance (l) : Pres SameFns (bMap r l sid) := by unfold bMap; pres
instance (l) : Pres SameFns (bReduce r l sid) := by unfold bReduce; pres
instance (l) : Pres SameFns (bApply r l sid) := by unfold bApply; pres
instance (l) : Pres SameFns (bEval r l sid) := by unfold bEval; pres
instance (k) : Pres SameFns (padNil k) := by
  induction k with
  | zero => unfold padNil; pres
  | succ k ih => unfold padNil; pres
instance (j f l) : Pres SameFns (bindFormals n j f l) := by
  induction f generalizing l with
  | nil => unfold bindFormals; pres
  | cons a f ih => cases l <;> (unfold bindFormals; pres)
instance (c o) : Pres SameFns (evalCode r c sid o) := by unfold evalCode; pres
instance (c m t o) : Pres SameFns (lispEval r c sid m t o) := by unfold lispEval; pres
instance (c : Closure) (l) (child : Nat) : Pres SameFns (callBody r c l child) := by unfold callBody; pres
instance (c l) : Pres SameFns (callClosure r c l sid) := by unfold callClosure; pres
instance (n g f c) : Pres SameFns (importBody r g f c n) := by unfold importBody; pres
instance (f c) : Pres SameFns (importOne r sid f c) := by unfold importOne; pres
instance (l) : Pres SameFns (bEvalStr r l sid) := by unfold bEvalStr; pres

instance (v l) : Pres SameFns (importLoop r sid v l) := by
  induction l generalizing v with
  | nil => unfold importLoop; pres
  | cons a l ih => unfold importLoop; pres
instance (l) : Pres SameFns (bImport r l sid) := by unfold bImport; pres
instance (a v l) : Pres SameFns (boolLoop r a sid v l) := by
  induction l generalizing v with
  | nil => unfold boolLoop; pres
  | cons a l ih => unfold boolLoop; pres
instance (a l) : Pres SameFns (bBool r a l sid) := by unfold bBool; pres
instance (l) : Pres SameFns (bDefineMacroEval r l sid) := by unfold bDefineMacroEval; pres
instance (l) : Pres SameFns (bDefineMacroExpand r l sid) := by unfold bDefineMacroExpand; pres
instance (l) : Pres SameFns (procQLoop r sid l) := by
  induction l with
  | nil => unfold procQLoop; pres
  | cons a l ih => unfold procQLoop; pres
instance (l) : Pres SameFns (procQStep r l sid) := by unfold procQStep; pres
instance (l) : Pres SameFns (bQuasiquote r l sid) := by unfold bQuasiquote; pres
instance (l) : Pres SameFns (bIf r l sid) := by unfold bIf bIf.go; pres
instance (c b v w) : Pres SameFns (whileStep r c b sid v w) := by unfold whileStep; pres
instance (l) : Pres SameFns (bWhile r l sid) := by unfold bWhile; pres
instance (v l) : Pres SameFns (doLoop r sid v l) := by
  induction l generalizing v with
  | nil => unfold doLoop; pres
  | cons a l ih => unfold doLoop; pres
instance (l) : Pres SameFns (bFn l sid) := by unfold bFn; pres
instance (l) : Pres SameFns (updateDoc n l sid) := by unfold updateDoc; pres
instance (c) : Pres SameFns (globalFunction n c sid) := by unfold globalFunction; pres
instance (c l) : Pres SameFns (bDefn r c l sid) := by unfold bDefn; pres
instance (b l) : Pres SameFns (callPrim r b l sid) := by cases b <;> (unfold callPrim; pres)
instance (f l) : Pres SameFns (callStep r f l sid) := by unfold callStep; pres


end Fuel
