import Verif.PropsShell
/-!
# The evaluator and the debugger only append to the output and only take lines from the input
-/

set_option linter.unusedSectionVars false
set_option linter.unusedSimpArgs false

namespace Fuel

open Spec

variable [World] {sid n : Nat} {α : Type}

/-! ## Steps that neither write nor read -/

theorem pres_quiet {m : M α} (h : ∀ s, (m s).st.out = s.out ∧ (m s).st.input = s.input) : Pres Consumes m :=
  ⟨fun s => ⟨by rw [(h s).1]; exact List.prefix_refl _, by rw [(h s).2]; exact List.suffix_refl _⟩⟩
instance (j f) : Pres Consumes (modScope j f) := pres_quiet fun _ => ⟨rfl, rfl⟩
instance (j name v) : Pres Consumes (setVar j name v) := pres_quiet fun _ => ⟨rfl, rfl⟩
instance (i l) : Pres Consumes (setList i l) := pres_quiet fun _ => ⟨rfl, rfl⟩
instance (i d) : Pres Consumes (setDict i d) := pres_quiet fun _ => ⟨rfl, rfl⟩
instance (c) : Pres Consumes (allocScope c) := pres_quiet fun _ => ⟨rfl, rfl⟩
instance (c) : Pres Consumes (allocClosure c) := pres_quiet fun _ => ⟨rfl, rfl⟩
instance (i j) : Pres Consumes (pushNext i j) := by unfold pushNext; pres
instance (i) : Pres Consumes (popNext i) := by unfold popNext; pres
instance (t) : Pres Consumes (setCurTok sid t) := by unfold setCurTok; pres
instance : Pres Consumes (M.modify fun s => { s with clock := s.clock + 1 }) := pres_quiet fun _ => ⟨rfl, rfl⟩
instance (f : List (Str × Str) → List (Str × Str)) : Pres Consumes (M.modify fun s => { s with files := f s.files }) := pres_quiet fun _ => ⟨rfl, rfl⟩
instance (f : Dbg → Dbg) : Pres Consumes (M.modify fun s => { s with dbg := f s.dbg }) := pres_quiet fun _ => ⟨rfl, rfl⟩
instance (l) : Pres Consumes (M.modify fun s => { s with libPath := l }) := pres_quiet fun _ => ⟨rfl, rfl⟩
instance (args) : Pres Consumes (bReadLine args sid) := ⟨fun s => by
  have := (inferInstance : Pres2 sid (bReadLine args sid)).rel s
  cases e : bReadLine args sid s with
  | ok a s' => rw [e] at this; exact ⟨this.out, this.input⟩
  | fail f s' => rw [e] at this; exact ⟨this.out, this.input⟩⟩
instance {m : M α} [h : Pres Consumes m] : Pres Consumes (sliceExn m) := ⟨fun s => by
  have := h.rel s
  unfold sliceExn
  cases e : m s with
  | ok a s' => rw [e] at this; exact this
  | fail f s' =>
    rw [e] at this
    cases f with
    | exn x => cases x <;> exact this
    | _ => exact this⟩
instance (sx : Sx) : Pres Consumes (allocSx sx) := ⟨fun s => Rel.ext ((inferInstance : Pres Grows (allocSx sx)).rel s)⟩
instance (l : List Sx) : Pres Consumes (allocSxs l) := ⟨fun s => Rel.ext ((inferInstance : Pres Grows (allocSxs l)).rel s)⟩

/-! ## Builtin functions -/

instance (i name v) : Pres Consumes (setInScopes i name v) := by unfold setInScopes; pres
instance (args j) : Pres Consumes (stringRep n args j) := by unfold stringRep; pres
instance (t) : Pres Consumes (dumpDocumentation t) := by unfold dumpDocumentation; pres
instance (f args j) : Pres Consumes (searchDocumentation n f args j) := by unfold searchDocumentation; pres
instance (j) : Pres Consumes (bHelp j) := by unfold bHelp; pres
instance (args j) : Pres Consumes (bDoc n args j) := by unfold bDoc; pres
instance (args j) : Pres Consumes (bSearchDoc n args j) := by unfold bSearchDoc; pres
instance (j) : Pres Consumes (bHtmlDoc n j) := by unfold bHtmlDoc; pres
instance (j) : Pres Consumes (bBreak j) := by unfold bBreak; pres
instance (j) : Pres Consumes (bVars n j) := by unfold bVars; pres
instance (args) : Pres Consumes (bDelVar n args sid) := by unfold bDelVar; pres
instance (args) : Pres Consumes (bTrace n args sid) := by unfold bTrace; pres
instance (args) : Pres Consumes (bTickCount args sid) := by unfold bTickCount; pres
instance : Pres Consumes bDatetime := by unfold bDatetime; pres
instance (args) : Pres Consumes (bReturn args sid) := by unfold bReturn; pres
instance (args j) : Pres Consumes (bPrint n args j) := by unfold bPrint; pres
instance (args j) : Pres Consumes (bPrintLn n args j) := by unfold bPrintLn; pres
instance (args) : Pres Consumes (bPush n args sid) := by unfold bPush; pres
instance (args) : Pres Consumes (bPop n args sid) := by unfold bPop; pres
instance (args) : Pres Consumes (bDictSet n args sid) := by unfold bDictSet; pres
instance (args) : Pres Consumes (bDictRemove n args sid) := by unfold bDictRemove; pres
instance (args) : Pres Consumes (bDictClear args sid) := by unfold bDictClear; pres
instance (args) : Pres Consumes (bFileWrite n args sid) := by unfold bFileWrite; pres

/-! ## The evaluator -/

/-- Every entry point of the evaluator has the described effect. -/
class RecConsumes (r : Rec) : Prop where
  eval : ∀ p sid, Pres Consumes (r.eval p sid)
  call : ∀ f l sid, Pres Consumes (r.call f l sid)
  expand : ∀ p sid, Pres Consumes (r.expand p sid)
  expand3 : ∀ p sid, Pres Consumes (r.expand3 p sid)
  procQ : ∀ l sid, Pres Consumes (r.procQ l sid)
  subst : ∀ v p b l, Pres Consumes (r.subst v p b l)
  whileL : ∀ c b sid v w, Pres Consumes (r.whileL c b sid v w)

attribute [instance] RecConsumes.eval RecConsumes.call RecConsumes.expand RecConsumes.expand3 RecConsumes.procQ RecConsumes.subst RecConsumes.whileL

variable {r : Rec} [RecConsumes r]

instance (l) : Pres Consumes (evalArgIfNeeded r l sid) := by unfold evalArgIfNeeded; pres
instance (l) : Pres Consumes (bRval r l sid) := by unfold bRval; pres


instance (p) : Pres Consumes (convertList n p) := by unfold convertList; pres
instance (p) : Pres Consumes (expandLoop r p sid) := by unfold expandLoop; pres
instance (a b c l) : Pres Consumes (substLoop r a b c l) := by
  induction l with
  | nil => unfold substLoop; pres
  | cons e l ih => unfold substLoop; pres
instance (ast f i e) : Pres Consumes (replaceFormals r ast sid f i e) := by
  induction f generalizing i e with
  | nil => unfold replaceFormals; pres
  | cons a f ih => unfold replaceFormals; pres
instance (f a e) : Pres Consumes (replaceArgs r f a e sid) := by unfold replaceArgs; pres
instance (l) : Pres Consumes (expandElems r sid l) := by
  induction l with
  | nil => unfold expandElems; pres
  | cons e l ih => unfold expandElems; pres
instance (l f) : Pres Consumes (expandMacroOrElems r l f sid) := by unfold expandMacroOrElems; pres
instance (p) : Pres Consumes (expandStep r p sid) := by unfold expandStep; pres
instance (p) : Pres Consumes (spliced n p) := by unfold spliced; pres
instance (a l) : Pres Consumes (evalArgs r a sid l) := by
  induction l with
  | nil => unfold evalArgs; pres
  | cons e l ih => unfold evalArgs; pres
instance (p j) : Pres Consumes (traceCall n p j) := by unfold traceCall; pres
instance (l) : Pres Consumes (evalList r l sid) := by unfold evalList; pres
instance (p) : Pres Consumes (evalStep r p sid) := by unfold evalStep; pres
instance (p) : Pres Consumes (evalArgIfNeeded r p sid) := by unfold evalArgIfNeeded; pres
instance (a b l) : Pres Consumes (bDefHelper r a b l sid) := by unfold bDefHelper; pres
instance (l) : Pres Consumes (bDef r l sid) := by unfold bDef; pres
instance (l) : Pres Consumes (bGdef r l sid) := by unfold bGdef; pres
instance (p k x) : Pres Consumes (lvalSet n p k x) := by unfold lvalSet; pres
instance (l) : Pres Consumes (bSetf r l sid) := by unfold bSetf; pres

/-- The evaluation of a place or value with the flag switched to `b` and back. -/
instance (f l) : Pres Consumes (mapLoop r f sid l) := by
  induction l with
  | nil => unfold mapLoop; pres
  | cons e l ih => unfold mapLoop; pres
instance (f a l) : Pres Consumes (reduceLoop r f sid a l) := by
  induction l generalizing a with
  | nil => unfold reduceLoop; pres
  | cons e l ih => unfold reduceLoop; pres
instance (l) : Pres Consumes (bMap r l sid) := by unfold bMap; pres
instance (l) : Pres Consumes (bReduce r l sid) := by unfold bReduce; pres
instance (l) : Pres Consumes (bApply r l sid) := by unfold bApply; pres
instance (l) : Pres Consumes (bEval r l sid) := by unfold bEval; pres
instance (k) : Pres Consumes (padNil k) := by
  induction k with
  | zero => unfold padNil; pres
  | succ k ih => unfold padNil; pres
instance (j f l) : Pres Consumes (bindFormals n j f l) := by
  induction f generalizing l with
  | nil => unfold bindFormals; pres
  | cons a f ih => cases l <;> (unfold bindFormals; pres)
instance (c o) : Pres Consumes (evalCode r c sid o) := by unfold evalCode; pres
instance (c m t o) : Pres Consumes (lispEval r c sid m t o) := by unfold lispEval; pres
instance (c : Closure) (l) (child : Nat) : Pres Consumes (callBody r c l child) := by unfold callBody; pres
instance (c l) : Pres Consumes (callClosure r c l sid) := by unfold callClosure; pres
instance (n g f c) : Pres Consumes (importBody r g f c n) := by unfold importBody; pres
instance (f c) : Pres Consumes (importOne r sid f c) := by unfold importOne; pres
instance (l) : Pres Consumes (bEvalStr r l sid) := by unfold bEvalStr; pres

instance (v l) : Pres Consumes (importLoop r sid v l) := by
  induction l generalizing v with
  | nil => unfold importLoop; pres
  | cons a l ih => unfold importLoop; pres
instance (l) : Pres Consumes (bImport r l sid) := by unfold bImport; pres
instance (a v l) : Pres Consumes (boolLoop r a sid v l) := by
  induction l generalizing v with
  | nil => unfold boolLoop; pres
  | cons a l ih => unfold boolLoop; pres
instance (a l) : Pres Consumes (bBool r a l sid) := by unfold bBool; pres
instance (l) : Pres Consumes (bDefineMacroEval r l sid) := by unfold bDefineMacroEval; pres
instance (l) : Pres Consumes (bDefineMacroExpand r l sid) := by unfold bDefineMacroExpand; pres
instance (l) : Pres Consumes (procQLoop r sid l) := by
  induction l with
  | nil => unfold procQLoop; pres
  | cons a l ih => unfold procQLoop; pres
instance (l) : Pres Consumes (procQStep r l sid) := by unfold procQStep; pres
instance (l) : Pres Consumes (bQuasiquote r l sid) := by unfold bQuasiquote; pres
instance (l) : Pres Consumes (bIf r l sid) := by unfold bIf bIf.go; pres
instance (c b v w) : Pres Consumes (whileStep r c b sid v w) := by unfold whileStep; pres
instance (l) : Pres Consumes (bWhile r l sid) := by unfold bWhile; pres
instance (v l) : Pres Consumes (doLoop r sid v l) := by
  induction l generalizing v with
  | nil => unfold doLoop; pres
  | cons a l ih => unfold doLoop; pres
instance (l) : Pres Consumes (bFn l sid) := by unfold bFn; pres
instance (l) : Pres Consumes (updateDoc n l sid) := by unfold updateDoc; pres
instance (c) : Pres Consumes (globalFunction n c sid) := by unfold globalFunction; pres
instance (c l) : Pres Consumes (bDefn r c l sid) := by unfold bDefn; pres
instance (b l) : Pres Consumes (callPrim r b l sid) := by cases b <;> (unfold callPrim; pres)
instance (f l) : Pres Consumes (callStep r f l sid) := by unfold callStep; pres

end Fuel
