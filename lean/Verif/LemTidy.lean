import Verif.PropsConsume
import Verif.PropsDbg
/-!
# The evaluator and the debugger keep the breakpoints unique
-/

set_option linter.unusedSectionVars false
set_option linter.unusedSimpArgs false

namespace Fuel

open Spec

/-- Whatever the outcome is: if no two breakpoints are for the same line of a module, then this holds afterwards, too. -/
class Tidy {α : Type} (m : M α) : Prop where
  rel : ∀ s, Distinct s.dbg.bps → Distinct (m s).st.dbg.bps

variable [World] {sid n : Nat} {α β : Type}

theorem tidy_same {m : M α} (h : ∀ s, (m s).st.dbg = s.dbg) : Tidy m := ⟨fun s hs => by rw [h s]; exact hs⟩
instance Tidy.pure (a : α) : Tidy (Pure.pure a : M α) := ⟨fun _ => id⟩
instance Tidy.fail (f : Fail) : Tidy (M.fail f : M α) := ⟨fun _ => id⟩
instance Tidy.ub (u : UB) : Tidy (ub u : M α) := ⟨fun _ => id⟩
instance Tidy.get (g : St → α) : Tidy (M.get g) := ⟨fun _ => id⟩
instance Tidy.rd (g : St → Fuel.R α) : Tidy (M.rd g) := tidy_same fun s => by rw [M.rd_apply]; cases g s <;> rfl
instance Tidy.lift (r : Fuel.R α) : Tidy (M.lift r) := Tidy.rd _
theorem Tidy.bind {m : M α} {k : α → M β} (h : Tidy m) (hk : ∀ a, Tidy (k a)) : Tidy (m >>= k) := ⟨fun s hs => by
  have := h.rel s hs
  rw [M.bind_apply]
  cases hm : m s with
  | ok a s' => rw [hm] at this; exact (hk a).rel s' this
  | fail f s' => rw [hm] at this; exact this⟩
instance (o : Obj) : Tidy (allocObj o) := tidy_same fun _ => rfl
instance (l : List Ptr) : Tidy (allocList l) := tidy_same fun _ => rfl
instance (l : List Ptr) : Tidy (allocVec l) := tidy_same fun _ => rfl
instance (d : List (Variant × Ptr)) : Tidy (allocDict d) := tidy_same fun _ => rfl
instance (v : Variant) : Tidy (box v) := inferInstanceAs (Tidy (allocObj _))
instance (m : Str) (sid : Nat) : Tidy (throwScope m sid : M α) := ⟨fun _ => id⟩
instance (m : Str) (t : Option Token) (sid : Nat) : Tidy (throwTok m t sid : M α) := ⟨fun _ => id⟩

/-- Proves `Tidy m` by following the structure of `m`. -/
macro "tidy" : tactic => `(tactic| repeat' (first
  | infer_instance
  | assumption
  | with_reducible refine Tidy.bind ?_ fun _ => ?_
  | split
  | dsimp only))

instance (p : Ptr) : Tidy (copyObj p) := by
  unfold copyObj
  split
  · tidy
  · tidy
  · tidy
  · rename_i j; exact tidy_same fun _ => rfl
  · tidy
instance (o : Obj) : Tidy (mkAtom o) := by unfold mkAtom; tidy
instance (o) : Tidy (mkInt o) := by unfold mkInt; tidy
instance (o) : Tidy (mkStr o) := by unfold mkStr; tidy
instance (o) : Tidy (mkBool o) := by unfold mkBool; tidy
instance (o) : Tidy (mkDbl o) := by unfold mkDbl; tidy
instance (l) : Tidy (mkList l) := by unfold mkList; tidy

instance tidy_ret {m : M Variant} [h : Tidy m] : Tidy (ret m) := by unfold ret; tidy
instance (args : List Ptr) (i) : Tidy (arg args i) := by unfold arg; tidy
instance (name c args sid) : Tidy (checkArgs name c args sid) := by unfold checkArgs; tidy
instance (name c d args sid) : Tidy (checkOptionalArgs name c d args sid) := by
  unfold checkOptionalArgs; tidy
instance (args : List Ptr) (i) : Tidy (argV args i) := by unfold argV; tidy
instance (args : List Ptr) (i) : Tidy (argMk args i) := by unfold argMk; tidy
instance (n) (args : List Ptr) (i) : Tidy (argStr n args i) := by unfold argStr; tidy
instance (f sid v) : Tidy (checkForList.notList f sid v) := by unfold checkForList.notList; tidy
instance (n f p sid) : Tidy (checkForFunction n f p sid) := by unfold checkForFunction; tidy
instance (n f p sid) : Tidy (checkForList n f p sid) := by unfold checkForList; tidy
instance (args : List Ptr) : Tidy (argDict args) := by unfold argDict; tidy
instance (l : List Variant) : Tidy (boxAll l) := by
  induction l with
  | nil => unfold boxAll; tidy
  | cons a l ih => unfold boxAll; tidy
instance (n args i) : Tidy (optSize n args i) := by unfold optSize; tidy
instance (n args i) : Tidy (optPos n args i) := by unfold optPos; tidy
instance (sid) : Tidy (argsList sid) := by unfold argsList; tidy
instance (n v) : Tidy (lenRest n v) := by unfold lenRest; tidy
instance (n v) : Tidy (mkLVal n v) := by unfold mkLVal; tidy
instance (i l) : Tidy (bArg.bad i l) := by unfold bArg.bad; tidy
instance (n op v w) : Tidy (arith n op v w) := by unfold arith; tidy
instance (n op v l) : Tidy (arithLoop n op v l) := by
  induction l generalizing v with
  | nil => unfold arithLoop; tidy
  | cons a l ih => unfold arithLoop; tidy
instance (n op l) : Tidy (arithFold n op l) := by
  unfold arithFold; tidy
instance  : Tidy (bFuel ) := by unfold bFuel; tidy
instance  : Tidy (bVersion ) := by unfold bVersion; tidy
instance  : Tidy (bCopyright ) := by unfold bCopyright; tidy
instance (n sid) : Tidy (bGetTrace n sid) := by unfold bGetTrace; tidy
instance (args sid) : Tidy (bNeedLValue args sid) := by unfold bNeedLValue; tidy
instance  : Tidy (bPlatform ) := by unfold bPlatform; tidy
instance (args sid) : Tidy (bType args sid) := by unfold bType; tidy
instance (args sid) : Tidy (bTypeStr args sid) := by unfold bTypeStr; tidy
instance (n args sid) : Tidy (bFormat n args sid) := by unfold bFormat; tidy
instance (args sid) : Tidy (bFlush args sid) := by unfold bFlush; tidy
instance (n args sid) : Tidy (bParseInteger n args sid) := by unfold bParseInteger; tidy
instance (n args sid) : Tidy (bParseFloat n args sid) := by unfold bParseFloat; tidy
instance (n args sid) : Tidy (bToInt n args sid) := by unfold bToInt; tidy
instance (n args sid) : Tidy (bToFloat n args sid) := by unfold bToFloat; tidy
instance (n args sid) : Tidy (bSearch n args sid) := by unfold bSearch; tidy
instance (n args sid) : Tidy (bSlice n args sid) := by unfold bSlice; tidy
instance (n args sid) : Tidy (bReplace n args sid) := by unfold bReplace; tidy
instance (name f n args sid) : Tidy (strFn name f n args sid) := by unfold strFn; tidy
instance (n args sid) : Tidy (bTrim n args sid) := by unfold bTrim; tidy
instance (n args sid) : Tidy (bLower n args sid) := by unfold bLower; tidy
instance (n args sid) : Tidy (bUpper n args sid) := by unfold bUpper; tidy
instance (n args) : Tidy (bSub n args) := by unfold bSub; tidy
instance (op n args sid) : Tidy (bBit op n args sid) := by unfold bBit; tidy
instance (n args sid) : Tidy (bBitNot n args sid) := by unfold bBitNot; tidy
instance (op n args sid) : Tidy (bCmp op n args sid) := by unfold bCmp; tidy
instance (n args sid) : Tidy (bNot n args sid) := by unfold bNot; tidy
instance (args) : Tidy (bList args) := by unfold bList; tidy
instance (n args) : Tidy (bCons n args) := by unfold bCons; tidy
instance (n args sid) : Tidy (bLen n args sid) := by unfold bLen; tidy
instance (n args sid) : Tidy (bFirst n args sid) := by unfold bFirst; tidy
instance (n args sid) : Tidy (bLast n args sid) := by unfold bLast; tidy
instance (n args sid) : Tidy (bRest n args sid) := by unfold bRest; tidy
instance (n args sid) : Tidy (bNth n args sid) := by unfold bNth; tidy
instance (n args) : Tidy (bAppend n args) := by unfold bAppend; tidy
instance (n args sid) : Tidy (bReverse n args sid) := by unfold bReverse; tidy
instance (n args sid) : Tidy (bSym n args sid) := by unfold bSym; tidy
instance (n args sid) : Tidy (bStr n args sid) := by unfold bStr; tidy
instance (args sid) : Tidy (bArgsCount args sid) := by unfold bArgsCount; tidy
instance (args sid) : Tidy (bArgs args sid) := by unfold bArgs; tidy
instance (n args sid) : Tidy (bArg n args sid) := by unfold bArg; tidy
instance (args sid) : Tidy (bMakeDict args sid) := by unfold bMakeDict; tidy
instance (n args sid) : Tidy (bDictGet n args sid) := by unfold bDictGet; tidy
instance (args sid) : Tidy (bDictKeys args sid) := by unfold bDictKeys; tidy
instance (n args sid) : Tidy (bDictContainsKey n args sid) := by unfold bDictContainsKey; tidy
instance (args sid) : Tidy (bDictContainsValue args sid) := by unfold bDictContainsValue; tidy
instance (args sid) : Tidy (bQuote args sid) := by unfold bQuote; tidy
instance (name args sid) : Tidy (bUnquote name args sid) := by unfold bUnquote; tidy
instance (n args sid) : Tidy (bFileExists n args sid) := by unfold bFileExists; tidy
instance (n args sid) : Tidy (bFileRead n args sid) := by unfold bFileRead; tidy
instance (args sid) : Tidy (bMathPi args sid) := by unfold bMathPi; tidy
instance (f n args sid) : Tidy (bMath f n args sid) := by unfold bMath; tidy
instance (n args sid) : Tidy (bMathPow n args sid) := by unfold bMathPow; tidy
instance (n args) : Tidy (bSleep n args) := by unfold bSleep; tidy

instance (t : Str) : Tidy (write t) := tidy_same fun _ => rfl
instance : Tidy (M.modify fun s => { s with clock := s.clock + 1 }) := tidy_same fun _ => rfl
instance (f : List (Str × Str) → List (Str × Str)) : Tidy (M.modify fun s => { s with files := f s.files }) := tidy_same fun _ => rfl
instance : Tidy readLine := by
  have h (l : List Str) : Tidy (M.modify fun s => { s with input := l }) := tidy_same fun _ => rfl
  unfold readLine; tidy
instance (x : Option Variant) : Tidy (derefV x) := by unfold derefV; tidy
instance (t : Str) : Tidy (writeLine t) := inferInstanceAs (Tidy (write _))
instance (n : Nat) : Tidy (askClear n) := by
  induction n with
  | zero => unfold askClear; tidy
  | succ n ih => unfold askClear; tidy
instance (d : Dbg) (c : Str) : Tidy (clearCommand d c) := by unfold clearCommand; tidy
instance (n : Nat) (l : List Bp) : Tidy (showBreakpoints n l) := by
  induction l generalizing n with
  | nil => unfold showBreakpoints; tidy
  | cons a l ih => unfold showBreakpoints; tidy
instance (b : List Bp) (m : Str) (c n : Nat) (l : List Str) : Tidy (showSource b m c n l) := by
  induction l generalizing n with
  | nil => unfold showSource; tidy
  | cons a l ih => unfold showSource; tidy
instance (n : Nat) (sel : FnW → Bool) (info : FnW → Fuel.R Str) (l : List (Str × Ptr)) : Tidy (dumpFns n sel info l) := by
  induction l with
  | nil => unfold dumpFns; tidy
  | cons a l ih => unfold dumpFns; tidy
instance (n : Nat) (l : List (Str × Ptr)) : Tidy (dumpHelp n l) := by
  induction l with
  | nil => unfold dumpHelp; tidy
  | cons a l ih => unfold dumpHelp; tidy
instance (n : Nat) (l : List (Str × Ptr)) : Tidy (dumpVars n l) := by
  induction l with
  | nil => unfold dumpVars; tidy
  | cons a l ih => unfold dumpVars; tidy
instance (n : Nat) (f : FnW → Fuel.R Str) (l : List (Str × Ptr)) : Tidy (dumpFunctions.go n f l) := by
  induction l with
  | nil => unfold dumpFunctions.go; tidy
  | cons a l ih => unfold dumpFunctions.go; tidy
instance (n g : Nat) : Tidy (dumpFunctions n g) := by unfold dumpFunctions; tidy
instance (l : List Str) : Tidy (writeLines l) := by
  induction l with
  | nil => unfold writeLines; tidy
  | cons a l ih => unfold writeLines; tidy
instance : Tidy showVersion := by unfold showVersion; tidy
instance : Tidy showAbout := by unfold showAbout; tidy
instance {α : Type} {m : M α} [h : Tidy m] : Tidy (tryM m) := ⟨fun s => by
  have := h.rel s
  unfold tryM
  cases e : m s with
  | ok a s' => rw [e] at this; exact this
  | fail f s' =>
    rw [e] at this
    cases f with
    | exn x => exact this
    | _ => exact this⟩
instance (j f) : Tidy (modScope j f) := tidy_same fun _ => rfl
instance (j name v) : Tidy (setVar j name v) := tidy_same fun _ => rfl
instance (i l) : Tidy (setList i l) := tidy_same fun _ => rfl
instance (i d) : Tidy (setDict i d) := tidy_same fun _ => rfl
instance (c) : Tidy (allocScope c) := tidy_same fun _ => rfl
instance (c) : Tidy (allocClosure c) := tidy_same fun _ => rfl
instance (i j) : Tidy (pushNext i j) := by unfold pushNext; tidy
instance (i) : Tidy (popNext i) := by unfold popNext; tidy
instance (t) : Tidy (setCurTok sid t) := by unfold setCurTok; tidy
instance (l) : Tidy (M.modify fun s => { s with libPath := l }) := tidy_same fun _ => rfl
instance (args) : Tidy (bReadLine args sid) := by
  have h (l : List Str) : Tidy (M.modify fun s => { s with input := l }) := tidy_same fun _ => rfl
  unfold bReadLine; tidy
instance {m : M α} [h : Tidy m] : Tidy (sliceExn m) := ⟨fun s => by
  have := h.rel s
  unfold sliceExn
  cases e : m s with
  | ok a s' => rw [e] at this; exact this
  | fail f s' =>
    rw [e] at this
    cases f with
    | exn x => cases x <;> exact this
    | _ => exact this⟩
mutual
theorem tidy_sx : (sx : Sx) → Tidy (allocSx sx)
  | .atom v => by unfold allocSx; tidy
  | .sym v => by unfold allocSx; tidy
  | .list l => by
    have := tidy_sxs l
    unfold allocSx; tidy
theorem tidy_sxs : (l : List Sx) → Tidy (allocSxs l)
  | [] => by unfold allocSxs; tidy
  | a :: l => by
    have := tidy_sx a
    have := tidy_sxs l
    unfold allocSxs; tidy
end
attribute [instance] tidy_sx tidy_sxs

/-! ## Builtin functions -/

instance (i name v) : Tidy (setInScopes i name v) := by unfold setInScopes; tidy
instance (args j) : Tidy (stringRep n args j) := by unfold stringRep; tidy
instance (t) : Tidy (dumpDocumentation t) := by unfold dumpDocumentation; tidy
instance (f args j) : Tidy (searchDocumentation n f args j) := by unfold searchDocumentation; tidy
instance (j) : Tidy (bHelp j) := by unfold bHelp; tidy
instance (args j) : Tidy (bDoc n args j) := by unfold bDoc; tidy
instance (args j) : Tidy (bSearchDoc n args j) := by unfold bSearchDoc; tidy
instance (j) : Tidy (bHtmlDoc n j) := by unfold bHtmlDoc; tidy
instance (j) : Tidy (bBreak j) := by unfold bBreak; tidy
instance (j) : Tidy (bVars n j) := by unfold bVars; tidy
instance (args) : Tidy (bDelVar n args sid) := by unfold bDelVar; tidy
instance (args) : Tidy (bTrace n args sid) := by unfold bTrace; tidy
instance (args) : Tidy (bTickCount args sid) := by unfold bTickCount; tidy
instance : Tidy bDatetime := by unfold bDatetime; tidy
instance (args) : Tidy (bReturn args sid) := by unfold bReturn; tidy
instance (args j) : Tidy (bPrint n args j) := by unfold bPrint; tidy
instance (args j) : Tidy (bPrintLn n args j) := by unfold bPrintLn; tidy
instance (args) : Tidy (bPush n args sid) := by unfold bPush; tidy
instance (args) : Tidy (bPop n args sid) := by unfold bPop; tidy
instance (args) : Tidy (bDictSet n args sid) := by unfold bDictSet; tidy
instance (args) : Tidy (bDictRemove n args sid) := by unfold bDictRemove; tidy
instance (args) : Tidy (bDictClear args sid) := by unfold bDictClear; tidy
instance (args) : Tidy (bFileWrite n args sid) := by unfold bFileWrite; tidy

/-! ## The evaluator -/

/-- Every entry point of the evaluator has the described effect. -/
class RecTidy (r : Rec) : Prop where
  eval : ∀ p sid, Tidy (r.eval p sid)
  call : ∀ f l sid, Tidy (r.call f l sid)
  expand : ∀ p sid, Tidy (r.expand p sid)
  expand3 : ∀ p sid, Tidy (r.expand3 p sid)
  procQ : ∀ l sid, Tidy (r.procQ l sid)
  subst : ∀ v p b l, Tidy (r.subst v p b l)
  whileL : ∀ c b sid v w, Tidy (r.whileL c b sid v w)

attribute [instance] RecTidy.eval RecTidy.call RecTidy.expand RecTidy.expand3 RecTidy.procQ RecTidy.subst RecTidy.whileL

variable {r : Rec} [RecTidy r]

instance (l) : Tidy (evalArgIfNeeded r l sid) := by unfold evalArgIfNeeded; tidy
instance (l) : Tidy (bRval r l sid) := by unfold bRval; tidy


instance (p) : Tidy (convertList n p) := by unfold convertList; tidy
instance (p) : Tidy (expandLoop r p sid) := by unfold expandLoop; tidy
instance (a b c l) : Tidy (substLoop r a b c l) := by
  induction l with
  | nil => unfold substLoop; tidy
  | cons e l ih => unfold substLoop; tidy
instance (ast f i e) : Tidy (replaceFormals r ast sid f i e) := by
  induction f generalizing i e with
  | nil => unfold replaceFormals; tidy
  | cons a f ih => unfold replaceFormals; tidy
instance (f a e) : Tidy (replaceArgs r f a e sid) := by unfold replaceArgs; tidy
instance (l) : Tidy (expandElems r sid l) := by
  induction l with
  | nil => unfold expandElems; tidy
  | cons e l ih => unfold expandElems; tidy
instance (l f) : Tidy (expandMacroOrElems r l f sid) := by unfold expandMacroOrElems; tidy
instance (p) : Tidy (expandStep r p sid) := by unfold expandStep; tidy
instance (p) : Tidy (spliced n p) := by unfold spliced; tidy
instance (a l) : Tidy (evalArgs r a sid l) := by
  induction l with
  | nil => unfold evalArgs; tidy
  | cons e l ih => unfold evalArgs; tidy
instance (p j) : Tidy (traceCall n p j) := by unfold traceCall; tidy
instance (l) : Tidy (evalList r l sid) := by unfold evalList; tidy
instance (p) : Tidy (evalStep r p sid) := by unfold evalStep; tidy
instance (p) : Tidy (evalArgIfNeeded r p sid) := by unfold evalArgIfNeeded; tidy
instance (a b l) : Tidy (bDefHelper r a b l sid) := by unfold bDefHelper; tidy
instance (l) : Tidy (bDef r l sid) := by unfold bDef; tidy
instance (l) : Tidy (bGdef r l sid) := by unfold bGdef; tidy
instance (p k x) : Tidy (lvalSet n p k x) := by unfold lvalSet; tidy
instance (l) : Tidy (bSetf r l sid) := by unfold bSetf; tidy

/-- The evaluation of a place or value with the flag switched to `b` and back. -/
instance (f l) : Tidy (mapLoop r f sid l) := by
  induction l with
  | nil => unfold mapLoop; tidy
  | cons e l ih => unfold mapLoop; tidy
instance (f a l) : Tidy (reduceLoop r f sid a l) := by
  induction l generalizing a with
  | nil => unfold reduceLoop; tidy
  | cons e l ih => unfold reduceLoop; tidy
instance (l) : Tidy (bMap r l sid) := by unfold bMap; tidy
instance (l) : Tidy (bReduce r l sid) := by unfold bReduce; tidy
instance (l) : Tidy (bApply r l sid) := by unfold bApply; tidy
instance (l) : Tidy (bEval r l sid) := by unfold bEval; tidy
instance (k) : Tidy (padNil k) := by
  induction k with
  | zero => unfold padNil; tidy
  | succ k ih => unfold padNil; tidy
instance (j f l) : Tidy (bindFormals n j f l) := by
  induction f generalizing l with
  | nil => unfold bindFormals; tidy
  | cons a f ih => cases l <;> (unfold bindFormals; tidy)
instance (c o) : Tidy (evalCode r c sid o) := by unfold evalCode; tidy
instance (c m t o) : Tidy (lispEval r c sid m t o) := by unfold lispEval; tidy
instance (c : Closure) (l) (child : Nat) : Tidy (callBody r c l child) := by unfold callBody; tidy
instance (c l) : Tidy (callClosure r c l sid) := by unfold callClosure; tidy
instance (n g f c) : Tidy (importBody r g f c n) := by unfold importBody; tidy
instance (f c) : Tidy (importOne r sid f c) := by unfold importOne; tidy
instance (l) : Tidy (bEvalStr r l sid) := by unfold bEvalStr; tidy

instance (v l) : Tidy (importLoop r sid v l) := by
  induction l generalizing v with
  | nil => unfold importLoop; tidy
  | cons a l ih => unfold importLoop; tidy
instance (l) : Tidy (bImport r l sid) := by unfold bImport; tidy
instance (a v l) : Tidy (boolLoop r a sid v l) := by
  induction l generalizing v with
  | nil => unfold boolLoop; tidy
  | cons a l ih => unfold boolLoop; tidy
instance (a l) : Tidy (bBool r a l sid) := by unfold bBool; tidy
instance (l) : Tidy (bDefineMacroEval r l sid) := by unfold bDefineMacroEval; tidy
instance (l) : Tidy (bDefineMacroExpand r l sid) := by unfold bDefineMacroExpand; tidy
instance (l) : Tidy (procQLoop r sid l) := by
  induction l with
  | nil => unfold procQLoop; tidy
  | cons a l ih => unfold procQLoop; tidy
instance (l) : Tidy (procQStep r l sid) := by unfold procQStep; tidy
instance (l) : Tidy (bQuasiquote r l sid) := by unfold bQuasiquote; tidy
instance (l) : Tidy (bIf r l sid) := by unfold bIf bIf.go; tidy
instance (c b v w) : Tidy (whileStep r c b sid v w) := by unfold whileStep; tidy
instance (l) : Tidy (bWhile r l sid) := by unfold bWhile; tidy
instance (v l) : Tidy (doLoop r sid v l) := by
  induction l generalizing v with
  | nil => unfold doLoop; tidy
  | cons a l ih => unfold doLoop; tidy
instance (l) : Tidy (bFn l sid) := by unfold bFn; tidy
instance (l) : Tidy (updateDoc n l sid) := by unfold updateDoc; tidy
instance (c) : Tidy (globalFunction n c sid) := by unfold globalFunction; tidy
instance (c l) : Tidy (bDefn r c l sid) := by unfold bDefn; tidy
instance (b l) : Tidy (callPrim r b l sid) := by cases b <;> (unfold callPrim; tidy)
instance (f l) : Tidy (callStep r f l sid) := by unfold callStep; tidy


end Fuel
