import Verif.LemPrim
import Verif.Lisp
/-!
# Budget monotonicity

`Mono m m'`: unless `m` runs out of budget, `m'` has the same outcome.  The interpreter with a larger budget is above
the one with a smaller budget in this order.
-/

set_option linter.unusedSectionVars false

namespace Fuel

/-- The first result is "out of budget", or both are equal. -/
class LeR {α : Type} (a b : R α) : Prop where
  le : a = .error .fuel ∨ a = b

/-- The first computation runs out of budget, or both do the same. -/
class Mono {α : Type} (m m' : M α) : Prop where
  le : ∀ s, (∃ s', m s = .fail .fuel s') ∨ m s = m' s

/-- Order of the nesting budgets. -/
class LeN (n n' : Nat) : Prop where
  le : n ≤ n'

variable [World] {α β : Type}

instance LeR.refl (a : R α) : LeR a a := ⟨.inr rfl⟩
theorem LeR.bind {a a' : R α} {k k' : α → R β} (h : LeR a a') (hk : ∀ x, LeR (k x) (k' x)) :
    LeR (a >>= k) (a' >>= k') := by
  rcases h.le with h | h
  · subst h; exact ⟨.inl rfl⟩
  · subst h
    cases a with
    | ok x => exact hk x
    | error e => exact ⟨.inr rfl⟩

instance Mono.refl (m : M α) : Mono m m := ⟨fun _ => .inr rfl⟩
theorem Mono.bind {m m' : M α} {k k' : α → M β} (h : Mono m m') (hk : ∀ x, Mono (k x) (k' x)) :
    Mono (m >>= k) (m' >>= k') := ⟨fun s => by
  simp only [M.bind_apply]
  rcases h.le s with ⟨s', h⟩ | h
  · exact .inl ⟨s', by rw [h]⟩
  · rw [h]
    cases m' s with
    | ok x s1 => exact (hk x).le s1
    | fail f s1 => exact .inr rfl⟩
theorem Mono.rd {g g' : St → R α} (h : ∀ s, LeR (g s) (g' s)) : Mono (M.rd g) (M.rd g') := ⟨fun s => by
  simp only [M.rd_apply]
  rcases (h s).le with h | h
  · rw [h]; exact .inl ⟨s, rfl⟩
  · rw [h]; exact .inr rfl⟩
theorem Mono.lift {a a' : R α} (h : LeR a a') : Mono (M.lift a) (M.lift a') := Mono.rd fun _ => h
theorem Mono.fuel {m' : M α} : Mono (M.fail .fuel) m' := ⟨fun s => .inl ⟨s, rfl⟩⟩
theorem LeR.fuel {b : R α} : LeR (.error .fuel) b := ⟨.inl rfl⟩

/-- Proves `Mono` and `LeR` goals by following the structure of both sides. -/
macro "mono" : tactic => `(tactic| repeat' (first
  | infer_instance
  | assumption
  | with_reducible refine Mono.bind ?_ fun _ => ?_
  | with_reducible refine LeR.bind ?_ fun _ => ?_
  | with_reducible refine Mono.rd fun _ => ?_
  | with_reducible refine Mono.lift ?_
  | with_reducible exact LeR.fuel
  | split
  | dsimp only))

theorem leR_joinLoop {f f' : α → R Str} (h : ∀ a, LeR (f a) (f' a)) (sep acc : Str) (l : List α) :
    LeR (joinLoop f sep acc l) (joinLoop f' sep acc l) := by
  induction l generalizing acc with
  | nil => unfold joinLoop; mono
  | cons a l ih => unfold joinLoop; exact LeR.bind (h a) fun _ => ih _

theorem leR_text (st : St) : ∀ n n', n ≤ n' →
    (∀ p, LeR (ptrStr st n p) (ptrStr st n' p)) ∧ (∀ v, LeR (varStr st n v) (varStr st n' v)) ∧
    (∀ p, LeR (expandStr st n p) (expandStr st n' p)) ∧ (∀ p, LeR (nativeStr st n p) (nativeStr st n' p)) := by
  intro n
  induction n with
  | zero => intro n' _; simp only [ptrStr, varStr, expandStr, nativeStr]; refine ⟨fun _ => ?_, fun _ => ?_, fun _ => ?_, fun _ => ?_⟩ <;> exact LeR.fuel
  | succ n ih =>
    intro n' h
    obtain ⟨n', rfl⟩ : ∃ m, n' = m + 1 := ⟨n' - 1, by omega⟩
    obtain ⟨h1, h2, h3, h4⟩ := ih n' (by omega)
    refine ⟨fun p => ?_, fun v => ?_, fun p => ?_, fun p => ?_⟩
    · unfold ptrStr
      mono
      all_goals first | apply h2 | exact leR_joinLoop h1 _ _ _
    · unfold varStr
      mono
      all_goals first | apply h1 | apply h4 | exact leR_joinLoop h3 _ _ _
    · unfold expandStr
      mono
      all_goals first | apply h1 | apply h2 | exact leR_joinLoop h3 _ _ _
    · unfold nativeStr
      mono
      all_goals first | apply h1 | apply h2 | (refine leR_joinLoop (fun e => ?_) _ _ _; exact LeR.bind (h4 _) fun _ => LeR.bind (h4 _) fun _ => inferInstance)

variable {n n' : Nat} [hn : LeN n n']

instance (st p) : LeR (ptrStr st n p) (ptrStr st n' p) := (leR_text st n n' hn.le).1 p
instance (st p) : LeR (varStr st n p) (varStr st n' p) := (leR_text st n n' hn.le).2.1 p
instance (st p) : LeR (nativeStr st n p) (nativeStr st n' p) := (leR_text st n n' hn.le).2.2.2 p
instance (st) (v : Variant) : LeR (v.stringValue st n) (v.stringValue st n') := by unfold Variant.stringValue; mono
instance (st) (v : Variant) : LeR (v.toStrDebugger st n) (v.toStrDebugger st n') := by unfold Variant.toStrDebugger; mono
instance (st) (v : Variant) (a b) : LeR (castExn st n v a b : R α) (castExn st n' v a b) := by unfold castExn; mono
instance (st) (v : Variant) (a) : LeR (convExn st n v a : R α) (convExn st n' v a) := by unfold convExn; mono
instance (st) (v : Variant) : LeR (v.functionValue st n) (v.functionValue st n') := by unfold Variant.functionValue; mono
instance (st) (v : Variant) : LeR (v.listValue st n) (v.listValue st n') := by unfold Variant.listValue; mono
instance (st) (v : Variant) : LeR (v.doubleValue st n) (v.doubleValue st n') := by unfold Variant.doubleValue; mono
instance (st) (v : Variant) : LeR (v.intValue st n) (v.intValue st n') := by unfold Variant.intValue; mono
instance (st) (v : Variant) : LeR (v.boolValue st n) (v.boolValue st n') := by unfold Variant.boolValue; mono
instance (st) (v : Variant) : LeR (v.toBool st n) (v.toBool st n') := by unfold Variant.toBool; mono
instance (st) (v : Variant) : LeR (v.toInt st n) (v.toInt st n') := by unfold Variant.toInt; mono
instance (st) (v : Variant) : LeR (v.toDouble st n) (v.toDouble st n') := by unfold Variant.toDouble; mono
instance (st) (v w : Variant) : LeR (vLt st n v w) (vLt st n' v w) := by unfold vLt; mono
instance (st) (v w : Variant) : LeR (vLe st n v w) (vLe st n' v w) := by unfold vLe; mono
instance (st) (v w : Variant) : LeR (equalOp st n v w) (equalOp st n' v w) := by unfold equalOp; mono
instance (op : CmpOp) (st) (v w : Variant) : LeR (op.run st n v w) (op.run st n' v w) := by unfold CmpOp.run; mono
instance (st k d) : LeR (dictSplit st n k d) (dictSplit st n' k d) := by
  induction d with
  | nil => unfold dictSplit; mono
  | cons e d ih => unfold dictSplit; mono
instance (st k d) : LeR (dictCmp st n k d) (dictCmp st n' k d) := by
  induction d with
  | nil => unfold dictCmp; mono
  | cons e d ih => unfold dictCmp; mono
instance (st k d) : LeR (dictAccess st n k d) (dictAccess st n' k d) := by
  unfold dictAccess
  split
  · mono
  · mono
  · rcases (inferInstance : LeR (dictCmp st n k d) (dictCmp st n' k d)).le with h | h
    · rw [h]; exact LeR.fuel
    · rw [h]; mono
instance (st k v d) : LeR (dictSet st n k v d) (dictSet st n' k v d) := by unfold dictSet; mono
instance (st k d) : LeR (dictFind st n k d) (dictFind st n' k d) := by unfold dictFind; mono
instance (st k d) : LeR (dictErase st n k d) (dictErase st n' k d) := by unfold dictErase; mono
instance (st sel l) : LeR (functionsHelp st n sel l) (functionsHelp st n' sel l) := by
  induction l with
  | nil => unfold functionsHelp; mono
  | cons e d ih => unfold functionsHelp; mono
instance (st sel l) : LeR (macrosHelp st n sel l) (macrosHelp st n' sel l) := by
  induction l with
  | nil => unfold macrosHelp; mono
  | cons e d ih =>
    unfold macrosHelp
    split
    · exact LeR.refl _
    · next h => cases h; mono
    · exact LeR.refl _
instance (st sid sel l) : LeR (searchHelp st n sid sel l) (searchHelp st n' sid sel l) := by
  induction l with
  | nil => unfold searchHelp; mono
  | cons e d ih => unfold searchHelp; mono
instance (st fmt l) : LeR (dumpDoc st n fmt l) (dumpDoc st n' fmt l) := by
  induction l with
  | nil => unfold dumpDoc; mono
  | cons e d ih => unfold dumpDoc; mono
instance (st l) : LeR (argStrs st n l) (argStrs st n' l) := by
  induction l with
  | nil => unfold argStrs; mono
  | cons e d ih => unfold argStrs; mono
instance (st t l i) : LeR (searchList st n t l i) (searchList st n' t l i) := by
  induction l generalizing i with
  | nil => unfold searchList; mono
  | cons e d ih => unfold searchList; mono
instance (st l) : LeR (appendLoop st n l) (appendLoop st n' l) := by
  induction l with
  | nil => unfold appendLoop; mono
  | cons e d ih => unfold appendLoop; mono
instance (st sep acc l) : LeR (joinLoop (ptrStr st n) sep acc l) (joinLoop (ptrStr st n') sep acc l) :=
  leR_joinLoop (fun _ => inferInstance) _ _ _
theorem leR_catchAny {a a' : R α} (d : α) (h : LeR a a') : LeR (catchAny d a) (catchAny d a') := by
  rcases h.le with h | h
  · rw [h]; exact LeR.fuel
  · rw [h]; exact LeR.refl _
instance (st sid e) : LeR (resolve st n sid e) (resolve st n' sid e) := by unfold resolve; mono
instance (st e sid) : LeR (getMacro st n e sid) (getMacro st n' e sid) := by unfold getMacro; mono
instance (st sid e) : LeR (resolveElem st n sid e) (resolveElem st n' sid e) := by unfold resolveElem; mono
instance (st sid l) : LeR (resolveList st n sid l) (resolveList st n' sid l) := by
  induction l with
  | nil => unfold resolveList; mono
  | cons e d ih => unfold resolveList; mono
instance (st sid p) : LeR (headFunction st n sid p) (headFunction st n' sid p) := by
  unfold headFunction
  refine LeR.bind inferInstance fun v => ?_
  rcases (inferInstance : LeR (v.functionValue st n) (v.functionValue st n')).le with h | h
  · rw [h]; exact LeR.fuel
  · rw [h]; mono
instance (st sid f l) : LeR (resolveArgs st n sid f l) (resolveArgs st n' sid f l) := by unfold resolveArgs; mono
instance (st e) : LeR (unquoteKind st n e) (unquoteKind st n' e) := by unfold unquoteKind; mono
instance (st e) : LeR (formalsOf st n e) (formalsOf st n' e) := by unfold formalsOf; mono
instance (st e) : LeR (enumerableFromArgs st n e) (enumerableFromArgs st n' e) := by unfold enumerableFromArgs; mono
instance (st e t) : LeR (signatureOf st n e t) (signatureOf st n' e t) := by unfold signatureOf; mono

/-! ## Builtin functions -/

instance mono_ret {m m' : M Variant} [h : Mono m m'] : Mono (ret m) (ret m') := by unfold ret; mono
instance (args : List Ptr) (i) : Mono (argStr n args i) (argStr n' args i) := by unfold argStr; mono
instance (f p sid) : Mono (checkForFunction n f p sid) (checkForFunction n' f p sid) := by unfold checkForFunction; mono
instance (f p sid) : Mono (checkForList n f p sid) (checkForList n' f p sid) := by unfold checkForList; mono
instance (args i) : Mono (optSize n args i) (optSize n' args i) := by unfold optSize; mono
instance (args i) : Mono (optPos n args i) (optPos n' args i) := by unfold optPos; mono
instance (v) : Mono (lenRest n v) (lenRest n' v) := by unfold lenRest; mono
instance (op v w) : Mono (arith n op v w) (arith n' op v w) := by unfold arith; mono
instance (op v l) : Mono (arithLoop n op v l) (arithLoop n' op v l) := by
  induction l generalizing v with
  | nil => unfold arithLoop; mono
  | cons a l ih => unfold arithLoop; mono
instance (op l) : Mono (arithFold n op l) (arithFold n' op l) := by unfold arithFold; mono
instance (sid) : Mono (bGetTrace n sid) (bGetTrace n' sid) := by unfold bGetTrace; mono
instance (args sid) : Mono (stringRep n args sid) (stringRep n' args sid) := by unfold stringRep; mono
instance (l) : Mono (dumpVars n l) (dumpVars n' l) := by
  induction l with
  | nil => unfold dumpVars; mono
  | cons a l ih => unfold dumpVars; mono
instance (f args sid) : Mono (searchDocumentation n f args sid) (searchDocumentation n' f args sid) := by
  unfold searchDocumentation; mono
instance (args sid) : Mono (bFormat n args sid) (bFormat n' args sid) := by unfold bFormat; mono
instance (args sid) : Mono (bParseInteger n args sid) (bParseInteger n' args sid) := by
  unfold bParseInteger
  mono
  exact leR_catchAny _ (LeR.bind inferInstance fun _ => inferInstance)
instance (args sid) : Mono (bParseFloat n args sid) (bParseFloat n' args sid) := by
  unfold bParseFloat
  mono
  exact leR_catchAny _ (LeR.bind inferInstance fun _ => inferInstance)
instance (args sid) : Mono (bToInt n args sid) (bToInt n' args sid) := by unfold bToInt; mono
instance (args sid) : Mono (bToFloat n args sid) (bToFloat n' args sid) := by unfold bToFloat; mono
instance (args sid) : Mono (bSearch n args sid) (bSearch n' args sid) := by unfold bSearch; mono
instance (args sid) : Mono (bSlice n args sid) (bSlice n' args sid) := by unfold bSlice; mono
instance (args sid) : Mono (bReplace n args sid) (bReplace n' args sid) := by unfold bReplace; mono
instance (args sid) : Mono (bBitNot n args sid) (bBitNot n' args sid) := by unfold bBitNot; mono
instance (args sid) : Mono (bNot n args sid) (bNot n' args sid) := by unfold bNot; mono
instance (args sid) : Mono (bLen n args sid) (bLen n' args sid) := by unfold bLen; mono
instance (args sid) : Mono (bFirst n args sid) (bFirst n' args sid) := by unfold bFirst; mono
instance (args sid) : Mono (bLast n args sid) (bLast n' args sid) := by unfold bLast; mono
instance (args sid) : Mono (bRest n args sid) (bRest n' args sid) := by unfold bRest; mono
instance (args sid) : Mono (bNth n args sid) (bNth n' args sid) := by unfold bNth; mono
instance (args sid) : Mono (bReverse n args sid) (bReverse n' args sid) := by unfold bReverse; mono
instance (args sid) : Mono (bSym n args sid) (bSym n' args sid) := by unfold bSym; mono
instance (args sid) : Mono (bStr n args sid) (bStr n' args sid) := by unfold bStr; mono
instance (args sid) : Mono (bArg n args sid) (bArg n' args sid) := by unfold bArg; mono
instance (args sid) : Mono (bDictGet n args sid) (bDictGet n' args sid) := by unfold bDictGet; mono
instance (args sid) : Mono (bDictContainsKey n args sid) (bDictContainsKey n' args sid) := by unfold bDictContainsKey; mono
instance (args sid) : Mono (bFileExists n args sid) (bFileExists n' args sid) := by unfold bFileExists; mono
instance (args sid) : Mono (bFileRead n args sid) (bFileRead n' args sid) := by unfold bFileRead; mono
instance (args sid) : Mono (bMathPow n args sid) (bMathPow n' args sid) := by unfold bMathPow; mono
instance (args sid) : Mono (bDoc n args sid) (bDoc n' args sid) := by unfold bDoc; mono
instance (args sid) : Mono (bSearchDoc n args sid) (bSearchDoc n' args sid) := by unfold bSearchDoc; mono
instance (args sid) : Mono (bDelVar n args sid) (bDelVar n' args sid) := by unfold bDelVar; mono
instance (args sid) : Mono (bTrace n args sid) (bTrace n' args sid) := by unfold bTrace; mono
instance (args sid) : Mono (bPrint n args sid) (bPrint n' args sid) := by unfold bPrint; mono
instance (args sid) : Mono (bPrintLn n args sid) (bPrintLn n' args sid) := by unfold bPrintLn; mono
instance (args sid) : Mono (bPush n args sid) (bPush n' args sid) := by unfold bPush; mono
instance (args sid) : Mono (bPop n args sid) (bPop n' args sid) := by unfold bPop; mono
instance (args sid) : Mono (bDictSet n args sid) (bDictSet n' args sid) := by unfold bDictSet; mono
instance (args sid) : Mono (bDictRemove n args sid) (bDictRemove n' args sid) := by unfold bDictRemove; mono
instance (args sid) : Mono (bFileWrite n args sid) (bFileWrite n' args sid) := by unfold bFileWrite; mono
instance (op args sid) : Mono (bBit op n args sid) (bBit op n' args sid) := by unfold bBit; mono
instance (op args sid) : Mono (bCmp op n args sid) (bCmp op n' args sid) := by unfold bCmp; mono
instance (f args sid) : Mono (bMath f n args sid) (bMath f n' args sid) := by unfold bMath; mono
instance (name f args sid) : Mono (strFn name f n args sid) (strFn name f n' args sid) := by unfold strFn; mono
instance (args sid) : Mono (bTrim n args sid) (bTrim n' args sid) := by unfold bTrim; mono
instance (args sid) : Mono (bLower n args sid) (bLower n' args sid) := by unfold bLower; mono
instance (args sid) : Mono (bUpper n args sid) (bUpper n' args sid) := by unfold bUpper; mono
instance (args) : Mono (bSub n args) (bSub n' args) := by unfold bSub; mono
instance (args) : Mono (bCons n args) (bCons n' args) := by unfold bCons; mono
instance (args) : Mono (bAppend n args) (bAppend n' args) := by unfold bAppend; mono
instance (args) : Mono (bSleep n args) (bSleep n' args) := by unfold bSleep; mono
instance (sid) : Mono (bHtmlDoc n sid) (bHtmlDoc n' sid) := by unfold bHtmlDoc; mono
instance (sid) : Mono (bVars n sid) (bVars n' sid) := by unfold bVars; mono

/-! ## The evaluator -/

/-- Every entry point of the second evaluator is above the one of the first. -/
class RecLe (r r' : Rec) : Prop where
  n : LeN r.n r'.n
  eval : ∀ p sid, Mono (r.eval p sid) (r'.eval p sid)
  call : ∀ f l sid, Mono (r.call f l sid) (r'.call f l sid)
  expand : ∀ p sid, Mono (r.expand p sid) (r'.expand p sid)
  expand3 : ∀ p sid, Mono (r.expand3 p sid) (r'.expand3 p sid)
  procQ : ∀ l sid, Mono (r.procQ l sid) (r'.procQ l sid)
  subst : ∀ v p b l, Mono (r.subst v p b l) (r'.subst v p b l)
  whileL : ∀ c b sid v w, Mono (r.whileL c b sid v w) (r'.whileL c b sid v w)

attribute [instance] RecLe.n RecLe.eval RecLe.call RecLe.expand RecLe.expand3 RecLe.procQ RecLe.subst RecLe.whileL

variable {r r' : Rec} [RecLe r r']

omit hn in
theorem mono_sliceExn {m m' : M α} (h : Mono m m') : Mono (sliceExn m) (sliceExn m') := ⟨fun s => by
  unfold sliceExn
  rcases h.le s with ⟨s', h⟩ | h
  · exact .inl ⟨s', by rw [h]⟩
  · exact .inr (by rw [h])⟩

instance (p) : Mono (convertList n p) (convertList n' p) := by unfold convertList; mono
instance (args : List Ptr) (sid) : Mono (updateDoc n args sid) (updateDoc n' args sid) := by unfold updateDoc; mono
instance (a sid) : Mono (globalFunction n a sid) (globalFunction n' a sid) := by unfold globalFunction; mono
instance (c f l) : Mono (bindFormals n c f l) (bindFormals n' c f l) := by
  induction f generalizing l with
  | nil => unfold bindFormals; mono
  | cons a f ih => cases l <;> unfold bindFormals <;> mono
instance (p) : Mono (spliced n p) (spliced n' p) := by unfold spliced; mono
instance (p sid) : Mono (traceCall n p sid) (traceCall n' p sid) := by unfold traceCall; mono
instance (p k x) : Mono (lvalSet n p k x) (lvalSet n' p k x) := by unfold lvalSet; mono
instance (p sid) : Mono (expandLoop r p sid) (expandLoop r' p sid) := by unfold expandLoop; mono
instance (a b c l) : Mono (substLoop r a b c l) (substLoop r' a b c l) := by
  induction l with
  | nil => unfold substLoop; mono
  | cons e l ih => unfold substLoop; mono
instance (ast sid f i e) : Mono (replaceFormals r ast sid f i e) (replaceFormals r' ast sid f i e) := by
  induction f generalizing i e with
  | nil => unfold replaceFormals; mono
  | cons a f ih => unfold replaceFormals; mono
instance (f a e sid) : Mono (replaceArgs r f a e sid) (replaceArgs r' f a e sid) := by unfold replaceArgs; mono
instance (sid l) : Mono (expandElems r sid l) (expandElems r' sid l) := by
  induction l with
  | nil => unfold expandElems; mono
  | cons e l ih => unfold expandElems; mono
instance (l f sid) : Mono (expandMacroOrElems r l f sid) (expandMacroOrElems r' l f sid) := by unfold expandMacroOrElems; mono
instance (p sid) : Mono (expandStep r p sid) (expandStep r' p sid) := by unfold expandStep; mono
instance (a sid l) : Mono (evalArgs r a sid l) (evalArgs r' a sid l) := by
  induction l with
  | nil => unfold evalArgs; mono
  | cons e l ih => unfold evalArgs; mono
instance (l sid) : Mono (evalList r l sid) (evalList r' l sid) := by unfold evalList; mono
instance (p sid) : Mono (evalStep r p sid) (evalStep r' p sid) := by unfold evalStep; mono
instance (p sid) : Mono (evalArgIfNeeded r p sid) (evalArgIfNeeded r' p sid) := by unfold evalArgIfNeeded; mono
instance (a b l sid) : Mono (bDefHelper r a b l sid) (bDefHelper r' a b l sid) := by unfold bDefHelper; mono
instance (l sid) : Mono (bDef r l sid) (bDef r' l sid) := by unfold bDef; mono
instance (l sid) : Mono (bGdef r l sid) (bGdef r' l sid) := by unfold bGdef; mono
instance (l sid) : Mono (bSetf r l sid) (bSetf r' l sid) := by unfold bSetf; mono
instance (l sid) : Mono (bRval r l sid) (bRval r' l sid) := by unfold bRval; mono
instance (f sid l) : Mono (mapLoop r f sid l) (mapLoop r' f sid l) := by
  induction l with
  | nil => unfold mapLoop; mono
  | cons e l ih => unfold mapLoop; mono
instance (f sid a l) : Mono (reduceLoop r f sid a l) (reduceLoop r' f sid a l) := by
  induction l generalizing a with
  | nil => unfold reduceLoop; mono
  | cons e l ih => unfold reduceLoop; mono
instance (l sid) : Mono (bMap r l sid) (bMap r' l sid) := by unfold bMap; mono
instance (l sid) : Mono (bReduce r l sid) (bReduce r' l sid) := by unfold bReduce; mono
instance (l sid) : Mono (bApply r l sid) (bApply r' l sid) := by unfold bApply; mono
instance (l sid) : Mono (bEval r l sid) (bEval r' l sid) := by unfold bEval; mono
instance (c sid b) : Mono (evalCode r c sid b) (evalCode r' c sid b) := by unfold evalCode; mono
instance (c sid m t e) : Mono (lispEval r c sid m t e) (lispEval r' c sid m t e) := by unfold lispEval; mono
instance (l sid) : Mono (bEvalStr r l sid) (bEvalStr r' l sid) := by unfold bEvalStr; mono
instance (g f c i) : Mono (importBody r g f c i) (importBody r' g f c i) := by unfold importBody; mono
instance (sid f c) : Mono (importOne r sid f c) (importOne r' sid f c) := by unfold importOne; mono
instance (sid a l) : Mono (importLoop r sid a l) (importLoop r' sid a l) := by
  induction l generalizing a with
  | nil => unfold importLoop; mono
  | cons e l ih => unfold importLoop; mono
instance (l sid) : Mono (bImport r l sid) (bImport r' l sid) := by unfold bImport; mono
instance (a sid b l) : Mono (boolLoop r a sid b l) (boolLoop r' a sid b l) := by
  induction l generalizing b with
  | nil => unfold boolLoop; mono
  | cons e l ih => unfold boolLoop; mono
instance (a l sid) : Mono (bBool r a l sid) (bBool r' a l sid) := by unfold bBool; mono
instance (l sid) : Mono (bDefineMacroEval r l sid) (bDefineMacroEval r' l sid) := by unfold bDefineMacroEval; mono
instance (l sid) : Mono (bDefineMacroExpand r l sid) (bDefineMacroExpand r' l sid) := by unfold bDefineMacroExpand; mono
instance (sid l) : Mono (procQLoop r sid l) (procQLoop r' sid l) := by
  induction l with
  | nil => unfold procQLoop; mono
  | cons e l ih => unfold procQLoop; mono
instance (l sid) : Mono (procQStep r l sid) (procQStep r' l sid) := by unfold procQStep; mono
instance (l sid) : Mono (bQuasiquote r l sid) (bQuasiquote r' l sid) := by unfold bQuasiquote; mono
instance (sid a b c) : Mono (bIf.go r sid a b c) (bIf.go r' sid a b c) := by unfold bIf.go; mono
instance (l sid) : Mono (bIf r l sid) (bIf r' l sid) := by unfold bIf; mono
instance (c b sid v w) : Mono (whileStep r c b sid v w) (whileStep r' c b sid v w) := by unfold whileStep; mono
instance (l sid) : Mono (bWhile r l sid) (bWhile r' l sid) := by unfold bWhile; mono
instance (sid a l) : Mono (doLoop r sid a l) (doLoop r' sid a l) := by
  induction l generalizing a with
  | nil => unfold doLoop; mono
  | cons e l ih => unfold doLoop; mono
instance (c l sid) : Mono (callBody r c l sid) (callBody r' c l sid) := by
  unfold callBody
  mono
  all_goals exact mono_sliceExn inferInstance
instance (c l sid) : Mono (callClosure r c l sid) (callClosure r' c l sid) := by unfold callClosure; mono
instance (a l sid) : Mono (bDefn r a l sid) (bDefn r' a l sid) := by unfold bDefn; mono
instance mono_callPrim (b l sid) : Mono (callPrim r b l sid) (callPrim r' b l sid) := by
  cases b <;> dsimp only [callPrim] <;> infer_instance
instance (f l sid) : Mono (callStep r f l sid) (callStep r' f l sid) := by unfold callStep; mono

omit hn in
theorem run_le {k k' : Nat} (h : k ≤ k') : RecLe (run k) (run k') := by
  induction k generalizing k' with
  | zero =>
    refine ⟨⟨?_⟩, ?_, ?_, ?_, ?_, ?_, ?_, ?_⟩ <;> intros <;> first | exact Mono.fuel | exact Nat.zero_le _
  | succ k ih =>
    obtain ⟨k', rfl⟩ : ∃ m, k' = m + 1 := ⟨k' - 1, by omega⟩
    have := ih (k' := k') (by omega)
    exact ⟨⟨h⟩, fun _ _ => inferInstanceAs (Mono (evalStep _ _ _) (evalStep _ _ _)), fun _ _ _ => inferInstanceAs (Mono (callStep _ _ _ _) (callStep _ _ _ _)),
      fun _ _ => inferInstanceAs (Mono (expandLoop _ _ _) (expandLoop _ _ _)), fun _ _ => inferInstanceAs (Mono (expandStep _ _ _) (expandStep _ _ _)),
      fun _ _ => inferInstanceAs (Mono (procQStep _ _ _) (procQStep _ _ _)), fun _ _ _ _ => inferInstanceAs (Mono (substLoop _ _ _ _ _) (substLoop _ _ _ _ _)),
      fun _ _ _ _ _ => inferInstanceAs (Mono (whileStep _ _ _ _ _ _) (whileStep _ _ _ _ _ _))⟩

end Fuel
