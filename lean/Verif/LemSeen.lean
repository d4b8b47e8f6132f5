import Verif.SeenAttr
import Verif.LemPrim
import Verif.DebugRun
/-!
# Functions that read the state do not look at the output, the input and the debugger
-/

set_option linter.unusedSectionVars false
set_option linter.unusedSimpArgs false

namespace Fuel

/-- The state with another output, input and debugger. -/
def St.seen (s : St) (o : Str) (i : List Str) (d : Dbg) : St := { s with out := o, input := i, dbg := d }

variable [World] (s : St) (o : Str) (i : List Str) (d : Dbg)

@[seen] theorem seen_next : (s.seen o i d).next = s.next := rfl
@[seen] theorem seen_lists : (s.seen o i d).lists = s.lists := rfl
@[seen] theorem seen_dicts : (s.seen o i d).dicts = s.dicts := rfl
@[seen] theorem seen_clos : (s.seen o i d).clos = s.clos := rfl
@[seen] theorem seen_scopes : (s.seen o i d).scopes = s.scopes := rfl
@[seen] theorem seen_files : (s.seen o i d).files = s.files := rfl
@[seen] theorem seen_clock : (s.seen o i d).clock = s.clock := rfl
@[seen] theorem seen_libPath : (s.seen o i d).libPath = s.libPath := rfl

@[seen] theorem seen_toListRef (p) : toListRef (s.seen o i d) p = toListRef s p := by unfold toListRef; simp only [seen]
@[seen] theorem seen_toEnumerable (p) : toEnumerable (s.seen o i d) p = toEnumerable s p := by unfold toEnumerable; simp only [seen]

theorem joinLoop_congr {α : Type} {f g : α → R Str} (h : ∀ a, f a = g a) (sep acc : Str) (l : List α) :
    joinLoop f sep acc l = joinLoop g sep acc l := by
  rw [show f = g from funext h]

theorem seen_text (n : Nat) :
    (∀ p, ptrStr (s.seen o i d) n p = ptrStr s n p) ∧ (∀ v, varStr (s.seen o i d) n v = varStr s n v) ∧
    (∀ p, expandStr (s.seen o i d) n p = expandStr s n p) ∧ (∀ p, nativeStr (s.seen o i d) n p = nativeStr s n p) := by
  induction n with
  | zero => simp [ptrStr, varStr, expandStr, nativeStr]
  | succ n ih =>
    obtain ⟨h1, h2, h3, h4⟩ := ih
    have e1 : ptrStr (s.seen o i d) n = ptrStr s n := funext h1
    have e2 : varStr (s.seen o i d) n = varStr s n := funext h2
    have e3 : expandStr (s.seen o i d) n = expandStr s n := funext h3
    have e4 : nativeStr (s.seen o i d) n = nativeStr s n := funext h4
    refine ⟨fun p => ?_, fun v => ?_, fun p => ?_, fun p => ?_⟩
    · unfold ptrStr; simp only [e1, e2, e3, e4, seen]
    · unfold varStr; simp only [e1, e2, e3, e4, seen]
    · unfold expandStr; simp only [e1, e2, e3, e4, seen]
    · unfold nativeStr; simp only [e1, e2, e3, e4, seen]

@[seen] theorem seen_ptrStr (n) : ptrStr (s.seen o i d) n = ptrStr s n := funext (seen_text s o i d n).1
@[seen] theorem seen_varStr (n) : varStr (s.seen o i d) n = varStr s n := funext (seen_text s o i d n).2.1
@[seen] theorem seen_expandStr (n) : expandStr (s.seen o i d) n = expandStr s n := funext (seen_text s o i d n).2.2.1
@[seen] theorem seen_nativeStr (n) : nativeStr (s.seen o i d) n = nativeStr s n := funext (seen_text s o i d n).2.2.2
@[seen] theorem seen_stringValue (n) (v : Variant) : v.stringValue (s.seen o i d) n = v.stringValue s n := by
  simp only [Variant.stringValue, seen]
@[seen] theorem seen_toStrDebugger (n) (v : Variant) : v.toStrDebugger (s.seen o i d) n = v.toStrDebugger s n := by
  simp only [Variant.toStrDebugger, seen]
@[seen] theorem seen_castExn {α : Type} (n v a b) : (castExn (s.seen o i d) n v a b : R α) = castExn s n v a b := by simp only [castExn, seen]
@[seen] theorem seen_convExn {α : Type} (n v a) : (convExn (s.seen o i d) n v a : R α) = convExn s n v a := by simp only [convExn, seen]
@[seen] theorem seen_functionValue (n) (v : Variant) : v.functionValue (s.seen o i d) n = v.functionValue s n := by
  simp only [Variant.functionValue, seen]
@[seen] theorem seen_listValue (n) (v : Variant) : v.listValue (s.seen o i d) n = v.listValue s n := by
  simp only [Variant.listValue, seen]
@[seen] theorem seen_doubleValue (n) (v : Variant) : v.doubleValue (s.seen o i d) n = v.doubleValue s n := by
  simp only [Variant.doubleValue, seen]
@[seen] theorem seen_intValue (n) (v : Variant) : v.intValue (s.seen o i d) n = v.intValue s n := by
  simp only [Variant.intValue, seen]
@[seen] theorem seen_boolValue (n) (v : Variant) : v.boolValue (s.seen o i d) n = v.boolValue s n := by
  simp only [Variant.boolValue, seen]
@[seen] theorem seen_toBool (n) (v : Variant) : v.toBool (s.seen o i d) n = v.toBool s n := by
  simp only [Variant.toBool, seen]
@[seen] theorem seen_toInt (n) (v : Variant) : v.toInt (s.seen o i d) n = v.toInt s n := by
  simp only [Variant.toInt, seen]
@[seen] theorem seen_toDouble (n) (v : Variant) : v.toDouble (s.seen o i d) n = v.toDouble s n := by
  simp only [Variant.toDouble, seen]
@[seen] theorem seen_vLt (n v w) : vLt (s.seen o i d) n v w = vLt s n v w := by simp only [vLt, seen]
@[seen] theorem seen_vLe (n v w) : vLe (s.seen o i d) n v w = vLe s n v w := by simp only [vLe, seen]
@[seen] theorem seen_ptrEq (p q) : ptrEq (s.seen o i d) p q = ptrEq s p q := by
  fun_induction ptrEq s p q <;> simp_all [ptrEq, seen]
@[seen] theorem seen_ptrEquals (p q) : ptrEquals (s.seen o i d) p q = ptrEquals s p q := by
  unfold ptrEquals; simp only [seen]
@[seen] theorem seen_seqEqual (l m) : seqEqual (s.seen o i d) l m = seqEqual s l m := by
  induction l generalizing m with
  | nil => cases m <;> simp [seqEqual]
  | cons a l ih => cases m <;> simp [seqEqual, seen, ih]
@[seen] theorem seen_equalOp (n v w) : equalOp (s.seen o i d) n v w = equalOp s n v w := by simp only [equalOp, seen]
@[seen] theorem seen_CmpOp (op : CmpOp) (n v w) : op.run (s.seen o i d) n v w = op.run s n v w := by cases op <;> simp only [CmpOp.run, seen]
@[seen] theorem seen_symbolCompare (v : Variant) (p) : v.symbolCompare (s.seen o i d) p = v.symbolCompare s p := by
  unfold Variant.symbolCompare; simp only [seen]
@[seen] theorem seen_dictSplit (n k l) : dictSplit (s.seen o i d) n k l = dictSplit s n k l := by
  induction l with
  | nil => unfold dictSplit; simp only [seen]
  | cons e l ih => unfold dictSplit; simp only [seen, ih]
@[seen] theorem seen_dictCmp (n k l) : dictCmp (s.seen o i d) n k l = dictCmp s n k l := by
  induction l with
  | nil => unfold dictCmp; simp only [seen]
  | cons e l ih => unfold dictCmp; simp only [seen, ih]
@[seen] theorem seen_dictAccess (n k l) : dictAccess (s.seen o i d) n k l = dictAccess s n k l := by unfold dictAccess; simp only [seen]
@[seen] theorem seen_dictSet (n k v l) : dictSet (s.seen o i d) n k v l = dictSet s n k v l := by simp only [dictSet, seen]
@[seen] theorem seen_dictFind (n k l) : dictFind (s.seen o i d) n k l = dictFind s n k l := by simp only [dictFind, seen]
@[seen] theorem seen_dictErase (n k l) : dictErase (s.seen o i d) n k l = dictErase s n k l := by simp only [dictErase, seen]
@[seen] theorem seen_dictContainsValue (v l) : dictContainsValue (s.seen o i d) v l = dictContainsValue s v l := by
  induction l with
  | nil => unfold dictContainsValue; simp only [seen]
  | cons e l ih => unfold dictContainsValue; simp only [seen, ih]
@[seen] theorem seen_closureFind (name k sid) : closureFind (s.seen o i d) name k sid = closureFind s name k sid := by
  induction k generalizing sid with
  | zero => rfl
  | succ k ih => unfold closureFind; simp only [seen, ih]
@[seen] theorem seen_moduleSearch (name l) : moduleSearch (s.seen o i d) name l = moduleSearch s name l := by
  induction l with
  | nil => rfl
  | cons e l ih => rcases e with ⟨k, p⟩; cases p with
    | null => simp [moduleSearch]
    | mk x ob => cases ob <;> simp [moduleSearch, seen, ih]
@[seen] theorem seen_findInModules (g name) : findInModules (s.seen o i d) g name = findInModules s g name := by simp only [findInModules, seen]
@[seen] theorem seen_resolve (n sid p) : resolve (s.seen o i d) n sid p = resolve s n sid p := by simp only [resolve, seen]
@[seen] theorem seen_mkScope (a b c) : mkScope (s.seen o i d) a b c = mkScope s a b c := rfl
@[seen] theorem seen_callStackSize (k sid) : callStackSize (s.seen o i d) k sid = callStackSize s k sid := by
  induction k generalizing sid with
  | zero => rfl
  | succ k ih => unfold callStackSize; simp only [seen, ih]
@[seen] theorem seen_dumpStack (l k sid j) : dumpStack (s.seen o i d) l k sid j = dumpStack s l k sid j := by
  induction k generalizing sid j with
  | zero => rfl
  | succ k ih => unfold dumpStack; simp only [seen, ih]
@[seen] theorem seen_macroScope (sid) : macroScope (s.seen o i d) sid = macroScope s sid := rfl
@[seen] theorem seen_getMacro (n f sid) : getMacro (s.seen o i d) n f sid = getMacro s n f sid := by simp only [getMacro, seen]
@[seen] theorem seen_getExpression (p) : getExpression (s.seen o i d) p = getExpression s p := by unfold getExpression; simp only [seen]
@[seen] theorem seen_functionsHelp (n sel l) : functionsHelp (s.seen o i d) n sel l = functionsHelp s n sel l := by
  induction l with
  | nil => rfl
  | cons e l ih => unfold functionsHelp; simp only [seen, ih]
@[seen] theorem seen_macrosHelp (n sel l) : macrosHelp (s.seen o i d) n sel l = macrosHelp s n sel l := by
  induction l with
  | nil => rfl
  | cons e l ih => rcases e with ⟨k, p⟩; cases p with
    | null => simp [macrosHelp, seen, ih]
    | mk x ob => cases ob <;> simp [macrosHelp, seen, ih]
@[seen] theorem seen_searchHelp (n sid sel l) : searchHelp (s.seen o i d) n sid sel l = searchHelp s n sid sel l := by
  induction l with
  | nil => rfl
  | cons e l ih => unfold searchHelp; simp only [seen, ih]
@[seen] theorem seen_dumpDoc (n f l) : dumpDoc (s.seen o i d) n f l = dumpDoc s n f l := by
  induction l with
  | nil => rfl
  | cons e l ih => unfold dumpDoc; simp only [seen, ih]
@[seen] theorem seen_argStrs (n l) : argStrs (s.seen o i d) n l = argStrs s n l := by
  induction l with
  | nil => rfl
  | cons e l ih => unfold argStrs; simp only [seen, ih]
@[seen] theorem seen_searchList (n t l j) : searchList (s.seen o i d) n t l j = searchList s n t l j := by
  induction l generalizing j with
  | nil => rfl
  | cons e l ih => unfold searchList; simp only [seen, ih]
@[seen] theorem seen_appendLoop (n l) : appendLoop (s.seen o i d) n l = appendLoop s n l := by
  induction l with
  | nil => rfl
  | cons e l ih => unfold appendLoop; simp only [seen, ih]
@[seen] theorem seen_resolveElem (n sid e) : resolveElem (s.seen o i d) n sid e = resolveElem s n sid e := by simp only [resolveElem, seen]
@[seen] theorem seen_resolveList (n sid l) : resolveList (s.seen o i d) n sid l = resolveList s n sid l := by
  induction l with
  | nil => rfl
  | cons e l ih => unfold resolveList; simp only [seen, ih]
@[seen] theorem seen_headFunction (n sid p) : headFunction (s.seen o i d) n sid p = headFunction s n sid p := by simp only [headFunction, seen]
@[seen] theorem seen_resolveArgs (n sid f l) : resolveArgs (s.seen o i d) n sid f l = resolveArgs s n sid f l := by simp only [resolveArgs, seen]
@[seen] theorem seen_unquoteKind (n p) : unquoteKind (s.seen o i d) n p = unquoteKind s n p := by simp only [unquoteKind, seen]
@[seen] theorem seen_formalsOf (n p) : formalsOf (s.seen o i d) n p = formalsOf s n p := by simp only [formalsOf, seen]
@[seen] theorem seen_enumerableFromArgs (n p) : enumerableFromArgs (s.seen o i d) n p = enumerableFromArgs s n p := by
  simp only [enumerableFromArgs, seen]
@[seen] theorem seen_signatureOf (n p t) : signatureOf (s.seen o i d) n p t = signatureOf s n p t := by simp only [signatureOf, seen]
@[seen] theorem seen_codeText (a b c) : codeText (s.seen o i d) a b c = codeText s a b c := by simp only [codeText, seen]
@[seen] theorem seen_metaEntries (a b) : metaEntries (s.seen o i d) a b = metaEntries s a b := rfl

end Fuel
