import Verif.LemValidOps
/-!
# The builtin functions keep a state valid
-/

set_option linter.unusedSectionVars false
set_option linter.unusedSimpArgs false
set_option linter.unusedVariables false
set_option synthInstance.maxHeartbeats 20000

namespace Fuel

open Spec

variable [World] {w : Lay}

instance : Safe w (bFuel) := by
  unfold bFuel
  safe
instance : Safe w (bVersion) := by
  unfold bVersion
  safe
instance : Safe w (bCopyright) := by
  unfold bCopyright
  safe
instance (sid : Nat) [Is w sid .scope] : Safe w (bHelp sid) := by
  unfold bHelp
  safe
instance (text : Str) : Safe w (dumpDocumentation text) := by
  unfold dumpDocumentation
  safe
instance (n : Nat) (sel : Str → Str → Bool) (args : List Ptr) (sid : Nat) [Good w args] [Is w sid .scope] : Safe w (searchDocumentation n sel args sid) := by
  unfold searchDocumentation
  safe
instance (n : Nat) (args : List Ptr) (sid : Nat) [Good w args] [Is w sid .scope] : Safe w (bDoc n args sid) := by
  unfold bDoc
  safe
instance (n : Nat) (args : List Ptr) (sid : Nat) [Good w args] [Is w sid .scope] : Safe w (bSearchDoc n args sid) := by
  unfold bSearchDoc
  safe
instance (n : Nat) (sid : Nat) [Is w sid .scope] : Safe w (bHtmlDoc n sid) := by
  unfold bHtmlDoc
  safe
instance (sid : Nat) [Is w sid .scope] : Safe w (bBreak sid) := by
  unfold bBreak
  safe
theorem dumpVars_safe {n : Nat} : ∀ {w} {l : List (Str × Ptr)}, Good w l → Safe w (dumpVars n l)
  | w, [], _ => by unfold dumpVars; infer_instance
  | w, (k, p) :: t, h => by
    have hr := fun w h => dumpVars_safe (n := n) (w := w) (l := t) h
    unfold dumpVars
    safe <;> exact hr _ inferInstance
instance (n : Nat) (l : List (Str × Ptr)) [h : Good w l] : Safe w (dumpVars n l) := dumpVars_safe h
instance (n : Nat) (sid : Nat) [Is w sid .scope] : Safe w (bVars n sid) := by
  unfold bVars
  safe
instance (n : Nat) (args : List Ptr) (sid : Nat) [Good w args] [Is w sid .scope] : Safe w (bDelVar n args sid) := by
  unfold bDelVar
  safe
  exact Safe.modScope inferInstance fun sc h => good_scope_vars h (names_mapErase h.ok.names) (good_mapErase h.vars)
instance (args : List Ptr) (sid : Nat) [Good w args] [Is w sid .scope] : Safe w (bNeedLValue args sid) := by
  unfold bNeedLValue
  safe
instance (n : Nat) (args : List Ptr) (sid : Nat) [Good w args] [Is w sid .scope] : Safe w (bTrace n args sid) := by
  unfold bTrace
  safe
instance (n : Nat) (sid : Nat) [Is w sid .scope] : Safe w (bGetTrace n sid) := by
  unfold bGetTrace
  safe
instance (args : List Ptr) (sid : Nat) [Good w args] [Is w sid .scope] : Safe w (bTickCount args sid) := by
  unfold bTickCount
  safe
instance (n : Nat) (args : List Ptr) [Good w args] : Safe w (bSleep n args) := by
  unfold bSleep
  safe
instance : Safe w (bDatetime) := by
  unfold bDatetime
  safe
instance : Safe w (bPlatform) := by
  unfold bPlatform
  safe
instance (args : List Ptr) (sid : Nat) [Good w args] [Is w sid .scope] : Safe w (bReturn args sid) := by
  unfold bReturn
  safe
instance (args : List Ptr) (sid : Nat) [Good w args] [Is w sid .scope] : Safe w (bType args sid) := by
  unfold bType
  safe
instance (args : List Ptr) (sid : Nat) [Good w args] [Is w sid .scope] : Safe w (bTypeStr args sid) := by
  unfold bTypeStr
  safe
instance (n : Nat) (args : List Ptr) (sid : Nat) [Good w args] [Is w sid .scope] : Safe w (stringRep n args sid) := by
  unfold stringRep
  safe
instance (n : Nat) (args : List Ptr) (sid : Nat) [Good w args] [Is w sid .scope] : Safe w (bPrint n args sid) := by
  unfold bPrint
  safe
instance (n : Nat) (args : List Ptr) (sid : Nat) [Good w args] [Is w sid .scope] : Safe w (bPrintLn n args sid) := by
  unfold bPrintLn
  safe
instance (n : Nat) (args : List Ptr) (sid : Nat) [Good w args] [Is w sid .scope] : Safe w (bFormat n args sid) := by
  unfold bFormat
  safe
instance (args : List Ptr) (sid : Nat) [Good w args] [Is w sid .scope] : Safe w (bFlush args sid) := by
  unfold bFlush
  safe
instance (args : List Ptr) (sid : Nat) [Good w args] [Is w sid .scope] : Safe w (bReadLine args sid) := by
  unfold bReadLine
  safe
instance (txt : Str) : Safe w (textReader txt) := by
  unfold textReader
  safe
instance (s : Str) : RGood w (stoi s) := by
  unfold stoi
  safe
instance (s : Str) : RGood w (parseIntText s) := by
  unfold parseIntText
  safe
instance {α : Type} [HasGood α] (d : α) (r : R α) [Good w d] [h : RGood w r] : RGood w (catchAny d r) := by
  unfold catchAny
  split
  · infer_instance
  · exact h
instance (n : Nat) (args : List Ptr) (sid : Nat) [Good w args] [Is w sid .scope] : Safe w (bParseInteger n args sid) := by
  unfold bParseInteger
  have : ∀ w s v, RGood w (do parseIntText (← varStr s n v)) := fun w s v => by safe
  safe
instance (n : Nat) (args : List Ptr) (sid : Nat) [Good w args] [Is w sid .scope] : Safe w (bParseFloat n args sid) := by
  unfold bParseFloat
  safe
instance (n : Nat) (args : List Ptr) (sid : Nat) [Good w args] [Is w sid .scope] : Safe w (bToInt n args sid) := by
  unfold bToInt
  safe
instance (n : Nat) (args : List Ptr) (sid : Nat) [Good w args] [Is w sid .scope] : Safe w (bToFloat n args sid) := by
  unfold bToFloat
  safe
instance (n : Nat) (args : List Ptr) (i : Nat) [Good w args] : Safe w (optSize n args i) := by
  unfold optSize
  safe
instance (n : Nat) (args : List Ptr) (sid : Nat) [Good w args] [Is w sid .scope] : Safe w (bSearch n args sid) := by
  unfold bSearch
  safe
instance (n : Nat) (args : List Ptr) (sid : Nat) [Good w args] [Is w sid .scope] : Safe w (bSlice n args sid) := by
  unfold bSlice
  safe
instance (n : Nat) (args : List Ptr) (sid : Nat) [Good w args] [Is w sid .scope] : Safe w (bReplace n args sid) := by
  unfold bReplace
  safe
instance (name : Str) (f : Str → Str) (n : Nat) (args : List Ptr) (sid : Nat) [Good w args] [Is w sid .scope] : Safe w (strFn name f n args sid) := by
  unfold strFn
  safe
theorem arithLoop_safe {n : Nat} {op : ArithOp} : ∀ {w} {a : Variant} {l : List Ptr}, Good w a → Good w l → Safe w (arithLoop n op a l)
  | w, a, [], _, _ => by unfold arithLoop; infer_instance
  | w, a, p :: t, ha, h => by
    have hr := fun w a ha h => arithLoop_safe (n := n) (op := op) (w := w) (a := a) (l := t) ha h
    unfold arithLoop
    safe
    exact hr _ _ inferInstance inferInstance
instance (n : Nat) (op : ArithOp) (a : Variant) (l : List Ptr) [ha : Good w a] [h : Good w l] : Safe w (arithLoop n op a l) := arithLoop_safe ha h
instance (n : Nat) (op : ArithOp) (l : List Ptr) [Good w l] : Safe w (arithFold n op l) := by
  unfold arithFold
  safe
instance (n : Nat) (args : List Ptr) [Good w args] : Safe w (bSub n args) := by
  unfold bSub
  safe
instance (n : Nat) (args : List Ptr) (sid : Nat) [Good w args] [Is w sid .scope] : Safe w (bNot n args sid) := by
  unfold bNot
  safe
instance (op : BitOp) (n : Nat) (args : List Ptr) (sid : Nat) [Good w args] [Is w sid .scope] : Safe w (bBit op n args sid) := by
  unfold bBit
  safe
theorem not_range {x : Int} (h : IsInt32 x) : IsInt32 (-x - 1) := by unfold IsInt32 at *; omega
instance (x : Int) [h : Good w x] : Good w (-x - 1) := ⟨not_range h.ok⟩
instance (n : Nat) (args : List Ptr) (sid : Nat) [Good w args] [Is w sid .scope] : Safe w (bBitNot n args sid) := by
  unfold bBitNot
  safe
instance (op : CmpOp) (n : Nat) (args : List Ptr) (sid : Nat) [Good w args] [Is w sid .scope] : Safe w (bCmp op n args sid) := by
  unfold bCmp
  safe
instance (args : List Ptr) [Good w args] : Safe w (bList args) := by
  unfold bList
  safe
instance (n : Nat) (args : List Ptr) [Good w args] : Safe w (bCons n args) := by
  unfold bCons
  safe
instance (n : Nat) (v : Variant) [Good w v] : Safe w (lenRest n v) := by
  unfold lenRest
  safe
instance (n : Nat) (args : List Ptr) (sid : Nat) [Good w args] [Is w sid .scope] : Safe w (bLen n args sid) := by
  unfold bLen
  safe
instance (target : Ptr) (k : LKind) [Good w target] : Safe w (mkLVal target k) := by
  unfold mkLVal
  safe
instance (n : Nat) (args : List Ptr) (sid : Nat) [Good w args] [Is w sid .scope] : Safe w (bFirst n args sid) := by
  unfold bFirst
  safe
instance (n : Nat) (args : List Ptr) (sid : Nat) [Good w args] [Is w sid .scope] : Safe w (bLast n args sid) := by
  unfold bLast
  safe
instance (n : Nat) (args : List Ptr) (sid : Nat) [Good w args] [Is w sid .scope] : Safe w (bRest n args sid) := by
  unfold bRest
  safe
instance (n : Nat) (args : List Ptr) (sid : Nat) [Good w args] [Is w sid .scope] : Safe w (bNth n args sid) := by
  unfold bNth
  safe
instance (n : Nat) (args : List Ptr) (i : Nat) [Good w args] : Safe w (optPos n args i) := by
  unfold optPos
  safe
instance (n : Nat) (args : List Ptr) (sid : Nat) [Good w args] [Is w sid .scope] : Safe w (bPush n args sid) := by
  unfold bPush
  safe
instance (n : Nat) (args : List Ptr) (sid : Nat) [Good w args] [Is w sid .scope] : Safe w (bPop n args sid) := by
  unfold bPop
  safe
theorem appendLoop_good {s : St} [Ok w s] {n : Nat} : ∀ {l : List Ptr}, Good w l → RGood w (appendLoop s n l)
  | [], _ => by unfold appendLoop; infer_instance
  | p :: t, h => by
    have hr := appendLoop_good (s := s) (n := n) h.tail
    unfold appendLoop
    safe
instance (s : St) [Ok w s] (n : Nat) (l : List Ptr) [h : Good w l] : RGood w (appendLoop s n l) := appendLoop_good h
instance (n : Nat) (args : List Ptr) [Good w args] : Safe w (bAppend n args) := by
  unfold bAppend
  safe
instance (n : Nat) (args : List Ptr) (sid : Nat) [Good w args] [Is w sid .scope] : Safe w (bReverse n args sid) := by
  unfold bReverse
  safe
instance (n : Nat) (args : List Ptr) (sid : Nat) [Good w args] [Is w sid .scope] : Safe w (bSym n args sid) := by
  unfold bSym
  safe
instance (n : Nat) (args : List Ptr) (sid : Nat) [Good w args] [Is w sid .scope] : Safe w (bStr n args sid) := by
  unfold bStr
  safe
instance (sid : Nat) [Is w sid .scope] : Safe w (argsList sid) := by
  unfold argsList
  safe
instance (args : List Ptr) (sid : Nat) [Good w args] [Is w sid .scope] : Safe w (bArgsCount args sid) := by
  unfold bArgsCount
  safe
instance (args : List Ptr) (sid : Nat) [Good w args] [Is w sid .scope] : Safe w (bArgs args sid) := by
  unfold bArgs
  safe
instance (i : Int) (l : List Ptr) : Safe w (bArg.bad i l) := by
  unfold bArg.bad
  safe
instance (n : Nat) (args : List Ptr) (sid : Nat) [Good w args] [Is w sid .scope] : Safe w (bArg n args sid) := by
  unfold bArg
  safe
instance (args : List Ptr) (sid : Nat) [Good w args] [Is w sid .scope] : Safe w (bMakeDict args sid) := by
  unfold bMakeDict
  safe
instance (args : List Ptr) [Good w args] : Safe w (argDict args) := by
  unfold argDict
  safe
theorem dictOf_is {v : Variant} (h : Good w v) {i : Nat} (e : dictOf v = .ok i) : Is w i (.obj .dict) := by
  unfold dictOf at e
  have := h.value
  split at e
  · cases e
  · rename_i hv; cases e; rw [hv] at this; exact this.is
  · cases e
theorem argDict_bind {β : Type} [HasGood β] {args : List Ptr} {k : Nat → M β} (h : Good w args)
    (hk : ∀ w' i, Ext w w' → Is w' i (.obj .dict) → Safe w' (k i)) : Safe w (argDict args >>= k) := by
  have e : (argDict args >>= k) = (argV args 0 >>= fun v => M.lift (dictOf v) >>= k) := by
    funext s
    rw [M.bind_apply, argDict, M.bind_apply, M.bind_apply]
    cases argV args 0 s <;> rfl
  rw [e]
  refine Safe.bind inferInstance fun w' v hx hv => ?_
  exact Safe.rd_bind fun s i hs e => hk w' i hx (dictOf_is hv e)
macro_rules | `(tactic| safe1) => `(tactic| (with_reducible refine argDict_bind inferInstance fun _ _ _ _ => ?_); transport; saturate)
instance (n : Nat) (args : List Ptr) (sid : Nat) [Good w args] [Is w sid .scope] : Safe w (bDictSet n args sid) := by
  unfold bDictSet
  safe
instance (n : Nat) (args : List Ptr) (sid : Nat) [Good w args] [Is w sid .scope] : Safe w (bDictGet n args sid) := by
  unfold bDictGet
  safe
instance (n : Nat) (args : List Ptr) (sid : Nat) [Good w args] [Is w sid .scope] : Safe w (bDictRemove n args sid) := by
  unfold bDictRemove
  safe
theorem boxAll_safe : ∀ {w} {l : List Variant}, Good w l → Safe w (boxAll l)
  | w, [], _ => by unfold boxAll; infer_instance
  | w, v :: t, h => by
    have hr := fun w h => boxAll_safe (w := w) (l := t) h
    unfold boxAll
    safe
    exact hr _ inferInstance
instance (l : List Variant) [h : Good w l] : Safe w (boxAll l) := boxAll_safe h
instance (l : List (Variant × Ptr)) [h : Good w l] : Good w (l.map Prod.fst) :=
  ⟨fun a ha => by obtain ⟨e, he, rfl⟩ := List.mem_map.1 ha; exact (h.mem he).fst.ok⟩
instance (args : List Ptr) (sid : Nat) [Good w args] [Is w sid .scope] : Safe w (bDictKeys args sid) := by
  unfold bDictKeys
  safe
instance (args : List Ptr) (sid : Nat) [Good w args] [Is w sid .scope] : Safe w (bDictClear args sid) := by
  unfold bDictClear
  safe
instance (n : Nat) (args : List Ptr) (sid : Nat) [Good w args] [Is w sid .scope] : Safe w (bDictContainsKey n args sid) := by
  unfold bDictContainsKey
  safe
instance (args : List Ptr) (sid : Nat) [Good w args] [Is w sid .scope] : Safe w (bDictContainsValue args sid) := by
  unfold bDictContainsValue
  safe
instance (args : List Ptr) (sid : Nat) [Good w args] [Is w sid .scope] : Safe w (bQuote args sid) := by
  unfold bQuote
  safe
instance (name : Str) (args : List Ptr) (sid : Nat) [Good w args] [Is w sid .scope] : Safe w (bUnquote name args sid) := by
  unfold bUnquote
  safe
instance (n : Nat) (args : List Ptr) (sid : Nat) [Good w args] [Is w sid .scope] : Safe w (bFileExists n args sid) := by
  unfold bFileExists
  safe
instance (n : Nat) (args : List Ptr) (sid : Nat) [Good w args] [Is w sid .scope] : Safe w (bFileRead n args sid) := by
  unfold bFileRead
  safe
instance (n : Nat) (args : List Ptr) (sid : Nat) [Good w args] [Is w sid .scope] : Safe w (bFileWrite n args sid) := by
  unfold bFileWrite
  safe
instance (f : MathFn) (n : Nat) (args : List Ptr) (sid : Nat) [Good w args] [Is w sid .scope] : Safe w (bMath f n args sid) := by
  unfold bMath
  safe
instance (args : List Ptr) (sid : Nat) [Good w args] [Is w sid .scope] : Safe w (bMathPi args sid) := by
  unfold bMathPi
  safe
instance (n : Nat) (args : List Ptr) (sid : Nat) [Good w args] [Is w sid .scope] : Safe w (bMathPow n args sid) := by
  unfold bMathPow
  safe
instance (n : Nat) (args : List Ptr) (sid : Nat) [Good w args] [Is w sid .scope] : Safe w (bTrim n args sid) := inferInstanceAs (Safe w (strFn _ _ _ _ _))
instance (n : Nat) (args : List Ptr) (sid : Nat) [Good w args] [Is w sid .scope] : Safe w (bLower n args sid) := inferInstanceAs (Safe w (strFn _ _ _ _ _))
instance (n : Nat) (args : List Ptr) (sid : Nat) [Good w args] [Is w sid .scope] : Safe w (bUpper n args sid) := inferInstanceAs (Safe w (strFn _ _ _ _ _))

end Fuel
