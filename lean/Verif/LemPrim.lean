import Verif.LemInv
import Verif.SpecList
/-!
# The effect of the builtin functions that do not call the evaluator
-/

set_option linter.unusedSectionVars false

namespace Fuel

open Spec

variable [World] {R : St → St → Prop} [Rel R]


instance pres_ret {m : M Variant} [h : Pres R m] : Pres R (ret m) := by unfold ret; pres
instance (args : List Ptr) (i) : Pres R (arg args i) := by unfold arg; pres
instance (name c args sid) : Pres R (checkArgs name c args sid) := by unfold checkArgs; pres
instance (name c d args sid) : Pres R (checkOptionalArgs name c d args sid) := by
  unfold checkOptionalArgs; pres
instance (args : List Ptr) (i) : Pres R (argV args i) := by unfold argV; pres
instance (args : List Ptr) (i) : Pres R (argMk args i) := by unfold argMk; pres
instance (n) (args : List Ptr) (i) : Pres R (argStr n args i) := by unfold argStr; pres
instance (f sid v) : Pres R (checkForList.notList f sid v) := by unfold checkForList.notList; pres
instance (n f p sid) : Pres R (checkForFunction n f p sid) := by unfold checkForFunction; pres
instance (n f p sid) : Pres R (checkForList n f p sid) := by unfold checkForList; pres
instance (args : List Ptr) : Pres R (argDict args) := by unfold argDict; pres
instance (l : List Variant) : Pres R (boxAll l) := by
  induction l with
  | nil => unfold boxAll; pres
  | cons a l ih => unfold boxAll; pres
instance (n args i) : Pres R (optSize n args i) := by unfold optSize; pres
instance (n args i) : Pres R (optPos n args i) := by unfold optPos; pres
instance (sid) : Pres R (argsList sid) := by unfold argsList; pres
instance (n v) : Pres R (lenRest n v) := by unfold lenRest; pres
instance (n v) : Pres R (mkLVal n v) := by unfold mkLVal; pres
instance (i l) : Pres R (bArg.bad i l) := by unfold bArg.bad; pres
instance (n op v w) : Pres R (arith n op v w) := by unfold arith; pres
instance (n op v l) : Pres R (arithLoop n op v l) := by
  induction l generalizing v with
  | nil => unfold arithLoop; pres
  | cons a l ih => unfold arithLoop; pres
instance (n op l) : Pres R (arithFold n op l) := by
  unfold arithFold; pres
instance  : Pres R (bFuel ) := by unfold bFuel; pres
instance  : Pres R (bVersion ) := by unfold bVersion; pres
instance  : Pres R (bCopyright ) := by unfold bCopyright; pres
instance (n sid) : Pres R (bGetTrace n sid) := by unfold bGetTrace; pres
instance (args sid) : Pres R (bNeedLValue args sid) := by unfold bNeedLValue; pres
instance  : Pres R (bPlatform ) := by unfold bPlatform; pres
instance (args sid) : Pres R (bType args sid) := by unfold bType; pres
instance (args sid) : Pres R (bTypeStr args sid) := by unfold bTypeStr; pres
instance (n args sid) : Pres R (bFormat n args sid) := by unfold bFormat; pres
instance (args sid) : Pres R (bFlush args sid) := by unfold bFlush; pres
instance (n args sid) : Pres R (bParseInteger n args sid) := by unfold bParseInteger; pres
instance (n args sid) : Pres R (bParseFloat n args sid) := by unfold bParseFloat; pres
instance (n args sid) : Pres R (bToInt n args sid) := by unfold bToInt; pres
instance (n args sid) : Pres R (bToFloat n args sid) := by unfold bToFloat; pres
instance (n args sid) : Pres R (bSearch n args sid) := by unfold bSearch; pres
instance (n args sid) : Pres R (bSlice n args sid) := by unfold bSlice; pres
instance (n args sid) : Pres R (bReplace n args sid) := by unfold bReplace; pres
instance (name f n args sid) : Pres R (strFn name f n args sid) := by unfold strFn; pres
instance (n args sid) : Pres R (bTrim n args sid) := by unfold bTrim; pres
instance (n args sid) : Pres R (bLower n args sid) := by unfold bLower; pres
instance (n args sid) : Pres R (bUpper n args sid) := by unfold bUpper; pres
instance (n args) : Pres R (bSub n args) := by unfold bSub; pres
instance (op n args sid) : Pres R (bBit op n args sid) := by unfold bBit; pres
instance (n args sid) : Pres R (bBitNot n args sid) := by unfold bBitNot; pres
instance (op n args sid) : Pres R (bCmp op n args sid) := by unfold bCmp; pres
instance (n args sid) : Pres R (bNot n args sid) := by unfold bNot; pres
instance (args) : Pres R (bList args) := by unfold bList; pres
instance (n args) : Pres R (bCons n args) := by unfold bCons; pres
instance (n args sid) : Pres R (bLen n args sid) := by unfold bLen; pres
instance (n args sid) : Pres R (bFirst n args sid) := by unfold bFirst; pres
instance (n args sid) : Pres R (bLast n args sid) := by unfold bLast; pres
instance (n args sid) : Pres R (bRest n args sid) := by unfold bRest; pres
instance (n args sid) : Pres R (bNth n args sid) := by unfold bNth; pres
instance (n args) : Pres R (bAppend n args) := by unfold bAppend; pres
instance (n args sid) : Pres R (bReverse n args sid) := by unfold bReverse; pres
instance (n args sid) : Pres R (bSym n args sid) := by unfold bSym; pres
instance (n args sid) : Pres R (bStr n args sid) := by unfold bStr; pres
instance (args sid) : Pres R (bArgsCount args sid) := by unfold bArgsCount; pres
instance (args sid) : Pres R (bArgs args sid) := by unfold bArgs; pres
instance (n args sid) : Pres R (bArg n args sid) := by unfold bArg; pres
instance (args sid) : Pres R (bMakeDict args sid) := by unfold bMakeDict; pres
instance (n args sid) : Pres R (bDictGet n args sid) := by unfold bDictGet; pres
instance (args sid) : Pres R (bDictKeys args sid) := by unfold bDictKeys; pres
instance (n args sid) : Pres R (bDictContainsKey n args sid) := by unfold bDictContainsKey; pres
instance (args sid) : Pres R (bDictContainsValue args sid) := by unfold bDictContainsValue; pres
instance (args sid) : Pres R (bQuote args sid) := by unfold bQuote; pres
instance (name args sid) : Pres R (bUnquote name args sid) := by unfold bUnquote; pres
instance (c : Closure) : Pres Extends (allocClosure c) := ⟨fun _ =>
  ⟨Nat.le_succ _, fun _ _ => rfl, fun _ _ => rfl, fun _ hi => fset_ne _ _ (Nat.ne_of_lt hi), fun _ _ => rfl, rfl, rfl, rfl, rfl, rfl⟩⟩
instance (args sid) : Pres Extends (bFn args sid) := by unfold bFn; pres
instance (n args sid) : Pres R (bFileExists n args sid) := by unfold bFileExists; pres
instance (n args sid) : Pres R (bFileRead n args sid) := by unfold bFileRead; pres
instance (args sid) : Pres R (bMathPi args sid) := by unfold bMathPi; pres
instance (f n args sid) : Pres R (bMath f n args sid) := by unfold bMath; pres
instance (n args sid) : Pres R (bMathPow n args sid) := by unfold bMathPow; pres
instance (n args) : Pres R (bSleep n args) := by unfold bSleep; pres

/-- The read-only functions create new objects and change nothing else. -/
theorem pres_readOnly (r : Rec) {b : Builtin} (h : b ∈ readOnly) (args : List Ptr) (sid : Nat) :
    Pres Extends (callPrim r b args sid) := by
  cases b <;> first
    | exact absurd h (by decide)
    | (simp only [callPrim]
       try with_reducible refine pres_ret ?_
       pres)

end Fuel
