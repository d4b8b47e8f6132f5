import Verif.LemSeen
import Verif.LemMono
/-!
# The evaluator with and without debugger, side by side

`DSim W m m'`: the computation `m` of the plain run and the computation `m'` of the debugged run keep the two states related
by `W.rel`, as long as nothing happens in the plain run that `W.good` excludes.
-/

set_option linter.unusedSectionVars false
set_option linter.unusedSimpArgs false
set_option linter.unusedVariables false

namespace Fuel

/-- How the two runs are compared.  `fwd`: from a result of the plain run to a result of the debugged run, otherwise the other
way.  `step` holds between the state before and after every plain computation, `good` if nothing excluded happens in it. -/
structure Watch where
  fwd : Bool
  rel : St → St → Prop
  step : St → St → Prop
  good : St → St → Prop

/-- The answers of the two runs correspond. -/
def Watch.Ans {α : Type} (W : Watch) (o o' : Out α) : Prop :=
  if W.fwd then ∀ a t, o = .ok a t → ∃ t', o' = .ok a t' ∧ W.rel t t'
  else ∀ a t', o' = .ok a t' → ∃ t, o = .ok a t ∧ W.rel t t'

/-- The laws of a comparison. -/
class IsWatch (W : Watch) : Prop where
  refl : ∀ s, W.step s s
  trans : ∀ {a b c}, W.step a b → W.step b c → W.step a c
  split : ∀ {a b c}, W.good a c → W.step a b → W.step b c → W.good a b ∧ W.good b c
  seen : ∀ {s s'}, W.rel s s' → s' = s.seen s'.out s'.input s'.dbg
  upd : ∀ {s s' t}, W.rel s s' → t.out = s.out → t.input = s.input → t.dbg = s.dbg → W.rel t (t.seen s'.out s'.input s'.dbg)
  stepUpd : ∀ {s t : St}, t.out = s.out → t.input = s.input → W.step s t
  write : ∀ {s s'} w, W.rel s s' → W.rel { s with out := s.out ++ w } { s' with out := s'.out ++ w }
  stepWrite : ∀ (s : St) w, W.step s { s with out := s.out ++ w }

/-- The two computations keep the states related. -/
class DSim {α : Type} (W : Watch) (m m' : M α) : Prop where
  step : ∀ s, W.step s (m s).st
  sim : ∀ s s', W.rel s s' → W.good s (m s).st → W.Ans (m s) (m' s')

variable [World] {α β : Type} {W : Watch} [hW : IsWatch W]

theorem DSim.bind {m m' : M α} {k k' : α → M β} (h : DSim W m m') (hk : ∀ x, DSim W (k x) (k' x)) :
    DSim W (m >>= k) (m' >>= k') where
  step s := by
    have h1 := h.step s
    rw [M.bind_apply]
    cases hm : m s with
    | ok a t => rw [hm] at h1; exact hW.trans h1 ((hk a).step t)
    | fail f t => rw [hm] at h1; exact h1
  sim s s' hr hg := by
    have h1 := h.step s
    have h2 := h.sim s s' hr
    rw [M.bind_apply] at hg
    rw [M.bind_apply, M.bind_apply]
    unfold Watch.Ans at *
    cases hm : m s with
    | fail f t =>
      rw [hm] at hg h2
      have h2 := h2 hg
      cases hf : W.fwd
      · simp only [hf, Bool.false_eq_true, if_false] at h2 ⊢
        intro b t' hb
        cases hm' : m' s' with
        | fail f' u' => rw [hm'] at hb; cases hb
        | ok a u' => obtain ⟨u, hu, _⟩ := h2 a u' hm'; cases hu
      · simp only [hf, if_true]
        intro b u hb; cases hb
    | ok a t =>
      rw [hm] at hg h2 h1
      obtain ⟨g1, g2⟩ := hW.split hg h1 ((hk a).step t)
      have h2 := h2 g1
      cases hf : W.fwd
      · simp only [hf, Bool.false_eq_true, if_false] at h2 ⊢
        intro b t' hb
        cases hm' : m' s' with
        | fail f' u' => rw [hm'] at hb; cases hb
        | ok a' u' =>
          rw [hm'] at hb
          obtain ⟨u, hu, hru⟩ := h2 a' u' hm'
          cases hu
          have h3 := (hk a).sim t u' hru g2
          unfold Watch.Ans at h3
          simp only [hf, Bool.false_eq_true, if_false] at h3
          exact h3 b t' hb
      · simp only [hf, if_true] at h2 ⊢
        obtain ⟨t', ht', hrt⟩ := h2 a t rfl
        have h3 := (hk a).sim t t' hrt g2
        unfold Watch.Ans at h3
        simp only [hf, if_true] at h3
        rw [ht']
        exact h3

theorem Watch.Ans.same {o : Out α} {a : α} {t t' : St} (h : W.rel t t') : W.Ans (.ok a t) (.ok a t') := by
  unfold Watch.Ans
  cases W.fwd <;> simp <;> exact h
theorem Watch.Ans.fails {f : Fail} {t t' : St} : W.Ans (.fail f t : Out α) (.fail f t') := by
  unfold Watch.Ans
  cases W.fwd <;> simp

instance DSim.pure (a : α) : DSim W (Pure.pure a : M α) (Pure.pure a) := ⟨hW.refl, fun s s' hr _ => Watch.Ans.same (o := .ok a s) hr⟩
instance DSim.fail (f : Fail) : DSim W (M.fail f : M α) (M.fail f) := ⟨hW.refl, fun _ _ _ _ => Watch.Ans.fails⟩
instance DSim.ub (u : UB) : DSim W (ub u : M α) (ub u) := ⟨hW.refl, fun _ _ _ _ => Watch.Ans.fails⟩
theorem DSim.rd {g g' : St → R α} (h : ∀ s o i d, g' (s.seen o i d) = g s) : DSim W (M.rd g) (M.rd g') := ⟨fun s => by
  rw [M.rd_apply]; cases g s <;> exact hW.refl s, fun s s' hr _ => by
  have e := h s s'.out s'.input s'.dbg
  rw [← hW.seen hr] at e
  rw [M.rd_apply, M.rd_apply, e]
  cases g s with
  | ok a => exact Watch.Ans.same (o := .ok a s) hr
  | error f => exact Watch.Ans.fails⟩
theorem DSim.get {g g' : St → α} (h : ∀ s o i d, g' (s.seen o i d) = g s) : DSim W (M.get g) (M.get g') := ⟨hW.refl, fun s s' hr _ => by
  have e := h s s'.out s'.input s'.dbg
  rw [← hW.seen hr] at e
  rw [M.get_apply, M.get_apply, e]
  exact Watch.Ans.same (o := .ok (g s) s) hr⟩
instance DSim.lift (a : R α) : DSim W (M.lift a) (M.lift a) := DSim.rd fun _ _ _ _ => rfl
/-- Computations that neither use nor change the output, the input and the debugger. -/
theorem DSim.prim {m : M α} {f : St → α} {g : St → St} (h : ∀ s, m s = .ok (f s) (g s)) (h1 : ∀ s, (g s).out = s.out)
    (h2 : ∀ s, (g s).input = s.input) (h3 : ∀ s, (g s).dbg = s.dbg) (h4 : ∀ s o i d, f (s.seen o i d) = f s)
    (h5 : ∀ s o i d, g (s.seen o i d) = (g s).seen o i d) : DSim W m m := ⟨fun s => by
  rw [h]; exact hW.stepUpd (h1 s) (h2 s), fun s s' hr _ => by
  have e4 := h4 s s'.out s'.input s'.dbg
  have e5 := h5 s s'.out s'.input s'.dbg
  rw [← hW.seen hr] at e4 e5
  rw [h, h, e4, e5]
  exact Watch.Ans.same (o := .ok (f s) s) (hW.upd hr (h1 s) (h2 s) (h3 s))⟩

instance (o : Obj) : DSim W (allocObj o) (allocObj o) := DSim.prim (fun _ => rfl) (fun _ => rfl) (fun _ => rfl) (fun _ => rfl) (fun _ _ _ _ => rfl) (fun _ _ _ _ => rfl)
instance (o : List Ptr) : DSim W (allocList o) (allocList o) := DSim.prim (fun _ => rfl) (fun _ => rfl) (fun _ => rfl) (fun _ => rfl) (fun _ _ _ _ => rfl) (fun _ _ _ _ => rfl)
instance (o : List Ptr) : DSim W (allocVec o) (allocVec o) := DSim.prim (fun _ => rfl) (fun _ => rfl) (fun _ => rfl) (fun _ => rfl) (fun _ _ _ _ => rfl) (fun _ _ _ _ => rfl)
instance (o) : DSim W (allocDict o) (allocDict o) := DSim.prim (fun _ => rfl) (fun _ => rfl) (fun _ => rfl) (fun _ => rfl) (fun _ _ _ _ => rfl) (fun _ _ _ _ => rfl)
instance (o) : DSim W (allocClosure o) (allocClosure o) := DSim.prim (fun _ => rfl) (fun _ => rfl) (fun _ => rfl) (fun _ => rfl) (fun _ _ _ _ => rfl) (fun _ _ _ _ => rfl)
instance (o) : DSim W (allocScope o) (allocScope o) := DSim.prim (fun _ => rfl) (fun _ => rfl) (fun _ => rfl) (fun _ => rfl) (fun _ _ _ _ => rfl) (fun _ _ _ _ => rfl)
instance (v : Variant) : DSim W (box v) (box v) := inferInstanceAs (DSim W (allocObj _) (allocObj _))
instance (a b) : DSim W (setList a b) (setList a b) := DSim.prim (f := fun _ => ()) (fun _ => rfl) (fun _ => rfl) (fun _ => rfl) (fun _ => rfl) (fun _ _ _ _ => rfl) (fun _ _ _ _ => rfl)
instance (a b) : DSim W (setDict a b) (setDict a b) := DSim.prim (f := fun _ => ()) (fun _ => rfl) (fun _ => rfl) (fun _ => rfl) (fun _ => rfl) (fun _ _ _ _ => rfl) (fun _ _ _ _ => rfl)
instance (a b) : DSim W (modScope a b) (modScope a b) := DSim.prim (f := fun _ => ()) (fun _ => rfl) (fun _ => rfl) (fun _ => rfl) (fun _ => rfl) (fun _ _ _ _ => rfl) (fun _ _ _ _ => rfl)
instance : DSim W (M.modify fun s => { s with clock := s.clock + 1 }) (M.modify fun s => { s with clock := s.clock + 1 }) :=
  DSim.prim (f := fun _ => ()) (fun _ => rfl) (fun _ => rfl) (fun _ => rfl) (fun _ => rfl) (fun _ _ _ _ => rfl) (fun _ _ _ _ => rfl)
instance (f : List (Str × Str) → List (Str × Str)) : DSim W (M.modify fun s => { s with files := f s.files }) (M.modify fun s => { s with files := f s.files }) :=
  DSim.prim (f := fun _ => ()) (fun _ => rfl) (fun _ => rfl) (fun _ => rfl) (fun _ => rfl) (fun _ _ _ _ => rfl) (fun _ _ _ _ => rfl)
instance (t) : DSim W (write t) (write t) := ⟨fun s => hW.stepWrite s t, fun s s' hr _ => Watch.Ans.same (o := .ok () s) (hW.write t hr)⟩
instance (t) : DSim W (writeLine t) (writeLine t) := inferInstanceAs (DSim W (write _) (write _))
instance (m : Str) (sid : Nat) : DSim W (throwScope m sid : M α) (throwScope m sid) := ⟨hW.refl, fun s s' hr _ => by
  rw [hW.seen hr]
  exact Watch.Ans.fails⟩
instance (m : Str) (t : Option Token) (sid : Nat) : DSim W (throwTok m t sid : M α) (throwTok m t sid) := ⟨hW.refl, fun s s' hr _ => by
  rw [hW.seen hr]
  exact Watch.Ans.fails⟩

/-- Proves `DSim` goals by following the structure of both sides. -/
macro "sim" : tactic => `(tactic| repeat' (first
  | infer_instance
  | assumption
  | with_reducible refine DSim.bind ?_ fun _ => ?_
  | (with_reducible refine DSim.rd fun _ _ _ _ => ?_; simp only [seen]; done)
  | (with_reducible refine DSim.get fun _ _ _ _ => ?_; simp only [seen]; done)
  | split
  | dsimp only))

instance (p : Ptr) : DSim W (copyObj p) (copyObj p) := by unfold copyObj; sim

instance (o : Obj) : DSim W (mkAtom o) (mkAtom o) := by unfold mkAtom; sim
instance (o) : DSim W (mkInt o) (mkInt o) := by unfold mkInt; sim
instance (o) : DSim W (mkStr o) (mkStr o) := by unfold mkStr; sim
instance (o) : DSim W (mkBool o) (mkBool o) := by unfold mkBool; sim
instance (o) : DSim W (mkDbl o) (mkDbl o) := by unfold mkDbl; sim
instance (l) : DSim W (mkList l) (mkList l) := by unfold mkList; sim
instance sim_ret {m m' : M Variant} [h : DSim W m m'] : DSim W (ret m) (ret m') := by unfold ret; sim
instance (args : List Ptr) (i) : DSim W (arg args i) (arg args i) := by unfold arg; sim
instance (name c args sid) : DSim W (checkArgs name c args sid) (checkArgs name c args sid) := by unfold checkArgs; sim
instance (name c d args sid) : DSim W (checkOptionalArgs name c d args sid) (checkOptionalArgs name c d args sid) := by
  unfold checkOptionalArgs; sim
instance (args : List Ptr) (i) : DSim W (argV args i) (argV args i) := by unfold argV; sim
instance (args : List Ptr) (i) : DSim W (argMk args i) (argMk args i) := by unfold argMk; sim
instance (n) (args : List Ptr) (i) : DSim W (argStr n args i) (argStr n args i) := by unfold argStr; sim
instance (f sid v) : DSim W (checkForList.notList f sid v) (checkForList.notList f sid v) := by unfold checkForList.notList; sim
instance (n f p sid) : DSim W (checkForFunction n f p sid) (checkForFunction n f p sid) := by unfold checkForFunction; sim
instance (n f p sid) : DSim W (checkForList n f p sid) (checkForList n f p sid) := by unfold checkForList; sim
instance (args : List Ptr) : DSim W (argDict args) (argDict args) := by unfold argDict; sim
instance (l : List Variant) : DSim W (boxAll l) (boxAll l) := by
  induction l with
  | nil => unfold boxAll; sim
  | cons a l ih => unfold boxAll; sim
instance (n args i) : DSim W (optSize n args i) (optSize n args i) := by unfold optSize; sim
instance (n args i) : DSim W (optPos n args i) (optPos n args i) := by unfold optPos; sim
instance (sid) : DSim W (argsList sid) (argsList sid) := by unfold argsList; sim
instance (n v) : DSim W (lenRest n v) (lenRest n v) := by unfold lenRest; sim
instance (n v) : DSim W (mkLVal n v) (mkLVal n v) := by unfold mkLVal; sim
instance (i l) : DSim W (bArg.bad i l) (bArg.bad i l) := by unfold bArg.bad; sim
instance (n op v w) : DSim W (arith n op v w) (arith n op v w) := by unfold arith; sim
instance (n op v l) : DSim W (arithLoop n op v l) (arithLoop n op v l) := by
  induction l generalizing v with
  | nil => unfold arithLoop; sim
  | cons a l ih => unfold arithLoop; sim
instance (n op l) : DSim W (arithFold n op l) (arithFold n op l) := by
  unfold arithFold; sim
instance : DSim W (bFuel) (bFuel) := by unfold bFuel; sim
instance : DSim W (bVersion) (bVersion) := by unfold bVersion; sim
instance : DSim W (bCopyright) (bCopyright) := by unfold bCopyright; sim
instance (n sid) : DSim W (bGetTrace n sid) (bGetTrace n sid) := by unfold bGetTrace; sim
instance (args sid) : DSim W (bNeedLValue args sid) (bNeedLValue args sid) := by unfold bNeedLValue; sim
instance : DSim W (bPlatform) (bPlatform) := by unfold bPlatform; sim
instance (args sid) : DSim W (bType args sid) (bType args sid) := by unfold bType; sim
instance (args sid) : DSim W (bTypeStr args sid) (bTypeStr args sid) := by unfold bTypeStr; sim
instance (n args sid) : DSim W (bFormat n args sid) (bFormat n args sid) := by unfold bFormat; sim
instance (args sid) : DSim W (bFlush args sid) (bFlush args sid) := by unfold bFlush; sim
instance (n args sid) : DSim W (bParseInteger n args sid) (bParseInteger n args sid) := by unfold bParseInteger; sim
instance (n args sid) : DSim W (bParseFloat n args sid) (bParseFloat n args sid) := by unfold bParseFloat; sim
instance (n args sid) : DSim W (bToInt n args sid) (bToInt n args sid) := by unfold bToInt; sim
instance (n args sid) : DSim W (bToFloat n args sid) (bToFloat n args sid) := by unfold bToFloat; sim
instance (n args sid) : DSim W (bSearch n args sid) (bSearch n args sid) := by unfold bSearch; sim
instance (n args sid) : DSim W (bSlice n args sid) (bSlice n args sid) := by unfold bSlice; sim
instance (n args sid) : DSim W (bReplace n args sid) (bReplace n args sid) := by unfold bReplace; sim
instance (name f n args sid) : DSim W (strFn name f n args sid) (strFn name f n args sid) := by unfold strFn; sim
instance (n args sid) : DSim W (bTrim n args sid) (bTrim n args sid) := by unfold bTrim; sim
instance (n args sid) : DSim W (bLower n args sid) (bLower n args sid) := by unfold bLower; sim
instance (n args sid) : DSim W (bUpper n args sid) (bUpper n args sid) := by unfold bUpper; sim
instance (n args) : DSim W (bSub n args) (bSub n args) := by unfold bSub; sim
instance (op n args sid) : DSim W (bBit op n args sid) (bBit op n args sid) := by unfold bBit; sim
instance (n args sid) : DSim W (bBitNot n args sid) (bBitNot n args sid) := by unfold bBitNot; sim
instance (op n args sid) : DSim W (bCmp op n args sid) (bCmp op n args sid) := by unfold bCmp; sim
instance (n args sid) : DSim W (bNot n args sid) (bNot n args sid) := by unfold bNot; sim
instance (args) : DSim W (bList args) (bList args) := by unfold bList; sim
instance (n args) : DSim W (bCons n args) (bCons n args) := by unfold bCons; sim
instance (n args sid) : DSim W (bLen n args sid) (bLen n args sid) := by unfold bLen; sim
instance (n args sid) : DSim W (bFirst n args sid) (bFirst n args sid) := by unfold bFirst; sim
instance (n args sid) : DSim W (bLast n args sid) (bLast n args sid) := by unfold bLast; sim
instance (n args sid) : DSim W (bRest n args sid) (bRest n args sid) := by unfold bRest; sim
instance (n args sid) : DSim W (bNth n args sid) (bNth n args sid) := by unfold bNth; sim
instance (n args) : DSim W (bAppend n args) (bAppend n args) := by unfold bAppend; sim
instance (n args sid) : DSim W (bReverse n args sid) (bReverse n args sid) := by unfold bReverse; sim
instance (n args sid) : DSim W (bSym n args sid) (bSym n args sid) := by unfold bSym; sim
instance (n args sid) : DSim W (bStr n args sid) (bStr n args sid) := by unfold bStr; sim
instance (args sid) : DSim W (bArgsCount args sid) (bArgsCount args sid) := by unfold bArgsCount; sim
instance (args sid) : DSim W (bArgs args sid) (bArgs args sid) := by unfold bArgs; sim
instance (n args sid) : DSim W (bArg n args sid) (bArg n args sid) := by unfold bArg; sim
instance (args sid) : DSim W (bMakeDict args sid) (bMakeDict args sid) := by unfold bMakeDict; sim
instance (n args sid) : DSim W (bDictGet n args sid) (bDictGet n args sid) := by unfold bDictGet; sim
instance (args sid) : DSim W (bDictKeys args sid) (bDictKeys args sid) := by unfold bDictKeys; sim
instance (n args sid) : DSim W (bDictContainsKey n args sid) (bDictContainsKey n args sid) := by unfold bDictContainsKey; sim
instance (args sid) : DSim W (bDictContainsValue args sid) (bDictContainsValue args sid) := by unfold bDictContainsValue; sim
instance (args sid) : DSim W (bQuote args sid) (bQuote args sid) := by unfold bQuote; sim
instance (name args sid) : DSim W (bUnquote name args sid) (bUnquote name args sid) := by unfold bUnquote; sim
instance (args sid) : DSim W (bFn args sid) (bFn args sid) := by unfold bFn; sim
instance (n args sid) : DSim W (bFileExists n args sid) (bFileExists n args sid) := by unfold bFileExists; sim
instance (n args sid) : DSim W (bFileRead n args sid) (bFileRead n args sid) := by unfold bFileRead; sim
instance (args sid) : DSim W (bMathPi args sid) (bMathPi args sid) := by unfold bMathPi; sim
instance (f n args sid) : DSim W (bMath f n args sid) (bMath f n args sid) := by unfold bMath; sim
instance (n args sid) : DSim W (bMathPow n args sid) (bMathPow n args sid) := by unfold bMathPow; sim
instance (n args) : DSim W (bSleep n args) (bSleep n args) := by unfold bSleep; sim


instance (sid name v) : DSim W (setVar sid name v) (setVar sid name v) := by unfold setVar; sim
instance (sid name v) : DSim W (setInScopes sid name v) (setInScopes sid name v) := by unfold setInScopes; sim
instance (a b) : DSim W (pushNext a b) (pushNext a b) := by unfold pushNext; sim
instance (a) : DSim W (popNext a) (popNext a) := by unfold popNext; sim
instance (n args j) : DSim W (stringRep n args j) (stringRep n args j) := by unfold stringRep; sim
instance (n l) : DSim W (dumpVars n l) (dumpVars n l) := by
  induction l with
  | nil => unfold dumpVars; sim
  | cons a l ih => unfold dumpVars; sim
instance (t) : DSim W (dumpDocumentation t) (dumpDocumentation t) := by unfold dumpDocumentation; sim
instance (n f args j) : DSim W (searchDocumentation n f args j) (searchDocumentation n f args j) := by unfold searchDocumentation; sim
instance (j) : DSim W (bHelp j) (bHelp j) := by unfold bHelp; sim
instance (n args j) : DSim W (bDoc n args j) (bDoc n args j) := by unfold bDoc; sim
instance (n args j) : DSim W (bSearchDoc n args j) (bSearchDoc n args j) := by unfold bSearchDoc; sim
instance (n j) : DSim W (bHtmlDoc n j) (bHtmlDoc n j) := by unfold bHtmlDoc; sim
instance (n j) : DSim W (bVars n j) (bVars n j) := by unfold bVars; sim
instance (n args j) : DSim W (bDelVar n args j) (bDelVar n args j) := by unfold bDelVar; sim
instance (n args j) : DSim W (bTrace n args j) (bTrace n args j) := by unfold bTrace; sim
instance (args j) : DSim W (bTickCount args j) (bTickCount args j) := by unfold bTickCount; sim
instance : DSim W bDatetime bDatetime := by unfold bDatetime; sim
instance (args j) : DSim W (bReturn args j) (bReturn args j) := by unfold bReturn; sim
instance (n args j) : DSim W (bPrint n args j) (bPrint n args j) := by unfold bPrint; sim
instance (n args j) : DSim W (bPrintLn n args j) (bPrintLn n args j) := by unfold bPrintLn; sim
instance (n args j) : DSim W (bPush n args j) (bPush n args j) := by unfold bPush; sim
instance (n args j) : DSim W (bPop n args j) (bPop n args j) := by unfold bPop; sim
instance (n args j) : DSim W (bDictSet n args j) (bDictSet n args j) := by unfold bDictSet; sim
instance (n args j) : DSim W (bDictRemove n args j) (bDictRemove n args j) := by unfold bDictRemove; sim
instance (args j) : DSim W (bDictClear args j) (bDictClear args j) := by unfold bDictClear; sim
instance (n args j) : DSim W (bFileWrite n args j) (bFileWrite n args j) := by unfold bFileWrite; sim
instance (args j) : DSim W (bFn args j) (bFn args j) := by unfold bFn; sim
instance (v) : DSim W (derefV v) (derefV v) := by unfold derefV; sim
instance (n p) : DSim W (convertList n p) (convertList n p) := by unfold convertList; sim
instance (n) (args : List Ptr) (sid) : DSim W (updateDoc n args sid) (updateDoc n args sid) := by unfold updateDoc; sim
instance (n a sid) : DSim W (globalFunction n a sid) (globalFunction n a sid) := by unfold globalFunction; sim
instance (n c f l) : DSim W (bindFormals n c f l) (bindFormals n c f l) := by
  induction f generalizing l with
  | nil => unfold bindFormals; sim
  | cons a f ih => cases l <;> unfold bindFormals <;> sim
instance (n p) : DSim W (spliced n p) (spliced n p) := by unfold spliced; sim
instance (n p sid) : DSim W (traceCall n p sid) (traceCall n p sid) := by unfold traceCall; sim
instance (n p k x) : DSim W (lvalSet n p k x) (lvalSet n p k x) := by unfold lvalSet; sim
instance (k) : DSim W (padNil k) (padNil k) := by
  induction k with
  | zero => unfold padNil; sim
  | succ k ih => unfold padNil; sim
instance (sid t) : DSim W (setCurTok sid t) (setCurTok sid t) := by unfold setCurTok; sim
mutual
theorem sim_allocSx : (sx : Sx) → DSim W (allocSx sx) (allocSx sx)
  | .atom _ => by unfold allocSx; sim
  | .sym _ => by unfold allocSx; sim
  | .list l => by unfold allocSx; exact DSim.bind (sim_allocSxs l) fun _ => inferInstance
theorem sim_allocSxs : (l : List Sx) → DSim W (allocSxs l) (allocSxs l)
  | [] => by unfold allocSxs; sim
  | x :: l => by unfold allocSxs; exact DSim.bind (sim_allocSx x) fun _ => DSim.bind (sim_allocSxs l) fun _ => inferInstance
end
instance (sx) : DSim W (allocSx sx) (allocSx sx) := sim_allocSx sx


/-! ## The evaluator -/

/-- Every entry point of the debugged evaluator corresponds to the one of the plain evaluator. -/
class DRecSim (W : Watch) (r r' : Rec) : Prop where
  n : r'.n = r.n
  eval : ∀ p sid, DSim W (r.eval p sid) (r'.eval p sid)
  call : ∀ f l sid, DSim W (r.call f l sid) (r'.call f l sid)
  expand : ∀ p sid, DSim W (r.expand p sid) (r'.expand p sid)
  expand3 : ∀ p sid, DSim W (r.expand3 p sid) (r'.expand3 p sid)
  procQ : ∀ l sid, DSim W (r.procQ l sid) (r'.procQ l sid)
  subst : ∀ v p b l, DSim W (r.subst v p b l) (r'.subst v p b l)
  whileL : ∀ c b sid v w, DSim W (r.whileL c b sid v w) (r'.whileL c b sid v w)

attribute [instance] DRecSim.eval DRecSim.call DRecSim.expand DRecSim.expand3 DRecSim.procQ DRecSim.subst DRecSim.whileL

/-- The places where the two evaluators differ. -/
class DbgWatch (W : Watch) : Prop where
  readline : ∀ args sid, DSim W (bReadLine args sid) (bReadLine args sid)
  before : ∀ {α : Type} (r : Rec) (ast : List Ptr) (tok : Option Token) (sid : Nat) (k k' : M α), DSim W k k' →
    DSim W k (beforeCall r ast tok sid >>= fun _ => k')
  brk : ∀ (r : Rec) (sid : Nat), DSim W (bBreak sid) (bBreakD r sid)

attribute [instance] DbgWatch.readline

variable {r r' : Rec} [hr : DRecSim W r r'] [hD : DbgWatch W]

theorem sim_catch {r : Rec} {child : Nat} {body : Ptr} {m m' : M (Option Variant)} (h : DSim W m m') :
    DSim W (sliceExn m) (catchD r child body m') := ⟨fun s => by
  have h1 := h.step s
  unfold sliceExn
  cases hm : m s with
  | ok a t => rw [hm] at h1; exact h1
  | fail f t =>
    rw [hm] at h1
    cases f with
    | exn e => cases e <;> exact h1
    | _ => exact h1, fun s s' hr hg => by
  have h1 := h.sim s s' hr
  unfold sliceExn at hg ⊢
  unfold catchD
  revert hg h1
  unfold Watch.Ans
  generalize m s = o
  cases o with
  | ok a t =>
    intro hg h1
    have h1 := h1 hg
    revert h1
    cases W.fwd
    · simp only [Bool.false_eq_true, if_false]
      intro h1 a' t' ha
      cases hm : m' s' with
      | ok b u => rw [hm] at ha; cases ha; exact h1 _ _ hm
      | fail f u =>
        rw [hm] at ha
        exfalso
        cases f with
        | exn e =>
          cases e with
          | lisp _ msg _ _ _ _ =>
            simp only [M.bind_apply] at ha
            revert ha
            cases (writeLine (c!"EXCEPTION: " ++ msg)) u with
            | fail _ _ => simp
            | ok _ u =>
              dsimp only
              cases M.rd (fun st => toEnumerable st body) u with
              | fail _ _ => simp
              | ok l u =>
                dsimp only
                cases stopAt r child l u <;> simp
          | _ => cases ha
        | _ => cases ha
    · simp only [if_true]
      intro h1
      obtain ⟨t', ht, hrt⟩ := h1 a t rfl
      rw [ht]
      intro b u hb
      cases hb
      exact ⟨t', rfl, hrt⟩
  | fail f t =>
    intro hg h1
    have hst : W.good s t := by
      rcases f with e | _ | _ | _
      · cases e <;> exact hg
      all_goals exact hg
    have h1 := h1 hst
    revert h1
    cases W.fwd
    · simp only [Bool.false_eq_true, if_false]
      intro h1 a' t' ha
      exfalso
      cases hm : m' s' with
      | ok b u => obtain ⟨_, hx, _⟩ := h1 b u hm; cases hx
      | fail f u =>
        rw [hm] at ha
        cases f with
        | exn e =>
          cases e with
          | lisp _ msg _ _ _ _ =>
            simp only [M.bind_apply] at ha
            revert ha
            cases (writeLine (c!"EXCEPTION: " ++ msg)) u with
            | fail _ _ => simp
            | ok _ u =>
              dsimp only
              cases M.rd (fun st => toEnumerable st body) u with
              | fail _ _ => simp
              | ok l u =>
                dsimp only
                cases stopAt r child l u <;> simp
          | _ => cases ha
        | _ => cases ha
    · simp only [if_true]
      intro _ a' t' ha
      exfalso
      rcases f with e | _ | _ | _
      · cases e <;> cases ha
      all_goals cases ha⟩


instance (p sid) : DSim W (expandLoop r p sid) (expandLoop r' p sid) := by unfold expandLoop; (try simp only [hr.n]); sim
instance (a b c l) : DSim W (substLoop r a b c l) (substLoop r' a b c l) := by
  induction l with
  | nil => unfold substLoop; (try simp only [hr.n]); sim
  | cons e l ih => unfold substLoop; (try simp only [hr.n]); sim
instance (ast sid f i e) : DSim W (replaceFormals r ast sid f i e) (replaceFormals r' ast sid f i e) := by
  induction f generalizing i e with
  | nil => unfold replaceFormals; (try simp only [hr.n]); sim
  | cons a f ih => unfold replaceFormals; (try simp only [hr.n]); sim
instance (f a e sid) : DSim W (replaceArgs r f a e sid) (replaceArgs r' f a e sid) := by unfold replaceArgs; (try simp only [hr.n]); sim
instance (sid l) : DSim W (expandElems r sid l) (expandElems r' sid l) := by
  induction l with
  | nil => unfold expandElems; (try simp only [hr.n]); sim
  | cons e l ih => unfold expandElems; (try simp only [hr.n]); sim
instance (l f sid) : DSim W (expandMacroOrElems r l f sid) (expandMacroOrElems r' l f sid) := by unfold expandMacroOrElems; (try simp only [hr.n]); sim
instance (p sid) : DSim W (expandStep r p sid) (expandStep r' p sid) := by unfold expandStep; (try simp only [hr.n]); sim
instance (a sid l) : DSim W (evalArgs r a sid l) (evalArgs r' a sid l) := by
  induction l with
  | nil => unfold evalArgs; (try simp only [hr.n]); sim
  | cons e l ih => unfold evalArgs; (try simp only [hr.n]); sim
instance (p sid) : DSim W (evalArgIfNeeded r p sid) (evalArgIfNeeded r' p sid) := by unfold evalArgIfNeeded; (try simp only [hr.n]); sim
instance (a b l sid) : DSim W (bDefHelper r a b l sid) (bDefHelper r' a b l sid) := by unfold bDefHelper; (try simp only [hr.n]); sim
instance (l sid) : DSim W (bDef r l sid) (bDef r' l sid) := by unfold bDef; (try simp only [hr.n]); sim
instance (l sid) : DSim W (bGdef r l sid) (bGdef r' l sid) := by unfold bGdef; (try simp only [hr.n]); sim
instance (l sid) : DSim W (bSetf r l sid) (bSetf r' l sid) := by unfold bSetf; (try simp only [hr.n]); sim
instance (l sid) : DSim W (bRval r l sid) (bRval r' l sid) := by unfold bRval; (try simp only [hr.n]); sim
instance (f sid l) : DSim W (mapLoop r f sid l) (mapLoop r' f sid l) := by
  induction l with
  | nil => unfold mapLoop; (try simp only [hr.n]); sim
  | cons e l ih => unfold mapLoop; (try simp only [hr.n]); sim
instance (f sid a l) : DSim W (reduceLoop r f sid a l) (reduceLoop r' f sid a l) := by
  induction l generalizing a with
  | nil => unfold reduceLoop; (try simp only [hr.n]); sim
  | cons e l ih => unfold reduceLoop; (try simp only [hr.n]); sim
instance (l sid) : DSim W (bMap r l sid) (bMap r' l sid) := by unfold bMap; (try simp only [hr.n]); sim
instance (l sid) : DSim W (bReduce r l sid) (bReduce r' l sid) := by unfold bReduce; (try simp only [hr.n]); sim
instance (l sid) : DSim W (bApply r l sid) (bApply r' l sid) := by unfold bApply; (try simp only [hr.n]); sim
instance (l sid) : DSim W (bEval r l sid) (bEval r' l sid) := by unfold bEval; (try simp only [hr.n]); sim
instance (c sid b) : DSim W (evalCode r c sid b) (evalCode r' c sid b) := by unfold evalCode; (try simp only [hr.n]); sim
instance (c sid m t e) : DSim W (lispEval r c sid m t e) (lispEval r' c sid m t e) := by unfold lispEval; (try simp only [hr.n]); sim
instance (l sid) : DSim W (bEvalStr r l sid) (bEvalStr r' l sid) := by unfold bEvalStr; (try simp only [hr.n]); sim
instance (g f c i) : DSim W (importBody r g f c i) (importBody r' g f c i) := by unfold importBody; (try simp only [hr.n]); sim
instance (sid f c) : DSim W (importOne r sid f c) (importOne r' sid f c) := by unfold importOne; (try simp only [hr.n]); sim
instance (sid a l) : DSim W (importLoop r sid a l) (importLoop r' sid a l) := by
  induction l generalizing a with
  | nil => unfold importLoop; (try simp only [hr.n]); sim
  | cons e l ih => unfold importLoop; (try simp only [hr.n]); sim
instance (l sid) : DSim W (bImport r l sid) (bImport r' l sid) := by unfold bImport; (try simp only [hr.n]); sim
instance (a sid b l) : DSim W (boolLoop r a sid b l) (boolLoop r' a sid b l) := by
  induction l generalizing b with
  | nil => unfold boolLoop; (try simp only [hr.n]); sim
  | cons e l ih => unfold boolLoop; (try simp only [hr.n]); sim
instance (a l sid) : DSim W (bBool r a l sid) (bBool r' a l sid) := by unfold bBool; (try simp only [hr.n]); sim
instance (l sid) : DSim W (bDefineMacroEval r l sid) (bDefineMacroEval r' l sid) := by unfold bDefineMacroEval; (try simp only [hr.n]); sim
instance (l sid) : DSim W (bDefineMacroExpand r l sid) (bDefineMacroExpand r' l sid) := by unfold bDefineMacroExpand; (try simp only [hr.n]); sim
instance (sid l) : DSim W (procQLoop r sid l) (procQLoop r' sid l) := by
  induction l with
  | nil => unfold procQLoop; (try simp only [hr.n]); sim
  | cons e l ih => unfold procQLoop; (try simp only [hr.n]); sim
instance (l sid) : DSim W (procQStep r l sid) (procQStep r' l sid) := by unfold procQStep; (try simp only [hr.n]); sim
instance (l sid) : DSim W (bQuasiquote r l sid) (bQuasiquote r' l sid) := by unfold bQuasiquote; (try simp only [hr.n]); sim
instance (sid a b c) : DSim W (bIf.go r sid a b c) (bIf.go r' sid a b c) := by unfold bIf.go; (try simp only [hr.n]); sim
instance (l sid) : DSim W (bIf r l sid) (bIf r' l sid) := by unfold bIf; (try simp only [hr.n]); sim
instance (c b sid v w) : DSim W (whileStep r c b sid v w) (whileStep r' c b sid v w) := by unfold whileStep; (try simp only [hr.n]); sim
instance (l sid) : DSim W (bWhile r l sid) (bWhile r' l sid) := by unfold bWhile; (try simp only [hr.n]); sim
instance (sid a l) : DSim W (doLoop r sid a l) (doLoop r' sid a l) := by
  induction l generalizing a with
  | nil => unfold doLoop; (try simp only [hr.n]); sim
  | cons e l ih => unfold doLoop; (try simp only [hr.n]); sim


instance (l sid) : DSim W (evalList r l sid) (evalListD r' l sid) := by
  cases l with
  | nil => unfold evalList evalListD; sim
  | cons f rest =>
    unfold evalList evalListD
    try simp only [hr.n]
    refine DSim.bind (DSim.rd fun _ _ _ _ => by simp only [seen]) fun m => ?_
    rcases m with _ | _ | ⟨i, ob⟩
    · dsimp only
      sim
      all_goals exact hD.before _ _ _ _ _ _ inferInstance
    · dsimp only; sim
    · cases ob <;> dsimp only <;> sim
instance (p sid) : DSim W (evalStep r p sid) (evalStepD r' p sid) := by
  unfold evalStep evalStepD
  try simp only [hr.n]
  cases p with
  | null => sim
  | mk id ob => cases ob <;> dsimp only <;> sim
instance (c l sid) : DSim W (callBody r c l sid) (callBodyD r' c l sid) := by
  unfold callBody callBodyD
  try simp only [hr.n]
  sim
  all_goals exact sim_catch inferInstance
instance (c l sid) : DSim W (callClosure r c l sid) (callClosureD r' c l sid) := by unfold callClosure callClosureD; sim
instance (a l sid) : DSim W (bDefn r a l sid) (bDefn r' a l sid) := by
  unfold bDefn; (try simp only [hr.n])
  sim
theorem sim_callPrim (b l sid) (h : b ≠ .brk) : DSim W (callPrim r b l sid) (callPrim r' b l sid) := by
  cases b
  case brk => exact absurd rfl h
  all_goals dsimp only [callPrim]; try rw [hr.n]
  all_goals infer_instance
instance (f l sid) : DSim W (callStep r f l sid) (callStepD r' f l sid) := by
  unfold callStep callStepD
  cases hf : f.kind with
  | closure c => simp only; infer_instance
  | prim b =>
    by_cases e : b = .brk
    · subst e
      simp only [callPrim]
      have := hD.brk r' sid
      infer_instance
    · have := sim_callPrim (W := W) (r := r) (r' := r') b l sid e
      cases b <;> first | exact absurd rfl e | exact this

theorem run_sim (k : Nat) : DRecSim W (run k) (runD k) := by
  induction k with
  | zero =>
    refine ⟨rfl, ?_, ?_, ?_, ?_, ?_, ?_, ?_⟩ <;> intros <;> exact DSim.fail .fuel
  | succ k ih =>
    exact ⟨rfl, fun _ _ => inferInstanceAs (DSim W (evalStep _ _ _) (evalStepD _ _ _)), fun _ _ _ => inferInstanceAs (DSim W (callStep _ _ _ _) (callStepD _ _ _ _)),
      fun _ _ => inferInstanceAs (DSim W (expandLoop _ _ _) (expandLoop _ _ _)), fun _ _ => inferInstanceAs (DSim W (expandStep _ _ _) (expandStep _ _ _)),
      fun _ _ => inferInstanceAs (DSim W (procQStep _ _ _) (procQStep _ _ _)), fun _ _ _ _ => inferInstanceAs (DSim W (substLoop _ _ _ _ _) (substLoop _ _ _ _ _)),
      fun _ _ _ _ _ => inferInstanceAs (DSim W (whileStep _ _ _ _ _ _) (whileStep _ _ _ _ _ _))⟩

end Fuel
