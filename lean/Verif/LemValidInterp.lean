import Verif.LemValidParse
/-!
# The evaluator keeps a state valid
-/

set_option linter.unusedSectionVars false
set_option linter.unusedSimpArgs false
set_option linter.unusedVariables false
set_option synthInstance.maxHeartbeats 20000

namespace Fuel

open Spec

variable [World] {w : Lay}

/-- The recursive entry points keep a state valid. -/
class SafeRec (r : Rec) : Prop where
  eval : ∀ w p sid, Good w p → Is w sid .scope → Safe w (r.eval p sid)
  call : ∀ w f args sid, Good w f → Good w args → Is w sid .scope → Safe w (r.call f args sid)
  expand : ∀ w p sid, Good w p → Is w sid .scope → Safe w (r.expand p sid)
  expand3 : ∀ w p sid, Good w p → Is w sid .scope → Safe w (r.expand3 p sid)
  procQ : ∀ w l sid, Good w l → Is w sid .scope → Safe w (r.procQ l sid)
  subst : ∀ w v p b l, Good w v → Good w p → Good w l → Safe w (r.subst v p b l)
  whileL : ∀ w c b sid x y, Good w c → Good w b → Is w sid .scope → Good w x → Good w y → Safe w (r.whileL c b sid x y)

instance (r : Rec) [h : SafeRec r] (p : Ptr) (sid : Nat) [g : Good w p] [i : Is w sid .scope] : Safe w (r.eval p sid) := h.eval _ _ _ g i
instance (r : Rec) [h : SafeRec r] (f : FnW) (args : List Ptr) (sid : Nat) [g : Good w f] [j : Good w args] [i : Is w sid .scope] : Safe w (r.call f args sid) := h.call _ _ _ _ g j i
instance (r : Rec) [h : SafeRec r] (p : Ptr) (sid : Nat) [g : Good w p] [i : Is w sid .scope] : Safe w (r.expand p sid) := h.expand _ _ _ g i
instance (r : Rec) [h : SafeRec r] (p : Ptr) (sid : Nat) [g : Good w p] [i : Is w sid .scope] : Safe w (r.expand3 p sid) := h.expand3 _ _ _ g i
instance (r : Rec) [h : SafeRec r] (p : List Ptr) (sid : Nat) [g : Good w p] [i : Is w sid .scope] : Safe w (r.procQ p sid) := h.procQ _ _ _ g i
instance (r : Rec) [h : SafeRec r] (v : Variant) (p : Ptr) (b : Bool) (l : List Ptr) [g : Good w v] [i : Good w p] [j : Good w l] : Safe w (r.subst v p b l) := h.subst _ _ _ _ _ g i j
instance (r : Rec) [h : SafeRec r] (c b : Ptr) (sid : Nat) (x y : Option Variant) [g : Good w c] [i : Good w b] [j : Is w sid .scope] [k : Good w x] [l : Good w y] :
    Safe w (r.whileL c b sid x y) := h.whileL _ _ _ _ _ _ g i j k l

instance (v : Option Variant) [Good w v] : Safe w (derefV v) := by
  unfold derefV
  safe
instance (m : M Variant) [Safe w m] : Safe w (ret m) := by
  unfold ret
  safe
instance (n : Nat) (p : Ptr) [Good w p] : Safe w (convertList n p) := by
  unfold convertList
  safe
instance (r : Rec) (ast : Ptr) (sid : Nat) [SafeRec r] [Good w ast] [Is w sid .scope] : Safe w (expandLoop r ast sid) := by
  unfold expandLoop
  safe
theorem substLoop_safe {r : Rec} [SafeRec r] {sym : Variant} {value : Ptr} {b : Bool} : ∀ {w} {l : List Ptr}, Good w sym → Good w value → Good w l →
    Safe w (substLoop r sym value b l)
  | w, [], _, _, _ => by unfold substLoop; infer_instance
  | w, e :: t, h1, h2, h => by
    have hr := fun w h1 h2 h => substLoop_safe (r := r) (sym := sym) (value := value) (b := b) (w := w) (l := t) h1 h2 h
    unfold substLoop
    safe
    all_goals exact hr _ inferInstance inferInstance inferInstance
instance (r : Rec) [SafeRec r] (v : Variant) (p : Ptr) (b : Bool) (l : List Ptr) [g : Good w v] [i : Good w p] [j : Good w l] : Safe w (substLoop r v p b l) := substLoop_safe g i j
theorem replaceFormals_safe {r : Rec} [SafeRec r] {ast : List Ptr} {sid : Nat} : ∀ {w} {l : List Ptr} {i : Nat} {e : List Ptr}, Good w ast → Is w sid .scope → Good w l → Good w e →
    Safe w (replaceFormals r ast sid l i e)
  | w, [], i, e, _, _, _, _ => by unfold replaceFormals; infer_instance
  | w, f :: t, i, e, h1, h2, h, h3 => by
    have hr := fun w i e h1 h2 h h3 => replaceFormals_safe (r := r) (ast := ast) (sid := sid) (w := w) (l := t) (i := i) (e := e) h1 h2 h h3
    unfold replaceFormals
    safe
    all_goals exact hr _ _ _ inferInstance inferInstance inferInstance inferInstance
instance (r : Rec) [SafeRec r] (ast : List Ptr) (sid : Nat) (l : List Ptr) (i : Nat) (e : List Ptr) [h1 : Good w ast] [h2 : Is w sid .scope] [h3 : Good w l] [h4 : Good w e] :
    Safe w (replaceFormals r ast sid l i e) := replaceFormals_safe h1 h2 h3 h4
instance (r : Rec) (formals ast expr : List Ptr) (sid : Nat) [SafeRec r] [Good w formals] [Good w ast] [Good w expr] [Is w sid .scope] : Safe w (replaceArgs r formals ast expr sid) := by
  unfold replaceArgs
  safe
theorem expandElems_safe {r : Rec} [SafeRec r] {sid : Nat} : ∀ {w} {l : List Ptr}, Is w sid .scope → Good w l → Safe w (expandElems r sid l)
  | w, [], _, _ => by unfold expandElems; infer_instance
  | w, f :: t, h1, h => by
    have hr := fun w h1 h => expandElems_safe (r := r) (sid := sid) (w := w) (l := t) h1 h
    unfold expandElems
    safe
    all_goals exact hr _ inferInstance inferInstance
instance (r : Rec) [SafeRec r] (sid : Nat) (l : List Ptr) [h1 : Is w sid .scope] [h2 : Good w l] : Safe w (expandElems r sid l) := expandElems_safe h1 h2
instance (r : Rec) (l : List Ptr) (f : Ptr) (sid : Nat) [SafeRec r] [Good w l] [Good w f] [Is w sid .scope] : Safe w (expandMacroOrElems r l f sid) := by
  unfold expandMacroOrElems
  safe
instance (r : Rec) (ast : Ptr) (sid : Nat) [SafeRec r] [Good w ast] [Is w sid .scope] : Safe w (expandStep r ast sid) := by
  unfold expandStep
  safe
instance (s : St) [Ok w s] (n sid : Nat) (p : Ptr) [Is w sid .scope] [Good w p] : RGood w (resolveElem s n sid p) := by
  unfold resolveElem
  safe
theorem resolveList_good {s : St} [Ok w s] {n sid : Nat} [Is w sid .scope] : ∀ {l : List Ptr}, Good w l → RGood w (resolveList s n sid l)
  | [], _ => by unfold resolveList; infer_instance
  | p :: t, h => by
    have := resolveList_good (s := s) (n := n) (sid := sid) h.tail
    unfold resolveList
    safe
instance (s : St) [Ok w s] (n sid : Nat) (l : List Ptr) [Is w sid .scope] [h : Good w l] : RGood w (resolveList s n sid l) := resolveList_good h
instance (s : St) [Ok w s] (n sid : Nat) (p : Ptr) [Good w p] : RGood w (headFunction s n sid p) := by
  unfold headFunction
  safe
instance (s : St) [Ok w s] (n sid : Nat) (p : Ptr) (l : List Ptr) [Is w sid .scope] [Good w p] [Good w l] : RGood w (resolveArgs s n sid p l) := by
  unfold resolveArgs
  safe
instance (n : Nat) (p : Ptr) [Good w p] : Safe w (spliced n p) := by
  unfold spliced
  safe
instance (l : List Ptr) : Good w (l.map fun _ => Ptr.null) := ⟨fun a ha => by obtain ⟨_, _, rfl⟩ := List.mem_map.1 ha; trivial⟩
theorem evalArgs_safe {r : Rec} [SafeRec r] {b : Bool} {sid : Nat} : ∀ {w} {l : List Ptr}, Is w sid .scope → Good w l → Safe w (evalArgs r b sid l)
  | w, [], _, _ => by unfold evalArgs; infer_instance
  | w, f :: t, h1, h => by
    have hr := fun w h1 h => evalArgs_safe (r := r) (b := b) (sid := sid) (w := w) (l := t) h1 h
    unfold evalArgs
    safe
    all_goals exact hr _ inferInstance inferInstance
instance (r : Rec) [SafeRec r] (b : Bool) (sid : Nat) (l : List Ptr) [h1 : Is w sid .scope] [h2 : Good w l] : Safe w (evalArgs r b sid l) := evalArgs_safe h1 h2
instance (sid : Nat) (t : Option Token) [Is w sid .scope] : Safe w (setCurTok sid t) := by
  unfold setCurTok
  safe
instance (n : Nat) (f : Ptr) (sid : Nat) [Good w f] [Is w sid .scope] : Safe w (traceCall n f sid) := by
  unfold traceCall
  safe
instance (r : Rec) (l : List Ptr) (sid : Nat) [SafeRec r] [Good w l] [Is w sid .scope] : Safe w (evalList r l sid) := by
  unfold evalList
  safe
instance (r : Rec) (ast : Ptr) (sid : Nat) [SafeRec r] [Good w ast] [Is w sid .scope] : Safe w (evalStep r ast sid) := by
  unfold evalStep
  safe
instance (r : Rec) (p : Ptr) (sid : Nat) [SafeRec r] [Good w p] [Is w sid .scope] : Safe w (evalArgIfNeeded r p sid) := by
  unfold evalArgIfNeeded
  safe
instance (r : Rec) (name : Str) (target : Nat) (args : List Ptr) (sid : Nat) [SafeRec r] [Good w args] [Is w target .scope] [Is w sid .scope] : Safe w (bDefHelper r name target args sid) := by
  unfold bDefHelper
  safe
instance (r : Rec) (args : List Ptr) (sid : Nat) [SafeRec r] [Good w args] [Is w sid .scope] : Safe w (bDef r args sid) := by
  unfold bDef
  safe
instance (r : Rec) (args : List Ptr) (sid : Nat) [SafeRec r] [Good w args] [Is w sid .scope] : Safe w (bGdef r args sid) := by
  unfold bGdef
  safe
instance (n : Nat) (target : Ptr) (k : LKind) (x : Ptr) [Good w target] [Good w x] : Safe w (lvalSet n target k x) := by
  unfold lvalSet
  safe
instance (r : Rec) (args : List Ptr) (sid : Nat) [SafeRec r] [Good w args] [Is w sid .scope] : Safe w (bSetf r args sid) := by
  unfold bSetf
  safe
instance (r : Rec) (args : List Ptr) (sid : Nat) [SafeRec r] [Good w args] [Is w sid .scope] : Safe w (bRval r args sid) := by
  unfold bRval
  safe
theorem mapLoop_safe {r : Rec} [SafeRec r] {f : FnW} {sid : Nat} : ∀ {w} {l : List Ptr}, Good w f → Is w sid .scope → Good w l → Safe w (mapLoop r f sid l)
  | w, [], _, _, _ => by unfold mapLoop; infer_instance
  | w, e :: t, h0, h1, h => by
    have hr := fun w h0 h1 h => mapLoop_safe (r := r) (f := f) (sid := sid) (w := w) (l := t) h0 h1 h
    unfold mapLoop
    safe
    all_goals exact hr _ inferInstance inferInstance inferInstance
instance (r : Rec) [SafeRec r] (f : FnW) (sid : Nat) (l : List Ptr) [h0 : Good w f] [h1 : Is w sid .scope] [h2 : Good w l] : Safe w (mapLoop r f sid l) := mapLoop_safe h0 h1 h2
instance (r : Rec) (args : List Ptr) (sid : Nat) [SafeRec r] [Good w args] [Is w sid .scope] : Safe w (bMap r args sid) := by
  unfold bMap
  safe
theorem reduceLoop_safe {r : Rec} [SafeRec r] {f : FnW} {sid : Nat} : ∀ {w} {a : Variant} {l : List Ptr}, Good w f → Is w sid .scope → Good w a → Good w l →
    Safe w (reduceLoop r f sid a l)
  | w, a, [], _, _, _, _ => by unfold reduceLoop; infer_instance
  | w, a, e :: t, h0, h1, h2, h => by
    have hr := fun w a h0 h1 h2 h => reduceLoop_safe (r := r) (f := f) (sid := sid) (w := w) (a := a) (l := t) h0 h1 h2 h
    unfold reduceLoop
    safe
    all_goals exact hr _ _ inferInstance inferInstance inferInstance inferInstance
instance (r : Rec) [SafeRec r] (f : FnW) (sid : Nat) (a : Variant) (l : List Ptr) [h0 : Good w f] [h1 : Is w sid .scope] [h2 : Good w a] [h3 : Good w l] :
    Safe w (reduceLoop r f sid a l) := reduceLoop_safe h0 h1 h2 h3
instance (r : Rec) (args : List Ptr) (sid : Nat) [SafeRec r] [Good w args] [Is w sid .scope] : Safe w (bReduce r args sid) := by
  unfold bReduce
  safe
instance (r : Rec) (args : List Ptr) (sid : Nat) [SafeRec r] [Good w args] [Is w sid .scope] : Safe w (bApply r args sid) := by
  unfold bApply
  safe
instance (r : Rec) (args : List Ptr) (sid : Nat) [SafeRec r] [Good w args] [Is w sid .scope] : Safe w (bEval r args sid) := by
  unfold bEval
  safe
instance (r : Rec) (code : Str) (sid : Nat) (onlyExpand : Bool) [SafeRec r] [Is w sid .scope] : Safe w (evalCode r code sid onlyExpand) := by
  unfold evalCode
  safe
instance (r : Rec) (code : Str) (sid : Nat) (module : Str) (tracing onlyExpand : Bool) [SafeRec r] [Is w sid .scope] : Safe w (lispEval r code sid module tracing onlyExpand) := by
  unfold lispEval
  safe
instance (r : Rec) (args : List Ptr) (sid : Nat) [SafeRec r] [Good w args] [Is w sid .scope] : Safe w (bEvalStr r args sid) := by
  unfold bEvalStr
  safe
instance (r : Rec) (g : Nat) (file code : Str) (imp : Nat) [SafeRec r] [Is w g .scope] [Is w imp .scope] : Safe w (importBody r g file code imp) := by
  unfold importBody
  safe
instance (r : Rec) (sid : Nat) (file code : Str) [SafeRec r] [Is w sid .scope] : Safe w (importOne r sid file code) := by
  unfold importOne
  safe
theorem importLoop_safe {r : Rec} [SafeRec r] {sid : Nat} : ∀ {w} {a : Option Variant} {l : List Ptr}, Is w sid .scope → Good w a → Good w l →
    Safe w (importLoop r sid a l)
  | w, a, [], _, _, _ => by unfold importLoop; infer_instance
  | w, a, e :: t, h1, h2, h => by
    have hr := fun w a h1 h2 h => importLoop_safe (r := r) (sid := sid) (w := w) (a := a) (l := t) h1 h2 h
    unfold importLoop
    safe
    all_goals exact hr _ _ inferInstance inferInstance inferInstance
instance (r : Rec) [SafeRec r] (sid : Nat) (a : Option Variant) (l : List Ptr) [h1 : Is w sid .scope] [h2 : Good w a] [h3 : Good w l] :
    Safe w (importLoop r sid a l) := importLoop_safe h1 h2 h3
instance (r : Rec) (args : List Ptr) (sid : Nat) [SafeRec r] [Good w args] [Is w sid .scope] : Safe w (bImport r args sid) := by
  unfold bImport
  safe
theorem boolLoop_safe {r : Rec} [SafeRec r] {b : Bool} {sid : Nat} : ∀ {w} {a : Bool} {l : List Ptr}, Is w sid .scope → Good w a → Good w l →
    Safe w (boolLoop r b sid a l)
  | w, a, [], _, _, _ => by unfold boolLoop; infer_instance
  | w, a, e :: t, h1, h2, h => by
    have hr := fun w a h1 h2 h => boolLoop_safe (r := r) (b := b) (sid := sid) (w := w) (a := a) (l := t) h1 h2 h
    unfold boolLoop
    safe
    all_goals exact hr _ _ inferInstance inferInstance inferInstance
instance (r : Rec) [SafeRec r] (b : Bool) (sid : Nat) (a : Bool) (l : List Ptr) [h1 : Is w sid .scope] [h2 : Good w a] [h3 : Good w l] :
    Safe w (boolLoop r b sid a l) := boolLoop_safe h1 h2 h3
instance (r : Rec) (isAnd : Bool) (args : List Ptr) (sid : Nat) [SafeRec r] [Good w args] [Is w sid .scope] : Safe w (bBool r isAnd args sid) := by
  unfold bBool
  safe
instance (r : Rec) (args : List Ptr) (sid : Nat) [SafeRec r] [Good w args] [Is w sid .scope] : Safe w (bDefineMacroEval r args sid) := by
  unfold bDefineMacroEval
  safe
instance (r : Rec) (args : List Ptr) (sid : Nat) [SafeRec r] [Good w args] [Is w sid .scope] : Safe w (bDefineMacroExpand r args sid) := by
  unfold bDefineMacroExpand
  safe
theorem procQLoop_safe {r : Rec} [SafeRec r] {sid : Nat} : ∀ {w} {l : List Ptr}, Is w sid .scope → Good w l → Safe w (procQLoop r sid l)
  | w, [], _, _ => by unfold procQLoop; infer_instance
  | w, f :: t, h1, h => by
    have hr := fun w h1 h => procQLoop_safe (r := r) (sid := sid) (w := w) (l := t) h1 h
    unfold procQLoop
    safe
    all_goals exact hr _ inferInstance inferInstance
instance (r : Rec) [SafeRec r] (sid : Nat) (l : List Ptr) [h1 : Is w sid .scope] [h2 : Good w l] : Safe w (procQLoop r sid l) := procQLoop_safe h1 h2
theorem box_unq_safe (v : Variant) (u : Unq) (h : Good w v) : Safe w (box { v with unq := u }) := by
  have := h.unq u
  infer_instance
instance (r : Rec) [SafeRec r] (expr : List Ptr) (sid : Nat) [Good w expr] [Is w sid .scope] : Safe w (procQStep r expr sid) := by
  unfold procQStep
  safe
  all_goals exact box_unq_safe _ _ inferInstance
instance (r : Rec) (args : List Ptr) (sid : Nat) [SafeRec r] [Good w args] [Is w sid .scope] : Safe w (bQuasiquote r args sid) := by
  unfold bQuasiquote
  safe
instance (r : Rec) (sid : Nat) (c a b : Ptr) [SafeRec r] [Good w c] [Good w a] [Good w b] [Is w sid .scope] : Safe w (bIf.go r sid c a b) := by
  unfold bIf.go
  safe
instance (r : Rec) (args : List Ptr) (sid : Nat) [SafeRec r] [Good w args] [Is w sid .scope] : Safe w (bIf r args sid) := by
  unfold bIf
  safe
instance (r : Rec) (c body : Ptr) (sid : Nat) (cond res : Option Variant) [SafeRec r] [Good w c] [Good w body] [Good w cond] [Good w res] [Is w sid .scope] : Safe w (whileStep r c body sid cond res) := by
  unfold whileStep
  safe
instance (r : Rec) (args : List Ptr) (sid : Nat) [SafeRec r] [Good w args] [Is w sid .scope] : Safe w (bWhile r args sid) := by
  unfold bWhile
  safe
theorem doLoop_safe {r : Rec} [SafeRec r] {sid : Nat} : ∀ {w} {a : Option Variant} {l : List Ptr}, Is w sid .scope → Good w a → Good w l →
    Safe w (doLoop r sid a l)
  | w, a, [], _, _, _ => by unfold doLoop; infer_instance
  | w, a, e :: t, h1, h2, h => by
    have hr := fun w a h1 h2 h => doLoop_safe (r := r) (sid := sid) (w := w) (a := a) (l := t) h1 h2 h
    unfold doLoop
    safe
    all_goals exact hr _ _ inferInstance inferInstance inferInstance
instance (r : Rec) [SafeRec r] (sid : Nat) (a : Option Variant) (l : List Ptr) [h1 : Is w sid .scope] [h2 : Good w a] [h3 : Good w l] :
    Safe w (doLoop r sid a l) := doLoop_safe h1 h2 h3
instance (args : List Ptr) (sid : Nat) [Good w args] [Is w sid .scope] : Safe w (bFn args sid) := by
  unfold bFn
  refine Safe.get_bind fun s _ => ?_
  dsimp only
  refine Safe.allocClosure_bind inferInstance inferInstance fun w' c _ hc => ?_
  have : ∀ a b d e f g, Good w' (⟨.closure c, a, b, d, e, f, g⟩ : FnW) := fun _ _ _ _ _ _ => ⟨fun _ e => by cases e; exact hc.ok⟩
  safe
theorem bindFormals_safe {n sid : Nat} : ∀ {w} {l m : List Ptr}, Is w sid .scope → Good w m → Safe w (bindFormals n sid l m)
  | w, [], m, _, _ => by unfold bindFormals; infer_instance
  | w, _ :: _, [], _, _ => by unfold bindFormals; infer_instance
  | w, f :: l, a :: m, h1, h => by
    have hr := fun w h1 h => bindFormals_safe (n := n) (sid := sid) (w := w) (l := l) (m := m) h1 h
    unfold bindFormals
    safe
    all_goals exact hr _ inferInstance inferInstance
instance (n sid : Nat) (l m : List Ptr) [h1 : Is w sid .scope] [h : Good w m] : Safe w (bindFormals n sid l m) := bindFormals_safe h1 h
theorem padNil_safe : ∀ {w} (n : Nat), Safe w (padNil n)
  | w, 0 => by unfold padNil; infer_instance
  | w, n + 1 => by
    have hr := fun w => padNil_safe (w := w) n
    unfold padNil
    safe
    all_goals exact hr _
instance (n : Nat) : Safe w (padNil n) := padNil_safe n
instance {α : Type} [HasGood α] (m : M α) [h : Safe w m] : Safe w (sliceExn m) := ⟨fun s hs => by
  have := h.ok s hs
  unfold sliceExn
  cases hm : m s with
  | ok a s' => rw [hm] at this; exact this
  | fail f s' =>
    rw [hm] at this
    cases f with
    | exn e => cases e <;> exact this
    | _ => exact this⟩
instance (s : St) [Ok w s] (n : Nat) (p : Ptr) [Good w p] : RGood w (formalsOf s n p) := by
  unfold formalsOf
  safe
theorem callBody_closure {child sc : Nat} {nl : Bool} (h : Is w child .scope) (h' : Is w sc .scope) :
    Safe w (modScope child fun s => { s with closure := some sc, needsLValue := nl }) :=
  Safe.modScope h fun s hs => ⟨⟨hs.ok.names, hs.ok.vars, hs.ok.global, fun c e => by cases e; exact h'.ok, hs.ok.next, hs.ok.prev⟩⟩
instance (r : Rec) (c : Closure) (args : List Ptr) (child : Nat) [SafeRec r] [Good w c] [Good w args] [Is w child .scope] : Safe w (callBody r c args child) := by
  unfold callBody
  safe
  all_goals exact callBody_closure inferInstance inferInstance
instance (r : Rec) (cid : Nat) (args : List Ptr) (sid : Nat) [SafeRec r] [Good w args] [Is w cid .closure] [Is w sid .scope] : Safe w (callClosure r cid args sid) := by
  unfold callClosure
  safe
instance (s : St) [Ok w s] (n : Nat) (p : Ptr) [Good w p] : RGood w (enumerableFromArgs s n p) := by
  unfold enumerableFromArgs
  safe
instance (n : Nat) (args : List Ptr) (sid : Nat) [Good w args] [Is w sid .scope] : Safe w (updateDoc n args sid) := by
  unfold updateDoc
  safe
instance (n : Nat) (name : Str) (sid : Nat) [Is w sid .scope] : Safe w (globalFunction n name sid) := by
  unfold globalFunction
  safe
instance (r : Rec) (name : Str) (args : List Ptr) (sid : Nat) [SafeRec r] [Good w args] [Is w sid .scope] : Safe w (bDefn r name args sid) := by
  unfold bDefn
  safe
instance (r : Rec) (b : Builtin) (args : List Ptr) (sid : Nat) [SafeRec r] [Good w args] [Is w sid .scope] : Safe w (callPrim r b args sid) := by
  unfold callPrim
  safe
instance (r : Rec) (f : FnW) (args : List Ptr) (sid : Nat) [SafeRec r] [h : Good w f] [Good w args] [Is w sid .scope] : Safe w (callStep r f args sid) := by
  unfold callStep
  split
  · infer_instance
  · rename_i c e
    have : Is w c .closure := ⟨h.ok c e⟩
    infer_instance

end Fuel
