import Verif.LemMono
import Verif.SpecEval
/-!
# Evaluation without budget
-/

set_option linter.unusedSectionVars false

namespace Fuel

open Spec

variable [World] {α β : Type}

/-- A family of outcomes indexed by the budget that is stable once it is defined. -/
def MonoSeq (F : Nat → Out α) : Prop := ∀ k k', k ≤ k' → (∃ s, F k = .fail .fuel s) ∨ F k = F k'

/-- The outcome for large budgets. -/
def Lim (F : Nat → Out α) (o : Out α) : Prop := Ends o ∧ ∃ k, F k = o

theorem Lim.stable {F : Nat → Out α} {o : Out α} (hF : MonoSeq F) (h : Lim F o) : ∃ K, ∀ k, K ≤ k → F k = o := by
  obtain ⟨h1, K, h2⟩ := h
  refine ⟨K, fun k hk => ?_⟩
  rcases hF K k hk with ⟨s, h3⟩ | h3
  · exact absurd (h2 ▸ h3) (h1 s)
  · rw [← h3, h2]

theorem Lim.unique {F : Nat → Out α} {o o' : Out α} (hF : MonoSeq F) (h : Lim F o) (h' : Lim F o') : o = o' := by
  obtain ⟨K, h⟩ := h.stable hF
  obtain ⟨K', h'⟩ := h'.stable hF
  rw [← h (max K K') (by omega), h' _ (by omega)]

theorem lim_iff {F G : Nat → Out α} {o : Out α} (hF : MonoSeq F) (hG : MonoSeq G) (K d : Nat)
    (h : ∀ k, K ≤ k → F (k + d) = G k) : Lim F o ↔ Lim G o := by
  constructor
  · intro l
    obtain ⟨K', l'⟩ := l.stable hF
    exact ⟨l.1, max K K', by rw [← h _ (by omega)]; exact l' _ (by omega)⟩
  · intro l
    obtain ⟨K', l'⟩ := l.stable hG
    exact ⟨l.1, max K K' + d, by rw [h _ (by omega)]; exact l' _ (by omega)⟩

theorem lim_of {F : Nat → Out α} {o : Out α} (ho : Ends o) (K : Nat) (h : F K = o) : Lim F o := ⟨ho, K, h⟩

theorem monoSeq_of {F : Nat → M α} (h : ∀ k k', k ≤ k' → Mono (F k) (F k')) (st : St) : MonoSeq fun k => F k st :=
  fun k k' hk => (h k k' hk).le st

theorem monoSeq_eval (p : Ptr) (sid : Nat) (st : St) : MonoSeq fun k => (run k).eval p sid st :=
  monoSeq_of (fun _ _ h => (run_le h).eval p sid) st
theorem monoSeq_call (f : FnW) (l : List Ptr) (sid : Nat) (st : St) : MonoSeq fun k => (run k).call f l sid st :=
  monoSeq_of (fun _ _ h => (run_le h).call f l sid) st
theorem monoSeq_prim (b : Builtin) (l : List Ptr) (sid : Nat) (st : St) : MonoSeq fun k => callPrim (run k) b l sid st :=
  monoSeq_of (fun _ _ h => have := run_le h; inferInstance) st
theorem monoSeq_expand (p : Ptr) (sid : Nat) (st : St) : MonoSeq fun k => (run k).expand p sid st :=
  monoSeq_of (fun _ _ h => (run_le h).expand p sid) st
theorem monoSeq_lispEval (c : Str) (sid : Nat) (m : Str) (t e : Bool) (st : St) :
    MonoSeq fun k => lispEval (run k) c sid m t e st :=
  monoSeq_of (fun _ _ h => have := run_le h; inferInstance) st
theorem monoSeq_lispEvalNew (c m : Str) (t e : Bool) (st : St) : MonoSeq fun k => lispEvalNew k c m t e st :=
  monoSeq_of (F := fun k => lispEvalNew k c m t e)
    (fun _ _ h => by have := run_le h; unfold lispEvalNew; mono) st

theorem evals_iff {p : Ptr} {sid : Nat} {st : St} {o : Out (Option Variant)} :
    Evals p sid st o ↔ Lim (fun k => (run k).eval p sid st) o := Iff.rfl
theorem calls_iff {f : FnW} {l : List Ptr} {sid : Nat} {st : St} {o : Out (Option Variant)} :
    Calls f l sid st o ↔ Lim (fun k => (run k).call f l sid st) o := Iff.rfl

theorem Spec.Evals.stable {p : Ptr} {sid : Nat} {st : St} {o : Out (Option Variant)} (h : Evals p sid st o) :
    ∃ K, ∀ k, K ≤ k → (run k).eval p sid st = o := Lim.stable (monoSeq_eval p sid st) h
theorem Spec.Calls.stable {f : FnW} {l : List Ptr} {sid : Nat} {st : St} {o : Out (Option Variant)} (h : Calls f l sid st o) :
    ∃ K, ∀ k, K ≤ k → (run k).call f l sid st = o := Lim.stable (monoSeq_call f l sid st) h

theorem run_eval (k : Nat) : (run (k + 1)).eval = evalStep (run k) := rfl
theorem run_call (k : Nat) : (run (k + 1)).call = callStep (run k) := rfl
theorem run_expand (k : Nat) : (run (k + 1)).expand = expandLoop (run k) := rfl
theorem run_expand3 (k : Nat) : (run (k + 1)).expand3 = expandStep (run k) := rfl
theorem run_procQ (k : Nat) : (run (k + 1)).procQ = procQStep (run k) := rfl
theorem run_subst (k : Nat) : (run (k + 1)).subst = substLoop (run k) := rfl
theorem run_whileL (k : Nat) : (run (k + 1)).whileL = whileStep (run k) := rfl

theorem calls_prim {w : FnW} {b : Builtin} (hw : w.kind = .prim b) {l : List Ptr} {sid : Nat} {st : St} {o : Out (Option Variant)} :
    Calls w l sid st o ↔ Lim (fun k => callPrim (run k) b l sid st) o := by
  refine lim_iff (monoSeq_call w l sid st) (monoSeq_prim b l sid st) 0 1 fun k _ => ?_
  show callStep (run k) w l sid st = _
  simp [callStep, hw]

theorem ends_ok (a : α) (s : St) : Ends (.ok a s) := fun _ h => by cases h
theorem ends_exn (e : Exn) (s : St) : Ends (.fail (.exn e) s : Out α) := fun _ h => by cases h
theorem ends_ub (e : UB) (s : St) : Ends (.fail (.ub e) s : Out α) := fun _ h => by cases h

/-! ## Lookup -/

theorem mapFind_eq_lookup (k : Str) (l : List (Str × α)) : mapFind k l = l.lookup k := by
  induction l with
  | nil => rfl
  | cons e t ih =>
    obtain ⟨a, v⟩ := e
    by_cases h : a = k
    · subst h; simp [mapFind, List.lookup]
    · have : (k == a) = false := by simp [Ne.symm h]
      simp [mapFind, h, List.lookup, this, ih]

theorem find_eq (st : St) (s : Nat) (name : Str) : mapFind name (st.scopes s).vars = binding st s name :=
  mapFind_eq_lookup _ _

theorem closureFind_some {st : St} (h : Acyclic st) {name : Str} {sid : Nat} {l : List Nat} (he : Enclosing st sid l) :
    ∀ k, sid < k → (closureFind st name k sid).map (·.map Prod.snd) = .ok (firstOf st name l) := by
  induction he with
  | @nil s hs =>
    intro k hk
    obtain ⟨k, rfl⟩ : ∃ m, k = m + 1 := ⟨k - 1, by omega⟩
    simp [closureFind, hs, firstOf, Except.map]
  | @cons s c l hs he ih =>
    intro k hk
    obtain ⟨k, rfl⟩ : ∃ m, k = m + 1 := ⟨k - 1, by omega⟩
    simp only [closureFind, hs, find_eq]
    cases hb : binding st c name with
    | some p => simp [firstOf, hb, Except.map]
    | none =>
      have := h s c hs
      have := ih k (by omega)
      simp only [firstOf] at this
      simp [firstOf, hb, this]

theorem moduleSearch_eq {st : St} {name : Str} {v : List (Str × Ptr)} {m : List Nat} (h : Scopes v m) :
    moduleSearch st name v = .ok (firstOf st name m) := by
  induction h with
  | nil => rfl
  | @cons nm i s t l h ih =>
    simp only [moduleSearch, find_eq, ih]
    cases hb : binding st s name with
    | some p => simp [firstOf, hb]
    | none => simp [firstOf, hb]

theorem findInModules_eq {st : St} {s : Nat} {name : Str} {m : List Nat} (h : Modules st s m) :
    findInModules st (st.scopes s).global name = .ok (firstOf st name m) := by
  obtain ⟨i, k, h1, h2⟩ := h
  simp only [findInModules, find_eq, modulesKey, h1]
  exact moduleSearch_eq h2

theorem resolve_eq {st : St} (ha : Acyclic st) {n sid : Nat} {e : Ptr} {name : Str} {r : Option Ptr} (hn : ptrStr st n e = .ok name)
    (h : Lookup st sid name r) : resolve st n sid e = .ok (r.getD e) := by
  have hc : ∀ l, Enclosing st sid l → ∀ q, firstOf st name l = q →
      ∃ c, closureFind st name (sid + 1) sid = .ok c ∧ c.map Prod.snd = q := by
    intro l hl q hq
    have := closureFind_some ha (name := name) hl (sid + 1) (by omega)
    cases hc : closureFind st name (sid + 1) sid with
    | error e => rw [hc] at this; simp [Except.map] at this
    | ok c => rw [hc] at this; simp [Except.map] at this; exact ⟨c, rfl, by rw [← hq, ← this]⟩
  cases h with
  | locally h1 => simp [resolve, hn, find_eq, h1]
  | globally h1 h2 => simp [resolve, hn, find_eq, h1, h2]
  | @enclosing p l h1 h2 h3 h4 =>
    obtain ⟨c, hc, hq⟩ := hc l h3 _ h4
    cases c with
    | none => simp at hq
    | some c => obtain ⟨c1, c2⟩ := c; simp at hq; simp [resolve, hn, find_eq, h1, h2, hc, hq]
  | @modules r l m h1 h2 h3 h4 h5 h6 =>
    obtain ⟨c, hc, hq⟩ := hc l h3 _ h4
    cases c with
    | some c => simp at hq
    | none =>
      simp only [resolve, hn, bind_ok_R, find_eq, h1, h2, hc, findInModules_eq h5, h6]
      cases r <;> rfl

/-! ## States that differ in the current position only -/

/-- Lookup sees the same in both states. -/
structure SameNames (st st' : St) : Prop where
  vars : ∀ s, (st'.scopes s).vars = (st.scopes s).vars
  closure : ∀ s, (st'.scopes s).closure = (st.scopes s).closure
  global : ∀ s, (st'.scopes s).global = (st.scopes s).global

theorem SameNames.binding {st st' : St} (h : SameNames st st') (s : Nat) (name : Str) : binding st' s name = binding st s name := by
  simp [Spec.binding, h.vars]
theorem SameNames.firstOf {st st' : St} (h : SameNames st st') (name : Str) (l : List Nat) : firstOf st' name l = firstOf st name l := by
  simp [Spec.firstOf, h.binding]
theorem SameNames.enclosing {st st' : St} (h : SameNames st st') {s : Nat} {l : List Nat} (he : Enclosing st s l) : Enclosing st' s l := by
  induction he with
  | nil h1 => exact .nil (by rw [h.closure, h1])
  | cons h1 _ ih => exact .cons (by rw [h.closure, h1]) ih
theorem SameNames.acyclic {st st' : St} (h : SameNames st st') (ha : Acyclic st) : Acyclic st' := by
  intro s c hc; exact ha s c (by rw [← h.closure, hc])
theorem SameNames.modules {st st' : St} (h : SameNames st st') {s : Nat} {l : List Nat} (hm : Modules st s l) : Modules st' s l := by
  obtain ⟨i, m, h1, h2⟩ := hm
  exact ⟨i, m, by rw [h.global, h.global, h.binding]; exact h1, by rw [h.vars]; exact h2⟩
theorem SameNames.lookup {st st' : St} (h : SameNames st st') {s : Nat} {name : Str} {r : Option Ptr} (hl : Lookup st s name r) :
    Lookup st' s name r := by
  cases hl with
  | locally h1 => exact .locally (by rw [h.binding]; exact h1)
  | globally h1 h2 => exact .globally (by rw [h.binding]; exact h1) (by rw [h.global, h.binding]; exact h2)
  | enclosing h1 h2 h3 h4 => exact .enclosing (by rw [h.binding]; exact h1) (by rw [h.global, h.binding]; exact h2) (h.enclosing h3) (by rw [h.firstOf]; exact h4)
  | modules h1 h2 h3 h4 h5 h6 => exact .modules (by rw [h.binding]; exact h1) (by rw [h.global, h.binding]; exact h2) (h.enclosing h3) (by rw [h.firstOf]; exact h4) (h.modules h5) (by rw [h.firstOf]; exact h6)

theorem sameNames_atToken (st : St) (s : Nat) (t : Option Token) : SameNames st (atToken st s t) := by
  cases t with
  | none => exact ⟨fun _ => rfl, fun _ => rfl, fun _ => rfl⟩
  | some t => constructor <;> intro i <;> by_cases h : i = s <;> simp [atToken, fset, h]

theorem fset_same {f : Nat → α} {k : Nat} : fset f k (f k) = f := by
  funext i; by_cases h : i = k <;> simp [fset, h]

theorem setCurTok_apply (sid : Nat) (t : Option Token) (st : St) : setCurTok sid t st = .ok () (atToken st sid t) := by
  cases t with
  | none => simp [setCurTok, modScope, atToken, fset_same]
  | some t => simp [setCurTok, modScope, atToken]

/-! ## Evaluation of a call -/

theorem getMacro_none {st : St} {n sid : Nat} {f : Ptr} {name : Str} (hn : ptrStr st n f = .ok name) (h : NoMacro st sid name) :
    getMacro st n f (st.scopes sid).global = .ok none := by
  rcases h with h | ⟨i, m, h1, h2⟩
  · simp [getMacro, macroScope, find_eq, macrosKey, h]
  · simp [getMacro, macroScope, find_eq, macrosKey, h1, h2, hn]

theorem ptrStr_sym {st : St} {n : Nat} {i : Nat} {v : Variant} {name : Str} (h : IsSym v name) :
    ptrStr st (n + 3) (.mk i (.var v)) = .ok name := by
  rw [ptrStr_var, varStr_sym h]

theorem traceCall_off {st : St} {n sid : Nat} {f : Ptr} (h : TraceOff st sid) : traceCall n f sid st = .ok () st := by
  have h : (st.scopes (st.scopes sid).global).tracing = some false := h
  simp [traceCall, h]

theorem traceOff_atToken {st : St} {sid : Nat} (t : Option Token) (h : TraceOff st sid) : TraceOff (atToken st sid t) sid := by
  unfold TraceOff at *
  rw [(sameNames_atToken st sid t).global]
  cases t with
  | none => exact h
  | some t =>
    by_cases h' : (st.scopes sid).global = sid
    · rw [h'] at h; simp [atToken, fset, h', h]
    · simp [atToken, fset, h', h]

theorem spliced_plain {n : Nat} {p : Ptr} (h : NotSpliced p) (st : St) : spliced n p st = .ok none st := by
  cases p with
  | null => exact h.elim
  | mk i o => cases o <;> first | rfl | (next v => have h : v.unq ≠ .splicing := h; simp [spliced, h])

theorem evalArgs_special {r : Rec} {sid : Nat} {l : List Ptr} (h : ∀ a ∈ l, NotSpliced a) (st : St) :
    evalArgs r true sid l st = .ok l st := by
  induction l with
  | nil => rfl
  | cons e t ih =>
    have he : NotSpliced e := h e (by simp)
    have ih := ih fun a ha => h a (by simp [ha])
    cases e with
    | null => exact he.elim
    | mk i o =>
      have : evalArgs r true sid (.mk i o :: t) = (do
          match (← spliced r.n (.mk i o)) with
          | some l => pure (l ++ t.map fun _ => Ptr.null)
          | none => do
            let tl ← evalArgs r true sid t
            pure (.mk i o :: tl)) := by
        cases o <;> rfl
      rw [this]
      simp [spliced_plain he, ih]

theorem evalArgs_of {sid : Nat} {l vs : List Ptr} {st st' : St} (h : Spec.EvalArgs sid l st vs st') :
    ∃ K, ∀ k, K ≤ k → evalArgs (run k) false sid l st = .ok vs st' := by
  induction h with
  | nil => exact ⟨0, fun _ _ => rfl⟩
  | @value i o t st vs st' ho hp h ih =>
    obtain ⟨K, ih⟩ := ih
    refine ⟨K, fun k hk => ?_⟩
    have : evalArgs (run k) false sid (.mk i o :: t) = (do
          match (← spliced (run k).n (.mk i o)) with
          | some l => pure (l ++ t.map fun _ => Ptr.null)
          | none => do
            let tl ← evalArgs (run k) false sid t
            pure (.mk i o :: tl)) := by
      cases o <;> first | rfl | exact absurd rfl ho
    rw [this]
    simp [spliced_plain hp, ih k hk]
  | @call i t st v st1 vs st' he hv h ih =>
    obtain ⟨K, ih⟩ := ih
    obtain ⟨K', he⟩ := he.stable
    refine ⟨max K K', fun k hk => ?_⟩
    have hp : NotSpliced (.mk st1.next (.var v)) := hv
    simp [evalArgs, he k (by omega), derefV, spliced_plain hp, ih k (by omega)]

theorem headFunction_ok {st : St} {n sid : Nat} {p : Ptr} {w : FnW} (h : Holds p (IsFn · w)) : headFunction st n sid p = .ok w := by
  obtain ⟨i, v, rfl, hv⟩ := h
  simp [headFunction, toVariant, functionValue_fn hv]

theorem resolveElem_sym {st : St} (ha : Acyclic st) {n sid : Nat} {i : Nat} {v : Variant} {name : Str} {r : Option Ptr} (hv : IsSym v name)
    (hl : Lookup st sid name r) : resolveElem st (n + 3) sid (.mk i (.var v)) = .ok (r.getD (.mk i (.var v))) := by
  simp [resolveElem, isSymbolPtr, hv.1, resolve_eq ha (ptrStr_sym hv) hl]

theorem resolveList_of {st : St} (ha : Acyclic st) {n sid : Nat} {l l' : List Ptr} (h : All2 (Resolved st sid) l l') :
    resolveList st (n + 3) sid l = .ok l' := by
  induction h with
  | nil => rfl
  | @cons a b l m hab _ ih =>
    have : resolveElem st (n + 3) sid a = .ok b := by
      cases hab with
      | symbol hv hl => rw [resolveElem_sym ha hv hl]; rfl
      | unknown hv hl => rw [resolveElem_sym ha hv hl]; rfl
      | value hv => simp [resolveElem, isSymbolPtr, hv]
      | list => simp [resolveElem, isSymbolPtr]
    simp [resolveList, this, ih]

/-- The evaluation of a special form is the call of its function with the code of the arguments. -/
theorem evals_special {st st' : St} {sid : Nat} {ast : Ptr} {b : Builtin} {args : List Ptr} (ha : Acyclic st)
    (h : IsSpecial st sid ast b args st') {o : Out (Option Variant)} :
    Evals ast sid st o ↔ Lim (fun k => callPrim (run k) b args sid st') o := by
  obtain ⟨w, ⟨⟨i, f, rfl, hl, ⟨name, p, ⟨j, v, rfl, hv⟩, hm, hlk, hp⟩, rfl⟩, hpl, ht⟩, hw, hs⟩ := h
  refine lim_iff (monoSeq_eval _ sid st) (monoSeq_prim b args sid _) 3 2 fun k hk => ?_
  obtain ⟨k, rfl⟩ : ∃ m, k = m + 3 := ⟨k - 3, by omega⟩
  rw [run_eval (k + 3 + 1)]
  have hn := run_n (k + 4)
  have e1 : resolveElem (atToken st sid v.tok) (k + 4) sid (.mk j (.var v)) = .ok p :=
    resolveElem_sym (n := k + 1) ((sameNames_atToken st sid v.tok).acyclic ha) hv ((sameNames_atToken st sid v.tok).lookup hlk)
  simp only [evalStep, M.bind_apply, M.rd_apply, toListRef, hl, evalList, hn, getMacro_none (ptrStr_sym hv) hm, M.lift_apply, toVariant]
  simp only [setCurTok_apply, resolveArgs, e1, bind_ok_R, headFunction_ok hp, hs, if_true, traceCall_off (traceOff_atToken _ ht), evalArgs_special hpl]
  rw [run_call (k + 3)]
  simp [callStep, hw, tokenOf]

/-- The evaluation of a function call: the names are replaced by their values, the arguments are evaluated from left to
right, and the function is called with the results. -/
theorem evals_call {st st' st1 : St} {sid : Nat} {ast : Ptr} {w : FnW} {args args' vs : List Ptr} (ha : Acyclic st)
    (h : IsForm st sid ast w args st') (hw : w.special = false) (hr : All2 (Resolved st sid) args args')
    (hv : Spec.EvalArgs sid args' st' vs st1) {o : Out (Option Variant)} :
    Evals ast sid st o ↔ Calls w vs sid st1 o := by
  obtain ⟨⟨i, f, rfl, hl, ⟨name, p, ⟨j, v, rfl, hv'⟩, hm, hlk, hp⟩, rfl⟩, hpl, ht⟩ := h
  obtain ⟨K, hv⟩ := evalArgs_of hv
  rename_i hv0; clear hv0
  refine lim_iff (monoSeq_eval _ sid st) (monoSeq_call w vs sid _) (max K 3) 1 fun k hk => ?_
  obtain ⟨m, rfl⟩ : ∃ m, k = m + 3 := ⟨k - 3, by omega⟩
  rw [run_eval (m + 3)]
  have hn := run_n (m + 3)
  have hs := sameNames_atToken st sid v.tok
  have e1 : resolveElem (atToken st sid v.tok) (m + 3) sid (.mk j (.var v)) = .ok p :=
    resolveElem_sym (n := m) (hs.acyclic ha) hv' (hs.lookup hlk)
  have e2 : resolveList (atToken st sid v.tok) (m + 3) sid args = .ok args' := by
    refine resolveList_of (n := m) (hs.acyclic ha) ?_
    clear hv hpl hl
    induction hr with
    | nil => exact .nil
    | cons hab _ ih =>
      refine .cons ?_ ih
      cases hab with
      | symbol a b => exact .symbol a (hs.lookup b)
      | unknown a b => exact .unknown a (hs.lookup b)
      | value a => exact .value a
      | list => exact .list
  simp only [evalStep, M.bind_apply, M.rd_apply, toListRef, hl, evalList, hn, getMacro_none (ptrStr_sym hv') hm, M.lift_apply, toVariant]
  have hv := hv (m + 3) (by omega)
  simp only [tokenOf] at hv
  simp only [setCurTok_apply, resolveArgs, e1, bind_ok_R, headFunction_ok hp, hw, Bool.false_eq_true, if_false, e2, traceCall_off (traceOff_atToken _ ht), hv]

end Fuel
