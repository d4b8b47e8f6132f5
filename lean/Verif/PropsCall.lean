import Verif.PropsAssign
/-!
# Properties of calls of user-defined functions: C30, C31
-/

set_option linter.unusedSectionVars false
set_option linter.unusedSimpArgs false

namespace Fuel

open Spec

section
variable [World]

theorem padNil_ok (k : Nat) (st : St) : ∃ l : List Ptr, l.length = k ∧ (∀ p ∈ l, Holds p fun v => IsNil v ∧ v.unq = .none) ∧
    padNil k st = .ok l { st with next := st.next + k } := by
  induction k generalizing st with
  | zero => exact ⟨[], rfl, by simp, rfl⟩
  | succ k ih =>
    obtain ⟨l, h1, h2, h3⟩ := ih { st with next := st.next + 1 }
    refine ⟨.mk st.next (.var nilV) :: l, by simp [h1], ?_, ?_⟩
    · intro p hp
      rcases List.mem_cons.mp hp with rfl | hp
      · exact ⟨_, _, rfl, rfl, rfl⟩
      · exact h2 p hp
    · have : st.next + 1 + k = st.next + (k + 1) := by omega
      simp [padNil, box, allocObj, h3, this]

/-- The variables after the parameters are bound. -/
def bindVars : List Str → List Ptr → List (Str × Ptr) → List (Str × Ptr)
  | n :: ns, a :: as, v => bindVars ns as (mapSet n a v)
  | _, _, v => v

theorem bindVars_other {n : Str} : ∀ {names : List Str} {as : List Ptr} {v : List (Str × Ptr)}, n ∉ names →
    (bindVars names as v).lookup n = v.lookup n
  | [], _, _, _ => rfl
  | _ :: _, [], _, _ => rfl
  | m :: ns, a :: as, v, h => by
    simp only [List.mem_cons, not_or] at h
    simp [bindVars, bindVars_other h.2, lookup_mapSet, h.1]

theorem bindVars_param : ∀ {names : List Str} {as : List Ptr} {v : List (Str × Ptr)} {i : Nat} {n : Str}, names.Nodup → names.length ≤ as.length →
    names[i]? = some n → (bindVars names as v).lookup n = as[i]?
  | [], _, _, _, _, _, _, h => by simp at h
  | m :: ns, [], _, _, _, _, h, _ => by simp at h
  | m :: ns, a :: as, v, 0, n, hd, _, h => by
    simp at h; subst h
    have := (List.nodup_cons.mp hd).1
    simp [bindVars, bindVars_other this, lookup_mapSet]
  | m :: ns, a :: as, v, i + 1, n, hd, hl, h => by
    simp only [bindVars, List.getElem?_cons_succ] at h ⊢
    exact bindVars_param (List.nodup_cons.mp hd).2 (by simpa using hl) h

theorem fset_at {α : Type} (f : Nat → α) (k : Nat) (a : α) : fset f k a k = a := by simp [fset]

theorem bindFormals_ok {n child : Nat} : ∀ {fs : List Ptr} {names : List Str} {as : List Ptr} {st : St}, All2 (fun q n => Holds q (IsSym · n)) fs names →
    names.length ≤ as.length → bindFormals (n + 3) child fs as st =
      .ok () { st with scopes := fset st.scopes child { st.scopes child with vars := bindVars names as (st.scopes child).vars } }
  | _, _, _, st, .nil, _ => by simp [bindFormals, bindVars, fset_same]
  | _, _, [], _, .cons _ _, h => by simp at h
  | _, _, a :: as, st, .cons (a := f) (b := m) (l := fs) (m := ns) ⟨i, v, hf, hv⟩ ht, h => by
    subst hf
    have := bindFormals_ok (n := n) (child := child) (as := as) (st := { st with scopes := fset st.scopes child { st.scopes child with vars := mapSet m a (st.scopes child).vars } })
      ht (by simpa using h)
    simp only [bindFormals, M.bind_apply, M.rd_apply, ptrStr_sym hv, setVar, modScope, M.modify_apply, this]
    simp [fset_fset, bindVars, fset_at]

theorem all2_length {α β : Type} {P : α → β → Prop} {l : List α} {m : List β} (h : All2 P l m) : l.length = m.length := by
  induction h with
  | nil => rfl
  | cons _ _ ih => simp [ih]

/-- The scope of a call. -/
def childScope (st : St) (sid : Nat) (c : Closure) (vars : List (Str × Ptr)) (nl : Bool) : Scope :=
  { (mkScope st c.name (st.scopes sid).global c.module) with prev := some sid, closure := some c.scope, needsLValue := nl, vars := vars }

/-- The scopes at the start of a call. -/
def callScopes (st : St) (sid : Nat) (cs : Scope) : Nat → Scope :=
  fset (fset st.scopes sid { st.scopes sid with next := some st.next }) st.next cs

/-- The evaluation of the body and the way back. -/
def bodyM (r : Rec) (body : Ptr) (sid child : Nat) : M (Option Variant) := do
  let res ← sliceExn (r.eval body child)
  popNext sid
  pure res

/-- The variables of the scope of a call; `N` is the first free address. -/
def callVars (names : List Str) (all : List Ptr) (N : Nat) : List (Str × Ptr) :=
  if names.length < all.length then
    mapSet additionalArgsKey (.mk (N + 2) (.var ⟨.list, .mk (N + 1) .list, .none, none⟩)) (mapSet argsMetaKey (.mk N .list) (bindVars names all []))
  else mapSet argsMetaKey (.mk N .list) (bindVars names all [])

/-- The state at the start of a call. -/
def callSt (st : St) (sid : Nat) (c : Closure) (names : List Str) (all : List Ptr) (N : Nat) (nl : Bool) : St :=
  { st with
    next := if names.length < all.length then N + 3 else N + 1,
    lists := if names.length < all.length then fset (fset st.lists N all) (N + 1) (all.drop names.length) else fset st.lists N all,
    scopes := callScopes st sid (childScope st sid c (callVars names all N) nl) }

theorem callClosure_ok {st : St} {sid cid : Nat} {c : Closure} {fp body : Ptr} {names : List Str} {args : List Ptr} (hs : sid < st.next)
    (hcl : st.clos cid = c) (hc : c.args = [fp, body]) (hp : Params st fp names) :
    ∃ (nils : List Ptr) (nl : Bool) (N : Nat), nils.length = names.length - args.length ∧ (∀ p ∈ nils, Holds p fun v => IsNil v ∧ v.unq = .none) ∧ st.next < N ∧
      (c.scope < st.next → nl = (st.scopes c.scope).needsLValue) ∧
      ∀ (r : Rec) k, r.n = k + 3 → callClosure r cid args sid st = bodyM r body sid st.next (callSt st sid c names (args ++ nils) N nl) := by
  obtain ⟨fs, hfs, hf⟩ : ∃ fs, (∀ s' : St, s'.lists = st.lists → ∀ n, formalsOf s' n fp = .ok fs) ∧ All2 (fun q n => Holds q (IsSym · n)) fs names := by
    rcases hp with ⟨i, rfl, hf⟩ | ⟨rfl, i, v, rfl, hv⟩
    · exact ⟨st.lists i, fun s' h n => by simp only [formalsOf, getExpression, h], hf⟩
    · exact ⟨[], fun s' h n => by simp only [formalsOf, Variant.listValue, show v.type = .nil from hv, if_true], .nil⟩
  generalize hs2 : ({ st with next := st.next + 1, scopes := callScopes st sid { (mkScope st c.name (st.scopes sid).global c.module) with prev := some sid } } : St) = s2
  have h2 : pushNext sid st.next { st with next := st.next + 1, scopes := fset st.scopes st.next (mkScope st c.name (st.scopes sid).global c.module) } = .ok () s2 := by
    subst hs2
    have h1 : sid ≠ st.next := Nat.ne_of_lt hs
    simp only [pushNext, modScope, callScopes, M.bind_apply, M.modify_apply, fset_at]
    congr 2
    funext i
    by_cases h : i = st.next
    · subst h; simp [fset, h1, h1.symm]
    · by_cases h' : i = sid
      · subst h'; simp [fset, h]
      · simp [fset, h, h']
  have hf2 := hf
  have hfs := hfs s2 (by rw [← hs2])
  obtain ⟨nils, n1, n2, n3⟩ := padNil_ok (names.length - args.length) s2
  generalize hs3 : ({ s2 with next := s2.next + (names.length - args.length) } : St) = s3 at n3
  have hlen := all2_length hf2
  have hb := fun n => bindFormals_ok (n := n) (child := st.next) (as := args ++ nils) (st := s3) hf2 (by simp [n1]; omega)
  generalize hs4 : ({ s3 with scopes := fset s3.scopes st.next { s3.scopes st.next with vars := bindVars names (args ++ nils) (s3.scopes st.next).vars } } : St) = s4 at hb
  have hv : (s2.scopes st.next).vars = [] := by subst hs2; simp [callScopes, fset, mkScope]
  have hN : s4.next = st.next + 1 + (names.length - args.length) := by subst hs4; subst hs3; subst hs2; rfl
  have hx4 : s4.scopes = callScopes st sid { (mkScope st c.name (st.scopes sid).global c.module) with prev := some sid, vars := bindVars names (args ++ nils) [] } := by
    subst hs4; subst hs3; simp only [hv]; subst hs2; simp [callScopes, fset_fset]
  have hr : s4 = { st with next := s4.next, scopes := s4.scopes } := by subst hs4; subst hs3; subst hs2; rfl
  refine ⟨nils, ((s4.scopes c.scope).needsLValue), s4.next, n1, n2, by omega, fun h => ?_, fun r k hr' => ?_⟩
  · rw [hx4]
    simp only [callScopes, fset, Nat.ne_of_lt h, if_false]
    by_cases hq : c.scope = sid
    · rw [if_pos hq, hq]
    · rw [if_neg hq]
  rw [← hlen] at n3
  simp only [callClosure, callBody, M.bind_apply, M.get_apply, hcl, allocScope, h2, hc, arg, List.getElem?_cons_zero, M.pure_apply, M.rd_apply, hfs,
      n3, hr', hb k, allocList, setVar, modScope, M.modify_apply]
  rw [hlen]
  have e1 : s4.lists = st.lists := by rw [hr]
  have e2 : s4.dicts = st.dicts := by rw [hr]
  have e3 : s4.clos = st.clos := by rw [hr]
  have e4 : s4.out = st.out := by rw [hr]
  have e5 : s4.input = st.input := by rw [hr]
  have e6 : s4.files = st.files := by rw [hr]
  have e7 : s4.clock = st.clock := by rw [hr]
  have e8 : s4.libPath = st.libPath := by rw [hr]
  have e9 : s4.dbg = st.dbg := by rw [hr]
  have hnl : ∀ sc : Scope, sc.needsLValue = (s4.scopes st.next).needsLValue → (fset s4.scopes st.next sc c.scope).needsLValue = (s4.scopes c.scope).needsLValue := by
    intro sc h; by_cases h' : c.scope = st.next <;> simp [fset, h', h]
  by_cases hx : names.length < (args ++ nils).length
  · simp only [if_pos hx]
    simp only [M.bind_apply, allocList, allocObj, box, M.modify_apply, M.get_apply, M.pure_apply, List.getElem?_cons_succ, List.getElem?_cons_zero, fset_fset, fset_at]
    rw [hnl]
    refine congrArg (bodyM r body sid st.next) ?_
    simp only [callSt, hx, if_true, e1, e2, e3, e4, e5, e6, e7, e8, e9, hx4, callScopes, fset_fset, fset_at, childScope, callVars]
    rfl
  · simp only [if_neg hx]
    simp only [M.bind_apply, allocList, allocObj, box, M.modify_apply, M.get_apply, M.pure_apply, List.getElem?_cons_succ, List.getElem?_cons_zero, fset_fset, fset_at]
    rw [hnl]
    refine congrArg (bodyM r body sid st.next) ?_
    simp only [callSt, hx, if_false, e1, e2, e3, e4, e5, e6, e7, e8, e9, hx4, callScopes, fset_fset, fset_at, childScope, callVars]
    rfl

theorem entered_callSt {st : St} {sid : Nat} {c : Closure} {names : List Str} {args nils : List Ptr} {N : Nat} {nl : Bool} (hs : sid < st.next)
    (hN : st.next < N) (h1 : nils.length = names.length - args.length) (h2 : ∀ p ∈ nils, Holds p fun v => IsNil v ∧ v.unq = .none) (hnl : c.scope < st.next → nl = (st.scopes c.scope).needsLValue) (hd : names.Nodup)
    (ha : c!"###args###" ∉ names) (hb : c!"_additionalArgs" ∉ names) :
    Entered st sid c names args st.next (callSt st sid c names (args ++ nils) N nl) := by
  have hk : (additionalArgsKey : Str) ≠ argsMetaKey := by decide
  have hne : sid ≠ st.next := Nat.ne_of_lt hs
  have hsc : (callSt st sid c names (args ++ nils) N nl).scopes st.next = childScope st sid c (callVars names (args ++ nils) N) nl := by
    simp [callSt, callScopes, fset_at]
  have hl : names.length ≤ (args ++ nils).length := by simp [h1]; omega
  have hx : names.length < (args ++ nils).length ↔ names.length < args.length := by simp [h1]; omega
  have hbind : ∀ n, binding (callSt st sid c names (args ++ nils) N nl) st.next n = (callVars names (args ++ nils) N).lookup n := by
    intro n; simp [binding, hsc, childScope]
  refine ⟨⟨Nat.le_refl _, ?_⟩, ⟨nils, h1, h2, fun i n hi => ?_, N, ?_, ?_⟩, fun hlt => ?_, fun n hn hn1 hn2 => ?_, ?_, ?_, ?_, fun h => ?_, ?_, ?_, ?_, ?_, rfl, rfl, rfl, rfl, rfl, rfl⟩
  · simp only [callSt]; split <;> omega
  · have hmem : n ∈ names := List.mem_of_getElem? hi
    have e1 : n ≠ argsMetaKey := fun h => ha (by subst h; exact hmem)
    have e2 : n ≠ additionalArgsKey := fun h => hb (by subst h; exact hmem)
    rw [hbind, callVars]
    split <;> simp [lookup_mapSet, e1, e2, bindVars_param hd hl hi]
  · show binding _ _ argsMetaKey = _
    rw [hbind, callVars]
    split <;> simp [lookup_mapSet, hk.symm]
  · simp only [callSt]
    split <;> simp [fset]
  · refine ⟨.mk (N + 2) (.var ⟨.list, .mk (N + 1) .list, .none, none⟩), N + 1, ?_, ⟨_, _, rfl, ?_⟩, ?_⟩
    · show binding _ _ additionalArgsKey = _
      rw [hbind, callVars, if_pos (hx.2 hlt)]
      simp [lookup_mapSet]
    · exact ⟨rfl, rfl⟩
    · have : nils = [] := List.eq_nil_of_length_eq_zero (by omega)
      simp [callSt, hlt, fset, this]
  · have hn1 : n ≠ argsMetaKey := hn1
    rw [hbind, callVars]
    split
    · rename_i h
      have : n ≠ additionalArgsKey := fun e => by have := hn2 e; have := hx.1 h; omega
      simp [lookup_mapSet, this, hn1, bindVars_other hn]
    · simp [lookup_mapSet, hn1, bindVars_other hn]
  · rw [hsc]; rfl
  · rw [hsc]; rfl
  · rw [hsc]; rfl
  · rw [hsc]; exact hnl h
  · rw [hsc]; rfl
  · simp [callSt, callScopes, fset, hne]
  · intro s h1 h2; simp [callSt, callScopes, fset, h1, h2]
  · intro i hi
    simp only [callSt]
    split
    · simp [fset, show i ≠ N by omega, show i ≠ N + 1 by omega]
    · simp [fset, show i ≠ N by omega]

theorem bodyM_leave {k : Nat} {body : Ptr} {sid child : Nat} {s : St} (hs : sid ≠ child) (h1 : sid < s.next) (h2 : child < s.next)
    (hn : (s.scopes sid).next = some child) : bodyM (run k) body sid child s = leave sid child ((run k).eval body child s) := by
  simp only [bodyM, M.bind_apply, sliceExn]
  cases e : (run k).eval body child s with
  | fail f s' =>
    cases f with
    | exn x => cases x <;> rfl
    | _ => rfl
  | ok v s' =>
    have hp : StepOk child s s' := Pres2.ok (sid := child) (m := (run k).eval body child) e
    have : (s'.scopes sid).next = some child := by rw [(hp.other h2 sid h1 hs).next, hn]
    simp [popNext, this, modScope, leave, popped, fset_at, fset, hs]

theorem ends_leave {sid child : Nat} {o : Out (Option Variant)} : Ends (leave sid child o) ↔ Ends o := by
  constructor
  · intro h s e
    subst e
    exact h s rfl
  · intro h s e
    cases o with
    | ok v s' => cases e
    | fail f s' =>
      cases f with
      | exn x => cases x <;> cases e
      | fuel => exact h s' rfl
      | ub x => cases e
      | unmodelled => cases e

/-- C31: a call of a user-defined function evaluates its body in a new scope, in which the parameters have the values of the
arguments in order; missing arguments are NIL, surplus arguments are in `_additionalArgs`. -/
theorem C31_call {st : St} {sid cid : Nat} {w : FnW} {c : Closure} {fp body : Ptr} {names : List Str} {args : List Ptr} (hs : sid < st.next)
    (hw : w.kind = .closure cid) (hcl : st.clos cid = c) (hc : c.args = [fp, body]) (hp : Params st fp names) (hd : names.Nodup)
    (ha : c!"###args###" ∉ names) (hb : c!"_additionalArgs" ∉ names) :
    ∃ child st1, Entered st sid c names args child st1 ∧
      ∀ o, Calls w args sid st o ↔ ∃ o1, Evals body child st1 o1 ∧ o = leave sid child o1 := by
  obtain ⟨nils, nl, N, h1, h2, hN, hnl, h⟩ := callClosure_ok (args := args) hs hcl hc hp
  have hE := entered_callSt (c := c) (nl := nl) hs hN h1 h2 hnl hd ha hb
  refine ⟨st.next, _, hE, fun o => ?_⟩
  generalize callSt st sid c names (args ++ nils) N nl = st1 at h hE ⊢
  have hlt := hE.fresh.2
  have hb' : ∀ k, bodyM (run k) body sid st.next st1 = leave sid st.next ((run k).eval body st.next st1) := fun k =>
    bodyM_leave (Nat.ne_of_lt hs) (Nat.lt_trans hs hlt) hlt (by rw [hE.callerScope])
  have hcall : ∀ k, (run (k + 4)).call w args sid st = leave sid st.next ((run (k + 3)).eval body st.next st1) := by
    intro k
    rw [← hb', ← h _ k (run_n _)]
    show callStep (run (k + 3)) w args sid st = _
    simp [callStep, hw]
  constructor
  · intro hC
    obtain ⟨K, hK⟩ := Lim.stable (monoSeq_call w args sid st) hC
    have := hK (K + 4) (by omega)
    rw [hcall] at this
    exact ⟨_, ⟨ends_leave.1 (this ▸ hC.1), K + 3, rfl⟩, this.symm⟩
  · rintro ⟨o1, h1, rfl⟩
    obtain ⟨K, hK⟩ := h1.stable
    exact ⟨ends_leave.2 h1.1, K + 4, by rw [hcall, hK _ (by omega)]⟩

/-! ## args, arg, argscount -/

theorem argsList_ok {st : St} {s j : Nat} {l : List Ptr} (h : binding st s c!"###args###" = some (.mk j .list)) (hl : st.lists j = l) :
    argsList s st = .ok l st := by
  have h : mapFind argsMetaKey (st.scopes s).vars = some (.mk j .list) := by rw [mapFind_eq_lookup]; exact h
  simp [argsList, h, M.rd_apply, toListRef, hl]

/-- C31: `(args)` is a new list of the arguments of the current function. -/
theorem C31_args (k : Nat) {st : St} {s j : Nat} {l : List Ptr} (h : binding st s c!"###args###" = some (.mk j .list)) (hl : st.lists j = l) :
    Returns (callPrim (run k) .args [] s) st fun v st' => IsList st' v l ∧ Extends st st' := by
  refine returns_list l ?_ fun _ _ he hi => ⟨hi, he⟩
  simp [callPrim, bArgs, ret, checkArgs, argsList_ok h hl]

/-- C31: `(argscount)` is the number of the arguments of the current function. -/
theorem C31_argscount (k : Nat) {st : St} {s j : Nat} {l : List Ptr} (h : binding st s c!"###args###" = some (.mk j .list)) (hl : st.lists j = l)
    (hn : IsInt32 l.length) :
    Returns (callPrim (run k) .argscount [] s) st fun v st' => IsInt v l.length ∧ Extends st st' := by
  refine returns_int l.length ?_ fun _ _ he hi => ⟨hi, he⟩
  simp [callPrim, bArgsCount, ret, checkArgs, argsList_ok h hl, wrap32_id hn]

/-- C31: `(arg i)` is the argument of the current function at position `i`, counted from 0. -/
theorem C31_arg (k : Nat) {st : St} {s j i : Nat} {l : List Ptr} {p x : Ptr} (h : binding st s c!"###args###" = some (.mk j .list)) (hl : st.lists j = l)
    (hp : Holds p (IsInt · i)) (hi : l[i]? = some x) (hx : IsElem x) :
    Returns (callPrim (run k) .arg [p] s) st fun v st' => Denotes x v ∧ st' = st := by
  obtain ⟨_, u, rfl, hu⟩ := hp
  obtain ⟨v, hv, hd⟩ := mkVariant_elem hx
  refine ⟨v, st, ?_, hd, rfl⟩
  have : ¬ ((i : Int) < 0) := by omega
  simp [callPrim, bArg, ret, checkArgs, argV, arg, toVariant_var, M.rd_apply, intValue_int hu, argsList_ok h hl, this, hi, hv]

theorem intStr_text (i : Int) : BraceFree (intStr i) ∧ intStr i ≠ c!"##<NULL>##" := by
  have hd : ∀ n, (∀ c ∈ natStr n, Digit c) := fun n => (natStr_spec n).2.1
  have hc : ∀ c ∈ intStr i, c = '-' ∨ Digit c := by
    cases i with
    | ofNat n => exact fun c hc => .inr (hd n c hc)
    | negSucc n => intro c hc; simp only [intStr, List.mem_cons] at hc; exact hc.imp id (hd _ c)
  constructor
  · intro c h
    rcases hc c h with rfl | ⟨h1, h2⟩
    · decide
    · constructor <;> (rintro rfl; revert h2; decide)
  · intro e
    have := hc '#' (by rw [e]; decide)
    rcases this with h | ⟨h, _⟩
    · cases h
    · revert h; decide

theorem natStr_text (n : Nat) : BraceFree (natStr n) ∧ natStr n ≠ c!"##<NULL>##" := intStr_text (.ofNat n)

/-- C31: `(arg i)` with another position raises an exception. -/
theorem C31_arg_range (k : Nat) {st : St} {s j : Nat} {i : Int} {l : List Ptr} {p : Ptr} (h : binding st s c!"###args###" = some (.mk j .list)) (hl : st.lists j = l)
    (hp : Holds p (IsInt · i)) (hi : i < 0 ∨ (l.length : Int) ≤ i) :
    Raises (callPrim (run k) .arg [p] s) st fun _ st' => st' = st := by
  obtain ⟨x, u, rfl, hu⟩ := hp
  obtain ⟨m, hf⟩ : ∃ m, format c!"Index out of range in args function (index={0} max={1})" (intStr i) (natStr l.length) = .ok m := by
    have hf := format_pieces (args := [intStr i, natStr l.length])
      (ps := [.lit c!"Index out of range in args function (index=", .hole 0, .lit c!" max=", .hole 1, .lit c!")"])
      (by simp [BraceFree]) (by simp only [List.mem_cons, List.not_mem_nil, or_false]; rintro a (rfl | rfl); exact intStr_text i; exact natStr_text _)
      (by simp [holes]) (by simp [holes])
    refine ⟨c!"Index out of range in args function (index=" ++ intStr i ++ c!" max=" ++ natStr l.length ++ c!")", ?_⟩
    simpa [argOr, sources, Piece.source, fill, nullString] using hf
  refine ⟨.base m, st, ?_, rfl⟩
  have hbad : bArg.bad i l st = .fail (.exn (.base m)) st := by
    simp only [bArg.bad, hf, M.bind_apply, M.lift_ok, throwBase]; rfl
  have h1 : bArg (run k).n [.mk x (.var u)] s st = .fail (.exn (.base m)) st := by
    simp only [bArg, checkArgs, argV, arg, toVariant_var, M.rd_apply, intValue_int hu, argsList_ok h hl, List.length_cons, List.length_nil, if_true,
      M.bind_apply, M.pure_apply, M.lift_ok, List.getElem?_cons_zero, Nat.zero_add]
    by_cases h0 : i < 0
    · simp only [h0, if_true, hbad]
    · have : l[i.toNat]? = none := by rw [List.getElem?_eq_none]; omega
      simp only [h0, if_false, this, hbad]
  simp only [callPrim, ret, M.bind_apply, h1]

/-! ## Lexical scoping -/

theorem binding_entered {st st1 : St} {sid child : Nat} {c : Closure} {names : List Str} {args : List Ptr} (h : Entered st sid c names args child st1)
    {s : Nat} (hs : s ≠ child) (n : Str) : binding st1 s n = binding st s n := by
  by_cases hc : s = sid
  · subst hc; simp [binding, h.callerScope]
  · simp [binding, h.others s hc hs]

theorem firstOf_congr {st st' : St} {n : Str} {l : List Nat} (h : ∀ s ∈ l, binding st' s n = binding st s n) : firstOf st' n l = firstOf st n l := by
  induction l with
  | nil => rfl
  | cons a t ih => simp only [firstOf, List.findSome?_cons, h a (by simp)]; cases binding st a n with
    | some p => rfl
    | none => exact ih fun s hs => h s (by simp [hs])

theorem enclosing_congr {st st' : St} {s : Nat} {l : List Nat} (h : Enclosing st s l)
    (hc : ∀ c, c = s ∨ c ∈ l → (st'.scopes c).closure = (st.scopes c).closure) : Enclosing st' s l := by
  induction h with
  | nil h => exact .nil (by rw [hc _ (.inl rfl), h])
  | cons h _ ih => exact .cons (by rw [hc _ (.inl rfl), h]) (ih fun c h => hc c (by simp; rcases h with h | h <;> simp [h]))

theorem enclosing_lt {st : St} (ha : Acyclic st) {s : Nat} {l : List Nat} (h : Enclosing st s l) : ∀ c ∈ l, c < s := by
  induction h with
  | nil => simp
  | cons h _ ih =>
    intro c hc
    rcases List.mem_cons.1 hc with rfl | hc
    · exact ha _ _ h
    · exact Nat.lt_trans (ih c hc) (ha _ _ h)

/-- C30: when the body of a function starts, a name means: the parameter, otherwise the global variable, otherwise the variable of
the nearest of the scopes in which the function was defined, otherwise the variable of a module, as they were before the call.
(The scopes of the caller do not matter.) -/
theorem C30_call {st st1 : St} {sid child cid : Nat} {c : Closure} {names : List Str} {args : List Ptr} (hE : Entered st sid c names args child st1)
    (hs : sid < st.next) (hl : Links st) (hcl : st.clos cid = c) (hx : Outer st sid) (name : Str) (r : Option Ptr) :
    Lookup st1 child name r ↔ LexLookup st (binding st1 child) (st.scopes sid).global c.scope name r := by
  have hf := hE.fresh.1
  have hg := hx.global
  have hgg := hx.top
  have hc : c.scope < st.next := by have := hl.clos cid; rw [hcl] at this; omega
  have hb : ∀ s, s < st.next → ∀ n, binding st1 s n = binding st s n := fun s h n => binding_entered hE (by omega) n
  have hv : ∀ s, s < st.next → (st1.scopes s).vars = (st.scopes s).vars ∧ (st1.scopes s).closure = (st.scopes s).closure ∧
      (st1.scopes s).global = (st.scopes s).global := by
    intro s h
    by_cases hc : s = sid
    · subst hc; simp [hE.callerScope]
    · simp [hE.others s hc (by omega)]
  have hgl := hE.global
  have hac : Acyclic st := hl.old
  have hac1 : ∀ {l}, Enclosing st1 c.scope l → Enclosing st c.scope l ∧ ∀ s ∈ l, s < st.next := by
    intro l h
    have : ∀ s, s < st.next → ∀ l, Enclosing st1 s l → Enclosing st s l ∧ ∀ s ∈ l, s < st.next := by
      intro s hs l h
      induction h with
      | nil h => exact ⟨.nil (by rw [← (hv _ hs).2.1, h]), by simp⟩
      | cons h _ ih =>
        rename_i s c' _ _
        have h' : (st.scopes s).closure = some c' := (hv _ hs).2.1 ▸ h
        have hlt : c' < st.next := Nat.lt_trans (hac _ _ h') hs
        exact ⟨.cons h' (ih hlt).1, fun x hx => by rcases List.mem_cons.1 hx with rfl | hx; exact hlt; exact (ih hlt).2 x hx⟩
    exact this _ hc l h
  have hac2 : ∀ {l}, Enclosing st c.scope l → Enclosing st1 c.scope l ∧ ∀ s ∈ l, s < st.next := by
    intro l h
    have hlt : ∀ s ∈ l, s < st.next := fun s hs => Nat.lt_trans (enclosing_lt hac h s hs) hc
    exact ⟨enclosing_congr h fun s hs => (hv s (by rcases hs with rfl | hs; exact hc; exact hlt s hs)).2.1, hlt⟩
  have hmod : ∀ t, Modules st1 child t ↔ ∃ i m, binding st (st.scopes (st.scopes sid).global).global c!"###modules###" = some (.mk i (.scope m)) ∧ Scopes (st.scopes m).vars t := by
    intro t
    unfold Modules
    rw [hgl, (hv _ hg).2.2]
    constructor
    · rintro ⟨i, m, h1, h2⟩
      rw [hb _ hgg] at h1
      exact ⟨i, m, h1, by rwa [(hv m (hx.modules i m h1).1).1] at h2⟩
    · rintro ⟨i, m, h1, h2⟩
      exact ⟨i, m, by rw [hb _ hgg]; exact h1, by rw [(hv m (hx.modules i m h1).1).1]; exact h2⟩
  have hfst : ∀ l, (∀ s ∈ l, s < st.next) → firstOf st1 name l = firstOf st name l := fun l h => firstOf_congr fun s hs => hb s (h s hs) name
  have hfirst : ∀ {l}, (∀ s ∈ l, s < st.next) → firstOf st1 name (c.scope :: l) = firstOf st name (c.scope :: l) := fun h =>
    hfst _ (by simpa using ⟨hc, h⟩)
  constructor
  · intro h
    cases h with
    | locally h => exact .param h
    | globally h1 h2 => exact .globally h1 (by rw [← hb _ hg, ← hgl]; exact h2)
    | enclosing h1 h2 h3 h4 =>
      rw [hgl, hb _ hg] at h2
      cases h3 with
      | nil h3 => rw [hE.closure] at h3; cases h3
      | cons h3 h5 =>
        rw [hE.closure] at h3; cases h3
        obtain ⟨h6, h7⟩ := hac1 h5
        exact .enclosing h1 h2 h6 (by rw [← hfirst h7]; exact h4)
    | modules h1 h2 h3 h4 h5 h8 =>
      rw [hgl, hb _ hg] at h2
      cases h3 with
      | nil h3 => rw [hE.closure] at h3; cases h3
      | cons h3 h5' =>
        rw [hE.closure] at h3; cases h3
        obtain ⟨h6, h7⟩ := hac1 h5'
        obtain ⟨i, m, h9, h10⟩ := (hmod _).1 h5
        exact .modules h1 h2 h6 (by rw [← hfirst h7]; exact h4) h9 h10 (by rw [← hfst _ ((hx.modules i m h9).2 _ h10)]; exact h8)
  · intro h
    cases h with
    | param h => exact .locally h
    | globally h1 h2 => exact .globally h1 (by rw [hgl, hb _ hg]; exact h2)
    | enclosing h1 h2 h3 h4 =>
      obtain ⟨h6, h7⟩ := hac2 h3
      exact .enclosing h1 (by rw [hgl, hb _ hg]; exact h2) (.cons hE.closure h6) (by rw [hfirst h7]; exact h4)
    | modules h1 h2 h3 h4 h9 h10 h8 =>
      obtain ⟨h6, h7⟩ := hac2 h3
      exact .modules h1 (by rw [hgl, hb _ hg]; exact h2) (.cons hE.closure h6) (by rw [hfirst h7]; exact h4) ((hmod _).2 ⟨_, _, h9, h10⟩)
        (by rw [hfst _ ((hx.modules _ _ h9).2 _ h10)]; exact h8)

/-- C30: while a function runs in scope `s`, the variables of a scope that is neither `s`, nor the global scope, nor one of the scopes
in which the function was defined, nor the table of modules or a module, do not matter: whatever values they have, every name means the same. -/
theorem C30_irrelevant {st : St} {s other : Nat} {l : List Nat} (vars : List (Str × Ptr)) (h1 : other ≠ s) (h2 : other ≠ (st.scopes s).global)
    (h3 : Enclosing st s l) (h4 : other ∉ l) (h5 : other ≠ (st.scopes (st.scopes s).global).global)
    (h6 : ∀ i m t, binding st (st.scopes (st.scopes s).global).global c!"###modules###" = some (.mk i (.scope m)) → Scopes (st.scopes m).vars t →
      other ≠ m ∧ other ∉ t) {name : Str} {r : Option Ptr} (h : Lookup st s name r) :
    Lookup { st with scopes := fset st.scopes other { st.scopes other with vars := vars } } s name r := by
  generalize hs' : ({ st with scopes := fset st.scopes other { st.scopes other with vars := vars } } : St) = st'
  have hb : ∀ x, x ≠ other → ∀ n, binding st' x n = binding st x n := fun x hx n => by subst hs'; simp [binding, fset, hx]
  have hv : ∀ x, x ≠ other → (st'.scopes x).vars = (st.scopes x).vars := fun x hx => by subst hs'; simp [fset, hx]
  have hc : ∀ x, (st'.scopes x).closure = (st.scopes x).closure := fun x => by
    subst hs'; by_cases hx : x = other <;> simp [fset, hx]
  have hg : ∀ x, (st'.scopes x).global = (st.scopes x).global := fun x => by
    subst hs'; by_cases hx : x = other <;> simp [fset, hx]
  have he : ∀ l', Enclosing st s l' → l' = l := fun l' h => enclosing_unique h h3
  have hfst : ∀ n t, other ∉ t → firstOf st' n t = firstOf st n t := fun n t h => firstOf_congr fun x hx => hb x (fun e => h (e ▸ hx)) n
  cases h with
  | locally h => exact .locally (by rw [hb _ h1.symm]; exact h)
  | globally ha hb' => exact .globally (by rw [hb _ h1.symm]; exact ha) (by rw [hg, hb _ h2.symm]; exact hb')
  | enclosing ha hb' hc' hd =>
    cases he _ hc'
    exact .enclosing (by rw [hb _ h1.symm]; exact ha) (by rw [hg, hb _ h2.symm]; exact hb') (enclosing_congr hc' fun x _ => hc x) (by rw [hfst _ _ h4]; exact hd)
  | modules ha hb' hc' hd hm hr =>
    cases he _ hc'
    obtain ⟨i, m, hm1, hm2⟩ := hm
    obtain ⟨h7, h8⟩ := h6 _ _ _ hm1 hm2
    exact .modules (by rw [hb _ h1.symm]; exact ha) (by rw [hg, hb _ h2.symm]; exact hb') (enclosing_congr hc' fun x _ => hc x) (by rw [hfst _ _ h4]; exact hd)
      ⟨i, m, by rw [hg, hg, hb _ h5.symm]; exact hm1, by rw [hv _ h7.symm]; exact hm2⟩ (by rw [hfst _ _ h8]; exact hr)

/-- C30: `(fn params body)` creates a function whose enclosing scope is the scope in which it is evaluated. -/
theorem C30_fn (k : Nat) (p body : Ptr) (sid : Nat) (st : St) :
    Returns (callPrim (run k) .fn [p, body] sid) st fun v st' => Extends st st' ∧ ∃ w cid, IsFn v w ∧ w.kind = .closure cid ∧ w.special = false ∧
      (st'.clos cid).scope = sid ∧ (st'.clos cid).args = [p, body] := by
  refine ⟨_, _, rfl, ?_, _, st.next, ⟨rfl, _, rfl⟩, rfl, rfl, ?_, ?_⟩
  · constructor <;> simp
    · omega
    · intro i hi
      simp [fset, show i ≠ st.next by omega]
  · simp
  · simp

/-- C31: evaluating `(f a b ...)`, where `f` names a user-defined function, evaluates the arguments from left to right and then the body in
the new scope. -/
theorem C31_form {st st' st2 : St} {sid cid : Nat} {ast : Ptr} {w : FnW} {c : Closure} {fp body : Ptr} {names : List Str} {args args' vs : List Ptr}
    (ha : Acyclic st) (h : IsForm st sid ast w args st') (hsp : w.special = false) (hr : All2 (Resolved st sid) args args')
    (hv : Spec.EvalArgs sid args' st' vs st2) (hs : sid < st2.next)
    (hw : w.kind = .closure cid) (hcl : st2.clos cid = c) (hc : c.args = [fp, body]) (hp : Params st2 fp names) (hd : names.Nodup)
    (hk : c!"###args###" ∉ names) (hk' : c!"_additionalArgs" ∉ names) :
    ∃ child st1, Entered st2 sid c names vs child st1 ∧
      ∀ o, Evals ast sid st o ↔ ∃ o1, Evals body child st1 o1 ∧ o = leave sid child o1 := by
  obtain ⟨child, st1, hE, h1⟩ := C31_call (args := vs) hs hw hcl hc hp hd hk hk'
  exact ⟨child, st1, hE, fun o => by rw [evals_call ha h hsp hr hv, h1]⟩

/-- The names of the parameters. -/
def paramsB (st : St) : Ptr → Option (List Str)
  | .mk i .list => (st.lists i).mapM fun | .mk _ (.var v) => symB v | _ => none
  | _ => none

theorem paramsB_ok {st : St} {p : Ptr} {names : List Str} (h : paramsB st p = some names) : Params st p names := by
  unfold paramsB at h
  split at h
  · rename_i i
    refine .inl ⟨i, rfl, ?_⟩
    generalize st.lists i = l at h ⊢
    induction l generalizing names with
    | nil => simp at h; subst h; exact .nil
    | cons a t ih =>
      simp only [List.mapM_cons] at h
      cases a with
      | null => cases h
      | mk j o =>
        cases o <;> try cases h
        rename_i v
        cases hv : symB v with
        | none => simp [hv] at h
        | some n =>
          simp only [hv] at h
          cases ht : t.mapM (m := Option) (fun | .mk _ (.var v) => symB v | _ => none) with
          | none => erw [ht] at h; cases h
          | some ns => erw [ht] at h; cases h; exact .cons ⟨j, v, rfl, symB_ok hv⟩ (ih ht)
  · cases h

/-- A user-defined function: its parameters. -/
def closureB (st : St) (w : FnW) : Option (Nat × Ptr × Ptr × List Str) :=
  match w.kind with
  | .closure cid => match (st.clos cid).args with
    | [fp, body] => match paramsB st fp with
      | some names => if names.Nodup ∧ c!"###args###" ∉ names ∧ c!"_additionalArgs" ∉ names then some (cid, fp, body, names) else none
      | none => none
    | _ => none
  | _ => none

theorem closureB_ok {st : St} {w : FnW} {cid : Nat} {fp body : Ptr} {names : List Str} (h : closureB st w = some (cid, fp, body, names)) :
    w.kind = .closure cid ∧ (st.clos cid).args = [fp, body] ∧ Params st fp names ∧ names.Nodup ∧ c!"###args###" ∉ names ∧ c!"_additionalArgs" ∉ names := by
  unfold closureB at h
  split at h
  · rename_i c hw
    split at h
    · rename_i a b hc
      split at h
      · rename_i ns hn
        split at h
        · rename_i hx; cases h; exact ⟨hw, hc, paramsB_ok hn, hx⟩
        · cases h
      · cases h
    · cases h
  · cases h

/-- The global scope and the modules exist (no module is imported). -/
def outerB (st : St) (s : Nat) : Bool :=
  decide ((st.scopes s).global < st.next ∧ (st.scopes (st.scopes s).global).global < st.next) &&
  match binding st (st.scopes (st.scopes s).global).global c!"###modules###" with
  | some (.mk _ (.scope m)) => decide (m < st.next) && (st.scopes m).vars.isEmpty
  | _ => false

theorem outerB_ok {st : St} {s : Nat} (h : outerB st s = true) : Outer st s := by
  simp only [outerB, Bool.and_eq_true, decide_eq_true_eq] at h
  obtain ⟨⟨h1, h2⟩, h⟩ := h
  refine ⟨h1, h2, fun i m e => ?_⟩
  rw [e] at h
  simp only [Bool.and_eq_true, decide_eq_true_eq, List.isEmpty_iff] at h
  refine ⟨h.1, fun t ht => ?_⟩
  rw [h.2] at ht
  cases ht
  simp

end

section
attribute [local instance] demoWorld

/-- `(f 1)` with `(defn f (a b) (+ a x))`: a call in a state where the hypotheses of `C31_call`, `C31_form` and `C30_call` hold. -/
example : ∃ (st st' : St) (sid cid : Nat) (ast fp body : Ptr) (w : FnW) (args : List Ptr), Reachable st ∧ IsForm st sid ast w args st' ∧
    w.special = false ∧ args.length = 1 ∧ All2 (Resolved st sid) args args ∧ Spec.EvalArgs sid args st' args st' ∧ sid < st'.next ∧ w.kind = .closure cid ∧
    (st'.clos cid).args = [fp, body] ∧ Params st' fp [c!"a", c!"b"] ∧ Outer st' sid := by
  obtain ⟨st, sid, ast, h1, _, h⟩ := demo_of (setup := [c!"(def x 7) (defn f (a b) (+ a x))"]) (code := c!"(f 1)") (P := fun st s ast =>
    match formB st s ast with
    | some (w, args, st') => match closureB st' w, args with
      | some (_, _, _, names), [.mk _ (.var v)] => decide (w.special = false ∧ names = [c!"a", c!"b"] ∧ s < st'.next ∧ v.type ≠ .symbol ∧ v.unq ≠ .splicing) && outerB st' s
      | _, _ => false
    | none => false) (by decide +kernel)
  split at h
  · rename_i w args st' hf
    split at h
    · rename_i cid fp body names i v hc
      simp only [Bool.and_eq_true, decide_eq_true_eq] at h
      obtain ⟨⟨g1, rfl, g2, g3, g4⟩, g5⟩ := h
      obtain ⟨c1, c2, c3, _⟩ := closureB_ok hc
      exact ⟨st, st', sid, cid, ast, fp, body, w, _, h1, formB_ok hf, g1, rfl, .cons (.value g3) .nil, .value (by simp) g4 .nil, g2, c1, c2, c3, outerB_ok g5⟩
    · cases h
  · cases h

/-- A name in a function means the global variable, not the variable of the caller. -/
example : demoScripts [c!"(def x 1) (defn f () x) (defn g (x) (f)) (println (g 2))"] = c!"1\n" := by decide +kernel

/-- `nil` may be written in place of an empty list of parameters. -/
example : demoScripts [c!"(defn f nil 5) (println (f 1))"] = c!"5\n" := by decide +kernel

/-- A function sees the variables of the function in which it was defined. -/
example : demoScripts [c!"(defn mk (x) (fn (y) (+ x y))) (def add5 (mk 5)) (println (add5 3))"] = c!"8\n" := by decide +kernel

/-- Surplus and missing arguments. -/
example : demoScripts [c!"(defn f (a b) (println a b (argscount))) (f 1) (defn g (a) (println a _additionalArgs (argscount))) (g 1 2 3)"] =
    c!"1 NIL 2\n1 (2 3) 3\n" := by decide +kernel

/-- In the scope of a call: the arguments, and a scope whose variables are irrelevant (that of the caller). -/
example : ∃ (st : St) (s j other : Nat) (l : List Nat), Reachable st ∧ binding st s c!"###args###" = some (.mk j .list) ∧ (st.lists j).length = 3 ∧
    other ≠ s ∧ other ≠ (st.scopes s).global ∧ Enclosing st s l ∧ other ∉ l ∧ other ≠ (st.scopes (st.scopes s).global).global ∧
    (∀ i m t, binding st (st.scopes (st.scopes s).global).global c!"###modules###" = some (.mk i (.scope m)) → Scopes (st.scopes m).vars t →
      other ≠ m ∧ other ∉ t) := by
  obtain ⟨st, sid, ast, h1, _, h⟩ := demo_of (setup := [c!"(defn f (a) a) (defn g (b) (f 1 2 3)) (g 5)"]) (code := c!"(f 1)") (P := fun st _ _ =>
    match (List.range st.next).find? (fun s => (binding st s c!"a").isSome), (List.range st.next).find? (fun s => (binding st s c!"b").isSome) with
    | some s, some o => match binding st s c!"###args###", (st.scopes s).closure with
      | some (.mk j .list), some d => match binding st (st.scopes (st.scopes s).global).global c!"###modules###" with
        | some (.mk _ (.scope m)) => decide ((st.lists j).length = 3 ∧ o ≠ s ∧ o ≠ (st.scopes s).global ∧ o ≠ (st.scopes (st.scopes s).global).global ∧ o ≠ d ∧
            (st.scopes d).closure = none ∧ o ≠ m) && (st.scopes m).vars.isEmpty
        | _ => false
      | _, _ => false
    | _, _ => false) (by decide +kernel)
  split at h
  · rename_i s o _ _
    split at h
    · rename_i j d hj hd
      split at h
      · rename_i i m hm
        simp only [Bool.and_eq_true, decide_eq_true_eq, List.isEmpty_iff] at h
        obtain ⟨⟨g1, g2, g3, g4, g5, g6, g7⟩, g8⟩ := h
        refine ⟨st, s, j, o, [d], h1, hj, g1, g2, g3, .cons hd (.nil g6), by simpa using g5, g4, fun i' m' t e ht => ?_⟩
        rw [hm] at e; cases e
        rw [g8] at ht; cases ht
        exact ⟨g7, by simp⟩
      · cases h
    · cases h
  · cases h

end

end Fuel
