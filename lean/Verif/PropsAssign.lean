import Verif.SpecScope
import Verif.SpecForms
import Verif.DemoEval
/-!
# Properties of definitions and assignments: C28, C29
-/

set_option linter.unusedSectionVars false
set_option linter.unusedSimpArgs false

namespace Fuel

open Spec

section
variable [World]

theorem varStr_name {st : St} {n : Nat} {v : Variant} {name : Str} (h : IsName v name) : varStr st (n + 2) v = .ok name := by
  rcases h with h | h
  · exact varStr_sym h
  · exact varStr_str h

theorem name_type {v : Variant} {name : Str} (h : IsName v name) : v.type = .symbol ∨ v.type = .string := by
  rcases h with h | h
  · exact .inl h.1
  · exact .inr h.1

theorem lookup_mapSet (name : Str) (p : Ptr) (l : List (Str × Ptr)) (n : Str) :
    (mapSet name p l).lookup n = if n = name then some p else l.lookup n := by
  rw [← mapFind_eq_lookup, ← mapFind_eq_lookup]
  induction l with
  | nil =>
    by_cases h : n = name
    · subst h; simp [mapSet, mapFind]
    · simp [mapSet, mapFind, h, Ne.symm h]
  | cons e t ih =>
    obtain ⟨a, w⟩ := e
    simp only [mapSet]
    by_cases h1 : a = name
    · subst h1
      by_cases h : n = a
      · subst h; simp [mapFind]
      · simp [mapFind, h, Ne.symm h]
    · by_cases h2 : strLt name a = true
      · simp only [h1, if_false, h2, if_true]
        by_cases h : n = name
        · subst h; simp [mapFind]
        · simp [mapFind, h, Ne.symm h]
      · simp only [h1, if_false, h2]
        by_cases h : n = name
        · subst h; simp [mapFind, h1]; simpa using ih
        · simp only [h, if_false] at ih ⊢; by_cases ha : a = n <;> simp [mapFind, ha, ih]

/-- The state after `(*scope)[name] = new object with value v`. -/
def assigned (st : St) (target : Nat) (name : Str) (v : Variant) : St :=
  { st with next := st.next + 1,
            scopes := fset st.scopes target { st.scopes target with vars := mapSet name (.mk st.next (.var v)) (st.scopes target).vars } }

theorem assigned_spec (st : St) (target : Nat) (name : Str) (v : Variant) : Assigned st (assigned st target name v) target name v where
  value := ⟨.mk st.next (.var v), by simp [binding, assigned, fset, lookup_mapSet], _, _, rfl, rfl⟩
  others s n h := by
    by_cases hs : s = target
    · subst hs
      have hn : n ≠ name := by simpa using h
      simp [binding, assigned, fset, lookup_mapSet, hn]
    · simp [binding, assigned, fset, hs]
  scopes s := by by_cases hs : s = target <;> simp [assigned, fset, hs]
  lists := rfl
  dicts := rfl
  clos := rfl
  next := Nat.le_succ _
  out := rfl
  input := rfl
  files := rfl
  libPath := rfl
  elsewhere s hs := by simp [assigned, fset, hs]

/-- C28: `(def n e)` evaluates `e` and assigns its value to the variable `n` of the current scope; nothing else changes. -/
theorem C28_def {st st0 st1 : St} {sid : Nat} {ast n e : Ptr} {name : Str} {v : Variant} (ha : Acyclic st)
    (h : IsSpecial st sid ast .def_ [n, e] st0) (hn : Holds n (IsName · name)) (he : Evals e sid st0 (.ok (some v) st1)) :
    ∃ st', Evals ast sid st (.ok (some v) st') ∧ Assigned st1 st' sid name v := by
  refine ⟨assigned st1 sid name v, ?_, assigned_spec _ _ _ _⟩
  rw [evals_special ha h]
  obtain ⟨K, he⟩ := he.stable
  obtain ⟨i, w, rfl, hw⟩ := hn
  refine lim_of (ends_ok _ _) (K + 2) ?_
  simp [callPrim, ret, bDef, bDefHelper, checkArgs, arg, evalArgIfNeeded, toVariant, derefV, name_type hw, he (K + 2) (by omega),
    box, allocObj, M.rd_apply, run_n, varStr_name hw, setVar, modScope, assigned]

/-- C28: `(gdef n e)` does the same with the variable `n` of the global scope. -/
theorem C28_gdef {st st0 st1 : St} {sid : Nat} {ast n e : Ptr} {name : Str} {v : Variant} (ha : Acyclic st)
    (h : IsSpecial st sid ast .gdef [n, e] st0) (hn : Holds n (IsName · name)) (he : Evals e sid st0 (.ok (some v) st1)) :
    ∃ st', Evals ast sid st (.ok (some v) st') ∧ Assigned st1 st' (st.scopes sid).global name v := by
  have hg : (st0.scopes sid).global = (st.scopes sid).global := by
    obtain ⟨w, ⟨⟨i, f, rfl, hl, _, rfl⟩, _, _⟩, _⟩ := h
    exact (sameNames_atToken _ _ _).global _
  refine ⟨assigned st1 (st.scopes sid).global name v, ?_, assigned_spec _ _ _ _⟩
  rw [evals_special ha h]
  obtain ⟨K, he⟩ := he.stable
  obtain ⟨i, w, rfl, hw⟩ := hn
  refine lim_of (ends_ok _ _) (K + 2) ?_
  simp [callPrim, ret, bGdef, bDefHelper, checkArgs, arg, evalArgIfNeeded, toVariant, derefV, name_type hw, he (K + 2) (by omega),
    box, allocObj, M.rd_apply, run_n, varStr_name hw, setVar, modScope, assigned, hg]

theorem closureFind_scope {st : St} (ha : Acyclic st) {name : Str} {s : Nat} {l : List Nat} (he : Enclosing st s l) :
    ∀ k, s < k → closureFind st name k s = .ok ((l.find? fun c => (binding st c name).isSome).bind fun c => (binding st c name).map (c, ·)) := by
  induction he with
  | @nil s hs =>
    intro k hk
    obtain ⟨k, rfl⟩ : ∃ m, k = m + 1 := ⟨k - 1, by omega⟩
    simp [closureFind, hs]
  | @cons s c l hs he ih =>
    intro k hk
    obtain ⟨k, rfl⟩ : ∃ m, k = m + 1 := ⟨k - 1, by omega⟩
    have := ha s c hs
    simp only [closureFind, hs, find_eq]
    cases hb : binding st c name with
    | some p => simp [List.find?, hb]
    | none => simp [List.find?, hb, ih k (by omega)]

theorem find_first {st : St} {name : Str} {a b : List Nat} {t : Nat} {p : Ptr} (h : ∀ c ∈ a, binding st c name = none) (hp : binding st t name = some p) :
    ((a ++ t :: b).find? fun c => (binding st c name).isSome) = some t := by
  induction a with
  | nil => simp [List.find?, hp]
  | cons c a ih =>
    have h1 := h c (by simp)
    have := ih fun c hc => h c (by simp [hc])
    simp [List.find?, h1, this]

theorem find_none {st : St} {name : Str} {l : List Nat} (h : ∀ c ∈ l, binding st c name = none) :
    (l.find? fun c => (binding st c name).isSome) = none := by
  rw [List.find?_eq_none]; intro c hc; simp [h c hc]

theorem Spec.Enclosing.next {st : St} {s n : Nat} {l : List Nat} (h : Enclosing st s l) : Enclosing { st with next := n } s l := by
  induction h with
  | nil h => exact .nil h
  | cons h _ ih => exact .cons h ih

theorem setInScopes_target {st : St} (ha : Acyclic st) {sid t : Nat} {name : Str} (hne : name ≠ []) (ht : Target st sid name t) (p : Ptr) :
    setInScopes sid name p st = setVar t name p st := by
  have he : name.isEmpty = false := by simp [hne]
  cases ht with
  | here h => simp [setInScopes, he, find_eq, h]
  | enclosing h1 h2 h3 h4 h5 =>
    subst h3
    have := closureFind_scope ha h2 (name := name) (sid + 1) (by omega)
    rw [find_first h4 h5] at this
    simp [setInScopes, he, find_eq, h1, M.rd_apply, this, h5]
  | global h1 h2 h3 h4 =>
    have := closureFind_scope ha h2 (name := name) (sid + 1) (by omega)
    rw [find_none h3] at this
    simp [setInScopes, he, find_eq, h1, M.rd_apply, this, h4]

theorem setInScopes_unbound {st : St} (ha : Acyclic st) {sid : Nat} {name : Str} (ht : Unbound st sid name) (p : Ptr) :
    setInScopes sid name p st = throwScope (c!"Symbol " ++ name ++ c!" not found") sid st := by
  obtain ⟨h1, ⟨l, h2, h3⟩, h4⟩ := ht
  have := closureFind_scope ha h2 (name := name) (sid + 1) (by omega)
  rw [find_none h3] at this
  by_cases he : name.isEmpty
  · simp [setInScopes, he]
  · simp [setInScopes, he, find_eq, h1, M.rd_apply, this, h4]

theorem fset_fset {α : Type} (f : Nat → α) (k : Nat) (a b : α) : fset (fset f k a) k b = fset f k b := by
  funext i; by_cases h : i = k <;> simp [fset, h]

theorem setf_name {k : Nat} {sid : Nat} {n e : Ptr} {name : Str} (hn : Holds n (IsName · name)) (st : St) :
    bSetf (run (k + 2)) [n, e] sid st = (do
      let value ← (run (k + 2)).eval e sid
      let v ← derefV value
      let b ← box v
      setInScopes sid name b
      pure v : M Variant) st := by
  obtain ⟨i, w, rfl, hw⟩ := hn
  have ht : ¬ w.type = .lvalue := by rcases name_type hw with h | h <;> simp [h]
  simp [bSetf, checkArgs, arg, evalArgIfNeeded, toVariant, modScope, M.rd_apply, run_n, varStr_name hw, derefV, ht, fset_fset, fset_same]

/-- C28: `(setf n e)` evaluates `e` and assigns its value to the innermost existing variable `n`; nothing else changes. -/
theorem C28_setf {st st0 st1 : St} {sid t : Nat} {ast n e : Ptr} {name : Str} {v : Variant} (ha : Acyclic st) (ha1 : Acyclic st1)
    (h : IsSpecial st sid ast .setf [n, e] st0) (hn : Holds n (IsName · name)) (hne : name ≠ []) (he : Evals e sid st0 (.ok (some v) st1))
    (ht : Target st1 sid name t) :
    ∃ st', Evals ast sid st (.ok (some v) st') ∧ Assigned st1 st' t name v := by
  refine ⟨assigned st1 t name v, ?_, assigned_spec _ _ _ _⟩
  rw [evals_special ha h]
  obtain ⟨K, he⟩ := he.stable
  refine lim_of (ends_ok _ _) (K + 2) ?_
  have hT : Target { st1 with next := st1.next + 1 } sid name t := by
    cases ht with
    | here h => exact .here h
    | enclosing h1 h2 h3 h4 h5 => exact .enclosing h1 h2.next h3 h4 h5
    | global h1 h2 h3 h4 => exact .global h1 h2.next h3 h4
  have := setInScopes_target (st := { st1 with next := st1.next + 1 }) ha1 hne hT (.mk st1.next (.var v))
  simp [callPrim, ret, setf_name hn, he (K + 2) (by omega), derefV, box, allocObj, this, setVar, modScope, assigned]

/-- C28: `(setf n e)` with an unknown name raises 'Symbol n not found'; no variable is changed: the state is the one after the
evaluation of `e`. -/
theorem C28_setf_unknown {st st0 st1 : St} {sid : Nat} {ast n e : Ptr} {name : Str} {v : Variant} (ha : Acyclic st) (ha1 : Acyclic st1)
    (h : IsSpecial st sid ast .setf [n, e] st0) (hn : Holds n (IsName · name)) (he : Evals e sid st0 (.ok (some v) st1))
    (ht : Unbound st1 sid name) :
    ∃ st', Evals ast sid st (.fail (exnAt (c!"Symbol " ++ name ++ c!" not found") (st1.scopes sid).module (st1.scopes sid).curTok) st') ∧
      Extends st1 st' := by
  refine ⟨{ st1 with next := st1.next + 1 }, ?_, extends_next _ _ (Nat.le_succ _)⟩
  rw [evals_special ha h]
  obtain ⟨K, he⟩ := he.stable
  refine lim_of (by cases (st1.scopes sid).curTok <;> exact ends_exn _ _) (K + 2) ?_
  have hT : Unbound { st1 with next := st1.next + 1 } sid name := by
    obtain ⟨h1, ⟨l, h2, h3⟩, h4⟩ := ht
    exact ⟨h1, ⟨l, h2.next, h3⟩, h4⟩
  have := setInScopes_unbound (st := { st1 with next := st1.next + 1 }) ha1 hT (.mk st1.next (.var v))
  simp only [callPrim, ret, setf_name hn, he (K + 2) (by omega), derefV, box, allocObj, this, M.bind_apply, M.pure_apply, throwScope, scopeExn]
  cases (st1.scopes sid).curTok <;> rfl

/-! ## C29 -/

/-- C29: after a successful `(setf n e)` the name `n` means the value of `e`, unless the name is bound in an enclosing function and
globally but not locally. -/
theorem C29_setf_lookup {st st0 st1 : St} {sid t : Nat} {ast n e : Ptr} {name : Str} {v : Variant} (ha : Acyclic st) (ha1 : Acyclic st1)
    (h : IsSpecial st sid ast .setf [n, e] st0) (hn : Holds n (IsName · name)) (hne : name ≠ []) (he : Evals e sid st0 (.ok (some v) st1))
    (ht : Target st1 sid name t)
    (hx : t ≠ sid → t ≠ (st1.scopes sid).global → binding st1 (st1.scopes sid).global name = none) :
    ∃ st' p, Evals ast sid st (.ok (some v) st') ∧ Lookup st' sid name (some p) ∧ Holds p (· = v) := by
  obtain ⟨st', h1, h2⟩ := C28_setf ha ha1 h hn hne he ht
  obtain ⟨p, hp, hv⟩ := h2.value
  refine ⟨st', p, h1, ?_, hv⟩
  have hsc : ∀ s, (st'.scopes s).closure = (st1.scopes s).closure ∧ (st'.scopes s).global = (st1.scopes s).global := fun s => by
    have := h2.scopes s
    simp only [Scope.mk.injEq] at this
    exact ⟨this.2.2.2.2.2.2.1, this.2.2.2.1⟩
  have hen : ∀ {s l}, Enclosing st1 s l → Enclosing st' s l := fun h => by
    induction h with
    | nil h => exact .nil (by rw [(hsc _).1, h])
    | cons h _ ih => exact .cons (by rw [(hsc _).1, h]) ih
  by_cases hs : t = sid
  · subst hs; exact .locally hp
  · have hl : binding st1 sid name = none := by
      cases ht with
      | here _ => exact absurd rfl hs
      | enclosing h _ _ _ _ => exact h
      | global h _ _ _ => exact h
    have hl' : binding st' sid name = none := by rw [h2.others _ _ (.inl (Ne.symm hs)), hl]
    by_cases hg : t = (st1.scopes sid).global
    · exact .globally hl' (by rw [(hsc sid).2, ← hg]; exact hp)
    · have hgl := hx hs hg
      cases ht with
      | here _ => exact absurd rfl hs
      | global _ _ _ _ => exact absurd rfl hg
      | @enclosing l a t b q g1 g2 g3 g4 g5 =>
        refine .enclosing hl' (by rw [(hsc sid).2, h2.others _ _ (.inl (Ne.symm hg)), hgl]) (hen g2) ?_
        subst g3
        have : ∀ c ∈ a, binding st' c name = none := fun c hc => by
          have : c ≠ t := fun e => by have := g4 c hc; rw [e, g5] at this; cases this
          rw [h2.others _ _ (.inl this), g4 c hc]
        clear g2 g4
        induction a with
        | nil => simp [firstOf, hp]
        | cons c a ih =>
          have h1 := this c (by simp)
          have := ih fun c hc => this c (by simp [hc])
          simpa [firstOf, h1] using this

end

/-! ## Examples: reachable states that meet the hypotheses -/

section
attribute [local instance] demoWorld

/-- Checks `(form name e)`: the special form, the name and the value of the expression. -/
def assignB (b : Builtin) (name : Str) (st : St) (s : Nat) (ast : Ptr) : Option (Ptr × Ptr × St × Variant × St) :=
  match specialB st s ast b with
  | some ([.mk i (.var n), e], st0) => if symB n = some name then
      match evalB e s st0 with
      | some (v, st1) => some (.mk i (.var n), e, st0, v, st1)
      | none => none
    else none
  | _ => none

theorem assignB_ok {b : Builtin} {name : Str} {st : St} {s : Nat} {ast n e : Ptr} {st0 st1 : St} {v : Variant}
    (h : assignB b name st s ast = some (n, e, st0, v, st1)) :
    IsSpecial st s ast b [n, e] st0 ∧ Holds n (IsName · name) ∧ Evals e s st0 (.ok (some v) st1) := by
  unfold assignB at h
  split at h
  · rename_i i n' e' st0' hs
    split at h
    · rename_i hn
      split at h
      · rename_i v' st1' he
        cases h
        exact ⟨specialB_ok hs, ⟨i, n', rfl, .inl (symB_ok hn)⟩, evalB_ok he⟩
      · cases h
    · cases h
  · cases h

theorem Spec.Reachable.evals {st st1 : St} {s : Nat} {ast : Ptr} {v : Option Variant} (h : Reachable st) (hs : s < st.next)
    (he : Evals ast s st (.ok v st1)) : Reachable st1 := by
  obtain ⟨_, k, he⟩ := he
  have := Reachable.eval k ast s h hs
  rw [he] at this
  exact this

/-- `(def y (+ 1 2))` -/
example : ∃ (st st0 st1 : St) (sid : Nat) (ast n e : Ptr) (v : Variant), Reachable st ∧ IsSpecial st sid ast .def_ [n, e] st0 ∧
    Holds n (IsName · c!"y") ∧ Evals e sid st0 (.ok (some v) st1) := by
  obtain ⟨st, sid, ast, h1, _, h⟩ := demo_of (setup := []) (code := c!"(def y (+ 1 2))") (P := fun st sid ast =>
    (assignB .def_ c!"y" st sid ast).isSome) (by decide +kernel)
  obtain ⟨⟨n, e, st0, v, st1⟩, hb⟩ := Option.isSome_iff_exists.mp h
  obtain ⟨h2, h3, h4⟩ := assignB_ok hb
  exact ⟨st, st0, st1, sid, ast, n, e, v, h1, h2, h3, h4⟩

/-- `(gdef y (+ 1 2))` in the scope of a call of the function `f` -/
example : ∃ (st st0 st1 : St) (sid : Nat) (ast n e : Ptr) (v : Variant), Reachable st ∧ sid ≠ (st.scopes sid).global ∧
    IsSpecial st sid ast .gdef [n, e] st0 ∧ Holds n (IsName · c!"y") ∧ Evals e sid st0 (.ok (some v) st1) := by
  obtain ⟨st, _, ast, h1, _, h⟩ := demo_of (setup := [c!"(defn f (a) (+ a 1))", c!"(f 1)"]) (code := c!"(gdef y (+ a 2))") (P := fun st _ ast =>
    match (List.range st.next).find? fun s => (binding st s c!"a").isSome with
    | some s => decide (s ≠ (st.scopes s).global) && (assignB .gdef c!"y" st s ast).isSome
    | none => false) (by decide +kernel)
  split at h
  · rename_i s _
    simp only [Bool.and_eq_true, decide_eq_true_eq] at h
    obtain ⟨⟨n, e, st0, v, st1⟩, hb⟩ := Option.isSome_iff_exists.mp h.2
    obtain ⟨h2, h3, h4⟩ := assignB_ok hb
    exact ⟨st, st0, st1, s, ast, n, e, v, h1, h.1, h2, h3, h4⟩
  · cases h

/-- The name `x` assigned in the function `g` is a variable of the function `f` that encloses `g`. -/
example : ∃ (st st0 st1 : St) (sid t : Nat) (ast n e : Ptr) (v : Variant), Acyclic st ∧ Acyclic st1 ∧
    IsSpecial st sid ast .setf [n, e] st0 ∧ Holds n (IsName · c!"x") ∧ Evals e sid st0 (.ok (some v) st1) ∧
    Target st1 sid c!"x" t ∧ t ≠ sid ∧ t ≠ (st1.scopes sid).global ∧ binding st1 (st1.scopes sid).global c!"x" = none := by
  obtain ⟨st, _, ast, h1, _, h⟩ := demo_of (setup := [c!"(defn f (x) (fn (b) (+ x b)))", c!"(def g (f 5))", c!"(g 3)"])
    (code := c!"(setf x (+ b 2))") (P := fun st _ ast =>
    match (List.range st.next).find? fun s => (binding st s c!"b").isSome with
    | some s => match assignB .setf c!"x" st s ast with
      | some (_, _, _, _, st1) => match (st1.scopes s).closure with
        | some t => decide (s < st.next ∧ binding st1 s c!"x" = none ∧ (binding st1 t c!"x").isSome = true ∧ t ≠ s ∧ t ≠ (st1.scopes s).global ∧
            binding st1 (st1.scopes s).global c!"x" = none)
        | none => false
      | none => false
    | none => false) (by decide +kernel)
  split at h
  · rename_i s _
    split at h
    · rename_i n e st0 v st1 hb
      split at h
      · rename_i t ht
        obtain ⟨h2, h3, h4⟩ := assignB_ok hb
        obtain ⟨hs, g1, g2, g3, g4, g5⟩ := of_decide_eq_true h
        obtain ⟨p, g2⟩ := Option.isSome_iff_exists.mp g2
        have hl : Acyclic st1 := by
          obtain ⟨w, ⟨⟨i, f, rfl, hl, _, rfl⟩, _, _⟩, _⟩ := h2
          obtain ⟨_, k, he⟩ := h4
          have hn : (atToken st s (tokenOf f)).next = st.next := by cases tokenOf f <;> rfl
          have hL : Links (atToken st s (tokenOf f)) := by
            have sn := sameNames_atToken st s (tokenOf f)
            have cl : (atToken st s (tokenOf f)).clos = st.clos := by cases tokenOf f <;> rfl
            have l := h1.links
            exact ⟨by rw [cl, hn]; exact l.clos, sn.acyclic l.old, fun i hi => by rw [sn.closure]; exact l.fresh i (by omega),
              fun i p h => by rw [hn]; exact l.callers i p (by rw [← h]; cases tokenOf f <;> simp [atToken, fset] <;> split <;> simp [*])⟩
          exact ((Pres2.ok (sid := s) he).links (by omega) hL).old
        obtain ⟨l, hl1, _⟩ := enclosing_of_acyclic hl t
        exact ⟨st, st0, st1, s, t, ast, n, e, v, h1.links.old, hl, h2, h3, h4,
          .enclosing (a := []) g1 (.cons ht hl1) rfl (by simp) g2, g3, g4, g5⟩
      · cases h
    · cases h
  · cases h

/-- `(setf y (+ 1 2))` without a variable `y` -/
example : ∃ (st st0 st1 : St) (sid : Nat) (ast n e : Ptr) (v : Variant), Reachable st ∧
    IsSpecial st sid ast .setf [n, e] st0 ∧ Holds n (IsName · c!"y") ∧ Evals e sid st0 (.ok (some v) st1) ∧ Unbound st1 sid c!"y" := by
  obtain ⟨st, sid, ast, h1, _, h⟩ := demo_of (setup := []) (code := c!"(setf y (+ 1 2))") (P := fun st s ast =>
    match assignB .setf c!"y" st s ast with
    | some (_, _, _, _, st1) => decide ((st1.scopes s).closure = none ∧ binding st1 s c!"y" = none ∧ (st1.scopes s).global = s)
    | none => false) (by decide +kernel)
  split at h
  · rename_i n e st0 v st1 hb
    obtain ⟨h2, h3, h4⟩ := assignB_ok hb
    obtain ⟨g1, g2, g3⟩ := of_decide_eq_true h
    exact ⟨st, st0, st1, sid, ast, n, e, v, h1, h2, h3, h4, g2, ⟨[], .nil g1, by simp⟩, by rw [g3]; exact g2⟩
  · cases h

end

/-- C29: if a name is bound in an enclosing function and globally, an assignment in the inner function changes the variable of the enclosing
function, but the inner function goes on to see the global variable. -/
theorem C29_shadowed_wrong :
    demoScripts [c!"(def x 1) (defn f () (do (def x 2) (def g (fn () (do (setf x 3) (println x)))) (g) (println x))) (f)"] = c!"1\n3\n" := by
  decide +kernel

end Fuel
