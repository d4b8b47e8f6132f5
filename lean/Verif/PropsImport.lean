import Verif.SpecImport
import Verif.PropsTrace
import Verif.PropsConv
import Verif.PropsValid
/-!
# Properties of `import`, `eval`, `evalstr` and `rval` (C62, C64, C69)
-/

set_option linter.unusedSectionVars false
set_option linter.unusedSimpArgs false
set_option linter.unusedVariables false

namespace Fuel

open Spec

section
variable [World]

/-! ## C62 -/

/-- C62: `(eval x)` for a list `x` (or NIL, the empty list): the list is evaluated as code in the current scope. -/
theorem C62_list {w : FnW} (hw : w.kind = .prim .eval) {p : Ptr} {l : List Ptr} {s : Nat} {st : St} (hp : Holds p (IsListOrNil st · l)) {o : Out (Option Variant)} :
    Calls w [p] s st o ↔ Evals (.mk st.next .list) s (withList st l) o := by
  obtain ⟨i, v, rfl, hv⟩ := hp
  rw [calls_prim hw]
  refine lim_iff (monoSeq_prim _ _ s st) (monoSeq_eval _ s _) 0 0 fun k hk => ?_
  simp [callPrim, bEval, checkArgs, argV, arg, toVariant_var, M.rd_apply, isList_of hv, listValue_list hv, allocList, withList, M.bind_apply]

/-- C62: `(eval x)` for another value `x`: the value is evaluated in the current scope. -/
theorem C62_value {w : FnW} (hw : w.kind = .prim .eval) {i : Nat} {v : Variant} {s : Nat} {st : St} (hv : v.type ≠ .list) (hn : v.type ≠ .nil) {o : Out (Option Variant)} :
    Calls w [.mk i (.var v)] s st o ↔ Evals (.mk st.next (.var v)) s { st with next := st.next + 1 } o := by
  rw [calls_prim hw]
  refine lim_iff (monoSeq_prim _ _ s st) (monoSeq_eval _ s _) 0 0 fun k hk => ?_
  simp [callPrim, bEval, checkArgs, argV, arg, toVariant_var, M.rd_apply, Variant.isList, hv, hn, box, allocObj, M.bind_apply]

/-- C62: `(eval x)` is `x` if `x` is neither a list nor a symbol. -/
theorem C62_constant {w : FnW} (hw : w.kind = .prim .eval) {i : Nat} {v : Variant} {s : Nat} {st : St} (hv : v.type ≠ .list) (hn : v.type ≠ .nil) (hs : v.type ≠ .symbol) :
    Calls w [.mk i (.var v)] s st (.ok (some v) { st with next := st.next + 1 }) := by
  rw [C62_value hw hv hn]
  refine ⟨ends_ok _ _, 1, ?_⟩
  rw [run_eval 0]
  simp [evalStep, hv, hs]

/-- C62: `(eval x)` for a symbol `x` is the value of the variable with this name. -/
theorem C62_symbol {w : FnW} (hw : w.kind = .prim .eval) {st : St} (ha : Acyclic st) {s i : Nat} {v : Variant} {name : Str} {p : Ptr} (hv : IsSym v name)
    (hl : Lookup st s name (some p)) (hp : IsElem p) :
    ∃ u st', Calls w [.mk i (.var v)] s st (.ok (some u) st') ∧ Denotes p u ∧ Extends st st' := by
  obtain ⟨u, st', h1, h2, h3⟩ := C27_lookup (st := { st with next := st.next + 1 }) (s := s) (i := st.next) (name := name) (p := p) ha hv
    (SameNames.lookup (st := st) (st' := { st with next := st.next + 1 }) ⟨fun _ => rfl, fun _ => rfl, fun _ => rfl⟩ hl) hp
  exact ⟨u, st', (C62_value hw (by rw [hv.1]; simp) (by rw [hv.1]; simp)).2 h1, h2, (extends_next _ _ (Nat.le_succ _)).trans h3⟩

/-- C62: `(evalstr text)` runs the text as a script in the current scope; afterwards the scope has its module name again. -/
theorem C62_evalstr {w : FnW} (hw : w.kind = .prim .evalstr) {p : Ptr} {text : Str} {s : Nat} {st : St} (hp : Holds p (IsStr · text)) {o : Out (Option Variant)} :
    Calls w [p] s st o ↔ ∃ o', RunsIn text (evalStrModule st s text) s (inEvalStr st s) o' ∧
      o = thenSet s (fun sc => { sc with isInEval := false, module := (st.scopes s).module }) o' := by
  obtain ⟨i, v, rfl, hv⟩ := hp
  obtain ⟨ht, j, hv⟩ := hv
  rw [calls_prim hw]
  have e : ∀ k, 1 ≤ k → callPrim (run k) .evalstr [.mk i (.var v)] s st = thenSet s (fun sc => { sc with isInEval := false, module := (st.scopes s).module })
      (lispEval (run k) text s (evalStrModule st s text) false false (inEvalStr st s)) := by
    intro k hk
    obtain ⟨k, rfl⟩ : ∃ m, k = m + 1 := ⟨k - 1, by omega⟩
    have hs : ∀ st, ptrStr st (run (k + 1)).n v.value = .ok text := fun st => by rw [run_n, hv]; rfl
    simp only [callPrim, bEvalStr, checkArgs, argV, arg, List.length_singleton, M.bind_apply, M.pure_apply, ne_eq, not_true, if_false, if_true, M.lift_apply, toVariant_var,
      M.get, M.rd_apply, hs, modScope, M.modify, List.getElem?_cons_zero]
    unfold inEvalStr evalStrModule
    generalize lispEval _ _ _ _ _ _ _ = x
    cases x <;> rfl
  have he : ∀ {f o'}, Ends (thenSet s f o') ↔ Ends o' := by
    intro f o'; cases o' with
    | ok => exact ⟨fun _ => ends_ok _ _, fun _ => ends_ok _ _⟩
    | fail => exact Iff.rfl
  constructor
  · intro h
    obtain ⟨K, hK⟩ := h.stable (monoSeq_prim _ _ s st)
    have := hK (K + 1) (by omega)
    rw [e _ (by omega)] at this
    exact ⟨_, ⟨he.1 (this ▸ h.1), K + 1, rfl⟩, this.symm⟩
  · rintro ⟨o', h, rfl⟩
    obtain ⟨K, hK⟩ := Lim.stable (F := fun k => lispEval (run k) text s (evalStrModule st s text) false false (inEvalStr st s)) (monoSeq_lispEval _ _ _ _ _ _) h
    exact ⟨he.2 h.1, K + 1, by show callPrim _ _ _ _ _ = _; rw [e _ (by omega), hK _ (by omega)]⟩

/-- C62: `(apply f l)` calls the function with the elements of the list as arguments. -/
theorem C62_apply {w f : FnW} (hw : w.kind = .prim .apply) {p q : Ptr} {l : List Ptr} {s : Nat} {st : St} (hp : Holds p (IsFn · f))
    (hq : Holds q (IsListOrNil st · l)) {o : Out (Option Variant)} : Calls w [p, q] s st o ↔ Calls f l s st o := by
  obtain ⟨i, v, rfl, hv⟩ := hp
  obtain ⟨j, u, rfl, hu⟩ := hq
  rw [calls_prim hw]
  refine lim_iff (monoSeq_prim _ _ s st) (monoSeq_call f l s st) 1 0 fun k hk => ?_
  obtain ⟨k, rfl⟩ : ∃ m, k = m + 1 := ⟨k - 1, by omega⟩
  obtain ⟨hv1, j, hv2⟩ := hv
  have e : (run (k + 1)).eval (.mk i (.var v)) s st = .ok (some v) st := by
    rw [run_eval k]
    simp [evalStep, hv1]
  simp [callPrim, bApply, checkArgs, argV, arg, toVariant_var, M.rd_apply, isList_of hu, listValue_list hu, e, M.bind_apply, derefV, Variant.functionValue, hv1, hv2]

/-! ## C64 -/

theorem lookup_mem {α : Type} {k : Str} {x : α} {l : List (Str × α)} (h : l.lookup k = some x) : (k, x) ∈ l := by
  induction l with
  | nil => cases h
  | cons e t ih =>
    obtain ⟨a, b⟩ := e
    by_cases hk : k = a
    · subst hk; simp at h; simp [h]
    · rw [List.lookup_cons, show (k == a) = false by simpa using hk] at h
      exact List.mem_cons_of_mem _ (ih h)

theorem endsWith_iff (s t : Str) : endsWith s t = true ↔ t <:+ s := by
  unfold endsWith
  split
  · rename_i h
    constructor
    · intro h; cases h
    · intro h'; have := h'.length_le; omega
  · rename_i h
    simp only [beq_iff_eq]
    rw [← List.reverse_prefix, List.prefix_iff_eq_take, List.length_reverse]

theorem addExtension_eq (name : Str) : addExtension name = withExtension name := by
  unfold addExtension withExtension
  by_cases h : c!".fuel" <:+ name
  · rw [if_pos h, if_pos ((endsWith_iff _ _).2 h)]
  · rw [if_neg h, if_neg fun h' => h ((endsWith_iff _ _).1 h')]

theorem slashes_of_replaced {name o : Str} (h : Replaced ['\\'] ['/'] name o) : o = slashes name := by
  induction h with
  | done => rfl
  | hit _ ih => rw [ih]; simp [slashes]
  | @skip c t o hp _ ih =>
    have : c ≠ '\\' := fun h => hp (by subst h; exact ⟨t, rfl⟩)
    rw [ih]; simp [slashes, this]

theorem replace_slashes (name : Str) : replaceAll name c!"\\" c!"/" = .ok (slashes name) := by
  obtain ⟨o, h1, h2⟩ := replaceAll_spec name c!"\\" c!"/" (by decide) (by decide) (by decide)
  rw [h1, slashes_of_replaced h2]

theorem findModule_spec (st : St) (name : Str) :
    (∃ text, mapFind (findModule st.files st.libPath name) st.files = some text ∧
      FirstFile st (moduleFiles st.libPath name) (findModule st.files st.libPath name) text) ∨
    (mapFind (findModule st.files st.libPath name) st.files = none ∧
      NoFile st (moduleFiles st.libPath name) (findModule st.files st.libPath name)) := by
  simp only [findModule, addExtension_eq, moduleFiles, mapFind_eq_lookup, FirstFile, NoFile]
  generalize withExtension (st.libPath ++ c!"/" ++ name) = f1
  generalize withExtension (c!"./Library/" ++ name) = f2
  generalize withExtension (c!"./lib/fuel/" ++ name) = f3
  cases h0 : st.files.lookup name with
  | some t => exact .inl ⟨t, by simp [h0], [], _, by simp; rfl, by simp, h0⟩
  | none =>
    cases h1 : st.files.lookup f1 with
    | some t => exact .inl ⟨t, by simp [h1], [name], [f2, f3] ++ World.fuelPath.toList.map fun path => withExtension (path ++ c!"/" ++ name), by simp, by simp [h0, -List.lookup_eq_none_iff], by simp [h1]⟩
    | none =>
      cases h2 : st.files.lookup f2 with
      | some t => exact .inl ⟨t, by simp [h2], [name, f1], [f3] ++ World.fuelPath.toList.map fun path => withExtension (path ++ c!"/" ++ name), by simp, by simp [h0, h1, -List.lookup_eq_none_iff], by simp [h2]⟩
      | none =>
        cases h3 : st.files.lookup f3 with
        | some t => exact .inl ⟨t, by simp [h3], [name, f1, f2], World.fuelPath.toList.map fun path => withExtension (path ++ c!"/" ++ name), by simp, by simp [h0, h1, h2, -List.lookup_eq_none_iff], by simp [h3]⟩
        | none =>
          cases World.fuelPath with
          | none => exact .inr ⟨by simp [h3], by simp [h0, h1, h2, h3, -List.lookup_eq_none_iff], by simp⟩
          | some path =>
            cases h4 : st.files.lookup (withExtension (path ++ c!"/" ++ name)) with
            | some t => exact .inl ⟨t, by simpa using h4, [name, f1, f2, f3], [], by simp, by simp [h0, h1, h2, h3, -List.lookup_eq_none_iff], by simpa using h4⟩
            | none => exact .inr ⟨by simpa using h4, by simpa [h0, h1, h2, h3, -List.lookup_eq_none_iff] using h4, by simp⟩

/-- The first part of `importOne`. -/
def openModule (sid : Nat) (file : Str) : M ScopeId := do
  let g ← M.get fun s => (s.scopes sid).global
  let sc ← M.get fun s => mkScope s (c!"import " ++ file) g file
  let imp ← allocScope sc
  pushNext sid imp
  pure (ScopeId.mk imp)

theorem openModule_safe {w : Lay} {sid : Nat} {file : Str} [Is w sid .scope] : Safe w (openModule sid file) := by
  unfold openModule
  safe

theorem openModule_eq {st : St} {s : Nat} {file : Str} (hs : s < st.next) : openModule s file st = .ok ⟨st.next⟩ (importing st s file) := by
  have hne : s ≠ st.next := by omega
  have e : fset (fset st.scopes st.next (mkScope st (c!"import " ++ file) (st.scopes s).global file)) s
      { fset st.scopes st.next (mkScope st (c!"import " ++ file) (st.scopes s).global file) s with next := some st.next } =
      fset (fset st.scopes s { st.scopes s with next := some st.next }) st.next (mkScope st (c!"import " ++ file) (st.scopes s).global file) := by
    funext j
    by_cases h : j = s
    · subst h; simp [fset, hne]
    · by_cases h' : j = st.next
      · subst h'; simp [fset, hne, h]
      · simp [fset, h, h']
  simp only [openModule, M.bind_apply, M.get, allocScope, pushNext, modScope, M.modify, M.pure_apply]
  rw [e]
  simp only [importing, fset_self]
  congr 2
  funext j
  by_cases h' : j = st.next
  · subst h'; simp only [fset_self]; simp [mkScope]
  · simp only [fset_ne _ _ h']

theorem importing_ok {L : Layout} {st : St} (h : StateOk L st) {s : Nat} (hs : L s = some .scope) (file : Str) :
    ∃ L', StateOk L' (importing st s file) ∧ L' st.next = some .scope ∧ L' s = some .scope := by
  have hlt : s < st.next := Nat.lt_of_not_le fun hn => by rw [h.fresh s hn] at hs; cases hs
  have : Is (Lay.all L h.objs st) s .scope := ⟨hs⟩
  have := (openModule_safe (w := Lay.all L h.objs st) (sid := s) (file := file)).ok st (.of_state h)
  rw [openModule_eq hlt] at this
  obtain ⟨w', a, b, c⟩ := this
  exact ⟨w'.k, b.state, c.ok, a.grows _ _ hs⟩

/-- The state after `importOne`. -/
def closeModule (st1 : St) (s imp m : Nat) (file : Str) : St :=
  let a := fset st1.scopes st1.next (st1.scopes imp)
  let b := fset a m { a m with vars := mapSet file (.mk (st1.next + 1) (.scope st1.next)) (a m).vars }
  let c := fset b imp { b imp with prev := none }
  { st1 with next := st1.next + 2, scopes := fset c s { c s with next := none } }

theorem closeModule_entered {st1 : St} {s imp m : Nat} {file : Str} (hs : s < st1.next) (hi : imp < st1.next) (hm : m < st1.next) (hne : s ≠ imp) :
    ModuleEntered st1 (closeModule st1 s imp m file) s imp m file := by
  have a1 : st1.next ≠ s := by omega
  have a2 : st1.next ≠ imp := by omega
  have a3 : st1.next ≠ m := by omega
  refine ⟨⟨st1.next + 1, st1.next, Nat.le_refl _, ?_, ?_⟩, ?_, ?_, ?_, ?_, ?_, ?_, rfl⟩
  · simp only [binding, closeModule, fset]
    by_cases h1 : m = s
    · subst h1; simp [hne, a3, a3.symm, lookup_mapSet]
    · by_cases h2 : m = imp
      · subst h2; simp [h1, a3, a3.symm, lookup_mapSet]
      · simp [h1, h2, a3, a3.symm, lookup_mapSet]
  · simp [closeModule, fset, a1, a2, a3]
  · intro n hn
    simp only [binding, closeModule, fset]
    by_cases h1 : m = s
    · subst h1; simp [hne, a3, a3.symm, lookup_mapSet, hn]
    · by_cases h2 : m = imp
      · subst h2; simp [h1, a3, a3.symm, lookup_mapSet, hn]
      · simp [h1, h2, a3, a3.symm, lookup_mapSet, hn]
  · intro i hi' h1 h2 h3
    simp [closeModule, fset, h1, h2, h3, (show i ≠ st1.next by omega)]
  · intro n
    constructor
    · intro h; simp [binding, closeModule, fset, hne, h, a1.symm]
    · intro h; simp [binding, closeModule, fset, hne.symm, h, a2.symm]
  · intro i hi'
    have : i ≠ st1.next := by omega
    simp only [closeModule, fset]
    by_cases h1 : i = s <;> by_cases h2 : i = imp <;> by_cases h3 : i = m <;> simp [h1, h2, h3] <;> (try subst h1) <;> (try subst h2) <;> (try subst h3) <;> simp_all
  · constructor
    · simp [closeModule, fset]
    · intro _; simp [closeModule, fset, hne.symm]
  · simp [closeModule]

theorem importOne_eq {st : St} {s : Nat} (hs : s < st.next) (r : Rec) (file code : Str) :
    importOne r s file code st =
      (importBody r (st.scopes s).global file code st.next >>= fun v => popNext s >>= fun _ => pure v) (importing st s file) := by
  have h := openModule_eq (file := file) hs
  simp only [openModule, M.bind_apply, M.get, allocScope, M.pure_apply] at h
  unfold importOne
  simp only [M.bind_apply, M.get, allocScope, M.pure_apply]
  generalize pushNext s st.next _ = x at h ⊢
  cases x with
  | fail => cases h
  | ok a s' => simp only at h ⊢; cases h; rfl

theorem importOne_cases {L : Layout} {st : St} (h : StateOk L st) {s : Nat} (hs : L s = some .scope) {k : Nat} {file text : Str} {o : Out (Option Variant)}
    (ho : Ends o) (e : importOne (run k) s file text st = o) :
    (∃ f st1, o = .fail f st1 ∧ RunsIn text file st.next (importing st s file) (.fail f st1)) ∨
    (∃ v st1, RunsIn text file st.next (importing st s file) (.ok v st1) ∧
      ((∃ m st2, ModuleTable st1 s m ∧ ModuleEntered st1 st2 s st.next m file ∧ o = .ok v st2) ∨
       (∀ m, ¬ ModuleTable st1 s m) ∧ o = .fail (.ub .nullDeref) st1)) := by
  have hlt : s < st.next := Nat.lt_of_not_le fun hn => by rw [h.fresh s hn] at hs; cases hs
  obtain ⟨L1, h1, h2, h3⟩ := importing_ok h hs file
  rw [importOne_eq hlt] at e
  have hne : s ≠ st.next := by omega
  have hk := C34_script h1 h2 k text file false false
  have hp : Pres2 st.next (lispEval (run k) text st.next file false false) := inferInstance
  simp only [importBody, M.bind_apply] at e
  cases hl : lispEval (run k) text st.next file false false (importing st s file) with
  | fail f st1 =>
    rw [hl] at e
    simp only at e
    exact .inl ⟨f, st1, e.symm, by rw [← e] at ho; intro st' e'; cases e'; exact ho _ rfl, k, hl⟩
  | ok v st1 =>
    rw [hl] at e hk
    refine .inr ⟨v, st1, ⟨ends_ok _ _, k, hl⟩, ?_⟩
    have hstep := (hp.ok hl).toStep
    have hn : st.next < (importing st s file).next := by simp [importing]
    have hn' : s < (importing st s file).next := by simp [importing]; omega
    have hsc : (importing st s file).scopes s = { st.scopes s with next := some st.next } := by simp [importing, fset, hne]
    have hg : (st1.scopes s).global = (st.scopes s).global := by rw [hstep.glob hn s hn', hsc]
    have hnx : (st1.scopes s).next = some st.next := by
      have := hstep.other hn s hn' hne
      unfold SameButVars at this
      have := congrArg Scope.next this
      simp only [hsc] at this
      simpa using this.symm
    have hlt1 : s < st1.next := Nat.lt_of_lt_of_le hn' hstep.next
    have hlt2 : st.next < st1.next := Nat.lt_of_lt_of_le hn hstep.next
    obtain ⟨L2, hg2, hok, _⟩ := hk
    have hok : StateOk L2 st1 := hok
    simp only [M.get] at e
    by_cases ht : ∃ m, ModuleTable st1 s m
    · obtain ⟨m, j, hj⟩ := ht
      have hj' : mapFind modulesKey (st1.scopes (st.scopes s).global).vars = some (.mk j (.scope m)) := by
        rw [← hg, mapFind_eq_lookup]; exact hj
      rw [hj'] at e
      have hm : m < st1.next := by
        have hsL : L2 s = some .scope := hg2 _ _ h3
        have hgL := (hok.scopes s hsL).global
        have hmem : (modulesKey, Ptr.mk j (.scope m)) ∈ (st1.scopes (st1.scopes s).global).vars := by
          have := hj
          unfold binding at this
          exact lookup_mem this
        have := (hok.scopes _ hgL).vars _ hmem
        have : L2 m = some .scope := hok.objs _ _ this
        exact Nat.lt_of_not_le fun hn => by rw [show L2 m = none from hok.fresh m hn] at this; cases this
      refine .inl ⟨m, closeModule st1 s st.next m file, ⟨j, hj⟩, closeModule_entered hlt1 hlt2 hm hne, ?_⟩
      have a1 : s ≠ st1.next := by omega
      have hnx' : (fset (fset st1.scopes st1.next (st1.scopes st.next)) m
          { fset st1.scopes st1.next (st1.scopes st.next) m with vars := mapSet file (.mk (st1.next + 1) (.scope st1.next)) (fset st1.scopes st1.next (st1.scopes st.next) m).vars } s).next = some st.next := by
        by_cases h : s = m
        · subst h; simp [fset, a1, hnx]
        · simp [fset, h, a1, hnx]
      simp only [M.bind_apply, M.get, allocScope, allocObj, setVar, modScope, M.modify, M.pure_apply, popNext, hnx'] at e
      rw [← e]; rfl
    · refine .inr ⟨fun m hm => ht ⟨m, hm⟩, ?_⟩
      have : ∀ p, mapFind modulesKey (st1.scopes (st.scopes s).global).vars = some p → ∀ j m, p ≠ .mk j (.scope m) := by
        rintro p hp j m rfl
        exact ht ⟨m, j, by rw [← hp, hg.symm, mapFind_eq_lookup]; rfl⟩
      generalize mapFind modulesKey (st1.scopes (st.scopes s).global).vars = q at e this
      rw [← e]
      cases q with
      | none => rfl
      | some p =>
        cases p with
        | null => rfl
        | mk j ob =>
          cases ob with
          | scope m => exact absurd rfl (this _ rfl j m)
          | _ => rfl

theorem import_warning {org file : Str} (h1 : Insertable org) (h2 : Insertable file) :
    format c!"WARNING: Library {0} not found! Tried path {1}" org file = .ok (c!"WARNING: Library " ++ org ++ c!" not found! Tried path " ++ file) := by
  have hf := format_pieces (args := [org, file]) (ps := [.lit c!"WARNING: Library ", .hole 0, .lit c!" not found! Tried path ", .hole 1]) (by simp [BraceFree])
    (by intro a ha; rcases List.mem_cons.1 ha with rfl | ha; exact h1; rcases List.mem_singleton.1 ha with rfl; exact h2) (by simp [holes]) (by simp [holes])
  simpa [argOr, sources, Piece.source, fill, nullString] using hf

theorem importLoop_spec {s : Nat} {k : Nat} : ∀ {args : List Ptr} {names : List Str} {L : Layout} {st : St} {v : Option Variant} {o : Out (Option Variant)},
    StateOk L st → L s = some .scope → All2 (fun p n => Holds p (IsStr · n)) args names → Ends o → importLoop (run (k + 1)) s v args st = o →
    Imports s v names st o := by
  intro args
  induction args with
  | nil =>
    intro names L st v o h hs ha ho e
    cases ha
    rw [← e]; exact .done
  | cons p args ih =>
    intro names L st v o h hs ha ho e
    cases ha with
    | @cons _ n _ names hp ha =>
    obtain ⟨i, u, rfl, hu⟩ := hp
    simp only [importLoop, M.bind_apply, M.lift_apply, toVariant_var, M.rd_apply, run_n, stringValue_str hu, replace_slashes, M.get] at e
    rcases findModule_spec st (slashes n) with ⟨text, h1, h2⟩ | ⟨h1, h2⟩
    · rw [h1] at e
      simp only [M.pure_apply] at e
      cases text with
      | nil => exact .empty h2 (ih h hs ha ho e)
      | cons c text =>
        have e : (importOne (run (k + 1)) s (findModule st.files st.libPath (slashes n)) (c :: text) >>= fun res' => importLoop (run (k + 1)) s res' args) st = o := e
        rw [M.bind_apply] at e
        have hsafe : Keeps L (importOne (run (k + 1)) s (findModule st.files st.libPath (slashes n)) (c :: text) st) :=
          keeps_of_safe h fun w e => by
            subst e
            have : Is w s .scope := ⟨hs⟩
            infer_instance
        cases hone : importOne (run (k + 1)) s (findModule st.files st.libPath (slashes n)) (c :: text) st with
        | fail f st1 =>
          rw [hone] at e
          simp only at e
          rcases importOne_cases h hs (by rw [← e] at ho; exact ho) hone with ⟨f', st1', e', hr⟩ | ⟨v', st1', hr, ⟨m, st2, _, _, e'⟩ | ⟨hm, e'⟩⟩
          · cases e'; rw [← e]; exact .failed h2 (by simp) hr
          · cases e'
          · cases e'; rw [← e]; exact .noTable h2 (by simp) hr hm
        | ok v' st2 =>
          rw [hone] at e hsafe
          simp only at e
          rcases importOne_cases h hs (ends_ok _ _) hone with ⟨f', st1', e', hr⟩ | ⟨v'', st1', hr, ⟨m, st2', hm, he, e'⟩ | ⟨hm, e'⟩⟩
          · cases e'
          · cases e'
            obtain ⟨L', g, hok, _⟩ := hsafe
            exact .found h2 (by simp) hr hm he (ih hok (g _ _ hs) ha ho e)
          · cases e'
    · rw [h1] at e
      simp only [M.bind_apply, M.lift_apply] at e
      by_cases hi : Insertable (slashes n) ∧ Insertable (findModule st.files st.libPath (slashes n))
      · rw [import_warning hi.1 hi.2] at e
        refine .missing h2 (fun _ _ => rfl) (ih (L := L) ?_ hs ha ho ?_)
        · exact ⟨h.fresh, h.blank, h.objs, h.lists, h.dicts, h.clos, h.scopes⟩
        · rw [← e]
          simp [writeLine, write, M.modify, withLine]
      · cases hf : format c!"WARNING: Library {0} not found! Tried path {1}" (slashes n) (findModule st.files st.libPath (slashes n)) with
        | error f =>
          rw [hf] at e
          simp only at e
          rw [← e]; exact .unformattable h2 hi
        | ok w =>
          rw [hf] at e
          refine .missing (w := w) h2 (fun a b => absurd ⟨a, b⟩ hi) (ih (L := L) ?_ hs ha ho ?_)
          · exact ⟨h.fresh, h.blank, h.objs, h.lists, h.dicts, h.clos, h.scopes⟩
          · rw [← e]
            simp [writeLine, write, M.modify, withLine]

/-- C64: `(import name ...)` searches the modules in the documented places, evaluates each of them once in a scope of its own and enters the module
into the table of modules; what cannot be found is reported and skipped. -/
theorem C64_import {w : FnW} (hw : w.kind = .prim .import_) {L : Layout} {st : St} (h : StateOk L st) {s : Nat} (hs : L s = some .scope)
    {args : List Ptr} {names : List Str} (ha : All2 (fun p n => Holds p (IsStr · n)) args names) {o : Out (Option Variant)} (hc : Calls w args s st o) :
    Imports s (some undefinedV) names st o := by
  rw [calls_prim hw] at hc
  obtain ⟨K, hK⟩ := hc.stable (monoSeq_prim _ _ s st)
  exact importLoop_spec (k := K) h hs ha hc.1 (hK (K + 1) (by omega))

/-- In every interpreter of an application: the import of two modules. -/
example {st : St} {l : List Nat} (h : Session st l) {s : Nat} (hs : s ∈ l) {w : FnW} (hw : w.kind = .prim .import_) {o : Out (Option Variant)}
    (hc : Calls w [.mk 0 (.var ⟨.string, .mk 1 (.str c!"a"), .none, none⟩), .mk 2 (.var ⟨.string, .mk 3 (.str c!"b"), .none, none⟩)] s st o) :
    Imports s (some undefinedV) [c!"a", c!"b"] st o := by
  obtain ⟨L, h1, h2⟩ := C34_session h
  exact C64_import hw h1 (h2 _ hs) (.cons ⟨_, _, rfl, rfl, _, rfl⟩ (.cons ⟨_, _, rfl, rfl, _, rfl⟩ .nil)) hc

theorem scopes_mem {vars : List (Str × Ptr)} {l : List Nat} (h : Scopes vars l) {name : Str} {i c : Nat} (hc : (name, Ptr.mk i (.scope c)) ∈ vars) : c ∈ l := by
  induction h with
  | nil => cases hc
  | cons _ ih =>
    rcases List.mem_cons.1 hc with e | hc
    · cases e; simp
    · exact List.mem_cons_of_mem _ (ih hc)

/-- C64: after the import the variables and functions of the module are known by their names in every scope of the interpreter, unless
the name means something else there or in another module. -/
theorem C64_names {st st' : St} {s t imp m : Nat} {file name : Str} {p : Ptr} (h : ModuleEntered st st' s imp m file) (ht : ModuleTable st' t m)
    (hg : (st'.scopes (st'.scopes t).global).global = (st'.scopes t).global) {e l : List Nat}
    (h1 : binding st' t name = none) (h2 : binding st' (st'.scopes t).global name = none) (h3 : Enclosing st' t e) (h4 : firstOf st' name e = none)
    (h5 : Modules st' t l) (h6 : ∀ c ∈ l, st'.scopes c = st.scopes imp ∨ binding st' c name = none) (hp : binding st imp name = some p) :
    Lookup st' t name (some p) := by
  obtain ⟨i, c, _, hc, hs⟩ := h.entry
  obtain ⟨j, m', hm', hsc⟩ := h5
  obtain ⟨j', hm⟩ := ht
  rw [hg] at hm'
  rw [hm] at hm'
  cases hm'
  have hmem : c ∈ l := scopes_mem hsc (lookup_mem hc)
  refine .modules h1 h2 h3 h4 ⟨j, m, by rw [hg]; exact hm, hsc⟩ ?_
  have hb : ∀ c ∈ l, binding st' c name = some p ∨ binding st' c name = none := fun c hc => by
    rcases h6 c hc with h | h
    · left; unfold binding; rw [h]; exact hp
    · exact .inr h
  have hcp : binding st' c name = some p := by unfold binding; rw [hs]; exact hp
  clear hsc h6
  unfold firstOf
  induction l with
  | nil => cases hmem
  | cons x l ih =>
    rcases hb x (by simp) with hx | hx
    · simp [List.findSome?, hx]
    · have : c ∈ l := by
        rcases List.mem_cons.1 hmem with rfl | hm
        · rw [hcp] at hx; cases hx
        · exact hm
      simp only [List.findSome?, hx]
      exact ih this fun c hc => hb c (by simp [hc])

end

/-! ## C69 -/

section
variable [World]


/-- C69: `(rval code)` evaluates the code with places switched off for the time of the evaluation. -/
theorem C69_rval {w : FnW} (hw : w.kind = .prim .rval) {i s : Nat} {st : St} {o : Out (Option Variant)} :
    Calls w [.mk i .list] s st o ↔ ∃ o', Evals (.mk i .list) s (noPlaces st s) o' ∧
      o = thenSet s (fun sc => { sc with needsLValue := (st.scopes s).needsLValue }) o' := by
  rw [calls_prim hw]
  have e : ∀ k, callPrim (run k) .rval [.mk i .list] s st = thenSet s (fun sc => { sc with needsLValue := (st.scopes s).needsLValue })
      ((run k).eval (.mk i .list) s (noPlaces st s)) := by
    intro k
    simp only [callPrim, bRval, checkArgs, argV, arg, List.length_singleton, M.bind_apply, M.pure_apply, ne_eq, not_true, if_false, if_true, M.lift_apply, toVariant_var,
      M.get, M.rd_apply, modScope, M.modify, List.getElem?_cons_zero, evalArgIfNeeded]
    unfold noPlaces
    generalize (run k).eval _ _ _ = x
    cases x <;> rfl
  have he : ∀ {f o'}, Ends (thenSet s f o') ↔ Ends o' := by
    intro f o'; cases o' with
    | ok => exact ⟨fun _ => ends_ok _ _, fun _ => ends_ok _ _⟩
    | fail => exact Iff.rfl
  constructor
  · rintro ⟨h, K, hK⟩
    have hK : callPrim (run K) .rval [.mk i .list] s st = o := hK
    rw [e] at hK
    exact ⟨_, ⟨he.1 (hK ▸ h), K, rfl⟩, hK.symm⟩
  · rintro ⟨o', ⟨h, K, hK⟩, rfl⟩
    exact ⟨he.2 h, K, by show callPrim _ _ _ _ _ = _; rw [e, hK]⟩

/-- C69: `(rval x)` for anything but code is `x`. -/
theorem C69_value {w : FnW} (hw : w.kind = .prim .rval) {i s : Nat} {v : Variant} {st : St} :
    Calls w [.mk i (.var v)] s st (.ok (some v) st) := by
  rw [calls_prim hw]
  refine lim_of (ends_ok _ _) 0 ?_
  simp only [callPrim, bRval, checkArgs, argV, arg, List.length_singleton, M.bind_apply, M.pure_apply, ne_eq, not_true, if_false, if_true, M.lift_apply, toVariant_var,
      M.get, M.rd_apply, modScope, M.modify, List.getElem?_cons_zero, evalArgIfNeeded]
  have : fset (fset st.scopes s { st.scopes s with needsLValue := false }) s { fset st.scopes s { st.scopes s with needsLValue := false } s with needsLValue := (st.scopes s).needsLValue } = st.scopes := by
    funext j
    by_cases h : j = s
    · subst h; simp [fset_self]
    · simp only [fset_ne _ _ h]
  rw [this]

/-- C69: `(need-l-value)` tells whether a place is asked for. -/
theorem C69_need (k : Nat) (s : Nat) (st : St) :
    Returns (callPrim (run k) .needLValue [] s) st fun v st' => IsBool v (st.scopes s).needsLValue ∧ Extends st st' := by
  refine returns_bool _ ?_ fun _ _ he hi => ⟨hi, he⟩
  simp [callPrim, ret, bNeedLValue, checkArgs, M.get]

end

section
attribute [local instance] demoWorld

/-- The output of a script that is run in a new interpreter, with some files. -/
def demoFiles (files : List (Str × Str)) (code : Str) : Str := (Spec.Out.after (lispEvalNew 60 code [] false false { files := files })).out

/-- A module with a function and a variable; one that does not exist is reported. -/
example : demoFiles [(c!"./Library/m.fuel", c!"(def x 2) (defn f (y) (+ x y))")] c!"(import \"m\" \"n\") (println x (f 5))" =
    c!"WARNING: Library n not found! Tried path ./lib/fuel/n.fuel\n2 7\n" := by decide +kernel

/-- C64, negative part: the entry in the table of modules is a copy of the scope of the module, which the functions of the module do not see: after a
function of the module has changed a variable of the module, the importing script still sees the old value. -/
theorem C64_variable_wrong : demoFiles [(c!"m", c!"(def x 1) (defn inc () (setf x (+ x 1)))")] c!"(import \"m\") (println (inc)) (println x)" = c!"2\n1\n" := by
  decide +kernel

/-- C62: code and texts are evaluated with the variables of the current scope. -/
example : demoScripts [c!"(defn f (x) (println (eval '(+ 1 (* 2 x))) (evalstr \"(+ x 1)\"))) (f 5)"] = c!"11 6\n" := by decide +kernel

/-- C62, negative part: a list that has been put together from lists with `list` is not evaluated like the same code that is quoted: the inner lists are
taken as values (an exception ends the script). -/
theorem C62_nested_wrong : demoFiles [] c!"(println (eval '(+ 1 (* 2 3)))) (println (eval (list '+ 1 (list '* 2 3))))" = c!"7\n" := by decide +kernel

end

end Fuel
