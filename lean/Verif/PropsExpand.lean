import Verif.SpecCode
import Verif.PropsDefault
/-!
# Macro expansion of programs without macros (C42)
-/

set_option linter.unusedSectionVars false
set_option linter.unusedSimpArgs false

namespace Fuel

open Spec

section
variable [World]

theorem Spec.OnlyNewLists.refl (st : St) : OnlyNewLists st st := ⟨Nat.le_refl _, fun _ _ => rfl, rfl⟩

theorem Spec.OnlyNewLists.trans {a b c : St} (h : OnlyNewLists a b) (g : OnlyNewLists b c) : OnlyNewLists a c where
  next := Nat.le_trans h.next g.next
  lists i hi := (g.lists i (Nat.lt_of_lt_of_le hi h.next)).trans (h.lists i hi)
  rest := by rw [g.rest, h.rest]

theorem Spec.OnlyNewLists.scopes {a b : St} (h : OnlyNewLists a b) : b.scopes = a.scopes := by rw [h.rest]

theorem Spec.OnlyNewLists.extends {a b : St} (h : OnlyNewLists a b) : Extends a b := by
  refine ⟨h.next, h.lists, ?_, ?_, ?_, ?_, ?_, ?_, ?_, ?_⟩ <;> rw [h.rest] <;> simp

theorem onlyNewLists_list (st : St) (l : List Ptr) : OnlyNewLists st { st with next := st.next + 1, lists := fset st.lists st.next l } where
  next := Nat.le_succ _
  lists i hi := fset_ne _ _ (by omega)
  rest := rfl

theorem onlyNewLists_next (st : St) : OnlyNewLists st { st with next := st.next + 1 } := ⟨Nat.le_succ _, fun _ _ => rfl, rfl⟩

mutual
theorem Spec.IsTree.mono {st st' : St} (hn : st.next ≤ st'.next) (hl : ∀ i, i < st.next → st'.lists i = st.lists i) {p : Ptr} {c : Code} :
    IsTree st p c → IsTree st' p c
  | .val => .val
  | .list hi h => .list (Nat.lt_of_lt_of_le hi hn) (hl _ hi ▸ AreTrees.mono hn hl h)
theorem Spec.AreTrees.mono {st st' : St} (hn : st.next ≤ st'.next) (hl : ∀ i, i < st.next → st'.lists i = st.lists i) {ps : List Ptr} {l : List Code} :
    AreTrees st ps l → AreTrees st' ps l
  | .nil => .nil
  | .cons h t => .cons (IsTree.mono hn hl h) (AreTrees.mono hn hl t)
end

theorem Spec.IsTree.new {st st' : St} (h : OnlyNewLists st st') {p : Ptr} {c : Code} (hc : IsTree st p c) : IsTree st' p c := hc.mono h.next h.lists
theorem Spec.AreTrees.new {st st' : St} (h : OnlyNewLists st st') {p : List Ptr} {c : List Code} (hc : AreTrees st p c) : AreTrees st' p c :=
  hc.mono h.next h.lists

/-- Joining with a non-empty text so far. -/
theorem joinLoop_acc {α : Type} {f : α → R Str} {acc : Str} {ps : List α} {ts : List Str} (ha : acc ≠ []) (h : All2 (fun p t => f p = .ok t) ps ts) :
    joinLoop f c!" " acc ps = .ok (List.intercalate c!" " (acc :: ts)) := by
  induction h generalizing acc with
  | nil => simp [joinLoop, List.intercalate]
  | @cons p t ps ts hp _ ih =>
    have he : acc.isEmpty = false := by simpa using ha
    simp only [joinLoop, hp, bind_ok_R, he]
    rw [ih (by simp [ha])]
    cases ts <;> simp [List.intercalate, List.intersperse]

theorem joinLoop_joined {α : Type} {f : α → R Str} {ps : List α} {ts : List Str} (h : All2 (fun p t => f p = .ok t) ps ts) :
    joinLoop f c!" " [] ps = .ok (joined ts) := by
  induction h with
  | nil => rfl
  | @cons p t ps ts hp h ih =>
    simp only [joinLoop, hp, bind_ok_R, List.isEmpty_nil, if_true, List.nil_append]
    by_cases ht : t = []
    · subst ht; rw [ih]; rfl
    · rw [joinLoop_acc ht h]
      have : t.isEmpty = false := by simpa using ht
      simp [joined, List.dropWhile_cons, this]

mutual
theorem ptrStr_text {st : St} {p : Ptr} {c : Code} {t : Str} : Text c t → IsTree st p c → ∃ K, ∀ n, K ≤ n → ptrStr st n p = .ok t
  | .sym h, .val => ⟨3, fun n hn => by obtain ⟨m, rfl⟩ : ∃ m, n = m + 3 := ⟨n - 3, by omega⟩; exact ptrStr_sym h⟩
  | .str h, .val => ⟨3, fun n hn => by obtain ⟨m, rfl⟩ : ∃ m, n = m + 3 := ⟨n - 3, by omega⟩; rw [ptrStr_var, varStr_str h]⟩
  | .int h, .val => ⟨3, fun n hn => by
      obtain ⟨m, rfl⟩ : ∃ m, n = m + 3 := ⟨n - 3, by omega⟩
      obtain ⟨h1, i, h2⟩ := h
      rw [ptrStr_var]; simp [varStr, h1, h2]⟩
  | .dbl h, .val => ⟨3, fun n hn => by
      obtain ⟨m, rfl⟩ : ∃ m, n = m + 3 := ⟨n - 3, by omega⟩
      obtain ⟨h1, i, h2⟩ := h
      rw [ptrStr_var]; simp [varStr, h1, h2]⟩
  | .bool h, .val => ⟨3, fun n hn => by
      obtain ⟨m, rfl⟩ : ∃ m, n = m + 3 := ⟨n - 3, by omega⟩
      obtain ⟨h1, i, h2⟩ := h
      rw [ptrStr_var]; simp [varStr, h1, h2]⟩
  | .nil h, .val => ⟨3, fun n hn => by
      obtain ⟨m, rfl⟩ : ∃ m, n = m + 3 := ⟨n - 3, by omega⟩
      rw [ptrStr_var]; simp [varStr, show _ = LispType.nil from h]⟩
  | .list h, .list hi hc => by
    obtain ⟨K, hK⟩ := ptrStr_texts h hc
    refine ⟨K + 1, fun n hn => ?_⟩
    obtain ⟨m, rfl⟩ : ∃ m, n = m + 1 := ⟨n - 1, by omega⟩
    simp [ptrStr, joinLoop_joined (hK m (by omega))]
theorem ptrStr_texts {st : St} {ps : List Ptr} {l : List Code} {ts : List Str} : Texts l ts → AreTrees st ps l →
    ∃ K, ∀ n, K ≤ n → All2 (fun p t => ptrStr st n p = .ok t) ps ts
  | .nil, .nil => ⟨0, fun _ _ => .nil⟩
  | .cons h t, .cons hc tc => by
    obtain ⟨K, hK⟩ := ptrStr_text h hc
    obtain ⟨L, hL⟩ := ptrStr_texts t tc
    exact ⟨max K L, fun n hn => .cons (hK n (by omega)) (hL n (by omega))⟩
end

theorem Spec.Inert.of_scopes {st st' : St} (h : st'.scopes = st.scopes) {s : Nat} {name : Str} (hi : Inert st s name) : Inert st' s name := by
  have hb : ∀ i n, binding st' i n = binding st i n := fun i n => by simp only [binding, h]
  exact ⟨by simp only [hb]; exact hi.macro_, by simp only [hb]; exact hi.variable_⟩

theorem Spec.Inert.of_vars {st st' : St} (h : ∀ i, (st'.scopes i).vars = (st.scopes i).vars) {s : Nat} {name : Str} (hi : Inert st s name) :
    Inert st' s name := by
  have hb : ∀ i n, binding st' i n = binding st i n := fun i n => by simp only [binding, h]
  exact ⟨by simp only [hb]; exact hi.macro_, by simp only [hb]; exact hi.variable_⟩

mutual
theorem Spec.Heads.imp {P Q : Str → Prop} (h : ∀ t, P t → Q t) {c : Code} : Heads P c → Heads Q c
  | .val hv => .val hv
  | .nil => .nil
  | .list ht hp hl => .list ht (h _ hp) (HeadsAll.imp h hl)
theorem Spec.HeadsAll.imp {P Q : Str → Prop} (h : ∀ t, P t → Q t) {l : List Code} : HeadsAll P l → HeadsAll Q l
  | .nil => .nil
  | .cons hc hl => .cons (Heads.imp h hc) (HeadsAll.imp h hl)
end

/-- What is left of the code after expansion, before NIL is replaced. -/
def expandedTop : Code → Code
  | .val v => .val v
  | .list l => .list (Code.nilFrees l)

/-- Evaluators with budgets that expand macros as the plain evaluator does. -/
structure Expanding (F : Nat → Rec) : Prop where
  n : ∀ k, (F k).n = k
  expand : ∀ k, (F (k + 1)).expand = expandLoop (F k)
  expand3 : ∀ k, (F (k + 1)).expand3 = expandStep (F k)

theorem expanding_run : Expanding run := ⟨run_n, run_expand, run_expand3⟩

/-- The first test of the expansion: the name is not that of a function executed now. -/
theorem expandStep_inert_fam {F : Nat → Rec} (hF : Expanding F) {k : Nat} {s : Nat} {st : St} {i : Nat} {f : Ptr} {rest : List Ptr} {t : Str} (hl : st.lists i = f :: rest)
    (ht : ptrStr st k f = .ok t) (hi : Inert st s t) :
    expandStep (F k) (.mk i .list) s st = (do
      let es ← expandElems (F k) s (f :: rest)
      let q ← allocList es
      pure (q, false) : M (Ptr × Bool)) st := by
  have hn := hF.n k
  have hm : expandMacroOrElems (F k) (f :: rest) f s st = (do
      let es ← expandElems (F k) s (f :: rest)
      let q ← allocList es
      pure (q, false) : M (Ptr × Bool)) st := by
    unfold expandMacroOrElems
    rw [M.bind_apply]
    rcases hi.macro_ with h | ⟨j, m, h, h' | ⟨a, b, c, h'⟩⟩
    · simp only [M.rd_apply, getMacro, macroScope, find_eq, macrosKey, h, bind_ok_R]
    · simp only [M.rd_apply, getMacro, macroScope, find_eq, macrosKey, h, bind_ok_R, hn, ht, h']
    · simp only [M.rd_apply, getMacro, macroScope, find_eq, macrosKey, h, bind_ok_R, hn, ht, h']
  rw [← hm]
  simp only [expandStep, M.bind_apply, M.get_apply, hl, M.rd_apply, hn, ht, find_eq]
  rcases hi.variable_ with h | ⟨p, w, h, ⟨a, v, rfl, h1, b, h2⟩, h3⟩
  · simp only [h]
  · simp only [h, M.bind_apply, M.lift_apply, toVariant, M.rd_apply, Variant.functionValue, h1, h2, ne_eq, not_true_eq_false, if_false, h3,
      Bool.false_eq_true]

theorem expandStep_inert {k : Nat} {s : Nat} {st : St} {i : Nat} {f : Ptr} {rest : List Ptr} {t : Str} (hl : st.lists i = f :: rest)
    (ht : ptrStr st k f = .ok t) (hi : Inert st s t) :
    expandStep (run k) (.mk i .list) s st = (do
      let es ← expandElems (run k) s (f :: rest)
      let q ← allocList es
      pure (q, false) : M (Ptr × Bool)) st := expandStep_inert_fam expanding_run hl ht hi

theorem convert_val {i : Nat} {v : Variant} (hv : v.type ≠ .list) (st : St) :
    ∃ q st', (∀ n, convertList n (.mk i (.var v)) st = .ok q st') ∧ OnlyNewLists st st' ∧ IsTree st' q (Code.nilFree (.val v)) := by
  by_cases h : v.type = .nil
  · refine ⟨.mk st.next .list, _, fun n => by simp [convertList, Variant.isList, h, M.bind_apply, M.rd_apply, Variant.listValue, allocList],
      onlyNewLists_list st [], ?_⟩
    simp only [Code.nilFree, h, if_true]
    exact .list (Nat.lt_succ_self _) (by simp only [fset_at]; exact .nil)
  · refine ⟨.mk i (.var v), st, fun n => by simp [convertList, Variant.isList, h, hv], .refl st, ?_⟩
    simp only [Code.nilFree, h, if_false]
    exact .val

mutual
theorem expand_code_fam {F : Nat → Rec} (hF : Expanding F) {s : Nat} {c : Code} {st : St} {p : Ptr} : Heads (Inert st s) c → IsTree st p c →
    ∃ q st' K, (∀ k, K ≤ k → (F k).expand p s st = .ok q st') ∧ OnlyNewLists st st' ∧ IsTree st' q (expandedTop c)
  | .val (v := v) hv, .val (i := i) => ⟨.mk i (.var v), st, 2, fun k hk => by
      obtain ⟨m, rfl⟩ : ∃ m, k = m + 2 := ⟨k - 2, by omega⟩
      rw [hF.expand]
      simp [expandLoop, M.bind_apply, hF.expand3, expandStep], .refl st, .val⟩
  | .nil, .list (i := i) hi h => ⟨.mk i .list, st, 2, fun k hk => by
      obtain ⟨m, rfl⟩ : ∃ m, k = m + 2 := ⟨k - 2, by omega⟩
      have : st.lists i = [] := by generalize hg : st.lists i = g at h; cases h; rfl
      rw [hF.expand]
      simp [expandLoop, M.bind_apply, hF.expand3, expandStep, M.get_apply, this], .refl st, .list hi h⟩
  | .list (f := f) (t := t) (l := l) ht hp hl, .list (i := i) hi h => by
    generalize hg : st.lists i = g at h
    obtain ⟨es, st', K, h1, h2, h3⟩ := expand_codes_fam hF hl h
    cases h with
    | @cons a _ r _ hf hr =>
      obtain ⟨K1, h4⟩ := ptrStr_text ht hf
      refine ⟨.mk st'.next .list, _, max K K1 + 2, fun k hk => ?_, h2.trans (onlyNewLists_list st' es), ?_⟩
      · obtain ⟨m, rfl⟩ : ∃ m, k = m + 2 := ⟨k - 2, by omega⟩
        rw [hF.expand]
        simp only [expandLoop, M.bind_apply, hF.expand3, expandStep_inert_fam hF hg (h4 m (by omega)) hp, h1 m (by omega), allocList, M.pure_apply,
          Bool.false_eq_true, if_false]
      · refine .list (Nat.lt_succ_self _) ?_
        simp only [fset_at]
        exact h3.new (onlyNewLists_list st' es)
theorem expand_codes_fam {F : Nat → Rec} (hF : Expanding F) {s : Nat} {l : List Code} {st : St} {ps : List Ptr} : HeadsAll (Inert st s) l → AreTrees st ps l →
    ∃ qs st' K, (∀ k, K ≤ k → expandElems (F k) s ps st = .ok qs st') ∧ OnlyNewLists st st' ∧ AreTrees st' qs (Code.nilFrees l)
  | .nil, .nil => ⟨[], st, 0, fun k _ => rfl, .refl st, .nil⟩
  | .cons (c := c) (l := l) hc hl, .cons hp hps => by
    obtain ⟨q, st1, K1, h1, h2, h3⟩ := expand_code_fam hF hc hp
    have hconv : ∃ q' st2, (∀ n, convertList n q st1 = .ok q' st2) ∧ q ≠ .null ∧ OnlyNewLists st1 st2 ∧ IsTree st2 q' (Code.nilFree c) := by
      cases hc with
      | val hv =>
        cases h3
        obtain ⟨q', st2, a, b, d⟩ := convert_val hv st1
        exact ⟨q', st2, a, by simp, b, d⟩
      | nil => cases h3 with | list hi h => exact ⟨_, st1, fun _ => rfl, by simp, .refl _, .list hi h⟩
      | list _ _ _ => cases h3 with | list hi h => exact ⟨_, st1, fun _ => rfl, by simp, .refl _, .list hi h⟩
    obtain ⟨q', st2, h4, h5, h6, h7⟩ := hconv
    have h26 := h2.trans h6
    obtain ⟨qs, st3, K2, h8, h9, h10⟩ := expand_codes_fam hF (hl.imp fun _ hi => hi.of_scopes h26.scopes) (hps.new h26)
    refine ⟨q' :: qs, st3, max K1 K2, fun k hk => ?_, h26.trans h9, .cons (h7.new h9) h10⟩
    have e1 := h1 k (by omega)
    have e2 := h8 k (by omega)
    cases q with
    | null => exact absurd rfl h5
    | mk a o => simp only [expandElems, M.bind_apply, e1, h4, e2, M.pure_apply]
end

theorem expand_code {s : Nat} {c : Code} {st : St} {p : Ptr} (h : Heads (Inert st s) c) (hp : IsTree st p c) :
    ∃ q st' K, (∀ k, K ≤ k → (run k).expand p s st = .ok q st') ∧ OnlyNewLists st st' ∧ IsTree st' q (expandedTop c) := expand_code_fam expanding_run h hp
theorem expand_codes {s : Nat} {l : List Code} {st : St} {ps : List Ptr} (h : HeadsAll (Inert st s) l) (hp : AreTrees st ps l) :
    ∃ qs st' K, (∀ k, K ≤ k → expandElems (run k) s ps st = .ok qs st') ∧ OnlyNewLists st st' ∧ AreTrees st' qs (Code.nilFrees l) :=
  expand_codes_fam expanding_run h hp

end

end Fuel
