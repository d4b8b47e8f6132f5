import Verif.SpecDict
import Verif.PropsCall
/-!
# C25, C26: dictionaries
-/

set_option linter.unusedSectionVars false
set_option linter.unusedSimpArgs false

namespace Fuel

open Spec

section
variable [World]

theorem isKey_unique {v : Variant} {j k : Key} (h : IsKey v j) (g : IsKey v k) : j = k := by
  cases j <;> cases k <;> simp only [IsKey] at h g
  · obtain ⟨_, i, h⟩ := h; obtain ⟨_, i', g⟩ := g; rw [h] at g; cases g; rfl
  · exact absurd (h.1.symm.trans g.1.1) (by decide)
  · exact absurd (h.1.1.symm.trans g.1) (by decide)
  · obtain ⟨⟨_, i, h⟩, _⟩ := h; obtain ⟨⟨_, i', g⟩, _⟩ := g; rw [h] at g; cases g; rfl

theorem key_irrefl (k : Key) : ¬ k.Lt k := by
  cases k <;> simp only [Key.Lt]
  · omega
  · exact C18_lex_irrefl _

theorem key_trans {a b c : Key} (h : a.Lt b) (g : b.Lt c) : a.Lt c := by
  cases a <;> cases b <;> cases c <;> simp only [Key.Lt] at h g ⊢
  · omega
  · exact C18_lex_trans h g

theorem key_total {a b : Key} (h : a.kind = b.kind) : a.Lt b ∨ a = b ∨ b.Lt a := by
  cases a <;> cases b <;> simp only [Key.Lt, Key.kind, reduceCtorEq] at h ⊢
  · rename_i x y
    rcases Int.lt_trichotomy x y with h | h | h
    · exact .inl h
    · exact .inr (.inl (by rw [h]))
    · exact .inr (.inr h)
  · rename_i x y
    rcases C18_lex_total x y with h | h | h
    · exact .inl h
    · exact .inr (.inl (by rw [h]))
    · exact .inr (.inr h)

open Classical in
theorem vLt_key {st : St} {n : Nat} {u v : Variant} {a b : Key} (hu : IsKey u a) (hv : IsKey v b) (h : a.kind = b.kind) :
    vLt st (n + 3) u v = .ok (decide (a.Lt b)) := by
  cases a <;> cases b <;> simp only [Key.kind, reduceCtorEq] at h <;> simp only [IsKey] at hu hv
  · simp [vLt, hu.1, hv.1, toInt_int hu, toInt_int hv, Key.Lt]; congr
  · rename_i s t
    have : decide (compareOrdinal s t < 0) = decide (LexLt s t) := by
      rw [compareOrdinal, cStr_noZero hu.2, cStr_noZero hv.2]
      by_cases h : LexLt s t
      · simp [(strLt_iff s t).2 h, h]
      · have : strLt s t = false := by rw [← Bool.not_eq_true, strLt_iff]; exact h
        rw [this]
        simp [h]
        split <;> simp
    simp [vLt, hu.1.1, hv.1.1, varStr_str hu.1, varStr_str hv.1, Key.Lt, this]; congr

/-- Entries in ascending order with keys of one kind. -/
structure Ascending (kd : KeyKind) (d : List (Variant × Ptr)) : Prop where
  keys : ∀ e ∈ d, ∃ k, IsKey e.1 k ∧ k.kind = kd
  order : d.Pairwise fun a b => ∃ j k, IsKey a.1 j ∧ IsKey b.1 k ∧ j.Lt k

theorem Ascending.tail {kd : KeyKind} {e : Variant × Ptr} {d : List (Variant × Ptr)} (h : Ascending kd (e :: d)) : Ascending kd d :=
  ⟨fun x hx => h.keys x (by simp [hx]), (List.pairwise_cons.1 h.order).2⟩

/-- What a search finds. -/
structure Found (k : Key) (d pre : List (Variant × Ptr)) (hit : Option (Variant × Ptr)) (post : List (Variant × Ptr)) : Prop where
  all : d = pre ++ hit.toList ++ post
  less : ∀ e ∈ pre, ∃ j, IsKey e.1 j ∧ j.Lt k
  eq : ∀ e, hit = some e → IsKey e.1 k
  greater : ∀ e ∈ post, ∃ j, IsKey e.1 j ∧ k.Lt j

theorem dictSplit_ok {st : St} {n : Nat} {kd : KeyKind} {u : Variant} {k : Key} (hu : IsKey u k) (hk : k.kind = kd) :
    ∀ {d : List (Variant × Ptr)}, Ascending kd d → ∃ pre hit post, dictSplit st (n + 3) u d = .ok (pre, hit, post) ∧ Found k d pre hit post
  | [], _ => ⟨[], none, [], rfl, by simp, by simp, by simp, by simp⟩
  | e :: d, h => by
    obtain ⟨j, hj, hjk⟩ := h.keys e (by simp)
    have h1 := vLt_key (st := st) (n := n) hj hu (by rw [hjk, hk])
    have h2 := vLt_key (st := st) (n := n) hu hj (by rw [hjk, hk])
    have hgt : ∀ x ∈ d, ∃ i, IsKey x.1 i ∧ j.Lt i := by
      intro x hx
      obtain ⟨a, b, ha, hb, hab⟩ := (List.pairwise_cons.1 h.order).1 x hx
      cases isKey_unique ha hj
      exact ⟨b, hb, hab⟩
    by_cases g1 : j.Lt k
    · obtain ⟨pre, hit, post, h3, h4⟩ := dictSplit_ok (st := st) (n := n) hu hk h.tail
      refine ⟨e :: pre, hit, post, ?_, by rw [h4.all]; simp, ?_, h4.eq, h4.greater⟩
      · simp [dictSplit, h1, g1, h3]
      · intro x hx
        rcases List.mem_cons.1 hx with rfl | hx
        · exact ⟨j, hj, g1⟩
        · exact h4.less x hx
    · by_cases g2 : k.Lt j
      · refine ⟨[], none, e :: d, by simp [dictSplit, h1, h2, g1, g2], by simp, by simp, by simp, fun x hx => ?_⟩
        rcases List.mem_cons.1 hx with rfl | hx
        · exact ⟨j, hj, g2⟩
        · obtain ⟨i, hi, hji⟩ := hgt x hx
          exact ⟨i, hi, key_trans g2 hji⟩
      · have : j = k := by
          rcases key_total (hjk.trans hk.symm) with g | g | g
          · exact absurd g g1
          · exact g
          · exact absurd g g2
        subst this
        exact ⟨[], some e, d, by simp [dictSplit, h1, h2, g1], by simp, by simp, by simpa using hj, hgt⟩

open Classical in
theorem dictCmp_ok {st : St} {n : Nat} {kd : KeyKind} {u : Variant} {k : Key} (hu : IsKey u k) (hk : k.kind = kd) :
    ∀ {d : List (Variant × Ptr)}, Ascending kd d → ∃ l, dictCmp st (n + 3) u d = .ok l ∧ partitioned l = true ∧
      (∀ j, (∀ e ∈ d, ∃ i, IsKey e.1 i ∧ j.Lt i) → k = j ∨ k.Lt j → (l.all fun x => !x.1 && x.2) = true)
  | [], _ => ⟨[], rfl, rfl, by simp⟩
  | e :: d, h => by
    obtain ⟨j, hj, hjk⟩ := h.keys e (by simp)
    have h1 := vLt_key (st := st) (n := n) hj hu (by rw [hjk, hk])
    have h2 := vLt_key (st := st) (n := n) hu hj (by rw [hjk, hk])
    have hgt : ∀ x ∈ d, ∃ i, IsKey x.1 i ∧ j.Lt i := by
      intro x hx
      obtain ⟨a, b, ha, hb, hab⟩ := (List.pairwise_cons.1 h.order).1 x hx
      cases isKey_unique ha hj
      exact ⟨b, hb, hab⟩
    obtain ⟨l, h3, h4, h5⟩ := dictCmp_ok (st := st) (n := n) hu hk h.tail
    refine ⟨(decide (j.Lt k), decide (k.Lt j)) :: l, by simp [dictCmp, h1, h2, h3], ?_, ?_⟩
    · by_cases g1 : j.Lt k
      · have g2 : ¬ k.Lt j := fun g => key_irrefl _ (key_trans g1 g)
        simp [partitioned, g1, g2, h4]
      · have : k = j ∨ k.Lt j := by
          rcases key_total (hjk.trans hk.symm) with g | g | g
          · exact absurd g g1
          · exact .inl g.symm
          · exact .inr g
        simp only [partitioned, g1, decide_false]
        exact h5 j hgt this
    · intro i hi hki
      obtain ⟨j', hj', hij⟩ := hi e (by simp)
      cases isKey_unique hj' hj
      have g : k.Lt j := by rcases hki with rfl | g; exact hij; exact key_trans g hij
      have g' : ¬ j.Lt k := fun x => key_irrefl _ (key_trans g x)
      simp only [List.all_cons, g, g', decide_true, decide_false, Bool.not_false, Bool.and_self, Bool.true_and]
      exact h5 j hgt (.inr g)

theorem dictAccess_ok {st : St} {n : Nat} {kd : KeyKind} {u : Variant} {k : Key} {d : List (Variant × Ptr)} (hu : IsKey u k) (hk : k.kind = kd)
    (h : Ascending kd d) : ∃ pre hit post, dictAccess st (n + 3) u d = .ok (pre, hit, post) ∧ Found k d pre hit post := by
  obtain ⟨pre, hit, post, h1, h2⟩ := dictSplit_ok (st := st) (n := n) hu hk h
  refine ⟨pre, hit, post, ?_, h2⟩
  unfold dictAccess
  split
  · exact h1
  · exact h1
  · obtain ⟨l, h3, h4, _⟩ := dictCmp_ok (st := st) (n := n) hu hk h
    rw [h3]; simp [h4, h1]

theorem Spec.IsMap.asc {st : St} {id : Nat} {kd : KeyKind} {f : Key → Option Ptr} (h : IsMap st id kd f) : Ascending kd (st.dicts id) := ⟨h.keys, h.order⟩

theorem found_none {k : Key} {d pre post : List (Variant × Ptr)} (h : Found k d pre none post) : ∀ e ∈ d, ¬ IsKey e.1 k := by
  intro e he hk
  rw [h.all] at he
  simp only [Option.toList_none, List.append_nil, List.mem_append] at he
  rcases he with he | he
  · obtain ⟨j, h1, h2⟩ := h.less e he; cases isKey_unique h1 hk; exact key_irrefl _ h2
  · obtain ⟨j, h1, h2⟩ := h.greater e he; cases isKey_unique h1 hk; exact key_irrefl _ h2

theorem found_some {k : Key} {d pre post : List (Variant × Ptr)} {x : Variant × Ptr} (h : Found k d pre (some x) post) :
    x ∈ d ∧ ∀ e ∈ d, IsKey e.1 k → e = x := by
  refine ⟨by rw [h.all]; simp, fun e he hk => ?_⟩
  rw [h.all] at he
  simp only [Option.toList_some, List.mem_append, List.mem_cons, List.not_mem_nil, or_false] at he
  rcases he with (he | he) | he
  · obtain ⟨j, h1, h2⟩ := h.less e he; cases isKey_unique h1 hk; exact absurd h2 (key_irrefl _)
  · exact he
  · obtain ⟨j, h1, h2⟩ := h.greater e he; cases isKey_unique h1 hk; exact absurd h2 (key_irrefl _)

theorem found_hit {st : St} {id : Nat} {kd : KeyKind} {f : Key → Option Ptr} (hm : IsMap st id kd f) {k : Key} {pre post : List (Variant × Ptr)}
    {hit : Option (Variant × Ptr)} (h : Found k (st.dicts id) pre hit post) : hit.map Prod.snd = f k := by
  cases hit with
  | none =>
    cases hf : f k with
    | none => rfl
    | some p =>
      obtain ⟨e, he, hk, _⟩ := (hm.entries k p).1 hf
      exact absurd hk (found_none h e he)
  | some x =>
    have := (hm.entries k x.2).2 ⟨x, (found_some h).1, h.eq x rfl, rfl⟩
    rw [this]; rfl

theorem asc_parts {kd : KeyKind} {k : Key} {d pre post : List (Variant × Ptr)} {hit : Option (Variant × Ptr)} (h : Ascending kd d)
    (hf : Found k d pre hit post) : Ascending kd (pre ++ post) := by
  have hsub : (pre ++ post).Sublist d := by
    rw [hf.all, List.append_assoc]
    exact List.Sublist.append (List.Sublist.refl _) (List.sublist_append_right _ _)
  exact ⟨fun e he => h.keys e (hsub.mem he), h.order.sublist hsub⟩

theorem isMap_set {st : St} {id : Nat} {kd : KeyKind} {f : Key → Option Ptr} (hm : IsMap st id kd f) {k : Key} (hk : k.kind = kd)
    {pre post : List (Variant × Ptr)} {hit : Option (Variant × Ptr)} (h : Found k (st.dicts id) pre hit post) {u : Variant} (hu : IsKey u k) (p : Ptr) :
    IsMap { st with dicts := fset st.dicts id (pre ++ (((hit.map Prod.fst).getD u, p) :: post)) } id kd (update f k (some p)) := by
  have hu' : IsKey ((hit.map Prod.fst).getD u) k := by
    cases hit with
    | none => exact hu
    | some x => exact h.eq x rfl
  generalize (hit.map Prod.fst).getD u = u' at hu'
  have ha := asc_parts hm.asc h
  have hmem : ∀ e, e ∈ pre ++ (u', p) :: post ↔ e = (u', p) ∨ e ∈ pre ++ post := by
    intro e; simp only [List.mem_append, List.mem_cons]; constructor <;> rintro (h | h | h) <;> simp [h]
  have hne : ∀ e ∈ pre ++ post, ¬ IsKey e.1 k := by
    intro e he hk
    rcases List.mem_append.1 he with he | he
    · obtain ⟨j, h1, h2⟩ := h.less e he; cases isKey_unique h1 hk; exact key_irrefl _ h2
    · obtain ⟨j, h1, h2⟩ := h.greater e he; cases isKey_unique h1 hk; exact key_irrefl _ h2
  refine ⟨?_, ?_, ?_⟩
  · intro e he
    simp only [fset_at, hmem] at he
    rcases he with rfl | he
    · exact ⟨k, hu', hk⟩
    · exact ha.keys e he
  · simp only [fset_at]
    rw [List.pairwise_append, List.pairwise_cons]
    obtain ⟨a1, a2, a3⟩ := List.pairwise_append.1 ha.order
    refine ⟨a1, ⟨fun e he => ?_, a2⟩, fun e he x hx => ?_⟩
    · obtain ⟨j, h1, h2⟩ := h.greater e he; exact ⟨k, j, hu', h1, h2⟩
    · rcases List.mem_cons.1 hx with rfl | hx
      · obtain ⟨j, h1, h2⟩ := h.less e he; exact ⟨j, k, h1, hu', h2⟩
      · exact a3 e he x hx
  · intro j q
    simp only [fset_at, hmem, update]
    by_cases hj : j = k
    · subst hj
      simp only [if_true, Option.some.injEq]
      constructor
      · rintro rfl; exact ⟨_, .inl rfl, hu', rfl⟩
      · rintro ⟨e, rfl | he, h1, rfl⟩
        · rfl
        · exact absurd h1 (hne e he)
    · simp only [hj, if_false, hm.entries]
      constructor
      · rintro ⟨e, he, h1, h2⟩
        refine ⟨e, .inr ?_, h1, h2⟩
        rw [h.all] at he
        simp only [List.mem_append, Option.mem_toList] at he ⊢
        rcases he with (he | he) | he
        · exact .inl he
        · exact absurd (isKey_unique h1 (h.eq e he)) hj
        · exact .inr he
      · rintro ⟨e, rfl | he, h1, rfl⟩
        · exact absurd (isKey_unique h1 hu') hj
        · refine ⟨e, ?_, h1, rfl⟩
          rw [h.all]
          simp only [List.mem_append] at he ⊢
          rcases he with he | he <;> simp [he]

theorem isMap_erase {st : St} {id : Nat} {kd : KeyKind} {f : Key → Option Ptr} (hm : IsMap st id kd f) {k : Key}
    {pre post : List (Variant × Ptr)} {hit : Option (Variant × Ptr)} (h : Found k (st.dicts id) pre hit post) :
    IsMap { st with dicts := fset st.dicts id (pre ++ post) } id kd (update f k none) := by
  have ha := asc_parts hm.asc h
  refine ⟨by simpa only [fset_at] using ha.keys, by simpa only [fset_at] using ha.order, fun j q => ?_⟩
  simp only [fset_at, update]
  have hne : ∀ e ∈ pre ++ post, ¬ IsKey e.1 k := by
    intro e he hk
    rcases List.mem_append.1 he with he | he
    · obtain ⟨j, h1, h2⟩ := h.less e he; cases isKey_unique h1 hk; exact key_irrefl _ h2
    · obtain ⟨j, h1, h2⟩ := h.greater e he; cases isKey_unique h1 hk; exact key_irrefl _ h2
  by_cases hj : j = k
  · subst hj
    simp only [if_true, reduceCtorEq, false_iff]
    rintro ⟨e, he, h1, _⟩
    exact hne e he h1
  · simp only [hj, if_false, hm.entries]
    constructor
    · rintro ⟨e, he, h1, h2⟩
      refine ⟨e, ?_, h1, h2⟩
      rw [h.all] at he
      simp only [List.mem_append, Option.mem_toList] at he ⊢
      rcases he with (he | he) | he
      · exact .inl he
      · exact absurd (isKey_unique h1 (h.eq e he)) hj
      · exact .inr he
    · rintro ⟨e, he, h1, h2⟩
      refine ⟨e, ?_, h1, h2⟩
      rw [h.all]
      simp only [List.mem_append] at he ⊢
      rcases he with he | he <;> simp [he]

theorem onlyDict_set (st : St) (id : Nat) (d : List (Variant × Ptr)) : OnlyDict st { st with dicts := fset st.dicts id d } id :=
  ⟨Nat.le_refl _, fun i hi => by simp [fset, hi], rfl⟩

theorem isMap_next {st : St} {id : Nat} {kd : KeyKind} {f : Key → Option Ptr} (h : IsMap st id kd f) (n : Nat) :
    IsMap { st with next := n } id kd f := ⟨h.keys, h.order, h.entries⟩

/-- C25: `(make-dict)` is a new dictionary without entries. -/
theorem C25_make (k : Nat) (sid : Nat) (st : St) (kd : KeyKind) :
    Returns (callPrim (run k) .makeDict [] sid) st fun v st' => ∃ id, IsDictAt v id ∧ st.next ≤ id ∧ IsMap st' id kd (fun _ => none) ∧ OnlyDict st st' id := by
  refine ⟨_, _, rfl, st.next, ⟨rfl, rfl⟩, Nat.le_refl _, ⟨?_, ?_, ?_⟩, ?_, ?_, ?_⟩
  · simp
  · simp
  · simp
  · simp
  · intro i hi; simp [fset, hi]
  · simp

/-- C25: `(dict-set d k v)` changes the map at the key `k` and returns `v`. -/
theorem C25_set {k : Nat} (hk : 3 ≤ k) {d q r : Ptr} {id : Nat} {kd : KeyKind} {f : Key → Option Ptr} {κ : Key} {v : Variant} (sid : Nat) (st : St)
    (hd : Holds d (IsDictAt · id)) (hm : IsMap st id kd f) (hq : Holds q (IsKey · κ)) (hκ : κ.kind = kd) (hr : Holds r (· = v)) :
    Returns (callPrim (run k) .dictSet [d, q, r] sid) st fun u st' => u = v ∧ IsMap st' id kd (update f κ (some v.value)) ∧ OnlyDict st st' id := by
  obtain ⟨k, rfl⟩ : ∃ m, k = m + 3 := ⟨k - 3, by omega⟩
  obtain ⟨i1, dv, rfl, hd⟩ := hd
  obtain ⟨i2, u, rfl, hu⟩ := hq
  obtain ⟨i3, w, rfl, rfl⟩ := hr
  obtain ⟨pre, hit, post, h1, h2⟩ := dictAccess_ok (st := st) (n := k) hu hκ hm.asc
  refine ⟨w, _, ?_, rfl, isMap_set hm hκ h2 hu w.value, onlyDict_set st id _⟩
  simp [callPrim, bDictSet, ret, checkArgs, argDict, argV, arg, toVariant_var, dictOf, hd.2, M.rd_apply, dictSet, run_n, h1, setDict]

/-- C25: `(dict-remove d k)` removes the key `k` and tells whether it was there. -/
theorem C25_remove {k : Nat} (hk : 3 ≤ k) {d q : Ptr} {id : Nat} {kd : KeyKind} {f : Key → Option Ptr} {κ : Key} (sid : Nat) (st : St)
    (hd : Holds d (IsDictAt · id)) (hm : IsMap st id kd f) (hq : Holds q (IsKey · κ)) (hκ : κ.kind = kd) :
    Returns (callPrim (run k) .dictRemove [d, q] sid) st fun u st' => IsBool u (f κ).isSome ∧ IsMap st' id kd (update f κ none) ∧ OnlyDict st st' id := by
  obtain ⟨k, rfl⟩ : ∃ m, k = m + 3 := ⟨k - 3, by omega⟩
  obtain ⟨i1, dv, rfl, hd⟩ := hd
  obtain ⟨i2, u, rfl, hu⟩ := hq
  obtain ⟨pre, hit, post, h1, h2⟩ := dictAccess_ok (st := st) (n := k) hu hκ hm.asc
  refine ⟨⟨.bool, .mk st.next (.bool (f κ).isSome), .none, none⟩, { st with dicts := fset st.dicts id (pre ++ post), next := st.next + 1 }, ?_, ⟨rfl, _, rfl⟩,
    isMap_next (isMap_erase hm h2) _, ⟨by simp, fun i hi => by simp [fset, hi], rfl⟩⟩
  rw [← found_hit hm h2]
  simp [callPrim, bDictRemove, ret, checkArgs, argDict, argV, arg, toVariant_var, dictOf, hd.2, M.rd_apply, dictErase, run_n, h1, setDict]

/-- C25: `(dict-clear d)` removes all keys. -/
theorem C25_clear (k : Nat) {d : Ptr} {id : Nat} (kd : KeyKind) (sid : Nat) (st : St) (hd : Holds d (IsDictAt · id)) :
    Returns (callPrim (run k) .dictClear [d] sid) st fun _ st' => IsMap st' id kd (fun _ => none) ∧ OnlyDict st st' id := by
  obtain ⟨i1, dv, rfl, hd⟩ := hd
  refine ⟨undefinedV, _, ?_, ?_, onlyDict_set st id []⟩
  · simp [callPrim, bDictClear, ret, checkArgs, argDict, argV, arg, toVariant_var, dictOf, hd.2, setDict]
  · exact ⟨by simp, by simp, by simp⟩

/-- C25: `(dict-contains-key d k)` tells whether the key `k` is there. -/
theorem C25_contains_key {k : Nat} (hk : 3 ≤ k) {d q : Ptr} {id : Nat} {kd : KeyKind} {f : Key → Option Ptr} {κ : Key} (sid : Nat) (st : St)
    (hd : Holds d (IsDictAt · id)) (hm : IsMap st id kd f) (hq : Holds q (IsKey · κ)) (hκ : κ.kind = kd) :
    Returns (callPrim (run k) .dictContainsKey [d, q] sid) st fun u st' => IsBool u (f κ).isSome ∧ Extends st st' := by
  obtain ⟨k, rfl⟩ : ∃ m, k = m + 3 := ⟨k - 3, by omega⟩
  obtain ⟨i1, dv, rfl, hd⟩ := hd
  obtain ⟨i2, u, rfl, hu⟩ := hq
  obtain ⟨pre, hit, post, h1, h2⟩ := dictAccess_ok (st := st) (n := k) hu hκ hm.asc
  refine returns_bool _ ?_ fun _ _ he hi => ⟨hi, he⟩
  rw [← found_hit hm h2]
  simp [callPrim, bDictContainsKey, ret, checkArgs, argDict, argV, arg, toVariant_var, dictOf, hd.2, M.rd_apply, dictFind, run_n, h1]

/-- C25, C26: `(dict-get d k)` is the value that was stored under the key `k`. -/
theorem C26_get {k : Nat} (hk : 3 ≤ k) {d q : Ptr} {id : Nat} {kd : KeyKind} {f : Key → Option Ptr} {κ : Key} {u : Variant} (sid : Nat) (st : St)
    (hd : Holds d (IsDictAt · id)) (hm : IsMap st id kd f) (hq : Holds q (IsKey · κ)) (hκ : κ.kind = kd) (hf : f κ = some u.value) (hu : Storable u) :
    Returns (callPrim (run k) .dictGet [d, q] sid) st fun v st' => SameValue u v ∧ st' = st := by
  obtain ⟨k, rfl⟩ : ∃ m, k = m + 3 := ⟨k - 3, by omega⟩
  obtain ⟨i1, dv, rfl, hd⟩ := hd
  obtain ⟨i2, w, rfl, hw⟩ := hq
  obtain ⟨pre, hit, post, h1, h2⟩ := dictAccess_ok (st := st) (n := k) hw hκ hm.asc
  have h3 := found_hit hm h2
  rw [hf] at h3
  obtain ⟨v, hv, hs⟩ : ∃ v, mkVariant u.value = .ok v ∧ SameValue u v := by
    cases hu with
    | int h => have g := h; obtain ⟨_, i, h'⟩ := h; rw [h']; exact ⟨_, rfl, .int g ⟨rfl, _, rfl⟩⟩
    | dbl h => have g := h; obtain ⟨_, i, h'⟩ := h; rw [h']; exact ⟨_, rfl, .dbl g ⟨rfl, _, rfl⟩⟩
    | str h => have g := h; obtain ⟨_, i, h'⟩ := h; rw [h']; exact ⟨_, rfl, .str g ⟨rfl, _, rfl⟩⟩
    | bool h => have g := h; obtain ⟨_, i, h'⟩ := h; rw [h']; exact ⟨_, rfl, .bool g ⟨rfl, _, rfl⟩⟩
    | list h => have g := h; obtain ⟨_, h'⟩ := h; rw [h']; exact ⟨_, rfl, .list g ⟨rfl, rfl⟩⟩
    | fn h => have g := h; obtain ⟨_, i, h'⟩ := h; rw [h']; exact ⟨_, rfl, .fn g ⟨rfl, _, rfl⟩⟩
  refine ⟨v, st, ?_, hs, rfl⟩
  simp [callPrim, bDictGet, ret, checkArgs, argDict, argV, arg, toVariant_var, dictOf, hd.2, M.rd_apply, dictFind, run_n, h1, h3, hv]

/-- C25: `(dict-get d k)` for a key that is not there is the undefined value. -/
theorem C25_get_missing {k : Nat} (hk : 3 ≤ k) {d q : Ptr} {id : Nat} {kd : KeyKind} {f : Key → Option Ptr} {κ : Key} (sid : Nat) (st : St)
    (hd : Holds d (IsDictAt · id)) (hm : IsMap st id kd f) (hq : Holds q (IsKey · κ)) (hκ : κ.kind = kd) (hf : f κ = none) :
    Returns (callPrim (run k) .dictGet [d, q] sid) st fun v st' => v.type = .undefined ∧ Extends st st' := by
  obtain ⟨k, rfl⟩ : ∃ m, k = m + 3 := ⟨k - 3, by omega⟩
  obtain ⟨i1, dv, rfl, hd⟩ := hd
  obtain ⟨i2, w, rfl, hw⟩ := hq
  obtain ⟨pre, hit, post, h1, h2⟩ := dictAccess_ok (st := st) (n := k) hw hκ hm.asc
  have h3 := found_hit hm h2
  rw [hf] at h3
  refine ⟨⟨.undefined, .mk st.next .undef, .none, none⟩, { st with next := st.next + 1 }, ?_, rfl, extends_next st _ (by omega)⟩
  simp [callPrim, bDictGet, ret, checkArgs, argDict, argV, arg, toVariant_var, dictOf, hd.2, M.rd_apply, dictFind, run_n, h1, h3, allocObj, mkVariant, Obj.lispType]

theorem boxAll_ok : ∀ (l : List Variant) (st : St), ∃ ps, boxAll l st = .ok ps { st with next := st.next + l.length } ∧ All2 (fun p v => Holds p (· = v)) ps l
  | [], st => ⟨[], rfl, .nil⟩
  | v :: t, st => by
    obtain ⟨ps, h1, h2⟩ := boxAll_ok t { st with next := st.next + 1 }
    refine ⟨.mk st.next (.var v) :: ps, ?_, .cons ⟨_, _, rfl, rfl⟩ h2⟩
    simp [boxAll, box, allocObj, h1]
    omega

theorem keysOf {kd : KeyKind} : ∀ {d : List (Variant × Ptr)}, Ascending kd d → ∃ ks : List Key, All2 (fun e k => IsKey e.1 k) d ks ∧ ks.Pairwise Key.Lt
  | [], _ => ⟨[], .nil, .nil⟩
  | e :: d, h => by
    obtain ⟨ks, h1, h2⟩ := keysOf h.tail
    obtain ⟨j, hj, _⟩ := h.keys e (by simp)
    refine ⟨j :: ks, .cons hj h1, .cons (fun k hk => ?_) h2⟩
    have : ∃ x ∈ d, IsKey x.1 k := by
      clear h2 h hj
      induction h1 with
      | nil => cases hk
      | cons ha _ ih =>
        rcases List.mem_cons.1 hk with rfl | hk
        · exact ⟨_, by simp, ha⟩
        · obtain ⟨x, hx, hx'⟩ := ih hk; exact ⟨x, by simp [hx], hx'⟩
    obtain ⟨x, hx, hx'⟩ := this
    obtain ⟨a, b, ha, hb, hab⟩ := (List.pairwise_cons.1 h.order).1 x hx
    cases isKey_unique ha hj
    cases isKey_unique hb hx'
    exact hab

theorem all2_mem {α β : Type} {P : α → β → Prop} {l : List α} {m : List β} (h : All2 P l m) : (∀ a ∈ l, ∃ b ∈ m, P a b) ∧ (∀ b ∈ m, ∃ a ∈ l, P a b) := by
  induction h with
  | nil => simp
  | cons h _ ih =>
    constructor
    · intro a ha
      rcases List.mem_cons.1 ha with rfl | ha
      · exact ⟨_, by simp, h⟩
      · obtain ⟨b, hb, hp⟩ := ih.1 a ha; exact ⟨b, by simp [hb], hp⟩
    · intro a ha
      rcases List.mem_cons.1 ha with rfl | ha
      · exact ⟨_, by simp, h⟩
      · obtain ⟨b, hb, hp⟩ := ih.2 a ha; exact ⟨b, by simp [hb], hp⟩

/-- The keys of a map, in ascending order. -/
theorem Spec.IsMap.sorted {st : St} {id : Nat} {kd : KeyKind} {f : Key → Option Ptr} (hm : IsMap st id kd f) :
    ∃ ks : List Key, ks.Pairwise Key.Lt ∧ (∀ κ, κ ∈ ks ↔ (f κ).isSome) ∧ All2 (fun e k => IsKey e.1 k) (st.dicts id) ks := by
  obtain ⟨ks, h1, h2⟩ := keysOf hm.asc
  refine ⟨ks, h2, fun κ => ?_, h1⟩
  rw [Option.isSome_iff_exists]
  constructor
  · intro hκ
    obtain ⟨e, he, hk⟩ := (all2_mem h1).2 κ hκ
    exact ⟨e.2, (hm.entries κ e.2).2 ⟨e, he, hk, rfl⟩⟩
  · rintro ⟨p, hp⟩
    obtain ⟨e, he, hk, _⟩ := (hm.entries κ p).1 hp
    obtain ⟨κ', h3, h4⟩ := (all2_mem h1).1 e he
    cases isKey_unique hk h4
    exact h3

/-- C25: `(dict-keys d)` is a list of all the keys, each of them once, in ascending order. -/
theorem C25_keys (k : Nat) {d : Ptr} {id : Nat} {kd : KeyKind} {f : Key → Option Ptr} (sid : Nat) (st : St)
    (hd : Holds d (IsDictAt · id)) (hm : IsMap st id kd f) :
    Returns (callPrim (run k) .dictKeys [d] sid) st fun v st' => ∃ (ks : List Key) (ps : List Ptr), ks.Pairwise Key.Lt ∧ (∀ κ, κ ∈ ks ↔ (f κ).isSome) ∧
      IsList st' v ps ∧ All2 (fun p κ => Holds p (IsKey · κ)) ps ks ∧ Extends st st' := by
  obtain ⟨i1, dv, rfl, hd⟩ := hd
  obtain ⟨ks, h1, h2, h3⟩ := hm.sorted
  obtain ⟨ps, h4, h5⟩ := boxAll_ok ((st.dicts id).map Prod.fst) st
  have h6 : All2 (fun p κ => Holds p (IsKey · κ)) ps ks := by
    generalize st.dicts id = d at h3 h5
    clear h4 h1 h2 hd hm
    induction h3 generalizing ps with
    | nil => cases h5; exact .nil
    | cons ha _ ih =>
      cases h5 with
      | cons hb h5 =>
        obtain ⟨i, w, hp, rfl⟩ := hb
        exact .cons ⟨i, _, hp, ha⟩ (ih _ h5)
  have hx := extends_next st (st.next + ((st.dicts id).map Prod.fst).length) (by omega)
  generalize hs1 : ({ st with next := st.next + ((st.dicts id).map Prod.fst).length } : St) = s1 at h4 hx
  have hy := extends_list s1 ps
  refine ⟨⟨.list, .mk s1.next .list, .none, none⟩, _, ?_, ks, ps, h1, h2, ⟨s1.next, ⟨rfl, rfl⟩, ?_⟩, h6, hx.trans hy⟩
  · simp [callPrim, bDictKeys, ret, checkArgs, argDict, argV, arg, toVariant_var, dictOf, hd.2, h4]
  · simp

/-- C25: `(len d)` is the number of keys (if this number has 32 bits). -/
theorem C25_len (k : Nat) {d : Ptr} {id : Nat} {kd : KeyKind} {f : Key → Option Ptr} (sid : Nat) (st : St)
    (hd : Holds d (IsDictAt · id)) (hm : IsMap st id kd f) :
    Returns (callPrim (run k) .len [d] sid) st fun v st' => ∃ (ks : List Key), ks.Pairwise Key.Lt ∧ (∀ κ, κ ∈ ks ↔ (f κ).isSome) ∧
      (IsInt32 ks.length → IsInt v ks.length) ∧ Extends st st' := by
  obtain ⟨i1, dv, rfl, hd⟩ := hd
  obtain ⟨ks, h1, h2, h3⟩ := hm.sorted
  refine returns_int (wrap32 ks.length) ?_ fun _ _ he hi => ⟨ks, h1, h2, fun h => by rwa [wrap32_id h] at hi, he⟩
  rw [← all2_length h3]
  simp [callPrim, bLen, ret, checkArgs, argV, arg, toVariant_var, hd.1, hd.2]

theorem callAll_append {r : Rec} {d : Ptr} {sid : Nat} : ∀ (l m : List DictOp) (st : St),
    callAll r d sid (l ++ m) st = (callAll r d sid l >>= fun _ => callAll r d sid m) st
  | [], m, st => by simp [callAll]
  | o :: t, m, st => by
    simp only [List.cons_append, callAll, M.bind_apply]
    cases o.call r d sid st with
    | fail f s => rfl
    | ok v s => simp only [callAll_append t m s]; rfl

theorem Spec.OnlyDict.trans {a b c : St} {id : Nat} (h : OnlyDict a b id) (g : OnlyDict b c id) : OnlyDict a c id :=
  ⟨Nat.le_trans h.next g.next, fun i hi => by rw [g.dicts i hi, h.dicts i hi], by
    rw [← h.rest, ← g.rest]⟩

/-- C25: after any history of changes the dictionary is the finite map with this history, and nothing else has changed.
(What the functions answer then is in the theorems above and in `C26_get`.) -/
theorem C25_history {k : Nat} (hk : 3 ≤ k) {d : Ptr} {id : Nat} {kd : KeyKind} {f g : Key → Option Ptr} {ops : List DictOp} (sid : Nat) (st : St)
    (hd : Holds d (IsDictAt · id)) (hm : IsMap st id kd f) (h : History kd f ops g) :
    ∃ st', callAll (run k) d sid ops st = .ok () st' ∧ IsMap st' id kd g ∧ OnlyDict st st' id := by
  induction h with
  | nil => exact ⟨st, rfl, hm, Nat.le_refl _, fun _ _ => rfl, rfl⟩
  | set _ hq hκ hv ih =>
    obtain ⟨s1, h1, h2, h3⟩ := ih
    obtain ⟨i, w, rfl, rfl⟩ := hv
    obtain ⟨u, s2, h4, _, h5, h6⟩ := C25_set hk sid s1 hd h2 hq hκ ⟨i, w, rfl, rfl⟩
    exact ⟨s2, by rw [callAll_append]; simp [h1, callAll, DictOp.call, h4], h5, h3.trans h6⟩
  | remove _ hq hκ ih =>
    obtain ⟨s1, h1, h2, h3⟩ := ih
    obtain ⟨u, s2, h4, _, h5, h6⟩ := C25_remove hk sid s1 hd h2 hq hκ
    exact ⟨s2, by rw [callAll_append]; simp [h1, callAll, DictOp.call, h4], h5, h3.trans h6⟩
  | clear _ ih =>
    obtain ⟨s1, h1, h2, h3⟩ := ih
    obtain ⟨u, s2, h4, h5, h6⟩ := C25_clear k kd sid s1 hd
    exact ⟨s2, by rw [callAll_append]; simp [h1, callAll, DictOp.call, h4], h5, h3.trans h6⟩

end

section
attribute [local instance] demoWorld

/-- An integer key. -/
def demoInt (i : Nat) (x : Int) : Ptr := .mk i (.var ⟨.int, .mk (i + 1) (.int x), .none, none⟩)

/-- A history with integer keys: two entries, one of them changed, another one removed. -/
example : ∃ g, History .int (fun _ => none) [.set (demoInt 0 1) (demoInt 2 7), .set (demoInt 4 2) (demoInt 6 8), .set (demoInt 8 1) (demoInt 10 9),
    .remove (demoInt 12 2)] g ∧ g (.int 1) = some (.mk 11 (.int 9)) ∧ g (.int 2) = none := by
  have k : ∀ i x, Holds (demoInt i x) (IsKey · (.int x)) := fun i x => ⟨_, _, rfl, rfl, _, rfl⟩
  refine ⟨_, .remove (.set (.set (.set (l := []) .nil (k 0 1) rfl ⟨_, _, rfl, rfl⟩) (k 4 2) rfl ⟨_, _, rfl, rfl⟩) (k 8 1) rfl ⟨_, _, rfl, rfl⟩) (k 12 2) rfl, rfl, rfl⟩

/-- A dictionary with two entries. -/
example : IsMap { dicts := fun _ => [(⟨.string, .mk 1 (.str c!"a"), .none, none⟩, .mk 2 (.int 1)), (⟨.string, .mk 3 (.str c!"b"), .none, none⟩, .mk 4 (.int 2))] } 0 .str
    (update (update (fun _ => none) (.str c!"a") (some (.mk 2 (.int 1)))) (.str c!"b") (some (.mk 4 (.int 2)))) := by
  have ha : IsKey ⟨.string, .mk 1 (.str c!"a"), .none, none⟩ (.str c!"a") := ⟨⟨rfl, _, rfl⟩, by simp [NoZero]⟩
  have hb : IsKey ⟨.string, .mk 3 (.str c!"b"), .none, none⟩ (.str c!"b") := ⟨⟨rfl, _, rfl⟩, by simp [NoZero]⟩
  refine ⟨?_, ?_, ?_⟩
  · simp only [List.mem_cons, List.not_mem_nil, or_false]
    rintro e (rfl | rfl)
    · exact ⟨_, ha, rfl⟩
    · exact ⟨_, hb, rfl⟩
  · simp only [List.pairwise_cons, List.mem_cons, List.not_mem_nil, or_false, forall_eq, false_implies, implies_true, List.Pairwise.nil, and_true]
    exact ⟨_, _, ha, hb, .head (by decide)⟩
  · intro k p
    simp only [update, List.mem_cons, List.not_mem_nil, or_false, exists_eq_or_imp, exists_eq_left]
    by_cases h1 : k = .str c!"b"
    · subst h1
      simp only [if_true, Option.some.injEq]
      constructor
      · intro h; exact .inr ⟨hb, h⟩
      · rintro (⟨h, _⟩ | ⟨_, h⟩)
        · exact absurd (isKey_unique h ha) (by decide)
        · exact h
    · by_cases h2 : k = .str c!"a"
      · subst h2
        simp only [h1, if_false, if_true, Option.some.injEq]
        constructor
        · intro h; exact .inl ⟨ha, h⟩
        · rintro (⟨_, h⟩ | ⟨h, _⟩)
          · exact h
          · exact absurd (isKey_unique h hb) (by decide)
      · simp only [h1, h2, if_false, reduceCtorEq, false_iff]
        rintro (⟨h, _⟩ | ⟨h, _⟩)
        · exact h2 (isKey_unique h ha)
        · exact h1 (isKey_unique h hb)

/-- The same with a script. -/
example : demoScripts [c!"(def d (make-dict)) (dict-set d 2 7) (dict-set d 1 (list 5 6)) (dict-set d 3 9) (dict-remove d 3)",
    c!"(println (dict-get d 2) (dict-get d 1) (dict-keys d) (len d) (dict-contains-key d 3))"] = c!"7 (5 6) (1 2) 2 #f\n" := by decide +kernel

/-- The way a script ends. -/
def demoFail (code : Str) : Option Fail :=
  match createDefaultScope {} with
  | .ok sid st => match lispEval (run 60) code sid [] false false st with
    | .ok _ _ => none
    | .fail f _ => some f
  | .fail f _ => some f

/-- C26, negative part: getting a stored nil dereferences a null pointer. -/
theorem C26_nil_wrong : demoFail c!"(def d (make-dict)) (dict-set d 1 nil) (dict-get d 1)" = some (.ub .nullDeref) := by decide +kernel

/-- C26, negative part: a stored symbol comes back as a string. -/
theorem C26_symbol_wrong : demoScripts [c!"(def d (make-dict)) (def s (quote a)) (dict-set d 1 s) (println (typestr s) (typestr (dict-get d 1)))"] =
    c!"Symbol String\n" := by decide +kernel

/-- C26, negative part: a stored dictionary comes back as the undefined value. -/
theorem C26_dict_wrong : demoScripts [c!"(def d (make-dict)) (dict-set d 1 (make-dict)) (println (dict-get d 1))"] = c!"<undefined>\n" := by decide +kernel

/-- Keys of different types are excluded in C25 because the order by which the entries are kept is not transitive for them. -/
theorem C25_mixed_wrong : demoScripts [c!"(println (< \"10\" \"9\") (< \"9\" 10) (< \"10\" 10))"] = c!"#t #t #f\n" := by decide +kernel

end

end Fuel
