import Verif.LemSearch
import Verif.SpecCore
import Verif.PropsScript
import Verif.PropsList
import Verif.PropsAssign
import Verif.PropsText
import Verif.PropsBits
import Verif.PropsNum
import Verif.LemFloat
import Verif.PropsFormat
/-!
# Lemmas about the reference semantics of the core language
-/

set_option linter.unusedSectionVars false
set_option linter.unusedSimpArgs false

namespace Fuel

open Spec Spec.Core

section
variable [World]

/-! ## Values stay values -/

/-- The state has grown: old lists, functions and frames are unchanged. -/
structure Grow (st : St) (μ : Emb) (N : Nat) (st' : St) (μ' : Emb) (N' : Nat) : Prop where
  next : st.next ≤ st'.next
  lists : ∀ i, i < st.next → st'.lists i = st.lists i
  clos : ∀ i, i < st.next → st'.clos i = st.clos i
  count : N ≤ N'
  same : ∀ f, f < N → μ' f = μ f
  dict : ∀ a i, μ.dict a = some i → μ'.dict a = some i

theorem Grow.refl (st : St) (μ : Emb) (N : Nat) : Grow st μ N st μ N := ⟨Nat.le_refl _, fun _ _ => rfl, fun _ _ => rfl, Nat.le_refl _, fun _ _ => rfl, fun _ _ h => h⟩

theorem Grow.trans {a b c : St} {μ ν ρ : Emb} {N N' N'' : Nat} (h : Grow a μ N b ν N') (g : Grow b ν N' c ρ N'') : Grow a μ N c ρ N'' where
  next := Nat.le_trans h.next g.next
  lists i hi := by rw [g.lists i (Nat.lt_of_lt_of_le hi h.next), h.lists i hi]
  clos i hi := by rw [g.clos i (Nat.lt_of_lt_of_le hi h.next), h.clos i hi]
  count := Nat.le_trans h.count g.count
  same f hf := by rw [g.same f (Nat.lt_of_lt_of_le hf h.count), h.same f hf]
  dict a i e := g.dict a i (h.dict a i e)

theorem grow_of_extends {st st' : St} (h : Extends st st') (μ : Emb) (N : Nat) : Grow st μ N st' μ N :=
  ⟨h.next, h.lists, h.clos, Nat.le_refl _, fun _ _ => rfl, fun _ _ h => h⟩

mutual
theorem isVal_grow {st st' : St} {μ μ' : Emb} {N N' : Nat} (g : Grow st μ N st' μ' N') {v : Variant} {x : Val} :
    IsVal st μ N v x → IsVal st' μ' N' v x
  | .int h u => .int h u
  | .dbl h u => .dbl h u
  | .str h u => .str h u
  | .sym h u => .sym h u
  | .bool h u => .bool h u
  | .nil h u => .nil h u
  | .undef h u => .undef h u
  | .list h u hi hl => .list h u (Nat.lt_of_lt_of_le hi g.next) (g.lists _ hi ▸ areVals_grow g hl)
  | .prim he h u => .prim he h u
  | .clo h u hk hs hx hc hf h1 h2 h3 h4 h5 h6 =>
    .clo h u hk hs hx (Nat.lt_of_lt_of_le hc g.next) (Nat.lt_of_lt_of_le hf g.count) (by rw [g.clos _ hc, g.same _ hf, h1]) (by rw [g.clos _ hc, h2])
      (h3.mono g.next g.lists) h4 (h5.mono g.next g.lists) h6
  | .dict h u ha => .dict h u (g.dict _ _ ha)
theorem areVals_grow {st st' : St} {μ μ' : Emb} {N N' : Nat} (g : Grow st μ N st' μ' N') {ps : List Ptr} {l : List Val} :
    AreVals st μ N ps l → AreVals st' μ' N' ps l
  | .nil => .nil
  | .value h t => .value (isVal_grow g h) (areVals_grow g t)
  | .bare hi h t => .bare (Nat.lt_of_lt_of_le hi g.next) (g.lists _ hi ▸ areVals_grow g h) (areVals_grow g t)
end

theorem isVal_extends {st st' : St} {μ : Emb} {N : Nat} {v : Variant} {x : Val} (h : Extends st st') (hv : IsVal st μ N v x) :
    IsVal st' μ N v x := isVal_grow (grow_of_extends h μ N) hv

theorem areVals_extends {st st' : St} {μ : Emb} {N : Nat} {ps : List Ptr} {l : List Val} (h : Extends st st') (hv : AreVals st μ N ps l) :
    AreVals st' μ N ps l := areVals_grow (grow_of_extends h μ N) hv

theorem isVal_unq {st : St} {μ : Emb} {N : Nat} {v : Variant} {x : Val} (h : IsVal st μ N v x) : v.unq ≠ .splicing := by
  cases h <;> assumption

theorem nsp {v : Variant} (h : v.unq = .none) : v.unq ≠ .splicing := by rw [h]; exact nofun

/-- The evaluated arguments have the given values. -/
abbrev Args (st : St) (μ : Emb) (N : Nat) (ps : List Ptr) (l : List Val) : Prop := All2 (fun p x => Holds p (IsVal st μ N · x)) ps l

theorem args_areVals {st : St} {μ : Emb} {N : Nat} {ps : List Ptr} {l : List Val} (h : Args st μ N ps l) : AreVals st μ N ps l := by
  induction h with
  | nil => exact .nil
  | cons h _ ih => obtain ⟨i, v, rfl, hv⟩ := h; exact .value hv ih

theorem args_grow {st st' : St} {μ μ' : Emb} {N N' : Nat} (g : Grow st μ N st' μ' N') {ps : List Ptr} {l : List Val} (h : Args st μ N ps l) :
    Args st' μ' N' ps l := by
  induction h with
  | nil => exact .nil
  | cons h _ ih => obtain ⟨i, v, rfl, hv⟩ := h; exact .cons ⟨i, v, rfl, isVal_grow g hv⟩ ih

theorem areVals_mkVariant {st : St} {μ : Emb} {N : Nat} {p : Ptr} {ps : List Ptr} {x : Val} {l : List Val} (h : AreVals st μ N (p :: ps) (x :: l)) :
    ∃ v, mkVariant p = .ok v ∧ IsVal st μ N v x := by
  cases h with
  | value h _ => exact ⟨_, rfl, h⟩
  | bare hi h _ => exact ⟨_, rfl, .list ⟨rfl, rfl⟩ (nsp rfl) hi h⟩

theorem areVals_tail {st : St} {μ : Emb} {N : Nat} {p : Ptr} {ps : List Ptr} {x : Val} {l : List Val} (h : AreVals st μ N (p :: ps) (x :: l)) :
    AreVals st μ N ps l := by
  cases h with
  | value _ h => exact h
  | bare _ _ h => exact h

theorem areVals_cons {st : St} {μ : Emb} {N : Nat} {p : Ptr} {x : Val} {l : List Val} {ps ps' : List Ptr} {l' : List Val} (h : AreVals st μ N (p :: ps') (x :: l'))
    (t : AreVals st μ N ps l) : AreVals st μ N (p :: ps) (x :: l) := by
  cases h with
  | value h _ => exact .value h t
  | bare hi h _ => exact .bare hi h t

theorem areVals_append {st : St} {μ : Emb} {N : Nat} : ∀ {ps qs : List Ptr} {l m : List Val}, AreVals st μ N ps l → AreVals st μ N qs m →
    AreVals st μ N (ps ++ qs) (l ++ m)
  | _, _, _, _, .nil, g => g
  | _, _, _, _, .value h t, g => .value h (areVals_append t g)
  | _, _, _, _, .bare hi h t, g => .bare hi h (areVals_append t g)

theorem areVals_reverse {st : St} {μ : Emb} {N : Nat} : ∀ {ps : List Ptr} {l : List Val}, AreVals st μ N ps l → AreVals st μ N ps.reverse l.reverse
  | _, _, .nil => .nil
  | _, _, .value h t => by
    simp only [List.reverse_cons]; exact areVals_append (areVals_reverse t) (.value h .nil)
  | _, _, .bare hi h t => by
    simp only [List.reverse_cons]; exact areVals_append (areVals_reverse t) (.bare hi h .nil)

theorem areVals_length {st : St} {μ : Emb} {N : Nat} : ∀ {ps : List Ptr} {l : List Val}, AreVals st μ N ps l → ps.length = l.length
  | _, _, .nil => rfl
  | _, _, .value _ t => by simp [areVals_length t]
  | _, _, .bare _ _ t => by simp [areVals_length t]

theorem areVals_get {st : St} {μ : Emb} {N : Nat} {ps : List Ptr} {l : List Val} (h : AreVals st μ N ps l) {i : Nat} {x : Val} (hx : l[i]? = some x) :
    ∃ p v, ps[i]? = some p ∧ mkVariant p = .ok v ∧ IsVal st μ N v x := by
  induction i generalizing ps l with
  | zero =>
    cases l with
    | nil => simp at hx
    | cons y l =>
      simp at hx; subst hx
      cases ps with
      | nil => cases h
      | cons p ps =>
        obtain ⟨v, h1, h2⟩ := areVals_mkVariant h
        exact ⟨p, v, rfl, h1, h2⟩
  | succ i ih =>
    cases l with
    | nil => simp at hx
    | cons y l =>
      cases ps with
      | nil => cases h
      | cons p ps => simpa using ih (areVals_tail h) (by simpa using hx)

/-! ## Built-in functions -/

/-- The computation returns the value and creates only new objects. -/
def Gives (m : M (Option Variant)) (st : St) (μ : Emb) (N : Nat) (x : Val) : Prop :=
  ∃ r st', m st = .ok (some r) st' ∧ Extends st st' ∧ IsVal st' μ N r x

section
variable {m : M (Option Variant)} {st : St} {μ : Emb} {N : Nat}

theorem gives_int (i : Int) (h : m st = ret (mkInt i) st) : Gives m st μ N (.int i) :=
  ⟨_, _, h, extends_next _ _ (Nat.le_succ _), .int (isInt_mk _ _ _ _) (nsp rfl)⟩
theorem gives_dbl (d : Dbl) (h : m st = ret (mkDbl d) st) : Gives m st μ N (.dbl d) :=
  ⟨_, _, h, extends_next _ _ (Nat.le_succ _), .dbl (isDbl_mk _ _ _ _) (nsp rfl)⟩
theorem gives_str (s : Str) (h : m st = ret (mkStr s) st) : Gives m st μ N (.str s) :=
  ⟨_, _, h, extends_next _ _ (Nat.le_succ _), .str (isStr_mk _ _ _ _) (nsp rfl)⟩
theorem gives_bool (b : Bool) (h : m st = ret (mkBool b) st) : Gives m st μ N (.bool b) :=
  ⟨_, _, h, extends_next _ _ (Nat.le_succ _), .bool (isBool_mk _ _ _ _) (nsp rfl)⟩
theorem gives_list {ps : List Ptr} {l : List Val} (h : m st = ret (mkList ps) st) (hp : AreVals st μ N ps l) : Gives m st μ N (.list l) := by
  refine ⟨_, _, h, extends_list _ _, .list ⟨rfl, rfl⟩ (nsp rfl) (Nat.lt_succ_self _) ?_⟩
  simp only [fset_self]
  exact areVals_extends (extends_list _ _) hp
theorem gives_same {v : Variant} {x : Val} (h : m st = .ok (some v) st) (hv : IsVal st μ N v x) : Gives m st μ N x :=
  ⟨v, st, h, Extends.refl _, hv⟩

theorem isVal_int_inv {v : Variant} {i : Int} (h : IsVal st μ N v (.int i)) : IsInt v i := by cases h; assumption
theorem isVal_dbl_inv {v : Variant} {d : Dbl} (h : IsVal st μ N v (.dbl d)) : IsDbl v d := by cases h; assumption
theorem isVal_str_inv {v : Variant} {i : Str} (h : IsVal st μ N v (.str i)) : IsStr v i := by cases h; assumption
theorem isVal_sym_inv {v : Variant} {i : Str} (h : IsVal st μ N v (.sym i)) : IsSym v i := by cases h; assumption
theorem isVal_bool_inv {v : Variant} {i : Bool} (h : IsVal st μ N v (.bool i)) : IsBool v i := by cases h; assumption
theorem isVal_nil_inv {v : Variant} (h : IsVal st μ N v .nil) : IsNil v := by cases h; assumption
theorem isVal_list_inv {v : Variant} {l : List Val} (h : IsVal st μ N v (.list l)) : ∃ ps, IsListOrNil st v ps ∧ AreVals st μ N ps l ∧ v.type = .list := by
  cases h with | list h _ _ hl => exact ⟨_, .inl ⟨_, h, rfl⟩, hl, h.1⟩
theorem isVal_asList {v : Variant} {x : Val} {l : List Val} (h : IsVal st μ N v x) (hx : AsList x l) : ∃ ps, IsListOrNil st v ps ∧ AreVals st μ N ps l := by
  cases hx with
  | list => obtain ⟨ps, h1, h2, _⟩ := isVal_list_inv h; exact ⟨ps, h1, h2⟩
  | nil => exact ⟨[], .inr ⟨isVal_nil_inv h, rfl⟩, .nil⟩

theorem args_one {ps : List Ptr} {x : Val} (h : Args st μ N ps [x]) : ∃ i v, ps = [.mk i (.var v)] ∧ IsVal st μ N v x := by
  cases h with | cons h t => cases t; obtain ⟨i, v, rfl, hv⟩ := h; exact ⟨i, v, rfl, hv⟩
theorem args_two {ps : List Ptr} {x y : Val} (h : Args st μ N ps [x, y]) :
    ∃ i v j w, ps = [.mk i (.var v), .mk j (.var w)] ∧ IsVal st μ N v x ∧ IsVal st μ N w y := by
  cases h with | cons h t => obtain ⟨j, w, rfl, hw⟩ := args_one t; obtain ⟨i, v, rfl, hv⟩ := h; exact ⟨i, v, j, w, rfl, hv, hw⟩
theorem args_three {ps : List Ptr} {x y z : Val} (h : Args st μ N ps [x, y, z]) :
    ∃ i v j w k u, ps = [.mk i (.var v), .mk j (.var w), .mk k (.var u)] ∧ IsVal st μ N v x ∧ IsVal st μ N w y ∧ IsVal st μ N u z := by
  cases h with | cons h t => obtain ⟨j, w, k, u, rfl, hw, hu⟩ := args_two t; obtain ⟨i, v, rfl, hv⟩ := h; exact ⟨i, v, j, w, k, u, rfl, hv, hw, hu⟩
end

theorem folds_ok {n : Nat} {op : ArithOp} {o : Int → Int → Int} (ho : ∀ a b, op.int a b = chk32 (o a b)) {μ : Emb} {N : Nat} {a : Int} {l : List Int} {r : Int}
    (h : Folds o a l r) : ∀ {st : St} {v : Variant} {ps : List Ptr}, IsVal st μ N v (.int a) → Args st μ N ps (l.map .int) →
    Gives (do let r ← arithLoop n op v ps; pure (some r)) st μ N (.int r) := by
  induction h with
  | nil =>
    intro st v ps hv hp
    cases hp
    exact gives_same (by simp [arithLoop]) hv
  | @cons a b l r hi _ ih =>
    intro st v ps hv hp
    cases hp with
    | cons h t =>
      obtain ⟨i, w, rfl, hw⟩ := h
      obtain ⟨u, st', h1, h2, h3⟩ := ih (st := { st with next := st.next + 1 }) (v := ⟨.int, .mk st.next (.int (o a b)), .none, none⟩)
        (.int (isInt_mk _ _ _ _) (nsp rfl)) (args_grow (grow_of_extends (extends_next st _ (Nat.le_succ _)) μ N) t)
      refine ⟨u, st', ?_, (extends_next st _ (Nat.le_succ _)).trans h2, h3⟩
      have : arith n op v w st = mkInt (o a b) st := by
        simp [arith_int (isVal_int_inv hv) (isVal_int_inv hw), ho, chk32, hi]
      simpa [arithLoop, mkVariant_var, this] using h1

/-! ## Text -/

theorem varStr_dbl {st : St} {n : Nat} {v : Variant} {d : Dbl} (h : IsDbl v d) : varStr st (n + 1) v = .ok (World.dToStr d) := by
  obtain ⟨h1, i, h2⟩ := h
  simp [varStr, h1, h2]

theorem varStr_asym {st : St} {n : Nat} {v : Variant} (h : v.type = .nil) : varStr st (n + 1) v = .ok c!"NIL" := by simp [varStr, h]

mutual
theorem shown_ok {st : St} {μ : Emb} {N : Nat} {q : Bool} {x : Val} {t : Str} : Shown q x t →
    (∀ v, IsVal st μ N v x → ∃ K, ∀ n, K ≤ n → (q = false → varStr st n v = .ok t) ∧ (q = true → ∀ i, expandStr st n (.mk i (.var v)) = .ok t)) ∧
    (∀ l i, x = .list l → AreVals st μ N (st.lists i) l → q = true → ∃ K, ∀ n, K ≤ n → expandStr st n (.mk i .list) = .ok t)
  | .int => ⟨fun v hv => ⟨5, fun n hn => by
      obtain ⟨n, rfl⟩ : ∃ m, n = m + 3 := ⟨n - 3, by omega⟩
      have hv := isVal_int_inv hv
      exact ⟨fun _ => varStr_int hv, fun _ i => by simp [expandStr, hv.1, ptrStr_var, varStr_int hv]⟩⟩, fun l i h => by cases h⟩
  | .dbl => ⟨fun v hv => ⟨5, fun n hn => by
      obtain ⟨n, rfl⟩ : ∃ m, n = m + 3 := ⟨n - 3, by omega⟩
      have hv := isVal_dbl_inv hv
      exact ⟨fun _ => varStr_dbl hv, fun _ i => by simp [expandStr, hv.1, ptrStr_var, varStr_dbl hv]⟩⟩, fun l i h => by cases h⟩
  | .str => ⟨fun v hv => ⟨5, fun n hn => by
      obtain ⟨n, rfl⟩ : ∃ m, n = m + 3 := ⟨n - 3, by omega⟩
      exact ⟨fun _ => varStr_str (isVal_str_inv hv), nofun⟩⟩, fun l i h => by cases h⟩
  | .quoted => ⟨fun v hv => ⟨5, fun n hn => by
      obtain ⟨n, rfl⟩ : ∃ m, n = m + 3 := ⟨n - 3, by omega⟩
      have hv := isVal_str_inv hv
      exact ⟨nofun, fun _ i => by simp [expandStr, hv.1, varStr_str hv]⟩⟩, fun l i h => by cases h⟩
  | .sym => ⟨fun v hv => ⟨5, fun n hn => by
      obtain ⟨n, rfl⟩ : ∃ m, n = m + 5 := ⟨n - 5, by omega⟩
      have hv := isVal_sym_inv hv
      exact ⟨fun _ => varStr_sym hv, fun _ i => by simp [expandStr, hv.1, ptrStr_var, varStr_sym hv]⟩⟩, fun l i h => by cases h⟩
  | .bool => ⟨fun v hv => ⟨5, fun n hn => by
      obtain ⟨n, rfl⟩ : ∃ m, n = m + 3 := ⟨n - 3, by omega⟩
      have hv := isVal_bool_inv hv
      exact ⟨fun _ => by rw [varStr_bool hv]; rfl, fun _ i => by simp [expandStr, hv.1, ptrStr_var, varStr_bool hv, boolText]⟩⟩, fun l i h => by cases h⟩
  | .nil => ⟨fun v hv => ⟨5, fun n hn => by
      obtain ⟨n, rfl⟩ : ∃ m, n = m + 3 := ⟨n - 3, by omega⟩
      have hv : v.type = .nil := isVal_nil_inv hv
      exact ⟨fun _ => by simp [varStr, hv], fun _ i => by simp [expandStr, hv, ptrStr_var, varStr]⟩⟩, fun l i h => by cases h⟩
  | .undef => ⟨fun v hv => ⟨5, fun n hn => by
      obtain ⟨n, rfl⟩ : ∃ m, n = m + 3 := ⟨n - 3, by omega⟩
      have hv : v.type = .undefined := by cases hv; assumption
      exact ⟨fun _ => by simp [varStr, hv], fun _ i => by simp [expandStr, hv, ptrStr_var, varStr]⟩⟩, fun l i h => by cases h⟩
  | .list (ts := ts) hl => ⟨fun v hv => by
      cases hv with
      | @list _ i _ h _ _ hv =>
        obtain ⟨K, hK⟩ := shownAll_ok hl _ hv
        refine ⟨K + 3, fun n hn => ?_⟩
        obtain ⟨n, rfl⟩ : ∃ m, n = m + 3 := ⟨n - 3, by omega⟩
        have hs : ∀ j, K ≤ j → varStr st (j + 1) v = .ok (c!"(" ++ joined ts ++ c!")") := fun j hj => by
          simp [varStr, h.1, h.2, toEnumerable, joinLoop_joined (hK j hj)]
        exact ⟨fun _ => hs _ (by omega), fun _ i => by
          simp only [expandStr, h.1, ptrStr_var]
          exact hs n (by omega)⟩, fun l i h hv _ => by
      cases h
      obtain ⟨K, hK⟩ := shownAll_ok hl _ hv
      refine ⟨K + 1, fun n hn => ?_⟩
      obtain ⟨n, rfl⟩ : ∃ m, n = m + 1 := ⟨n - 1, by omega⟩
      simp [expandStr, joinLoop_joined (hK n (by omega))]⟩
theorem shownAll_ok {st : St} {μ : Emb} {N : Nat} {l : List Val} {ts : List Str} : ShownAll true l ts →
    ∀ ps, AreVals st μ N ps l → ∃ K, ∀ n, K ≤ n → All2 (fun p t => expandStr st n p = .ok t) ps ts
  | .nil => fun ps h => by cases h; exact ⟨0, fun _ _ => .nil⟩
  | .cons h t => fun ps hp => by
    have h1 := shown_ok (st := st) (μ := μ) (N := N) h
    have h2 := shownAll_ok (st := st) (μ := μ) (N := N) t
    cases hp with
    | value hv ht =>
      obtain ⟨K, hK⟩ := h1.1 _ hv
      obtain ⟨K', hK'⟩ := h2 _ ht
      exact ⟨max K K', fun n hn => .cons ((hK n (by omega)).2 rfl _) (hK' n (by omega))⟩
    | bare hi hv ht =>
      obtain ⟨K, hK⟩ := h1.2 _ _ rfl hv rfl
      obtain ⟨K', hK'⟩ := h2 _ ht
      exact ⟨max K K', fun n hn => .cons (hK n (by omega)) (hK' n (by omega))⟩
end

theorem shown_args {st : St} {μ : Emb} {N : Nat} {ps : List Ptr} {l : List Val} (hp : Args st μ N ps l) {ts : List Str} (h : ShownAll false l ts) :
    ∃ K, ∀ n, K ≤ n → All2 (fun p t => ptrStr st n p = .ok t) ps ts := by
  induction hp generalizing ts with
  | nil => cases h; exact ⟨0, fun _ _ => .nil⟩
  | cons hv _ ih =>
    cases h with
    | cons h t =>
      obtain ⟨i, v, rfl, hv⟩ := hv
      obtain ⟨K, hK⟩ := (shown_ok h).1 _ hv
      obtain ⟨K', hK'⟩ := ih t
      refine ⟨max K K' + 1, fun n hn => .cons ?_ (hK' n (by omega))⟩
      obtain ⟨n, rfl⟩ : ∃ m, n = m + 1 := ⟨n - 1, by omega⟩
      rw [ptrStr_var]
      exact (hK n (by omega)).1 rfl

theorem shownAll_length {q : Bool} {l : List Val} {ts : List Str} (h : ShownAll q l ts) : l.length = ts.length := by
  induction l generalizing ts with
  | nil => cases h; rfl
  | cons v l ih => cases h with | cons _ h => simp [ih h]

/-- The texts of the elements of a list without lists. -/
theorem shown_flat {st : St} {μ : Emb} {N : Nat} {ps : List Ptr} {l : List Val} (hp : AreVals st μ N ps l) (hno : ∀ l', .list l' ∉ l) {ts : List Str}
    (h : ShownAll false l ts) : ∃ K, ∀ n, K ≤ n → All2 (fun p t => ptrStr st n p = .ok t) ps ts := by
  induction l generalizing ps ts with
  | nil => cases hp; cases h; exact ⟨0, fun _ _ => .nil⟩
  | cons x l ih =>
    cases hp with
    | bare => exact absurd (List.mem_cons_self ..) (hno _)
    | value hv hp =>
      cases h with
      | cons h t =>
        obtain ⟨K, hK⟩ := (shown_ok h).1 _ hv
        obtain ⟨K', hK'⟩ := ih hp (fun l' hl => hno l' (List.mem_cons_of_mem _ hl)) t
        refine ⟨max K K' + 1, fun n hn => .cons ?_ (hK' n (by omega))⟩
        obtain ⟨n, rfl⟩ : ∃ m, n = m + 1 := ⟨n - 1, by omega⟩
        rw [ptrStr_var]
        exact (hK n (by omega)).1 rfl

/-! ## The names of the built-in functions -/

/-- The functions and special forms of the core language. -/
def coreTable : List (Str × Builtin × Bool) :=
  [(c!"+", .add, false), (c!"add", .add, false), (c!"string", .add, false), (c!"-", .sub, false), (c!"sub", .sub, false),
   (c!"*", .mul, false), (c!"mul", .mul, false), (c!"/", .div, false), (c!"div", .div, false), (c!"%", .mod, false), (c!"mod", .mod, false),
   (c!"<", .lt, false), (c!">", .gt, false), (c!"<=", .le, false), (c!">=", .ge, false), (c!"=", .eq, false), (c!"==", .eq, false),
   (c!"equal", .eq, false), (c!"!=", .ne, false), (c!"!", .not, false), (c!"not", .not, false), (c!"list", .list, false),
   (c!"cons", .cons, false), (c!"first", .first, false), (c!"car", .first, false), (c!"rest", .rest, false), (c!"cdr", .rest, false),
   (c!"last", .last, false), (c!"nth", .nth, false), (c!"len", .len, false), (c!"append", .append, false), (c!"reverse", .reverse, false),
   (c!"str", .str, false), (c!"type", .type, false), (c!"typestr", .typestr, false), (c!"sym", .sym, false), (c!"nop", .nop, false), (c!"print", .print, false), (c!"println", .println, false), (c!"return", .return_, false),
   (c!"upper-case", .upper, false), (c!"lower-case", .lower, false), (c!"trim", .trim, false), (c!"replace", .replace, false), (c!"search", .search, false),
   (c!"parse-integer", .parseInteger, false), (c!"eval", .eval, false), (c!"delvar", .delvar, false), (c!"rval", .rval, true), (c!"or", .or, true), (c!"||", .or, true),
   (c!"parse-float", .parseFloat, false), (c!"int", .toInt, false), (c!"float", .toFloat, false), (c!"&", .band, false), (c!"|", .bor, false), (c!"^", .bxor, false), (c!"~", .bnot, false), (c!"<<", .shl, false), (c!">>", .shr, false), (c!"slice", .slice, false), (c!"Math-Pi", .mathPi, false), (c!"Math-Pow", .mathPow, false),
   (c!"format", .format, false), (c!"flush", .flush, false), (c!"sleep", .sleep, false), (c!"fuel", .fuel, false), (c!"version", .version, false), (c!"copyright", .copyright, false),
   (c!"readline", .readline, false), (c!"make-dict", .makeDict, false), (c!"dict-set", .dictSet, false), (c!"dict-get", .dictGet, false), (c!"dict-remove", .dictRemove, false), (c!"dict-keys", .dictKeys, false), (c!"dict-clear", .dictClear, false), (c!"dict-contains-key", .dictContainsKey, false), (c!"dict-contains-value", .dictContainsValue, false),
    (c!"evalstr", .evalstr, false), (c!"import", .import_, false), (c!"platform", .platform, false), (c!"map", .map, false), (c!"reduce", .reduce, false), (c!"apply", .apply, false),
   (c!"quote", .quote, true), (c!"quasiquote", .quasiquote, true), (c!"define-macro", .defineMacroEval, true),
   (c!"define-macro-eval", .defineMacroEval, true), (c!"if", .if_, true), (c!"while", .while_, true), (c!"do", .do_, true), (c!"begin", .do_, true),
   (c!"and", .and, true), (c!"&&", .and, true), (c!"def", .def_, true), (c!"gdef", .gdef, true), (c!"setf", .setf, true),
   (c!"fn", .fn, true), (c!"lambda", .fn, true), (c!"defn", .defn, true), (c!"gdefn", .gdefn, true)]

set_option maxRecDepth 20000 in
theorem core_entries : ∀ e ∈ defaultTable, ∀ t ∈ coreTable, e.name = t.1 → e.fn = t.2.1 ∧ e.special = t.2.2 := by decide +kernel

set_option maxRecDepth 20000 in
theorem core_names : ∀ t ∈ coreTable, t.1 ∈ defaultTable.map Entry.name := by decide +kernel

theorem core_entry {e : Entry} (he : e ∈ defaultTable) (t : Str × Builtin × Bool) (ht : t ∈ coreTable) (hn : e.name = t.1) :
    e.fn = t.2.1 ∧ e.special = t.2.2 := core_entries e he t ht hn

theorem cmp_gives {k sid : Nat} {op : CmpOp} {b : Builtin} (hb : ∀ l, callPrim (run k) b l sid = ret (bCmp op k l sid)) {st : St} {μ : Emb} {N : Nat}
    {i j : Nat} {v w : Variant} {r : Bool} (h : op.run st k v w = .ok r) :
    Gives (callPrim (run k) b [.mk i (.var v), .mk j (.var w)] sid) st μ N (.bool r) := by
  refine gives_bool r ?_
  rw [hb]
  simp [bCmp, ret, checkArgs, argV, arg, toVariant_var, M.rd_apply, h]

theorem each_shows {st : St} {μ : Emb} {N : Nat} {ps : List Ptr} {l : List Val} (hp : Args st μ N ps l) {ts : List Str} (h : Each Plain l ts) :
    Each (fun p t => Holds p (Shows · t)) ps ts := by
  induction hp generalizing ts with
  | nil => cases h; exact .nil
  | cons hv _ ih =>
    cases h with
    | cons h t =>
      obtain ⟨i, v, rfl, hv⟩ := hv
      refine .cons ⟨i, v, rfl, ?_⟩ (ih t)
      cases h with
      | str => exact .inl (isVal_str_inv hv)
      | sym => exact .inr (.inl (isVal_sym_inv hv))
      | int => exact .inr (.inr (.inl ⟨_, isVal_int_inv hv, rfl⟩))
      | dbl => exact .inr (.inr (.inr ⟨_, isVal_dbl_inv hv, rfl⟩))

theorem arithLoop_strings' {μ : Emb} {N n : Nat} {v : Variant} {s : Str} {st : St} (hv : IsVal st μ N v (.str s)) {ps : List Ptr} {ts : List Str}
    (h : Each (fun p t => Holds p (Shows · t)) ps ts) :
    Gives (do let r ← arithLoop (n + 1) .add v ps; pure (some r)) st μ N (.str (s ++ ts.flatten)) := by
  induction h generalizing v s st with
  | nil => exact gives_same (v := v) (by simp [arithLoop]) (by simpa using hv)
  | @cons a t l m hp h ih =>
    obtain ⟨i, w, rfl, hw⟩ := hp
    obtain ⟨u, st', h1, h2, h3⟩ := ih (st := { st with next := st.next + 1 }) (v := ⟨.string, .mk st.next (.str (s ++ t)), .none, none⟩) (.str (isStr_mk st.next (s ++ t) .none none) (nsp rfl))
    refine ⟨u, st', ?_, (extends_next _ _ (Nat.le_succ _)).trans h2, by simpa using h3⟩
    have hv := isVal_str_inv hv
    simpa [arithLoop, mkVariant_var, arith_string (.inl hv) hw (.inl hv.1)] using h1

theorem each_lists {st : St} {μ : Emb} {N : Nat} {ps : List Ptr} {l : List Val} (hp : Args st μ N ps l) {ls : List (List Val)} (h : Each AsList l ls) :
    ∃ pss, Each (fun q l => Holds q (IsListOrNil st · l)) ps pss ∧ AreVals st μ N pss.flatten ls.flatten := by
  induction hp generalizing ls with
  | nil => cases h; exact ⟨[], .nil, .nil⟩
  | cons hv _ ih =>
    cases h with
    | cons h t =>
      obtain ⟨i, v, rfl, hv⟩ := hv
      obtain ⟨qs, h1, h2⟩ := isVal_asList hv h
      obtain ⟨pss, h3, h4⟩ := ih t
      exact ⟨qs :: pss, .cons ⟨i, v, rfl, h1⟩ h3, by simpa using areVals_append h2 h4⟩

def kindOf : Val → LispType
  | .int _ => .int
  | .dbl _ => .double
  | .str _ => .string
  | .sym _ => .symbol
  | .bool _ => .bool
  | .nil => .nil
  | .undef => .undefined
  | .list _ => .list
  | .prim _ => .function
  | .clo _ _ _ => .function
  | .dict _ => .native

theorem isVal_type {st : St} {μ : Emb} {N : Nat} {v : Variant} {x : Val} (h : IsVal st μ N v x) : v.type = kindOf x := by
  cases h with
  | int g => exact g.1
  | dbl g => exact g.1
  | str g => exact g.1
  | sym g => exact g.1
  | bool g => exact g.1
  | nil g => exact g
  | undef g => exact g
  | list g => exact g.1
  | prim _ g => exact g.1
  | clo g => exact g.1
  | dict g => exact g.1

theorem typeOf_ok {st : St} {μ : Emb} {N : Nat} {v : Variant} {x : Val} (h : IsVal st μ N v x) : v.type.code = (typeOf x).1 ∧ v.typeString = .ok (typeOf x).2 := by
  have ht := isVal_type h
  cases h with
  | dict g => simp [typeOf, LispType.code, Variant.typeString, ht, kindOf, g.2]
  | _ => simp [typeOf, LispType.code, Variant.typeString, ht, kindOf]

theorem compare_lt {s t : Str} (hs : NoZero s) (ht : NoZero t) : compareOrdinal s t < 0 ↔ LexLt s t := by
  rw [compareOrdinal, cStr_noZero hs, cStr_noZero ht, ← strLt_iff]
  cases strLt s t <;> simp
  split <;> simp

theorem compare_le {s t : Str} (hs : NoZero s) (ht : NoZero t) : compareOrdinal s t ≤ 0 ↔ ¬ LexLt t s := by
  rw [compareOrdinal, cStr_noZero hs, cStr_noZero ht]
  by_cases h : LexLt s t
  · have h' : ¬ LexLt t s := fun g => C18_lex_irrefl s (C18_lex_trans h g)
    simp [(strLt_iff s t).2 h, h']
  · have e : strLt s t = false := by rw [← Bool.not_eq_true, strLt_iff]; exact h
    by_cases h' : LexLt t s
    · simp [e, (strLt_iff t s).2 h', h']
    · have e' : strLt t s = false := by rw [← Bool.not_eq_true, strLt_iff]; exact h'
      simp [e, e', h']

theorem vLt_strings {st : St} {k : Nat} {v w : Variant} {a b : Str} {r : Bool} (hv : IsStr v a) (hw : IsStr w b) (h1 : NoZero a) (h2 : NoZero b)
    (h3 : r = true ↔ LexLt a b) : vLt st (k + 2) v w = .ok r := by
  have := compare_lt h1 h2
  simp [vLt, hv.1, hw.1, varStr_str hv, varStr_str hw]
  simp only [this, ← h3]
  simp

theorem vLe_strings {st : St} {k : Nat} {v w : Variant} {a b : Str} {r : Bool} (hv : IsStr v a) (hw : IsStr w b) (h1 : NoZero a) (h2 : NoZero b)
    (h3 : r = true ↔ ¬ LexLt b a) : vLe st (k + 2) v w = .ok r := by
  have := compare_le h1 h2
  simp [vLe, hv.1, hw.1, varStr_str hv, varStr_str hw]
  simp only [this, ← h3]
  simp

theorem num_ok {st : St} {μ : Emb} {N : Nat} {v : Variant} {a : Val} {x : Dbl} (h : Num a x) (hv : IsVal st μ N v a) : Number v x := by
  cases h with
  | int => exact .int (isVal_int_inv hv)
  | dbl => exact .dbl (isVal_dbl_inv hv)

theorem nums_ok {st : St} {μ : Emb} {N : Nat} {v w : Variant} {a b : Val} {x y : Dbl} (h : Nums a b x y) (hv : IsVal st μ N v a) (hw : IsVal st μ N w b) :
    Number v x ∧ Number w y ∧ (v.type = .double ∨ w.type = .double) := by
  refine ⟨num_ok h.1 hv, num_ok h.2.1 hw, ?_⟩
  rcases h.2.2 with ⟨d, rfl⟩ | ⟨d, rfl⟩
  · exact .inl (isVal_dbl_inv hv).1
  · exact .inr (isVal_dbl_inv hw).1

theorem arith_nums {n : Nat} {op : ArithOp} {o : Dbl → Dbl → Dbl} (ho : ∀ a b, op.dbl a b = o a b) {st : St} {μ : Emb} {N : Nat} {v w : Variant} {a b : Val} {x y : Dbl}
    (h : Nums a b x y) (hv : IsVal st μ N v a) (hw : IsVal st μ N w b) : arith n op v w st = mkDbl (o x y) st := by
  obtain ⟨g1, g2, g3⟩ := nums_ok h hv hw
  have h1 : ¬ (v.type = .string ∨ w.type = .string) := by
    rcases number_type g1 with h | h <;> rcases number_type g2 with h' | h' <;> simp [h, h']
  simp [arith, h1, g3, M.rd_apply, toDouble_num g1, toDouble_num g2, ho]

theorem numFolds_ok {n : Nat} {op : ArithOp} {oi : Int → Int → Int} {od : Dbl → Dbl → Dbl} (ho : ∀ a b, op.int a b = chk32 (oi a b)) (ho' : ∀ a b, op.dbl a b = od a b)
    {μ : Emb} {N : Nat} {a : Val} {l : List Val} {r : Val}
    (h : NumFolds oi od a l r) : ∀ {st : St} {v : Variant} {ps : List Ptr}, IsVal st μ N v a → Args st μ N ps l →
    Gives (do let r ← arithLoop n op v ps; pure (some r)) st μ N r := by
  induction h with
  | nil =>
    intro st v ps hv hp
    cases hp
    exact gives_same (by simp [arithLoop]) hv
  | @ints a b l r hi _ ih =>
    intro st v ps hv hp
    cases hp with
    | cons h t =>
      obtain ⟨i, w, rfl, hw⟩ := h
      obtain ⟨u, st', h1, h2, h3⟩ := ih (st := { st with next := st.next + 1 }) (v := ⟨.int, .mk st.next (.int (oi a b)), .none, none⟩)
        (.int (isInt_mk _ _ _ _) (nsp rfl)) (args_grow (grow_of_extends (extends_next st _ (Nat.le_succ _)) μ N) t)
      refine ⟨u, st', ?_, (extends_next st _ (Nat.le_succ _)).trans h2, h3⟩
      have : arith n op v w st = mkInt (oi a b) st := by
        simp [arith_int (isVal_int_inv hv) (isVal_int_inv hw), ho, chk32, hi]
      simpa [arithLoop, mkVariant_var, this] using h1
  | @dbls a b x y l r hn _ ih =>
    intro st v ps hv hp
    cases hp with
    | cons h t =>
      obtain ⟨i, w, rfl, hw⟩ := h
      obtain ⟨u, st', h1, h2, h3⟩ := ih (st := { st with next := st.next + 1 }) (v := ⟨.double, .mk st.next (.dbl (od x y)), .none, none⟩)
        (.dbl (isDbl_mk _ _ _ _) (nsp rfl)) (args_grow (grow_of_extends (extends_next st _ (Nat.le_succ _)) μ N) t)
      refine ⟨u, st', ?_, (extends_next st _ (Nat.le_succ _)).trans h2, h3⟩
      simpa [arithLoop, mkVariant_var, arith_nums ho' hn hv hw] using h1

theorem alike_ok {st : St} {μ : Emb} {N k : Nat} {v w : Variant} {a b : Val} {r : Bool} (h : Alike a b r) (hv : IsVal st μ N v a) (hw : IsVal st μ N w b) :
    equalOp st (k + 2) v w = .ok r := by
  have h1 := isVal_type hv
  have h2 := isVal_type hw
  cases h with
  | int =>
    have hv := isVal_int_inv hv
    have hw := isVal_int_inv hw
    simp [equalOp, hv.1, hw.1, toInt_int hv, toInt_int hw]
  | @str a b =>
    have hv := isVal_str_inv hv
    have hw := isVal_str_inv hw
    simp [equalOp, hv.1, hw.1, varStr_str hv, varStr_str hw]
    by_cases h : a = b <;> simp [h]
  | @sym a b =>
    have hv := isVal_sym_inv hv
    have hw := isVal_sym_inv hw
    simp [equalOp, hv.1, hw.1, varStr_sym hv, varStr_sym hw]
    by_cases h : a = b <;> simp [h]
  | @bool a b =>
    have hv := isVal_bool_inv hv
    have hw := isVal_bool_inv hw
    simp [equalOp, hv.1, hw.1, boolValue_bool hv, boolValue_bool hw]
    cases a <;> cases b <;> rfl
  | nil => simp [equalOp, h1, h2, kindOf]
  | dbl hn =>
    obtain ⟨g1, g2, g3⟩ := nums_ok hn hv hw
    rcases number_type g1 with h | h <;> rcases number_type g2 with h' | h' <;>
      simp [equalOp, h, h', toDouble_num g1, toDouble_num g2] <;> simp [h, h'] at g3
  | symLeft hn => cases b <;> simp_all [equalOp, kindOf]
  | symRight hn => cases a <;> simp_all [equalOp, kindOf]
  | nilLeft hn => cases b <;> simp_all [equalOp, kindOf]
  | nilRight hn => cases a <;> simp_all [equalOp, kindOf]

theorem pointwise_unique {P : Char → Char → Prop} (hP : ∀ c d d', P c d → P c d' → d = d') {s o o' : Str} (h : Pointwise P s o) (h' : Pointwise P s o') : o = o' := by
  refine List.ext_getElem (h.1.trans h'.1.symm) fun i h1 h2 => ?_
  have h3 : i < s.length := by have := h.1; omega
  exact hP _ _ _ (h.2 i _ _ (List.getElem?_eq_getElem h3) (List.getElem?_eq_getElem h1)) (h'.2 i _ _ (List.getElem?_eq_getElem h3) (List.getElem?_eq_getElem h2))

theorem char_toNat {c d : Char} (h : c.toNat = d.toNat) : c = d := Char.ext (UInt32.toNat_inj.1 h)

theorem upper_unique (c d d' : Char) (h : Upper c d) (h' : Upper c d') : d = d' := by
  unfold Upper at h h'
  split at h
  · rename_i hc
    rw [if_pos hc] at h'
    exact char_toNat (by omega)
  · rename_i hc
    rw [if_neg hc] at h'
    rw [h, h']

theorem lower_unique (c d d' : Char) (h : Lower c d) (h' : Lower c d') : d = d' := by
  unfold Lower at h h'
  split at h
  · rename_i hc
    rw [if_pos hc] at h'
    exact char_toNat (by omega)
  · rename_i hc
    rw [if_neg hc] at h'
    rw [h, h']

set_option maxRecDepth 20000 in
theorem math_entries : ∀ e ∈ defaultTable, ∀ t ∈ mathTable, e.name = t.1 → e.fn = .math t.2 ∧ e.special = false := by decide +kernel

/-- The built-in functions without effects compute the functions of the reference semantics. -/
theorem fn_ok {n : Str} {vs : List Val} {x : Val} (h : Fn n vs x) {e : Entry} (he : e ∈ defaultTable) (hn : e.name = n) {st : St} {μ : Emb} {N sid : Nat}
    {ps : List Ptr} (hp : Args st μ N ps vs) (hl : (st.scopes sid).needsLValue = false) :
    e.special = false ∧ ∃ k, Gives (callPrim (run k) e.fn ps sid) st μ N x := by
  cases h with
  | @add _ a l r hm h =>
    have : e.fn = .add ∧ e.special = false := by
      simp only [List.mem_cons, List.not_mem_nil, or_false] at hm
      rcases hm with rfl | rfl | rfl
      · exact core_entry he (c!"+", .add, false) (by decide) hn
      · exact core_entry he (c!"add", .add, false) (by decide) hn
      · exact core_entry he (c!"string", .add, false) (by decide) hn
    refine ⟨this.2, 1, ?_⟩
    rw [this.1]
    cases hp with
    | cons hv ht =>
      obtain ⟨i, v, rfl, hv⟩ := hv
      obtain ⟨u, st', h1, h2⟩ := folds_ok (n := 1) (op := .add) (fun _ _ => rfl) h hv ht
      exact ⟨u, st', by simpa [callPrim, arithFold, mkVariant_var, run_n] using h1, h2⟩
  | @sub _ a b l r hm h =>
    have : e.fn = .sub ∧ e.special = false := by
      simp only [List.mem_cons, List.not_mem_nil, or_false] at hm
      rcases hm with rfl | rfl
      · exact core_entry he (c!"-", .sub, false) (by decide) hn
      · exact core_entry he (c!"sub", .sub, false) (by decide) hn
    refine ⟨this.2, 1, ?_⟩
    rw [this.1]
    cases hp with
    | cons hv ht =>
      obtain ⟨i, v, rfl, hv⟩ := hv
      obtain ⟨u, st', h1, h2⟩ := folds_ok (n := 1) (op := .sub) (fun _ _ => rfl) h hv ht
      refine ⟨u, st', ?_, h2⟩
      cases ht with
      | cons => simpa [callPrim, bSub, arithFold, mkVariant_var, run_n] using h1
  | @neg _ a hm hi =>
    have : e.fn = .sub ∧ e.special = false := by
      simp only [List.mem_cons, List.not_mem_nil, or_false] at hm
      rcases hm with rfl | rfl
      · exact core_entry he (c!"-", .sub, false) (by decide) hn
      · exact core_entry he (c!"sub", .sub, false) (by decide) hn
    refine ⟨this.2, 1, ?_⟩
    rw [this.1]
    obtain ⟨i, v, rfl, hv⟩ := args_one hp
    have hv := isVal_int_inv hv
    refine gives_int _ ?_
    simp [callPrim, bSub, mkVariant_var, hv.1, M.rd_apply, intValue_int hv, chk32, hi, ret]
  | @mul _ a l r hm h =>
    have : e.fn = .mul ∧ e.special = false := by
      simp only [List.mem_cons, List.not_mem_nil, or_false] at hm
      rcases hm with rfl | rfl
      · exact core_entry he (c!"*", .mul, false) (by decide) hn
      · exact core_entry he (c!"mul", .mul, false) (by decide) hn
    refine ⟨this.2, 1, ?_⟩
    rw [this.1]
    cases hp with
    | cons hv ht =>
      obtain ⟨i, v, rfl, hv⟩ := hv
      obtain ⟨u, st', h1, h2⟩ := folds_ok (n := 1) (op := .mul) (fun _ _ => rfl) h hv ht
      exact ⟨u, st', by simpa [callPrim, arithFold, mkVariant_var, run_n] using h1, h2⟩
  | @div _ a b q r hm ht hq =>
    have : e.fn = .div ∧ e.special = false := by
      simp only [List.mem_cons, List.not_mem_nil, or_false] at hm
      rcases hm with rfl | rfl
      · exact core_entry he (c!"/", .div, false) (by decide) hn
      · exact core_entry he (c!"div", .div, false) (by decide) hn
    refine ⟨this.2, 1, ?_⟩
    rw [this.1]
    obtain ⟨i, v, j, w, rfl, hv, hw⟩ := args_two hp
    have hy : b ≠ 0 := by rintro rfl; have := ht.2.1; simp at this
    obtain ⟨rfl, -⟩ := truncated_unique (tdiv_tmod_truncated a b hy) ht
    refine gives_int _ ?_
    simp [callPrim, arithFold_two, ret, arith_int (isVal_int_inv hv) (isVal_int_inv hw), ArithOp.int, chk32, hq, hy]
  | @mod _ a b q r hm ht hq =>
    have : e.fn = .mod ∧ e.special = false := by
      simp only [List.mem_cons, List.not_mem_nil, or_false] at hm
      rcases hm with rfl | rfl
      · exact core_entry he (c!"%", .mod, false) (by decide) hn
      · exact core_entry he (c!"mod", .mod, false) (by decide) hn
    refine ⟨this.2, 1, ?_⟩
    rw [this.1]
    obtain ⟨i, v, j, w, rfl, hv, hw⟩ := args_two hp
    have hy : b ≠ 0 := by rintro rfl; have := ht.2.1; simp at this
    obtain ⟨rfl, rfl⟩ := truncated_unique (tdiv_tmod_truncated a b hy) ht
    refine gives_int _ ?_
    simp [callPrim, arithFold_two, ret, arith_int (isVal_int_inv hv) (isVal_int_inv hw), ArithOp.int, chk32, hq, hy]
  | @concat _ s l ts hm h =>
    have : e.fn = .add ∧ e.special = false := by
      simp only [List.mem_cons, List.not_mem_nil, or_false] at hm
      rcases hm with rfl | rfl | rfl
      · exact core_entry he (c!"+", .add, false) (by decide) hn
      · exact core_entry he (c!"add", .add, false) (by decide) hn
      · exact core_entry he (c!"string", .add, false) (by decide) hn
    refine ⟨this.2, 1, ?_⟩
    rw [this.1]
    cases hp with
    | cons hv ht =>
      obtain ⟨i, v, rfl, hv⟩ := hv
      obtain ⟨u, st', h1, h2⟩ := arithLoop_strings' (n := 0) hv (each_shows ht h)
      exact ⟨u, st', by simpa [callPrim, arithFold, mkVariant_var, run_n] using h1, h2⟩
  | @lt a b =>
    have := core_entry he (c!"<", .lt, false) (by decide) hn
    refine ⟨this.2, 1, ?_⟩
    rw [this.1]
    obtain ⟨i, v, j, w, rfl, hv, hw⟩ := args_two hp
    have hv := isVal_int_inv hv
    have hw := isVal_int_inv hw
    exact cmp_gives (op := .lt) (fun _ => rfl) (by simp [CmpOp.run, vLt, hv.1, hw.1, toInt_int hv, toInt_int hw])
  | @gt a b =>
    have := core_entry he (c!">", .gt, false) (by decide) hn
    refine ⟨this.2, 1, ?_⟩
    rw [this.1]
    obtain ⟨i, v, j, w, rfl, hv, hw⟩ := args_two hp
    have hv := isVal_int_inv hv
    have hw := isVal_int_inv hw
    exact cmp_gives (op := .gt) (fun _ => rfl) (by simp [CmpOp.run, vLt, hv.1, hw.1, toInt_int hv, toInt_int hw])
  | @le a b =>
    have := core_entry he (c!"<=", .le, false) (by decide) hn
    refine ⟨this.2, 1, ?_⟩
    rw [this.1]
    obtain ⟨i, v, j, w, rfl, hv, hw⟩ := args_two hp
    have hv := isVal_int_inv hv
    have hw := isVal_int_inv hw
    exact cmp_gives (op := .le) (fun _ => rfl) (by simp [CmpOp.run, vLe, hv.1, hw.1, toInt_int hv, toInt_int hw])
  | @ge a b =>
    have := core_entry he (c!">=", .ge, false) (by decide) hn
    refine ⟨this.2, 1, ?_⟩
    rw [this.1]
    obtain ⟨i, v, j, w, rfl, hv, hw⟩ := args_two hp
    have hv := isVal_int_inv hv
    have hw := isVal_int_inv hw
    exact cmp_gives (op := .ge) (fun _ => rfl) (by simp [CmpOp.run, vLe, hv.1, hw.1, toInt_int hv, toInt_int hw])
  | @eq _ a b r hm h =>
    have : e.fn = .eq ∧ e.special = false := by
      simp only [List.mem_cons, List.not_mem_nil, or_false] at hm
      rcases hm with rfl | rfl | rfl
      · exact core_entry he (c!"=", .eq, false) (by decide) hn
      · exact core_entry he (c!"==", .eq, false) (by decide) hn
      · exact core_entry he (c!"equal", .eq, false) (by decide) hn
    refine ⟨this.2, 2, ?_⟩
    rw [this.1]
    obtain ⟨i, v, j, w, rfl, hv, hw⟩ := args_two hp
    exact cmp_gives (op := .eq) (fun _ => rfl) (alike_ok h hv hw)
  | @ne a b r h =>
    have := core_entry he (c!"!=", .ne, false) (by decide) hn
    refine ⟨this.2, 2, ?_⟩
    rw [this.1]
    obtain ⟨i, v, j, w, rfl, hv, hw⟩ := args_two hp
    exact cmp_gives (op := .ne) (fun _ => rfl) (by simp [CmpOp.run, alike_ok h hv hw])
  | @ltStr a b r h1 h2 h3 =>
    have := core_entry he (c!"<", .lt, false) (by decide) hn
    refine ⟨this.2, 2, ?_⟩
    rw [this.1]
    obtain ⟨i, v, j, w, rfl, hv, hw⟩ := args_two hp
    exact cmp_gives (op := .lt) (fun _ => rfl) (by simp only [CmpOp.run]; exact vLt_strings (isVal_str_inv hv) (isVal_str_inv hw) h1 h2 h3)
  | @gtStr a b r h1 h2 h3 =>
    have := core_entry he (c!">", .gt, false) (by decide) hn
    refine ⟨this.2, 2, ?_⟩
    rw [this.1]
    obtain ⟨i, v, j, w, rfl, hv, hw⟩ := args_two hp
    exact cmp_gives (op := .gt) (fun _ => rfl) (by simp only [CmpOp.run]; exact vLt_strings (isVal_str_inv hw) (isVal_str_inv hv) h2 h1 h3)
  | @leStr a b r h1 h2 h3 =>
    have := core_entry he (c!"<=", .le, false) (by decide) hn
    refine ⟨this.2, 2, ?_⟩
    rw [this.1]
    obtain ⟨i, v, j, w, rfl, hv, hw⟩ := args_two hp
    exact cmp_gives (op := .le) (fun _ => rfl) (by simp only [CmpOp.run]; exact vLe_strings (isVal_str_inv hv) (isVal_str_inv hw) h1 h2 h3)
  | @geStr a b r h1 h2 h3 =>
    have := core_entry he (c!">=", .ge, false) (by decide) hn
    refine ⟨this.2, 2, ?_⟩
    rw [this.1]
    obtain ⟨i, v, j, w, rfl, hv, hw⟩ := args_two hp
    exact cmp_gives (op := .ge) (fun _ => rfl) (by simp only [CmpOp.run]; exact vLe_strings (isVal_str_inv hw) (isVal_str_inv hv) h2 h1 h3)
  | @not _ b hm =>
    have : e.fn = .not ∧ e.special = false := by
      simp only [List.mem_cons, List.not_mem_nil, or_false] at hm
      rcases hm with rfl | rfl
      · exact core_entry he (c!"!", .not, false) (by decide) hn
      · exact core_entry he (c!"not", .not, false) (by decide) hn
    refine ⟨this.2, 1, ?_⟩
    rw [this.1]
    obtain ⟨i, v, rfl, hv⟩ := args_one hp
    refine gives_bool _ ?_
    simp [callPrim, bNot, ret, checkArgs, argV, arg, toVariant_var, M.rd_apply, boolValue_bool (isVal_bool_inv hv)]
  | list =>
    have := core_entry he (c!"list", .list, false) (by decide) hn
    refine ⟨this.2, 1, ?_⟩
    rw [this.1]
    exact gives_list rfl (args_areVals hp)
  | @cons a w l hw =>
    have := core_entry he (c!"cons", .cons, false) (by decide) hn
    refine ⟨this.2, 1, ?_⟩
    rw [this.1]
    obtain ⟨i, v, j, u, rfl, hv, hu⟩ := args_two hp
    obtain ⟨qs, h1, h2⟩ := isVal_asList hu hw
    refine gives_list (ps := .mk i (.var v) :: qs) ?_ (.value hv h2)
    simp [callPrim, bCons, ret, toVariant_var, isList_of h1, M.rd_apply, listValue_list h1]
  | @first _ a l hm =>
    have : e.fn = .first ∧ e.special = false := by
      simp only [List.mem_cons, List.not_mem_nil, or_false] at hm
      rcases hm with rfl | rfl
      · exact core_entry he (c!"first", .first, false) (by decide) hn
      · exact core_entry he (c!"car", .first, false) (by decide) hn
    refine ⟨this.2, 1, ?_⟩
    rw [this.1]
    obtain ⟨i, v, rfl, hv⟩ := args_one hp
    obtain ⟨qs, h1, h2, _⟩ := isVal_list_inv hv
    cases qs with
    | nil => cases h2
    | cons q qs =>
      obtain ⟨u, h3, h4⟩ := areVals_mkVariant h2
      refine gives_same (v := u) ?_ h4
      simp [callPrim, bFirst, ret, checkArgs, arg, toVariant_var, (listOrNil_types h1).1, hl, M.rd_apply, listValue_list h1, h3]
  | @rest _ a l hm =>
    have : e.fn = .rest ∧ e.special = false := by
      simp only [List.mem_cons, List.not_mem_nil, or_false] at hm
      rcases hm with rfl | rfl
      · exact core_entry he (c!"rest", .rest, false) (by decide) hn
      · exact core_entry he (c!"cdr", .rest, false) (by decide) hn
    refine ⟨this.2, 1, ?_⟩
    rw [this.1]
    obtain ⟨i, v, rfl, hv⟩ := args_one hp
    obtain ⟨qs, h1, h2, _⟩ := isVal_list_inv hv
    cases qs with
    | nil => cases h2
    | cons q qs =>
      refine gives_list (ps := qs) ?_ (areVals_tail h2)
      simp [callPrim, bRest, ret, checkArgs, argV, arg, toVariant_var, (listOrNil_types h1).1, M.rd_apply, listValue_list h1]
  | @last l =>
    have := core_entry he (c!"last", .last, false) (by decide) hn
    refine ⟨this.2, 1, ?_⟩
    rw [this.1]
    obtain ⟨i, v, rfl, hv⟩ := args_one hp
    obtain ⟨qs, h1, h2, _⟩ := isVal_list_inv hv
    have h3 := areVals_reverse h2
    simp only [List.reverse_append, List.reverse_cons, List.reverse_nil, List.nil_append, List.cons_append] at h3
    have h5 : qs.getLast? = qs.reverse.head? := by simp
    cases hq : qs.reverse with
    | nil => rw [hq] at h3; cases h3
    | cons q ps =>
      rw [hq] at h3
      obtain ⟨u, h4, h6⟩ := areVals_mkVariant h3
      refine gives_same (v := u) ?_ h6
      rw [hq] at h5
      simp [callPrim, bLast, ret, checkArgs, arg, toVariant_var, (listOrNil_types h1).1, hl, M.rd_apply, listValue_list h1, h5, h4]
  | @nth i x l hi hx =>
    have := core_entry he (c!"nth", .nth, false) (by decide) hn
    refine ⟨this.2, 1, ?_⟩
    rw [this.1]
    obtain ⟨j, v, k, w, rfl, hv, hw⟩ := args_two hp
    obtain ⟨qs, h1, h2, _⟩ := isVal_list_inv hw
    obtain ⟨q, u, h3, h4, h5⟩ := areVals_get h2 hx
    refine gives_same (v := u) ?_ h5
    simp [callPrim, bNth, ret, checkArgs, argV, arg, toVariant_var, (listOrNil_types h1).1, hl, M.rd_apply, listValue_list h1, h3,
      intValue_int (isVal_int_inv hv), sizeT_ofNat hi, h4]
  | @firstStr _ c t hm =>
    have : e.fn = .first ∧ e.special = false := by
      simp only [List.mem_cons, List.not_mem_nil, or_false] at hm
      rcases hm with rfl | rfl
      · exact core_entry he (c!"first", .first, false) (by decide) hn
      · exact core_entry he (c!"car", .first, false) (by decide) hn
    refine ⟨this.2, 1, ?_⟩
    rw [this.1]
    obtain ⟨i, v, rfl, hv⟩ := args_one hp
    have hv := isVal_str_inv hv
    refine gives_str [c] ?_
    simp [callPrim, bFirst, ret, checkArgs, argV, arg, toVariant_var, hv.1, M.rd_apply, run_n, stringValue_str (n := 0) hv, substr]
  | @restStr _ c t hm =>
    have : e.fn = .rest ∧ e.special = false := by
      simp only [List.mem_cons, List.not_mem_nil, or_false] at hm
      rcases hm with rfl | rfl
      · exact core_entry he (c!"rest", .rest, false) (by decide) hn
      · exact core_entry he (c!"cdr", .rest, false) (by decide) hn
    refine ⟨this.2, 1, ?_⟩
    rw [this.1]
    obtain ⟨i, v, rfl, hv⟩ := args_one hp
    have hv := isVal_str_inv hv
    refine gives_str t ?_
    simp [callPrim, bRest, ret, checkArgs, argV, arg, toVariant_var, hv.1, M.rd_apply, run_n, stringValue_str (n := 0) hv, substrFrom]
  | @nthStr i s c hi hx =>
    have := core_entry he (c!"nth", .nth, false) (by decide) hn
    refine ⟨this.2, 1, ?_⟩
    rw [this.1]
    obtain ⟨j, v, k, w, rfl, hv, hw⟩ := args_two hp
    have hw := isVal_str_inv hw
    refine gives_str [c] ?_
    have hlt : i < s.length := (List.getElem?_eq_some_iff.1 hx).1
    have hd : List.take 1 (List.drop i s) = [c] := by
      rw [List.drop_eq_getElem_cons hlt, (List.getElem_eq_iff hlt).2 hx]; rfl
    simp [callPrim, bNth, ret, checkArgs, argV, arg, toVariant_var, hw.1, M.rd_apply, run_n, stringValue_str (n := 0) hw,
      intValue_int (isVal_int_inv hv), sizeT_ofNat hi, substr, Nat.le_of_lt hlt, hd]
  | @type x =>
    have := core_entry he (c!"type", .type, false) (by decide) hn
    refine ⟨this.2, 1, ?_⟩
    rw [this.1]
    obtain ⟨i, v, rfl, hv⟩ := args_one hp
    refine gives_int _ ?_
    simp [callPrim, ret, bType, checkArgs, argV, arg, toVariant_var, (typeOf_ok hv).1]
  | @typestr x =>
    have := core_entry he (c!"typestr", .typestr, false) (by decide) hn
    refine ⟨this.2, 1, ?_⟩
    rw [this.1]
    obtain ⟨i, v, rfl, hv⟩ := args_one hp
    refine gives_str _ ?_
    simp [callPrim, ret, bTypeStr, checkArgs, argV, arg, toVariant_var, (typeOf_ok hv).2]
  | @sym x s h =>
    have := core_entry he (c!"sym", .sym, false) (by decide) hn
    refine ⟨this.2, 3, ?_⟩
    rw [this.1]
    obtain ⟨i, v, rfl, hv⟩ := args_one hp
    have ht : ptrStr st 3 (.mk i (.var v)) = .ok s := by
      rw [ptrStr_var]
      cases h with
      | str => exact varStr_str (isVal_str_inv hv)
      | sym => exact varStr_sym (isVal_sym_inv hv)
    have hs : IsSym ⟨.symbol, .mk st.next (.str s), .none, none⟩ s := ⟨rfl, _, rfl⟩
    refine ⟨_, { st with next := st.next + 1 }, ?_, extends_next _ _ (Nat.le_succ _), .sym hs (nsp rfl)⟩
    simp [callPrim, ret, bSym, checkArgs, argStr, arg, run_n, M.rd_apply, ht, Variant.ofType]
  | @len w l hw hz =>
    have := core_entry he (c!"len", .len, false) (by decide) hn
    refine ⟨this.2, 1, ?_⟩
    rw [this.1]
    obtain ⟨i, v, rfl, hv⟩ := args_one hp
    obtain ⟨qs, h1, h2⟩ := isVal_asList hv hw
    refine gives_int _ ?_
    simp [callPrim, bLen, lenRest, ret, checkArgs, argV, arg, toVariant_var, listOrNil_types h1, M.rd_apply, listValue_list h1, areVals_length h2,
      wrap32_id hz]
  | @lenStr s hz =>
    have := core_entry he (c!"len", .len, false) (by decide) hn
    refine ⟨this.2, 1, ?_⟩
    rw [this.1]
    obtain ⟨i, v, rfl, hv⟩ := args_one hp
    have hv := isVal_str_inv hv
    refine gives_int _ ?_
    simp [callPrim, bLen, lenRest, ret, checkArgs, argV, arg, toVariant_var, hv.1, M.rd_apply, run_n, stringValue_str (n := 0) hv, wrap32_id hz]
  | append h =>
    have := core_entry he (c!"append", .append, false) (by decide) hn
    refine ⟨this.2, 1, ?_⟩
    rw [this.1]
    obtain ⟨pss, h1, h2⟩ := each_lists hp h
    refine gives_list (ps := pss.flatten) ?_ h2
    simp [callPrim, bAppend, ret, M.rd_apply, appendLoop_lists h1]
  | @upper s o h =>
    have := core_entry he (c!"upper-case", .upper, false) (by decide) hn
    refine ⟨this.2, 2, ?_⟩
    rw [this.1]
    obtain ⟨i, v, rfl, hv⟩ := args_one hp
    obtain rfl : o = toUpper s := pointwise_unique upper_unique h (pointwise_map upper_toUpperC s)
    refine gives_str _ ?_
    simp [callPrim, ret, bUpper, run_n, strFn_ok (n := 0) ⟨i, v, rfl, isVal_str_inv hv⟩]
  | @lower s o h =>
    have := core_entry he (c!"lower-case", .lower, false) (by decide) hn
    refine ⟨this.2, 2, ?_⟩
    rw [this.1]
    obtain ⟨i, v, rfl, hv⟩ := args_one hp
    obtain rfl : o = toLower s := pointwise_unique lower_unique h (pointwise_map lower_toLowerC s)
    refine gives_str _ ?_
    simp [callPrim, ret, bLower, run_n, strFn_ok (n := 0) ⟨i, v, rfl, isVal_str_inv hv⟩]
  | @trim s a o b hs ha hb ht =>
    have := core_entry he (c!"trim", .trim, false) (by decide) hn
    refine ⟨this.2, 2, ?_⟩
    rw [this.1]
    obtain ⟨i, v, rfl, hv⟩ := args_one hp
    subst hs
    refine gives_str _ ?_
    simp only [callPrim, ret, bTrim, run_n, M.bind_apply, strFn_ok (n := 0) ⟨i, v, rfl, isVal_str_inv hv⟩, trim_of_decomp ha hb ht]
    rfl
  | @replace s a b o hne ha hb h =>
    have := core_entry he (c!"replace", .replace, false) (by decide) hn
    refine ⟨this.2, 3, ?_⟩
    rw [this.1]
    obtain ⟨i, v, j, w, l, u, rfl, hv, hw, hu⟩ := args_three hp
    obtain ⟨out, h1, h2⟩ := replaceAll_spec s a b ha hb hne
    obtain rfl := Replaced.unique hne h h2
    refine gives_str _ ?_
    simp [callPrim, ret, bReplace, checkArgs, argStr, arg, run_n, M.rd_apply, ptrStr_var, varStr_str (isVal_str_inv hv), varStr_str (isVal_str_inv hw),
      varStr_str (isVal_str_inv hu), h1]
  | @search a s i hz h =>
    have := core_entry he (c!"search", .search, false) (by decide) hn
    refine ⟨this.2, 2, ?_⟩
    rw [this.1]
    obtain ⟨j, v, l, w, rfl, hv, hw⟩ := args_two hp
    have hf : findFrom s a 0 = some i := by
      have e : findFrom s a 0 = findSub a s := by
        simp only [findFrom, Nat.zero_le, if_true, List.drop_zero]
        cases findSub a s <;> simp
      rw [e]
      cases hx : findSub a s with
      | none => exact absurd h.1 (findSub_none hx i)
      | some x =>
        have h' := findSub_some hx
        rcases Nat.lt_trichotomy x i with c | c | c
        · exact absurd h'.1 (h.2 x c)
        · rw [c]
        · exact absurd h.1 (h'.2 i c)
    have hx : wrap32 (i : Int) = i := wrap32_id (by
      have := ((occursAt_iff _ _ _).1 h.1).1
      unfold IsInt32 at *
      omega)
    refine gives_int _ ?_
    simp [hx, callPrim, ret, bSearch, checkOptionalArgs, argMk, argV, arg, run_n, M.rd_apply, M.lift_apply, mkVariant, toVariant,
      varStr_str (isVal_str_inv hv), varStr_str (isVal_str_inv hw), optSize, (isVal_str_inv hw).1, searchStr, hf]
  | @searchNone a s hz h =>
    have := core_entry he (c!"search", .search, false) (by decide) hn
    refine ⟨this.2, 2, ?_⟩
    rw [this.1]
    obtain ⟨j, v, l, w, rfl, hv, hw⟩ := args_two hp
    have hf : findFrom s a 0 = none := by
      have e : findFrom s a 0 = findSub a s := by
        simp only [findFrom, Nat.zero_le, if_true, List.drop_zero]
        cases findSub a s <;> simp
      rw [e]
      cases hx : findSub a s with
      | none => rfl
      | some x => exact absurd (findSub_some hx).1 (h x)
    refine gives_int _ ?_
    simp [callPrim, ret, bSearch, checkOptionalArgs, argMk, argV, arg, run_n, M.rd_apply, M.lift_apply, mkVariant, toVariant,
      varStr_str (isVal_str_inv hv), varStr_str (isVal_str_inv hw), optSize, (isVal_str_inv hw).1, searchStr, hf]
  | @searchIn a vs ts i hno hts hz h1 h2 =>
    have := core_entry he (c!"search", .search, false) (by decide) hn
    obtain ⟨j, v, l, w, rfl, hv, hw⟩ := args_two hp
    obtain ⟨qs, hq, hvs, -⟩ := isVal_list_inv hw
    obtain ⟨K, hK⟩ := shown_flat hvs hno hts
    refine ⟨this.2, K + 2, ?_⟩
    rw [this.1]
    obtain ⟨e0, e1, e2⟩ := listValue_ok hq (K + 2)
    have hlen : vs.length = ts.length := shownAll_length hts
    refine gives_int _ ?_
    rcases searchList_ok (needle := a) (hK (K + 2) (by omega)) 0 with ⟨x, g1, g2, g3⟩ | ⟨g1, g2⟩
    · have hxi : x = i := by
        rcases Nat.lt_trichotomy x i with c | c | c
        · exact absurd g2 (h2 x c)
        · exact c
        · exact absurd h1 (g3 i c)
      have hx : wrap32 (i : Int) = i := wrap32_id (by
        have := (List.getElem?_eq_some_iff.1 h1).1
        unfold IsInt32 at *
        omega)
      rw [hxi, Nat.zero_add] at g1
      simp [hx, callPrim, ret, bSearch, checkOptionalArgs, argMk, argV, arg, run_n, M.rd_apply, M.lift_apply, mkVariant, toVariant,
        varStr_str (isVal_str_inv hv), optSize, e0, e1, e2, g1]
    · exact absurd (List.mem_of_getElem? h1) g2
  | @searchMissing a vs ts hno hts h1 =>
    have := core_entry he (c!"search", .search, false) (by decide) hn
    obtain ⟨j, v, l, w, rfl, hv, hw⟩ := args_two hp
    obtain ⟨qs, hq, hvs, -⟩ := isVal_list_inv hw
    obtain ⟨K, hK⟩ := shown_flat hvs hno hts
    refine ⟨this.2, K + 2, ?_⟩
    rw [this.1]
    obtain ⟨e0, e1, e2⟩ := listValue_ok hq (K + 2)
    refine gives_int _ ?_
    rcases searchList_ok (needle := a) (hK (K + 2) (by omega)) 0 with ⟨x, g1, g2, g3⟩ | ⟨g1, g2⟩
    · exact absurd (List.mem_of_getElem? g2) h1
    · simp [callPrim, ret, bSearch, checkOptionalArgs, argMk, argV, arg, run_n, M.rd_apply, M.lift_apply, mkVariant, toVariant,
        varStr_str (isVal_str_inv hv), optSize, e0, e1, e2, g1]
  | @parse s ws num i hs hw hnum hi =>
    have := core_entry he (c!"parse-integer", .parseInteger, false) (by decide) hn
    refine ⟨this.2, 2, ?_⟩
    rw [this.1]
    obtain ⟨j, v, rfl, hv⟩ := args_one hp
    obtain ⟨m, h1, h2⟩ := (parseInt_iff s i).2 ⟨ws, num, hs, hw, hnum, hi⟩
    refine gives_int _ ?_
    simp [callPrim, ret, bParseInteger, checkArgs, argMk, arg, run_n, M.rd_apply, mkVariant, varStr_str (isVal_str_inv hv), parseIntText, h1, catchAny, h2]
  | @parseNone s h =>
    have := core_entry he (c!"parse-integer", .parseInteger, false) (by decide) hn
    refine ⟨this.2, 2, ?_⟩
    rw [this.1]
    obtain ⟨j, v, rfl, hv⟩ := args_one hp
    refine gives_same (v := undefinedV) ?_ (.undef rfl (nsp rfl))
    cases h1 : stoi s with
    | error f =>
      have hf : ∃ e, f = .exn e := by
        unfold stoi at h1
        split at h1
        · simp at h1; exact ⟨_, h1.symm⟩
        · split at h1
          · simp at h1
          · simp at h1; exact ⟨_, h1.symm⟩
      obtain ⟨e, rfl⟩ := hf
      simp [callPrim, ret, bParseInteger, checkArgs, argMk, arg, run_n, M.rd_apply, mkVariant, varStr_str (isVal_str_inv hv), parseIntText, h1, catchAny]
    | ok r =>
      obtain ⟨x, m⟩ := r
      by_cases hm : m < s.length
      · simp [callPrim, ret, bParseInteger, checkArgs, argMk, arg, run_n, M.rd_apply, mkVariant, varStr_str (isVal_str_inv hv), parseIntText, h1, catchAny, hm, throwBase]
      · obtain ⟨ws, num, g1, g2, g3, g4⟩ := (parseInt_iff s x).1 ⟨m, h1, hm⟩
        exact absurd ⟨ws, num, x, g1, g2, g3, g4⟩ h
  | @reverse w l hw =>
    have := core_entry he (c!"reverse", .reverse, false) (by decide) hn
    refine ⟨this.2, 1, ?_⟩
    rw [this.1]
    obtain ⟨i, v, rfl, hv⟩ := args_one hp
    obtain ⟨qs, h1, h2⟩ := isVal_asList hv hw
    refine gives_list (ps := qs.reverse) ?_ (areVals_reverse h2)
    simp [callPrim, bReverse, ret, checkArgs, argV, arg, toVariant_var, (listOrNil_types h1).1, M.rd_apply, listValue_list h1]
  | @str x t h =>
    have := core_entry he (c!"str", .str, false) (by decide) hn
    obtain ⟨i, v, rfl, hv⟩ := args_one hp
    obtain ⟨K, hK⟩ := (shown_ok h).1 _ hv
    refine ⟨this.2, K + 1, ?_⟩
    rw [this.1]
    have ht : v.type ≠ .native := by
      cases hv with
      | int g => simp [g.1]
      | dbl g => simp [g.1]
      | str g => simp [g.1]
      | sym g => simp [g.1]
      | bool g => simp [g.1]
      | nil g => rw [show v.type = .nil from g]; decide
      | undef g => rw [show v.type = .undefined from g]; decide
      | list g => simp [g.1]
      | prim => cases h
      | clo => cases h
      | dict => cases h
    refine gives_str t ?_
    simp [callPrim, ret, bStr, checkArgs, arg, run_n, M.rd_apply, ptrStr_var, (hK K (Nat.le_refl K)).1 rfl, ht]
  | nop =>
    have := core_entry he (c!"nop", .nop, false) (by decide) hn
    refine ⟨this.2, 1, ?_⟩
    rw [this.1]
    exact gives_same (v := undefinedV) rfl (.undef rfl (nsp rfl))
  | @addNum _ a l r hm h =>
    have : e.fn = .add ∧ e.special = false := by
      simp only [List.mem_cons, List.not_mem_nil, or_false] at hm
      rcases hm with rfl | rfl | rfl
      · exact core_entry he (c!"+", .add, false) (by decide) hn
      · exact core_entry he (c!"add", .add, false) (by decide) hn
      · exact core_entry he (c!"string", .add, false) (by decide) hn
    refine ⟨this.2, 1, ?_⟩
    rw [this.1]
    cases hp with
    | cons hv ht =>
      obtain ⟨i, v, rfl, hv⟩ := hv
      obtain ⟨u, st', h1, h2⟩ := numFolds_ok (n := 1) (op := .add) (fun _ _ => rfl) (fun _ _ => rfl) h hv ht
      exact ⟨u, st', by simpa [callPrim, arithFold, mkVariant_var, run_n] using h1, h2⟩
  | @mulNum _ a l r hm h =>
    have : e.fn = .mul ∧ e.special = false := by
      simp only [List.mem_cons, List.not_mem_nil, or_false] at hm
      rcases hm with rfl | rfl
      · exact core_entry he (c!"*", .mul, false) (by decide) hn
      · exact core_entry he (c!"mul", .mul, false) (by decide) hn
    refine ⟨this.2, 1, ?_⟩
    rw [this.1]
    cases hp with
    | cons hv ht =>
      obtain ⟨i, v, rfl, hv⟩ := hv
      obtain ⟨u, st', h1, h2⟩ := numFolds_ok (n := 1) (op := .mul) (fun _ _ => rfl) (fun _ _ => rfl) h hv ht
      exact ⟨u, st', by simpa [callPrim, arithFold, mkVariant_var, run_n] using h1, h2⟩
  | @subNum _ a b l r hm h =>
    have : e.fn = .sub ∧ e.special = false := by
      simp only [List.mem_cons, List.not_mem_nil, or_false] at hm
      rcases hm with rfl | rfl
      · exact core_entry he (c!"-", .sub, false) (by decide) hn
      · exact core_entry he (c!"sub", .sub, false) (by decide) hn
    refine ⟨this.2, 1, ?_⟩
    rw [this.1]
    cases hp with
    | cons hv ht =>
      obtain ⟨i, v, rfl, hv⟩ := hv
      obtain ⟨u, st', h1, h2⟩ := numFolds_ok (n := 1) (op := .sub) (fun _ _ => rfl) (fun _ _ => rfl) h hv ht
      refine ⟨u, st', ?_, h2⟩
      cases ht with
      | cons => simpa [callPrim, bSub, arithFold, mkVariant_var, run_n] using h1
  | @negDbl _ d hm =>
    have : e.fn = .sub ∧ e.special = false := by
      simp only [List.mem_cons, List.not_mem_nil, or_false] at hm
      rcases hm with rfl | rfl
      · exact core_entry he (c!"-", .sub, false) (by decide) hn
      · exact core_entry he (c!"sub", .sub, false) (by decide) hn
    refine ⟨this.2, 1, ?_⟩
    rw [this.1]
    obtain ⟨i, v, rfl, hv⟩ := args_one hp
    have hv := isVal_dbl_inv hv
    refine gives_dbl _ ?_
    simp [callPrim, bSub, mkVariant_var, hv.1, M.rd_apply, doubleValue_dbl hv, ret]
  | @divDbl _ a b x y hm h =>
    have : e.fn = .div ∧ e.special = false := by
      simp only [List.mem_cons, List.not_mem_nil, or_false] at hm
      rcases hm with rfl | rfl
      · exact core_entry he (c!"/", .div, false) (by decide) hn
      · exact core_entry he (c!"div", .div, false) (by decide) hn
    refine ⟨this.2, 1, ?_⟩
    rw [this.1]
    obtain ⟨i, v, j, w, rfl, hv, hw⟩ := args_two hp
    refine gives_dbl _ ?_
    simp [callPrim, arithFold_two, ret, arith_nums (op := .div) (fun _ _ => rfl) h hv hw, ArithOp.dbl]
  | @modDbl _ a b x y hm h =>
    have : e.fn = .mod ∧ e.special = false := by
      simp only [List.mem_cons, List.not_mem_nil, or_false] at hm
      rcases hm with rfl | rfl
      · exact core_entry he (c!"%", .mod, false) (by decide) hn
      · exact core_entry he (c!"mod", .mod, false) (by decide) hn
    refine ⟨this.2, 1, ?_⟩
    rw [this.1]
    obtain ⟨i, v, j, w, rfl, hv, hw⟩ := args_two hp
    refine gives_dbl _ ?_
    simp [callPrim, arithFold_two, ret, arith_nums (op := .mod) (fun _ _ => rfl) h hv hw, ArithOp.dbl]
  | @ltDbl a b x y h =>
    have := core_entry he (c!"<", .lt, false) (by decide) hn
    refine ⟨this.2, 1, ?_⟩
    rw [this.1]
    obtain ⟨i, v, j, w, rfl, hv, hw⟩ := args_two hp
    obtain ⟨g1, g2, g3⟩ := nums_ok h hv hw
    exact cmp_gives (op := .lt) (fun _ => rfl) (by simp [CmpOp.run, vLt, g3, g3.symm, toDouble_num g1, toDouble_num g2])
  | @gtDbl a b x y h =>
    have := core_entry he (c!">", .gt, false) (by decide) hn
    refine ⟨this.2, 1, ?_⟩
    rw [this.1]
    obtain ⟨i, v, j, w, rfl, hv, hw⟩ := args_two hp
    obtain ⟨g1, g2, g3⟩ := nums_ok h hv hw
    exact cmp_gives (op := .gt) (fun _ => rfl) (by simp [CmpOp.run, vLt, g3, g3.symm, toDouble_num g1, toDouble_num g2])
  | @leDbl a b x y h =>
    have := core_entry he (c!"<=", .le, false) (by decide) hn
    refine ⟨this.2, 1, ?_⟩
    rw [this.1]
    obtain ⟨i, v, j, w, rfl, hv, hw⟩ := args_two hp
    obtain ⟨g1, g2, g3⟩ := nums_ok h hv hw
    exact cmp_gives (op := .le) (fun _ => rfl) (by simp [CmpOp.run, vLe, g3, g3.symm, toDouble_num g1, toDouble_num g2])
  | @geDbl a b x y h =>
    have := core_entry he (c!">=", .ge, false) (by decide) hn
    refine ⟨this.2, 1, ?_⟩
    rw [this.1]
    obtain ⟨i, v, j, w, rfl, hv, hw⟩ := args_two hp
    obtain ⟨g1, g2, g3⟩ := nums_ok h hv hw
    exact cmp_gives (op := .ge) (fun _ => rfl) (by simp [CmpOp.run, vLe, g3, g3.symm, toDouble_num g1, toDouble_num g2])
  | @int i =>
    have := core_entry he (c!"int", .toInt, false) (by decide) hn
    refine ⟨this.2, 1, ?_⟩
    rw [this.1]
    obtain ⟨i, v, rfl, hv⟩ := args_one hp
    have hv := isVal_int_inv hv
    refine gives_int _ ?_
    simp [callPrim, ret, bToInt, checkArgs, argMk, arg, mkVariant, M.rd_apply, hv.1, intValue_int hv]
  | @intDbl d i hd h32 =>
    have := core_entry he (c!"int", .toInt, false) (by decide) hn
    refine ⟨this.2, 1, ?_⟩
    rw [this.1]
    obtain ⟨i, v, rfl, hv⟩ := args_one hp
    have hv := isVal_dbl_inv hv
    refine gives_int _ ?_
    simp [callPrim, ret, bToInt, checkArgs, argMk, arg, mkVariant, M.rd_apply, hv.1, doubleValue_dbl hv, dblToInt, hd, h32]
  | @intBool b =>
    have := core_entry he (c!"int", .toInt, false) (by decide) hn
    refine ⟨this.2, 1, ?_⟩
    rw [this.1]
    obtain ⟨i, v, rfl, hv⟩ := args_one hp
    have hv := isVal_bool_inv hv
    refine gives_int _ ?_
    simp [callPrim, ret, bToInt, checkArgs, argMk, arg, mkVariant, M.rd_apply, hv.1, boolValue_bool hv]
  | @float a x h =>
    have := core_entry he (c!"float", .toFloat, false) (by decide) hn
    refine ⟨this.2, 1, ?_⟩
    rw [this.1]
    obtain ⟨i, v, rfl, hv⟩ := args_one hp
    refine gives_dbl _ ?_
    cases h with
    | int => have hv := isVal_int_inv hv; simp [callPrim, ret, bToFloat, checkArgs, argMk, arg, mkVariant, M.rd_apply, hv.1, intValue_int hv]
    | dbl => have hv := isVal_dbl_inv hv; simp [callPrim, ret, bToFloat, checkArgs, argMk, arg, mkVariant, M.rd_apply, hv.1, doubleValue_dbl hv]
  | @floatBool b =>
    have := core_entry he (c!"float", .toFloat, false) (by decide) hn
    refine ⟨this.2, 1, ?_⟩
    rw [this.1]
    obtain ⟨i, v, rfl, hv⟩ := args_one hp
    have hv := isVal_bool_inv hv
    refine gives_dbl _ ?_
    simp [callPrim, ret, bToFloat, checkArgs, argMk, arg, mkVariant, M.rd_apply, hv.1, boolValue_bool hv]
  | @parseFloat _ s num d hm h0 hl hd =>
    have : (e.fn = .parseFloat ∨ e.fn = .toFloat) ∧ e.special = false := by
      simp only [List.mem_cons, List.not_mem_nil, or_false] at hm
      rcases hm with rfl | rfl
      · have := core_entry he (c!"parse-float", .parseFloat, false) (by decide) hn
        exact ⟨.inl this.1, this.2⟩
      · have := core_entry he (c!"float", .toFloat, false) (by decide) hn
        exact ⟨.inr this.1, this.2⟩
    refine ⟨this.2, 2, ?_⟩
    obtain ⟨i, v, rfl, hv⟩ := args_one hp
    have hv := isVal_str_inv hv
    obtain ⟨n, -, hs⟩ := stod_longest h0 hl
    rw [hd] at hs
    refine gives_dbl _ ?_
    rcases this.1 with h | h <;> rw [h]
    · simp [callPrim, ret, bParseFloat, checkArgs, argMk, arg, run_n, M.rd_apply, mkVariant, varStr_str hv, hs, catchAny]
    · simp [callPrim, ret, bToFloat, bParseFloat, checkArgs, argMk, arg, run_n, M.rd_apply, mkVariant, varStr_str hv, hs, catchAny, hv.1]
  | @math _ f a x hm h =>
    have := math_entries e he _ hm hn
    refine ⟨this.2, 1, ?_⟩
    rw [this.1]
    obtain ⟨i, v, rfl, hv⟩ := args_one hp
    refine gives_dbl _ ?_
    simp [callPrim, ret, bMath, checkArgs, argV, arg, toVariant_var, M.rd_apply, toDouble_num (num_ok h hv)]
  | @and x y r h32 hb =>
    have := core_entry he (c!"&", .band, false) (by decide) hn
    refine ⟨this.2, 1, ?_⟩
    rw [this.1]
    obtain ⟨i, v, j, w, rfl, hv, hw⟩ := args_two hp
    have e : (BitVec.ofInt 32 x &&& BitVec.ofInt 32 y).toInt = r := C58_bits (toInt_32 _) h32 fun i hi => by
      rw [hb i hi]
      rw [bit_toInt _ hi, BitVec.getLsbD_and, Bool.and_eq_true, bit_ofInt _ hi, bit_ofInt _ hi]
    refine gives_int _ ?_
    rw [bBit_ints sid st ⟨_, _, rfl, isVal_int_inv hv⟩ ⟨_, _, rfl, isVal_int_inv hw⟩ .band fun _ => by simp [callPrim, run_n]]
    simp [BitOp.int, ret, e]
  | @or x y r h32 hb =>
    have := core_entry he (c!"|", .bor, false) (by decide) hn
    refine ⟨this.2, 1, ?_⟩
    rw [this.1]
    obtain ⟨i, v, j, w, rfl, hv, hw⟩ := args_two hp
    have e : (BitVec.ofInt 32 x ||| BitVec.ofInt 32 y).toInt = r := C58_bits (toInt_32 _) h32 fun i hi => by
      rw [hb i hi]
      rw [bit_toInt _ hi, BitVec.getLsbD_or, Bool.or_eq_true, bit_ofInt _ hi, bit_ofInt _ hi]
    refine gives_int _ ?_
    rw [bBit_ints sid st ⟨_, _, rfl, isVal_int_inv hv⟩ ⟨_, _, rfl, isVal_int_inv hw⟩ .bor fun _ => by simp [callPrim, run_n]]
    simp [BitOp.int, ret, e]
  | @xor x y r h32 hb =>
    have := core_entry he (c!"^", .bxor, false) (by decide) hn
    refine ⟨this.2, 1, ?_⟩
    rw [this.1]
    obtain ⟨i, v, j, w, rfl, hv, hw⟩ := args_two hp
    have e : (BitVec.ofInt 32 x ^^^ BitVec.ofInt 32 y).toInt = r := C58_bits (toInt_32 _) h32 fun i hi => by
      rw [hb i hi]
      rw [bit_toInt _ hi, BitVec.getLsbD_xor, ← bit_ofInt _ hi, ← bit_ofInt _ hi]
      generalize (BitVec.ofInt 32 x).getLsbD i = a
      generalize (BitVec.ofInt 32 y).getLsbD i = b
      cases a <;> cases b <;> decide
    refine gives_int _ ?_
    rw [bBit_ints sid st ⟨_, _, rfl, isVal_int_inv hv⟩ ⟨_, _, rfl, isVal_int_inv hw⟩ .bxor fun _ => by simp [callPrim, run_n]]
    simp [BitOp.int, ret, e]
  | @bnot x =>
    have := core_entry he (c!"~", .bnot, false) (by decide) hn
    refine ⟨this.2, 1, ?_⟩
    rw [this.1]
    obtain ⟨i, v, rfl, hv⟩ := args_one hp
    refine gives_int _ ?_
    simp [callPrim, ret, bBitNot, checkArgs, argV, arg, M.rd_apply, toVariant_var, intValue_int (isVal_int_inv hv)]
  | @shl x y hy hx h32 =>
    have := core_entry he (c!"<<", .shl, false) (by decide) hn
    refine ⟨this.2, 1, ?_⟩
    rw [this.1]
    obtain ⟨i, v, j, w, rfl, hv, hw⟩ := args_two hp
    refine gives_int _ ?_
    rw [bBit_ints sid st ⟨_, _, rfl, isVal_int_inv hv⟩ ⟨_, _, rfl, isVal_int_inv hw⟩ .shl fun _ => by simp [callPrim, run_n]]
    simp only [BitOp.int, Int.toNat_natCast]
    generalize x * 2 ^ y = z at *
    have h' : ¬ ((y : Int) < 0 ∨ 32 ≤ (y : Int) ∨ x < 0 ∨ 4294967296 ≤ z) := by have := h32.2; omega
    simp [ret, h', wrap32_id h32]
  | @shr x y r s hy hx h0 hs =>
    have := core_entry he (c!">>", .shr, false) (by decide) hn
    refine ⟨this.2, 1, ?_⟩
    rw [this.1]
    obtain ⟨i, v, j, w, rfl, hv, hw⟩ := args_two hp
    refine gives_int _ ?_
    rw [bBit_ints sid st ⟨_, _, rfl, isVal_int_inv hv⟩ ⟨_, _, rfl, isVal_int_inv hw⟩ .shr fun _ => by simp [callPrim, run_n]]
    have h' : ¬ ((y : Int) < 0 ∨ 32 ≤ (y : Int)) := by omega
    have hpos : (0 : Int) < 2 ^ y := Int.pow_pos (by decide)
    have e : x / 2 ^ y = r := by
      rw [hx, Int.add_comm, Int.add_mul_ediv_right _ _ (by omega), Int.ediv_eq_zero_of_lt h0 hs, Int.zero_add]
    simp [BitOp.int, ret, h', e]
  | @slice s a o b hs h32 =>
    have := core_entry he (c!"slice", .slice, false) (by decide) hn
    refine ⟨this.2, 2, ?_⟩
    rw [this.1]
    subst hs
    obtain ⟨i, v, j, w, k, u, rfl, hv, hw, hu⟩ := args_three hp
    have hsz : sizeT (a.length : Int) = a.length := by unfold sizeT; have := h32.2; simp at this; omega
    refine gives_str _ ?_
    simp [callPrim, ret, bSlice, checkArgs, argMk, arg, run_n, M.rd_apply, M.lift_apply, mkVariant, varStr_str (isVal_str_inv hv),
      toInt_int (isVal_int_inv hw), toInt_int (isVal_int_inv hu), hsz, substr]
  | @sliceRest s a o n hs h32 hneg =>
    have := core_entry he (c!"slice", .slice, false) (by decide) hn
    refine ⟨this.2, 2, ?_⟩
    rw [this.1]
    subst hs
    have hneg' : ¬ 0 ≤ n := by omega
    obtain ⟨i, v, j, w, k, u, rfl, hv, hw, hu⟩ := args_three hp
    have hsz : sizeT (a.length : Int) = a.length := by unfold sizeT; have := h32.2; simp at this; omega
    refine gives_str _ ?_
    simp [callPrim, ret, bSlice, checkArgs, argMk, arg, run_n, M.rd_apply, M.lift_apply, mkVariant, varStr_str (isVal_str_inv hv),
      toInt_int (isVal_int_inv hw), toInt_int (isVal_int_inv hu), hsz, substrFrom, hneg']
  | pi =>
    have := core_entry he (c!"Math-Pi", .mathPi, false) (by decide) hn
    refine ⟨this.2, 1, ?_⟩
    rw [this.1]
    cases hp
    refine gives_dbl _ ?_
    simp [callPrim, ret, bMathPi, checkArgs]
  | @pow a b x y h1 h2 =>
    have := core_entry he (c!"Math-Pow", .mathPow, false) (by decide) hn
    refine ⟨this.2, 1, ?_⟩
    rw [this.1]
    obtain ⟨i, v, j, w, rfl, hv, hw⟩ := args_two hp
    refine gives_dbl _ ?_
    simp [callPrim, ret, bMathPow, checkArgs, argV, arg, toVariant_var, M.rd_apply, toDouble_num (num_ok h1 hv), toDouble_num (num_ok h2 hw)]
  | @format pieces l ts h h5 hs hd hlt hb =>
    have := core_entry he (c!"format", .format, false) (by decide) hn
    cases hp with
    | cons hv ht =>
      obtain ⟨i, v, rfl, hv⟩ := hv
      obtain ⟨K, hK⟩ := shown_args ht h
      refine ⟨this.2, K + 3, ?_⟩
      rw [this.1]
      have hlen := shownAll_length h
      exact gives_str _ (format_call (by omega) sid st ⟨i, v, rfl, isVal_str_inv hv⟩ (by omega) (hK (K + 3) (by omega)) hs hb (fun i hi => by rw [← hlen]; exact hlt i hi) hd)
  | flush =>
    have := core_entry he (c!"flush", .flush, false) (by decide) hn
    refine ⟨this.2, 1, ?_⟩
    rw [this.1]
    cases hp
    exact gives_same (v := undefinedV) (by simp [callPrim, ret, bFlush, checkArgs]) (.undef rfl (nsp rfl))
  | sleep =>
    have := core_entry he (c!"sleep", .sleep, false) (by decide) hn
    refine ⟨this.2, 1, ?_⟩
    rw [this.1]
    obtain ⟨i, v, rfl, hv⟩ := args_one hp
    exact gives_same (v := undefinedV) (by simp [callPrim, ret, bSleep, argMk, arg, M.rd_apply, M.lift_apply, mkVariant_var, toInt_int (isVal_int_inv hv)]) (.undef rfl (nsp rfl))
  | fuel =>
    have := core_entry he (c!"fuel", .fuel, false) (by decide) hn
    refine ⟨this.2, 1, ?_⟩
    rw [this.1]
    exact gives_str _ rfl
  | version =>
    have := core_entry he (c!"version", .version, false) (by decide) hn
    refine ⟨this.2, 1, ?_⟩
    rw [this.1]
    exact gives_str _ rfl
  | copyright =>
    have := core_entry he (c!"copyright", .copyright, false) (by decide) hn
    refine ⟨this.2, 1, ?_⟩
    rw [this.1]
    exact gives_str _ rfl

end

end Fuel
