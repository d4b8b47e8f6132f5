import Verif.LemInput
import Verif.PropsDict
/-!
# Dictionaries: the interpreter executes them as the reference semantics says
-/

set_option linter.unusedSectionVars false
set_option linter.unusedSimpArgs false

namespace Fuel

open Spec Spec.Core

section
variable [World]

variable {o : Origin} {st : St} {μ : Emb} {R : Conf}

theorem lt_kind {j k : Key} (h : j.Lt k) : j.kind = k.kind := by
  cases j <;> cases k <;> simp only [Key.Lt, Key.kind] at h ⊢

theorem isVal_key {N : Nat} {u : Variant} {kv : Val} {k : Key} (h : IsVal st μ N u kv) (hk : KeyOf kv k) : IsKey u k ∧ u.unq ≠ .splicing := by
  cases hk with
  | int => cases h with | int a b => exact ⟨a, b⟩
  | str hz => cases h with | str a b => exact ⟨⟨a, hz⟩, b⟩

theorem isVal_keyVal {N : Nat} {u : Variant} {k : Key} (h : IsKey u k) (hu : u.unq ≠ .splicing) : IsVal st μ N u (keyVal k) := by
  cases k with
  | int i => exact .int h hu
  | str s => exact .str h.1 hu

/-- The object that is stored for a value. -/
theorem kept_ok {N : Nat} {u : Variant} {v w : Val} (h : IsVal st μ N u v) (hk : Stored v w) : ∃ x, mkVariant u.value = .ok x ∧ IsVal st μ N x w ∧ ∀ i v, u.value ≠ .mk i (.var v) := by
  cases h with
  | int h => cases hk; obtain ⟨_, i, h'⟩ := h; rw [h']; exact ⟨_, rfl, .int ⟨rfl, _, rfl⟩ (nsp rfl), fun _ _ h => by cases h⟩
  | dbl h => cases hk; obtain ⟨_, i, h'⟩ := h; rw [h']; exact ⟨_, rfl, .dbl ⟨rfl, _, rfl⟩ (nsp rfl), fun _ _ h => by cases h⟩
  | str h => cases hk; obtain ⟨_, i, h'⟩ := h; rw [h']; exact ⟨_, rfl, .str ⟨rfl, _, rfl⟩ (nsp rfl), fun _ _ h => by cases h⟩
  | sym h => cases hk; obtain ⟨_, i, h'⟩ := h; rw [h']; exact ⟨_, rfl, .str ⟨rfl, _, rfl⟩ (nsp rfl), fun _ _ h => by cases h⟩
  | bool h => cases hk; obtain ⟨_, i, h'⟩ := h; rw [h']; exact ⟨_, rfl, .bool ⟨rfl, _, rfl⟩ (nsp rfl), fun _ _ h => by cases h⟩
  | list h _ h1 h2 => cases hk; obtain ⟨_, h'⟩ := h; rw [h']; exact ⟨_, rfl, .list ⟨rfl, rfl⟩ (nsp rfl) h1 h2, fun _ _ h => by cases h⟩
  | prim he h => cases hk; obtain ⟨_, i, h'⟩ := h; rw [h']; exact ⟨_, rfl, .prim he ⟨rfl, _, rfl⟩ (nsp rfl), fun _ _ h => by cases h⟩
  | clo h _ h1 h2 h3 h4 h5 h6 h7 h8 h9 h10 h11 =>
    cases hk; obtain ⟨_, i, h'⟩ := h; rw [h']
    exact ⟨_, rfl, .clo ⟨rfl, _, rfl⟩ (nsp rfl) h1 h2 h3 h4 h5 h6 h7 h8 h9 h10 h11, fun _ _ h => by cases h⟩
  | nil => cases hk
  | undef => cases hk
  | dict => cases hk

/-- The object of a simple value. -/
theorem simple_obj {N : Nat} {u : Variant} {v w : Val} (h : IsVal st μ N u v) (hk : Stored v w) (hw : Simple w) : ∃ j o, u.value = .mk j o ∧
    ((∃ x, o = .int x) ∨ (∃ s, o = .str s) ∨ ∃ b, o = .bool b) ∧
    ∀ {e : Variant × Ptr} {x : Key × Val}, IsEntry st μ N e x → ((∃ i, e.2 = .mk i o) ↔ x.2 = w) := by
  have entry : ∀ {e : Variant × Ptr} {x : Key × Val}, IsEntry st μ N e x → ∃ i o t, e.2 = .mk i o ∧ t.value = .mk i o ∧ t.type = o.lispType ∧ IsVal st μ N t x.2 := by
    rintro ⟨a, p⟩ ⟨k, y⟩ ⟨-, -, t, ht, hy, hn⟩
    cases p with
    | null => cases ht
    | mk i o =>
      cases o <;> first | exact absurd rfl (hn _ _) | (cases ht; exact ⟨_, _, _, rfl, rfl, rfl, hy⟩)
  have main : ∀ {o : Obj}, ((∃ x, o = .int x ∧ w = .int x) ∨ (∃ s, o = .str s ∧ w = .str s) ∨ ∃ b, o = .bool b ∧ w = .bool b) →
      ∀ {e : Variant × Ptr} {x : Key × Val}, IsEntry st μ N e x → ((∃ i, e.2 = .mk i o) ↔ x.2 = w) := by
    intro o ho e x hx
    obtain ⟨i, o', t, h1, h2, h3, h4⟩ := entry hx
    rw [h1]
    constructor
    · rintro ⟨j, hj⟩
      cases hj
      revert h4
      generalize x.2 = y
      intro h4
      rcases ho with ⟨z, rfl, rfl⟩ | ⟨z, rfl, rfl⟩ | ⟨z, rfl, rfl⟩ <;> cases h4 <;> simp_all [IsInt, IsDbl, IsStr, IsSym, IsBool, Obj.lispType, IsListAt, IsFn, IsDictAt, IsNil, IsUndef]
    · intro e
      rw [e] at h4
      rcases ho with ⟨z, rfl, rfl⟩ | ⟨z, rfl, rfl⟩ | ⟨z, rfl, rfl⟩
      · obtain ⟨-, k, hk⟩ := isVal_int_inv h4; rw [h2] at hk; exact ⟨i, by cases hk; rfl⟩
      · obtain ⟨-, k, hk⟩ := isVal_str_inv h4; rw [h2] at hk; exact ⟨i, by cases hk; rfl⟩
      · obtain ⟨-, k, hk⟩ := isVal_bool_inv h4; rw [h2] at hk; exact ⟨i, by cases hk; rfl⟩
  cases hk with
  | int => obtain ⟨-, j, hj⟩ := isVal_int_inv h; exact ⟨j, _, hj, .inl ⟨_, rfl⟩, main (.inl ⟨_, rfl, rfl⟩)⟩
  | str => obtain ⟨-, j, hj⟩ := isVal_str_inv h; exact ⟨j, _, hj, .inr (.inl ⟨_, rfl⟩), main (.inr (.inl ⟨_, rfl, rfl⟩))⟩
  | sym => obtain ⟨-, j, hj⟩ := isVal_sym_inv h; exact ⟨j, _, hj, .inr (.inl ⟨_, rfl⟩), main (.inr (.inl ⟨_, rfl, rfl⟩))⟩
  | bool => obtain ⟨-, j, hj⟩ := isVal_bool_inv h; exact ⟨j, _, hj, .inr (.inr ⟨_, rfl⟩), main (.inr (.inr ⟨_, rfl, rfl⟩))⟩
  | dbl => cases hw
  | list => cases hw
  | prim => cases hw
  | clo => cases hw

theorem isDict_asc {N : Nat} {es : List (Variant × Ptr)} {d : List (Key × Val)} (h : IsDict st μ N es d) {kd : KeyKind} (hk : ∀ e ∈ d, e.1.kind = kd) : Ascending kd es := by
  obtain ⟨ho, he⟩ := h
  induction he with
  | nil => exact ⟨by simp, .nil⟩
  | @cons e x es d hx hes ih =>
    obtain ⟨h1, h2⟩ := List.pairwise_cons.1 ho
    have h3 := ih (fun e he => hk e (by simp [he])) h2
    refine ⟨fun y hy => ?_, .cons (fun y hy => ?_) h3.order⟩
    · rcases List.mem_cons.1 hy with rfl | hy
      · exact ⟨_, hx.1, hk x (by simp)⟩
      · exact h3.keys y hy
    · obtain ⟨z, hz, hy'⟩ := (all2_mem hes).1 y hy
      exact ⟨_, _, hx.1, hy'.1, h1 z hz⟩

theorem located_kind {k : Key} {d a b : List (Key × Val)} {hit : Option Val} (h : Located k d a hit b) : ∀ e ∈ d, e.1.kind = k.kind := by
  intro e he
  rw [h.all] at he
  simp only [List.mem_append, Option.mem_toList, Option.map_eq_some_iff] at he
  rcases he with (he | ⟨v, _, rfl⟩) | he
  · exact lt_kind (h.less e he)
  · rfl
  · exact (lt_kind (h.greater e he)).symm

/-- The entries with smaller keys, the entry itself and the entries with greater keys correspond. -/
theorem located_found {N : Nat} {k : Key} {d : List (Key × Val)} : ∀ {a b : List (Key × Val)} {hit : Option Val}, Located k d a hit b →
    ∀ {es pre post : List (Variant × Ptr)} {ehit : Option (Variant × Ptr)}, All2 (IsEntry st μ N) es d → Found k es pre ehit post →
    All2 (IsEntry st μ N) pre a ∧ All2 (IsEntry st μ N) ehit.toList (hit.map fun v => (k, v)).toList ∧ All2 (IsEntry st μ N) post b := by
  induction d with
  | nil =>
    intro a b hit hl es pre post ehit he hf
    cases he
    have h1 := hl.all
    have h2 := hf.all
    simp only [List.append_assoc, List.nil_eq, List.append_eq_nil_iff] at h1 h2
    obtain ⟨rfl, h1, rfl⟩ := h1
    obtain ⟨rfl, h2, rfl⟩ := h2
    rw [h1, h2]
    exact ⟨.nil, .nil, .nil⟩
  | cons x d ih =>
    intro a b hit hl es pre post ehit he hf
    cases he with
    | @cons e _ es _ hx hes =>
    have h1 := hl.all
    have h2 := hf.all
    cases a with
    | cons y a =>
      simp only [List.cons_append, List.cons.injEq] at h1
      obtain ⟨rfl, h1⟩ := h1
      have hlt := hl.less x (by simp)
      cases pre with
      | cons z pre =>
        simp only [List.cons_append, List.cons.injEq] at h2
        obtain ⟨rfl, h2⟩ := h2
        obtain ⟨g1, g2, g3⟩ := ih ⟨h1, fun e he => hl.less e (by simp [he]), hl.greater⟩ hes ⟨h2, fun e he => hf.less e (by simp [he]), hf.eq, hf.greater⟩
        exact ⟨.cons hx g1, g2, g3⟩
      | nil =>
        cases ehit with
        | some z =>
          simp only [Option.toList_some, List.nil_append, List.cons_append, List.cons.injEq] at h2
          obtain ⟨rfl, h2⟩ := h2
          cases isKey_unique hx.1 (hf.eq _ rfl)
          exact absurd hlt (key_irrefl _)
        | none =>
          simp only [Option.toList_none, List.nil_append, List.append_nil] at h2
          subst h2
          obtain ⟨j, h3, h4⟩ := hf.greater e (by simp)
          cases isKey_unique hx.1 h3
          exact absurd (key_trans hlt h4) (key_irrefl _)
    | nil =>
      cases hit with
      | some v =>
        simp only [Option.map_some, Option.toList_some, List.nil_append, List.cons_append, List.cons.injEq] at h1
        obtain ⟨rfl, rfl⟩ := h1
        cases pre with
        | cons z pre =>
          simp only [List.cons_append, List.cons.injEq] at h2
          obtain ⟨rfl, h2⟩ := h2
          obtain ⟨j, h3, h4⟩ := hf.less e (by simp)
          cases isKey_unique hx.1 h3
          exact absurd h4 (key_irrefl _)
        | nil =>
          cases ehit with
          | some z =>
            simp only [Option.toList_some, List.nil_append, List.cons_append, List.cons.injEq] at h2
            obtain ⟨rfl, rfl⟩ := h2
            exact ⟨.nil, .cons hx .nil, hes⟩
          | none =>
            simp only [Option.toList_none, List.nil_append, List.append_nil] at h2
            subst h2
            obtain ⟨j, h3, h4⟩ := hf.greater e (by simp)
            cases isKey_unique hx.1 h3
            exact absurd h4 (key_irrefl _)
      | none =>
        simp only [Option.map_none, Option.toList_none, List.nil_append, List.append_nil] at h1
        subst h1
        have hgt := hl.greater x (by simp)
        cases pre with
        | cons z pre =>
          simp only [List.cons_append, List.cons.injEq] at h2
          obtain ⟨rfl, h2⟩ := h2
          obtain ⟨j, h3, h4⟩ := hf.less e (by simp)
          cases isKey_unique hx.1 h3
          exact absurd (key_trans hgt h4) (key_irrefl _)
        | nil =>
          cases ehit with
          | some z =>
            simp only [Option.toList_some, List.nil_append, List.cons_append, List.cons.injEq] at h2
            obtain ⟨rfl, rfl⟩ := h2
            cases isKey_unique hx.1 (hf.eq _ rfl)
            exact absurd hgt (key_irrefl _)
          | none =>
            simp only [Option.toList_none, List.nil_append, List.append_nil] at h2
            subst h2
            exact ⟨.nil, .nil, .cons hx hes⟩

/-- The search for a key. -/
theorem access_ok {N : Nat} {k : Key} {d a b : List (Key × Val)} {hit : Option Val} (hl : Located k d a hit b) {es : List (Variant × Ptr)} (hd : IsDict st μ N es d)
    {u : Variant} (hu : IsKey u k) (n : Nat) : ∃ pre ehit post, dictAccess st (n + 3) u es = .ok (pre, ehit, post) ∧
      All2 (IsEntry st μ N) pre a ∧ All2 (IsEntry st μ N) ehit.toList (hit.map fun v => (k, v)).toList ∧ All2 (IsEntry st μ N) post b := by
  obtain ⟨pre, ehit, post, h1, h2⟩ := dictAccess_ok (st := st) (n := n) hu rfl (isDict_asc hd (located_kind hl))
  exact ⟨pre, ehit, post, h1, located_found hl hd.entries h2⟩

theorem hit_cases {N : Nat} {k : Key} {hit : Option Val} {ehit : Option (Variant × Ptr)} (h : All2 (IsEntry st μ N) ehit.toList (hit.map fun v => (k, v)).toList) :
    (ehit = none ∧ hit = none) ∨ ∃ e v, ehit = some e ∧ hit = some v ∧ IsEntry st μ N e (k, v) := by
  cases ehit <;> cases hit <;> simp only [Option.toList_none, Option.toList_some, Option.map_none, Option.map_some] at h
  · exact .inl ⟨rfl, rfl⟩
  · cases h
  · cases h
  · cases h with | cons h => exact .inr ⟨_, _, rfl, rfl, h⟩

theorem isVal_dict_inv {N : Nat} {v : Variant} {a : Nat} (h : IsVal st μ N v (.dict a)) : ∃ i, IsDictAt v i ∧ μ.dict a = some i := by
  cases h with | dict h _ g => exact ⟨_, h, g⟩

theorem Sim.dict (h : Sim o st μ R) {N : Nat} {v : Variant} {a : Nat} (hv : IsVal st μ N v (.dict a)) {d : List (Key × Val)} (hd : R.dicts[a]? = some d) :
    ∃ i, IsDictAt v i ∧ μ.dict a = some i ∧ IsDict st μ R.count (st.dicts i) d := by
  obtain ⟨i, h1, h2⟩ := isVal_dict_inv hv
  obtain ⟨j, h3, h4⟩ := h.dicts.at_ a d hd
  rw [h2] at h3
  cases h3
  exact ⟨i, h1, h2, h4⟩

/-- Calls that only create objects. -/
theorem apply_gives {f : Nat} {v : Val} {e : Entry} (he : e.special = false) {u : Variant} (hu : IsFn u e.wrapper) {args : List Ptr}
    (hs : Sim o st μ R) (hf : f < R.count) (k : Nat) (h : Gives (callPrim (run k) e.fn args (μ f)) st μ R.count v) :
    ∃ fw, IsFn u fw ∧ fw.special = false ∧ ∃ x st' μ', Calls fw args (μ f) st (.ok (some x) st') ∧ IsVal st' μ' R.count x v ∧ Res o st μ R.count st' μ' R := by
  obtain ⟨r, st', h2, h3, h4⟩ := h
  have hC : Calls e.wrapper args (μ f) st (.ok (some r) st') := (calls_prim rfl).2 (lim_of (ends_ok _ _) k h2)
  exact ⟨_, hu, he, r, st', μ, hC, h4, Res.of_extends hs h3 (calls_links hC hs.links (hs.old f hf))⟩

theorem boxed_keys {N : Nat} : ∀ {es : List (Variant × Ptr)} {d : List (Key × Val)} {ps : List Ptr}, All2 (IsEntry st μ N) es d →
    All2 (fun p v => Holds p (· = v)) ps (es.map Prod.fst) → AreVals st μ N ps (d.map fun e => keyVal e.1)
  | [], [], ps, .nil, h => by cases h; exact .nil
  | e :: es, x :: d, ps, .cons hx he, h => by
    cases h with
    | cons hb h =>
      obtain ⟨i, w, rfl, rfl⟩ := hb
      exact .value (isVal_keyVal hx.1 hx.2.1) (boxed_keys he h)

theorem apply_asks {f : Nat} {n : Str} {vs : List Val} {v : Val} (h : Asks R.dicts n vs v) : ApplyOk f (.prim n) vs R v R := by
  intro o st μ u args hs hf hu ha
  obtain ⟨e, he, hne, hfn⟩ := isVal_prim_inv hu
  cases h with
  | @get a d kv k x hit y hd hk hl =>
    obtain ⟨h5, h6⟩ := core_entry he (c!"dict-get", .dictGet, false) (by decide) hne
    obtain ⟨i1, dv, i2, q, rfl, hdv, hq⟩ := args_two ha
    obtain ⟨i, h1, -, h2⟩ := hs.dict hdv hd
    obtain ⟨pre, ehit, post, h3, -, h4, -⟩ := access_ok hl h2 (isVal_key hq hk).1 0
    refine apply_gives h6 hfn hs hf 3 ?_
    rcases hit_cases h4 with ⟨rfl, rfl⟩ | ⟨z, w, rfl, rfl, hz, -, r, hr, hr', -⟩
    · refine ⟨⟨.undefined, .mk st.next .undef, .none, none⟩, { st with next := st.next + 1 }, ?_, extends_next st _ (by omega), .undef rfl (nsp rfl)⟩
      rw [h5]
      simp [callPrim, bDictGet, ret, checkArgs, argDict, argV, arg, toVariant_var, dictOf, h1.2, M.rd_apply, dictFind, run_n, h3, allocObj, mkVariant, Obj.lispType]
    · refine ⟨r, st, ?_, Extends.refl _, hr'⟩
      rw [h5]
      simp [callPrim, bDictGet, ret, checkArgs, argDict, argV, arg, toVariant_var, dictOf, h1.2, M.rd_apply, dictFind, run_n, h3, hr]
  | @has a d kv k x hit y hd hk hl =>
    obtain ⟨h5, h6⟩ := core_entry he (c!"dict-contains-key", .dictContainsKey, false) (by decide) hne
    obtain ⟨i1, dv, i2, q, rfl, hdv, hq⟩ := args_two ha
    obtain ⟨i, h1, -, h2⟩ := hs.dict hdv hd
    obtain ⟨pre, ehit, post, h3, -, h4, -⟩ := access_ok hl h2 (isVal_key hq hk).1 0
    refine apply_gives h6 hfn hs hf 3 (gives_bool _ ?_)
    rw [h5]
    rcases hit_cases h4 with ⟨rfl, rfl⟩ | ⟨z, w, rfl, rfl, -⟩
    · simp [callPrim, bDictContainsKey, ret, checkArgs, argDict, argV, arg, toVariant_var, dictOf, h1.2, M.rd_apply, dictFind, run_n, h3]
    · simp [callPrim, bDictContainsKey, ret, checkArgs, argDict, argV, arg, toVariant_var, dictOf, h1.2, M.rd_apply, dictFind, run_n, h3]
  | @keys a d hd =>
    obtain ⟨h5, h6⟩ := core_entry he (c!"dict-keys", .dictKeys, false) (by decide) hne
    obtain ⟨i1, dv, rfl, hdv⟩ := args_one ha
    obtain ⟨i, h1, -, h2⟩ := hs.dict hdv hd
    obtain ⟨ps, h3, h4⟩ := boxAll_ok ((st.dicts i).map Prod.fst) st
    have hx := extends_next st (st.next + ((st.dicts i).map Prod.fst).length) (by omega)
    have h7 := areVals_extends hx (boxed_keys h2.entries h4)
    generalize hs1 : ({ st with next := st.next + ((st.dicts i).map Prod.fst).length } : St) = s1 at h3 hx h7
    have hy := extends_list s1 ps
    refine apply_gives h6 hfn hs hf 3 ⟨⟨.list, .mk s1.next .list, .none, none⟩, _, ?_, hx.trans hy, .list ⟨rfl, rfl⟩ (nsp rfl) ?_ ?_⟩
    · rw [h5]
      simp [callPrim, bDictKeys, ret, checkArgs, argDict, argV, arg, toVariant_var, dictOf, h1.2, h3]
    · simp
    · have := areVals_extends hy h7
      simpa using this
  | @len a d hd hi =>
    obtain ⟨h5, h6⟩ := core_entry he (c!"len", .len, false) (by decide) hne
    obtain ⟨i1, dv, rfl, hdv⟩ := args_one ha
    obtain ⟨i, h1, -, h2⟩ := hs.dict hdv hd
    refine apply_gives h6 hfn hs hf 3 (gives_int _ ?_)
    rw [h5]
    have := wrap32_id hi
    rw [← all2_length h2.entries] at this
    rw [← all2_length h2.entries]
    simp [callPrim, bLen, ret, checkArgs, argV, arg, toVariant_var, h1.1, h1.2, this]
  | @hasValue a d v w r hd hv hw hr =>
    obtain ⟨h5, h6⟩ := core_entry he (c!"dict-contains-value", .dictContainsValue, false) (by decide) hne
    obtain ⟨i1, dv, i2, q, rfl, hdv, hq⟩ := args_two ha
    obtain ⟨i, h1, -, h2⟩ := hs.dict hdv hd
    obtain ⟨j, ob, g1, g2, g3⟩ := simple_obj hq hv hw
    obtain ⟨b, k1, k2⟩ := containsValue_ok (st := st) g1 g2 (st.dicts i) fun e he => by
      obtain ⟨x, -, -, -, t, ht, -⟩ := (all2_mem h2.entries).1 e he
      intro h0
      rw [h0] at ht
      cases ht
    have : b = r := by
      rw [Bool.eq_iff_iff, k2, hr]
      constructor
      · rintro ⟨e, he, k, hk⟩
        obtain ⟨x, hx, hx'⟩ := (all2_mem h2.entries).1 e he
        exact ⟨x, hx, (g3 hx').1 ⟨k, hk⟩⟩
      · rintro ⟨x, hx, hx'⟩
        obtain ⟨e, he, he'⟩ := (all2_mem h2.entries).2 x hx
        exact ⟨e, he, (g3 he').2 hx'⟩
    subst this
    refine apply_gives h6 hfn hs hf 3 (gives_bool _ ?_)
    rw [h5]
    simp [callPrim, bDictContainsValue, ret, checkArgs, argDict, argV, arg, toVariant_var, dictOf, h1.2, M.rd_apply, k1]

/-- A change of the dictionaries changes nothing else. -/
theorem Sim.dicted (h : Sim o st μ R) {st' : St} {μ' : Emb} {ds : List (List (Key × Val))} (hst : { st' with dicts := st.dicts, next := st.next } = st) (hn : st.next ≤ st'.next)
    (hμ : μ'.scope = μ.scope) (hg : ∀ a i, μ.dict a = some i → μ'.dict a = some i)
    (hd : Grow st μ R.count st' μ' R.count → Dicts st' μ' R.count ds) : Res o st μ R.count st' μ' { R with dicts := ds } := by
  have e1 : st'.lists = st.lists := (congrArg St.lists hst :)
  have e2 : st'.clos = st.clos := (congrArg St.clos hst :)
  have e3 : st'.scopes = st.scopes := (congrArg St.scopes hst :)
  have e4 : st'.out = st.out := (congrArg St.out hst :)
  have e5 : st'.input = st.input := (congrArg St.input hst :)
  have hb : ∀ i n, binding st' i n = binding st i n := fun i n => by simp only [binding, e3]
  have gr : Grow st μ R.count st' μ' R.count := ⟨hn, fun _ _ => by rw [e1], fun _ _ => by rw [e2], Nat.le_refl _, fun _ _ => by rw [hμ], hg⟩
  have hl := links_next h.links _ hn
  refine ⟨⟨⟨?_, ?_, ?_, ?_⟩, h.pos, fun f hf => ?_, ?_, fun f hf => ?_, fun f hf => ?_, fun f hf => ?_, fun f hf => ?_, h.below, fun f hf n hn hv => ?_, fun f hf n hn v hv => ?_, fun f hf => ?_, ?_, ?_,
    h.names, fun f hf h0 => ?_, ?_, ?_, ?_, hd gr, fun name file xs hx => (h.lib name file xs hx).congr (congrArg St.files hst :) (congrArg St.libPath hst :)⟩, gr⟩
  · rw [e2]; exact hl.clos
  · intro i c hc; rw [e3] at hc; exact hl.old i c hc
  · rw [e3]; exact hl.fresh
  · rw [e3]; exact hl.callers
  · rw [hμ]; exact Nat.lt_of_lt_of_le (h.old f hf) hn
  · rw [hμ]; exact h.inj
  · rw [e3, hμ]; exact h.global f hf
  · rw [e3, hμ]; exact h.place f hf
  · rw [e3, hμ]; exact h.ret f hf
  · rw [e3, hμ]; exact h.parent f hf
  · rw [hb, hμ]; exact h.unbound f hf n hn hv
  · rw [hb, hμ]
    obtain ⟨p, h1, i, w, rfl, h2⟩ := h.bound f hf n hn v hv
    exact ⟨_, h1, i, w, rfl, isVal_grow gr h2⟩
  · rw [hb, hb, hμ]; exact h.buffer f hf
  · obtain ⟨i, m, h1, h2, h3, h4⟩ := h.macros
    exact ⟨i, m, by rw [hb, hμ, h1], Nat.lt_of_lt_of_le h2 hn, by rw [hμ]; exact h3, fun n => by rw [hb]; exact macroAt_grow gr (h4 n)⟩
  · obtain ⟨i, m, h1, h2, h3, h4, h5⟩ := h.modules
    exact ⟨i, m, by rw [hb, hμ, h1], Nat.lt_of_lt_of_le h2 hn, by rw [hμ]; exact h3, fun j m' => by rw [hb, hμ]; exact h4 j m', by rw [e3]; exact isModules_mono (Nat.le_refl _) gr.same h5⟩
  · rw [hb, hμ]; exact h.inner f hf h0
  · rw [e3, hμ]; exact h.tracing
  · rw [e4]; exact h.out
  · rw [e5]; exact h.input

/-- One dictionary has new entries. -/
theorem Sim.store (h : Sim o st μ R) {a i : Nat} {d : List (Key × Val)} (hi : μ.dict a = some i) {es : List (Variant × Ptr)}
    (hd : IsDict st μ R.count es d) (n : Nat) (hn : st.next ≤ n) :
    Res o st μ R.count { st with dicts := fset st.dicts i es, next := n } μ { R with dicts := R.dicts.set a d } := by
  refine h.dicted rfl hn rfl (fun _ _ h => h) fun gr => ⟨fun b x hx => ?_, h.dicts.inj, fun b j hj => Nat.lt_of_lt_of_le (h.dicts.old b j hj) hn, fun b hb => h.dicts.free b (by simpa using hb)⟩
  rw [List.getElem?_set] at hx
  by_cases hab : a = b
  · subst hab
    simp only [if_true] at hx
    split at hx
    · cases hx
      exact ⟨i, hi, by simpa only [fset_self] using isDict_grow gr hd⟩
    · cases hx
  · rw [if_neg hab] at hx
    obtain ⟨j, h1, h2⟩ := h.dicts.at_ b x hx
    have : j ≠ i := fun e => hab (h.dicts.inj a b i hi (e ▸ h1))
    exact ⟨j, h1, by simpa [fset, this] using isDict_grow gr h2⟩

theorem all2_append {α β : Type} {P : α → β → Prop} {l l' : List α} {m m' : List β} (h : All2 P l m) (g : All2 P l' m') : All2 P (l ++ l') (m ++ m') := by
  induction h with
  | nil => exact g
  | cons h _ ih => exact .cons h ih

theorem located_order {k : Key} {d a b : List (Key × Val)} {hit : Option Val} (h : Located k d a hit b) (ho : d.Pairwise fun x y => x.1.Lt y.1) :
    (a ++ b).Pairwise fun x y => x.1.Lt y.1 := by
  refine ho.sublist ?_
  rw [h.all, List.append_assoc]
  exact List.Sublist.append (List.Sublist.refl _) (List.sublist_append_right _ _)

theorem located_order_set {k : Key} {d a b : List (Key × Val)} {hit : Option Val} (h : Located k d a hit b) (ho : d.Pairwise fun x y => x.1.Lt y.1) (w : Val) :
    (a ++ (k, w) :: b).Pairwise fun x y => x.1.Lt y.1 := by
  obtain ⟨h1, h2, h3⟩ := List.pairwise_append.1 (located_order h ho)
  refine List.pairwise_append.2 ⟨h1, .cons h.greater h2, fun x hx y hy => ?_⟩
  rcases List.mem_cons.1 hy with rfl | hy
  · exact h.less x hx
  · exact h3 x hx y hy

theorem apply_changes {f : Nat} {n : Str} {vs : List Val} {v : Val} {ds : List (List (Key × Val))} (h : Changes R.dicts n vs v ds) :
    ApplyOk f (.prim n) vs R v { R with dicts := ds } := by
  intro o st μ u args hs hf hu ha
  obtain ⟨e, he, hne, hfn⟩ := isVal_prim_inv hu
  cases h with
  | make =>
    obtain ⟨h5, h6⟩ := core_entry he (c!"make-dict", .makeDict, false) (by decide) hne
    cases ha
    have hfree := hs.dicts.free _ (Nat.le_refl _)
    have hres : Res o st μ R.count { st with dicts := fset st.dicts st.next [], next := st.next + 1 } { μ with dict := fset μ.dict R.dicts.length (some st.next) }
        { R with dicts := R.dicts ++ [[]] } := by
      have hg : ∀ a i, μ.dict a = some i → fset μ.dict R.dicts.length (some st.next) a = some i := by
        intro a i h
        have : a ≠ R.dicts.length := by rintro rfl; rw [hfree] at h; cases h
        simpa [fset, this] using h
      refine hs.dicted rfl (Nat.le_succ _) rfl hg fun gr => ⟨fun b x hx => ?_, fun b c j hb hc => ?_, fun b j hb => ?_, fun b hb => ?_⟩
      · rw [List.getElem?_append] at hx
        split at hx
        · obtain ⟨j, h1, h2⟩ := hs.dicts.at_ b x hx
          have : j ≠ st.next := Nat.ne_of_lt (hs.dicts.old b j h1)
          exact ⟨j, hg _ _ h1, by simpa [fset, this] using isDict_grow gr h2⟩
        · rename_i hb
          have : b = R.dicts.length := by
            have := (List.getElem?_eq_some_iff.1 hx).1
            simp at this
            omega
          subst this
          simp at hx
          subst hx
          exact ⟨st.next, by simp [fset], by simpa [fset] using (⟨.nil, .nil⟩ : IsDict _ _ _ [] [])⟩
      · simp only [fset] at hb hc
        split at hb <;> split at hc
        · rename_i h1 h2; rw [h1, h2]
        · cases hb; exact absurd (hs.dicts.old c _ hc) (Nat.lt_irrefl _)
        · cases hc; exact absurd (hs.dicts.old b _ hb) (Nat.lt_irrefl _)
        · exact hs.dicts.inj b c j hb hc
      · simp only [fset] at hb
        split at hb
        · cases hb; exact Nat.lt_succ_self _
        · exact Nat.lt_succ_of_lt (hs.dicts.old b j hb)
      · simp only [List.length_append, List.length_cons, List.length_nil] at hb
        have : b ≠ R.dicts.length := by omega
        simp only [fset, this, if_false]
        exact hs.dicts.free b (by omega)
    have hC : Calls e.wrapper [] (μ f) st (.ok (some ⟨.native, .mk st.next .dict, .none, none⟩) { st with dicts := fset st.dicts st.next [], next := st.next + 1 }) :=
      (calls_prim rfl).2 (lim_of (ends_ok _ _) 3 (by rw [h5]; rfl))
    exact ⟨_, hfn, h6, _, _, _, hC, .dict ⟨rfl, rfl⟩ (nsp rfl) (by simp [fset]), hres⟩
  | @set a d kv k v w x hit y hd hk hw hl =>
    obtain ⟨h5, h6⟩ := core_entry he (c!"dict-set", .dictSet, false) (by decide) hne
    obtain ⟨i1, dv, i2, q, i3, z, rfl, hdv, hq, hz⟩ := args_three ha
    obtain ⟨i, h1, hi, h2⟩ := hs.dict hdv hd
    obtain ⟨hq1, hq2⟩ := isVal_key hq hk
    obtain ⟨pre, ehit, post, h3, g1, h4, g3⟩ := access_ok hl h2 hq1 0
    obtain ⟨t, ht, ht', htn⟩ := kept_ok hz hw
    have hk' : IsKey ((ehit.map Prod.fst).getD q) k ∧ ((ehit.map Prod.fst).getD q).unq ≠ .splicing := by
      rcases hit_cases h4 with ⟨rfl, rfl⟩ | ⟨z, w, rfl, rfl, hz1, hz2, -⟩
      · exact ⟨hq1, hq2⟩
      · exact ⟨hz1, hz2⟩
    have hC : Calls e.wrapper [.mk i1 (.var dv), .mk i2 (.var q), .mk i3 (.var z)] (μ f) st
        (.ok (some z) { st with dicts := fset st.dicts i (pre ++ (((ehit.map Prod.fst).getD q, z.value) :: post)), next := st.next }) :=
      (calls_prim rfl).2 (lim_of (ends_ok _ _) 3 (by
        rw [h5]
        simp [callPrim, bDictSet, ret, checkArgs, argDict, argV, arg, toVariant_var, dictOf, h1.2, M.rd_apply, dictSet, run_n, h3, setDict]))
    have hres := hs.store hi (d := x ++ (k, w) :: y) (es := pre ++ (((ehit.map Prod.fst).getD q, z.value) :: post)) ⟨located_order_set hl h2.order w, all2_append g1 (.cons ⟨hk'.1, hk'.2, t, ht, ht', htn⟩ g3)⟩ st.next (Nat.le_refl _)
    exact ⟨_, hfn, h6, _, _, _, hC, isVal_grow hres.grow hz, hres⟩
  | @remove a d kv k x hit y hd hk hl =>
    obtain ⟨h5, h6⟩ := core_entry he (c!"dict-remove", .dictRemove, false) (by decide) hne
    obtain ⟨i1, dv, i2, q, rfl, hdv, hq⟩ := args_two ha
    obtain ⟨i, h1, hi, h2⟩ := hs.dict hdv hd
    obtain ⟨hq1, hq2⟩ := isVal_key hq hk
    obtain ⟨pre, ehit, post, h3, g1, h4, g3⟩ := access_ok hl h2 hq1 0
    have hC : Calls e.wrapper [.mk i1 (.var dv), .mk i2 (.var q)] (μ f) st
        (.ok (some ⟨.bool, .mk st.next (.bool hit.isSome), .none, none⟩) { st with dicts := fset st.dicts i (pre ++ post), next := st.next + 1 }) :=
      (calls_prim rfl).2 (lim_of (ends_ok _ _) 3 (by
        rw [h5]
        rcases hit_cases h4 with ⟨rfl, rfl⟩ | ⟨z, w, rfl, rfl, -⟩ <;>
        simp [callPrim, bDictRemove, ret, checkArgs, argDict, argV, arg, toVariant_var, dictOf, h1.2, M.rd_apply, dictErase, run_n, h3, setDict]))
    have hres := hs.store hi (d := x ++ y) ⟨located_order hl h2.order, all2_append g1 g3⟩ (st.next + 1) (Nat.le_succ _)
    exact ⟨_, hfn, h6, _, _, _, hC, .bool ⟨rfl, _, rfl⟩ (nsp rfl), hres⟩
  | @clear a d hd =>
    obtain ⟨h5, h6⟩ := core_entry he (c!"dict-clear", .dictClear, false) (by decide) hne
    obtain ⟨i1, dv, rfl, hdv⟩ := args_one ha
    obtain ⟨i, h1, hi, h2⟩ := hs.dict hdv hd
    have hC : Calls e.wrapper [.mk i1 (.var dv)] (μ f) st (.ok (some undefinedV) { st with dicts := fset st.dicts i [], next := st.next }) :=
      (calls_prim rfl).2 (lim_of (ends_ok _ _) 3 (by
        rw [h5]
        simp [callPrim, bDictClear, ret, checkArgs, argDict, argV, arg, toVariant_var, dictOf, h1.2, setDict]))
    have hres := hs.store hi (d := []) ⟨.nil, .nil⟩ st.next (Nat.le_refl _)
    exact ⟨_, hfn, h6, _, _, _, hC, .undef rfl (nsp rfl), hres⟩

end

end Fuel
