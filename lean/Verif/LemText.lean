import Verif.SpecText
/-!
# Lemmas about the string functions of the model
-/

namespace Fuel

open Spec

theorem takeWhile_all {p : Char → Bool} {s : Str} (h : ∀ c ∈ s, p c = true) : s.takeWhile p = s := by
  induction s with
  | nil => rfl
  | cons c t ih => simp [h c (by simp), ih fun d hd => h d (by simp [hd])]

theorem dropWhile_all {p : Char → Bool} {s : Str} (h : ∀ c ∈ s, p c = true) : s.dropWhile p = [] := by
  induction s with
  | nil => rfl
  | cons c t ih => simp [h c (by simp), ih fun d hd => h d (by simp [hd])]

theorem mem_takeWhile {p : Char → Bool} {s : Str} {c : Char} (h : c ∈ s.takeWhile p) : p c = true := by
  induction s with
  | nil => simp at h
  | cons d t ih =>
    by_cases hd : p d = true
    · simp [hd] at h
      rcases h with rfl | h
      · exact hd
      · exact ih h
    · simp [hd] at h

theorem toNat_ofNat {n : Nat} (h : n < 55296) : (Char.ofNat n).toNat = n := by
  have hv : n.isValidChar := Or.inl h
  rw [Char.ofNat, dif_pos hv]
  simp only [Char.ofNatAux, Char.toNat]
  simp [UInt32.toNat]

theorem isSpace_iff (c : Char) : isSpace c = true ↔ White c := by
  simp [isSpace, White, or_assoc]

theorem occursAt_iff (pat txt : Str) (k : Nat) : OccursAt pat txt k ↔ k ≤ txt.length ∧ pat <+: txt.drop k := by
  constructor
  · rintro ⟨a, b, rfl, rfl⟩
    constructor
    · simp
    · exact ⟨b, by simp⟩
  · rintro ⟨h, b, hb⟩
    exact ⟨txt.take k, b, by rw [List.append_assoc, hb, List.take_append_drop], by simp; omega⟩

theorem findSub_some {pat t : Str} {k : Nat} (h : findSub pat t = some k) : FirstAt pat t k := by
  induction t generalizing k with
  | nil =>
    simp only [findSub] at h
    split at h
    · rename_i hp
      simp at hp h
      subst hp h
      exact ⟨⟨[], [], rfl, rfl⟩, by intro j hj; omega⟩
    · simp at h
  | cons c t ih =>
    simp only [findSub] at h
    split at h
    · rename_i hp
      simp at h
      subst h
      refine ⟨?_, by intro j hj; omega⟩
      rw [occursAt_iff]
      simpa using hp
    · rename_i hp
      simp only [Option.map_eq_some_iff] at h
      obtain ⟨k', hk, rfl⟩ := h
      obtain ⟨h1, h2⟩ := ih hk
      rw [occursAt_iff] at h1
      refine ⟨?_, ?_⟩
      · rw [occursAt_iff]; simpa using h1
      · intro j hj
        cases j with
        | zero => rw [occursAt_iff]; simpa using hp
        | succ j =>
          have := h2 j (by omega)
          rw [occursAt_iff] at this ⊢
          simpa using this

theorem findSub_none {pat t : Str} (h : findSub pat t = none) (k : Nat) : ¬ OccursAt pat t k := by
  induction t generalizing k with
  | nil =>
    simp only [findSub] at h
    split at h
    · simp at h
    · rename_i hp
      rw [occursAt_iff]
      rintro ⟨h1, h2⟩
      simp at h1 h2
      exact hp (by simp [h2])
  | cons c t ih =>
    simp only [findSub] at h
    split at h
    · simp at h
    · rename_i hp
      simp only [Option.map_eq_none_iff] at h
      rw [occursAt_iff]
      cases k with
      | zero => simpa using hp
      | succ k =>
        have := ih h k
        rw [occursAt_iff] at this
        simpa using this

theorem firstAt_unique {pat t : Str} {i j : Nat} (hi : FirstAt pat t i) (hj : FirstAt pat t j) : i = j := by
  rcases Nat.lt_trichotomy i j with h | h | h
  · exact absurd hi.1 (hj.2 i h)
  · exact h
  · exact absurd hj.1 (hi.2 j h)

theorem findSub_eq_some {pat t : Str} {k : Nat} (h : FirstAt pat t k) : findSub pat t = some k := by
  cases hf : findSub pat t with
  | none => exact absurd h.1 (findSub_none hf k)
  | some j => rw [firstAt_unique (findSub_some hf) h]

theorem findSub_eq_none {pat t : Str} (h : ∀ k, ¬ OccursAt pat t k) : findSub pat t = none := by
  cases hf : findSub pat t with
  | none => rfl
  | some j => exact absurd (findSub_some hf).1 (h j)

theorem findFrom_append (a t pat : Str) : findFrom (a ++ t) pat a.length = (findSub pat t).map (· + a.length) := by
  simp [findFrom]

/-- Position of the first occurrence of one character. -/
theorem findSub_char (c : Char) (t : Str) :
    findSub [c] t = if c ∈ t then some (t.takeWhile (· != c)).length else none := by
  induction t with
  | nil => simp [findSub]
  | cons d t ih =>
    simp only [findSub]
    by_cases h : c = d
    · subst h; simp [List.isPrefixOf]
    · have h' : ([c] : Str).isPrefixOf (d :: t) = false := by simp [List.isPrefixOf, h]
      rw [h', ih]
      have : (d != c) = true := by simp; exact fun e => h e.symm
      simp only [List.mem_cons, h, false_or, List.takeWhile_cons, this]
      by_cases hm : c ∈ t <;> simp [hm]

/-! ## Replace -/

theorem replaced_of_none {search new t : Str} (h : findSub search t = none) :
    Replaced search new t t := by
  induction t with
  | nil => exact .done
  | cons c t ih =>
    simp only [findSub] at h
    split at h
    · simp at h
    · rename_i hp
      simp only [Option.map_eq_none_iff] at h
      exact .skip (by simpa using hp) (ih h)

theorem replaced_of_some {search new t o : Str} {k : Nat} (hs : search ≠ []) (h : findSub search t = some k)
    (hr : Replaced search new (t.drop (k + search.length)) o) :
    Replaced search new t (t.take k ++ new ++ o) := by
  induction t generalizing k with
  | nil =>
    simp only [findSub] at h
    split at h
    · rename_i hp; simp at hp; exact absurd hp hs
    · simp at h
  | cons c t ih =>
    simp only [findSub] at h
    split at h
    · rename_i hp
      simp at h
      subst h
      simp only [List.isPrefixOf_iff_prefix] at hp
      obtain ⟨b, hb⟩ := hp
      rw [← hb] at hr ⊢
      simp at hr ⊢
      exact .hit hr
    · rename_i hp
      simp only [Option.map_eq_some_iff] at h
      obtain ⟨k', hk, rfl⟩ := h
      have : t.drop (k' + search.length) = (c :: t).drop (k' + 1 + search.length) := by
        rw [show k' + 1 + search.length = (k' + search.length) + 1 by omega, List.drop_succ_cons]
      exact .skip (by simpa using hp) (ih hk (this ▸ hr))

theorem findSub_le {pat t : Str} {k : Nat} (h : findSub pat t = some k) : k + pat.length ≤ t.length := by
  obtain ⟨⟨a, b, rfl, rfl⟩, -⟩ := findSub_some h
  simp

theorem doReplaceLoop_spec (search new : Str) (hs : search ≠ []) (n : Nat) (a t : Str) (hn : t.length < n) :
    ∃ o, doReplaceLoop search new n (a ++ t) a.length = .ok (a ++ o) ∧ Replaced search new t o := by
  induction n generalizing a t with
  | zero => omega
  | succ n ih =>
    simp only [doReplaceLoop, findFrom_append]
    cases hf : findSub search t with
    | none => exact ⟨t, rfl, replaced_of_none hf⟩
    | some k =>
      simp only [Option.map_some]
      have hk := findSub_le hf
      have hl : 0 < search.length := List.length_pos_iff.mpr hs
      have e1 : spliceStr (a ++ t) (k + a.length) search.length new =
          (a ++ t.take k ++ new) ++ t.drop (k + search.length) := by
        simp only [spliceStr]
        rw [show k + a.length = a.length + k by omega, List.take_append, List.drop_append,
          List.take_of_length_le (by omega : a.length ≤ a.length + k),
          List.drop_eq_nil_of_le (by omega : a.length ≤ a.length + k + search.length),
          show a.length + k + search.length - a.length = k + search.length by omega]
        simp
      have e2 : k + a.length + new.length = (a ++ t.take k ++ new).length := by simp; omega
      rw [e1, e2]
      obtain ⟨o, ho, hr⟩ := ih (a ++ t.take k ++ new) (t.drop (k + search.length)) (by simp; omega)
      exact ⟨t.take k ++ new ++ o, by rw [ho]; simp, replaced_of_some hs hf hr⟩

theorem Replaced.unique {search new t o o' : Str} (hs : search ≠ []) (h : Replaced search new t o)
    (h' : Replaced search new t o') : o = o' := by
  induction h generalizing o' with
  | done =>
    generalize he : ([] : Str) = t at h'
    cases h' with
    | done => rfl
    | hit _ => simp at he; exact absurd he.1 hs
    | skip _ _ => simp at he
  | @hit t o hr ih =>
    generalize he : search ++ t = u at h'
    cases h' with
    | done => simp at he; exact absurd he.1 hs
    | hit h2 =>
      have := List.append_cancel_left he
      subst this
      rw [ih h2]
    | skip hn _ => exact absurd ⟨t, he⟩ hn
  | @skip c t o hn hr ih =>
    generalize he : c :: t = u at h'
    cases h' with
    | done => simp at he
    | @hit t' _ _ => exact absurd ⟨t', he.symm⟩ hn
    | skip _ h2 =>
      simp at he
      obtain ⟨rfl, rfl⟩ := he
      rw [ih h2]

theorem cStr_eq {s : Str} (h : Char.ofNat 0 ∉ s) : cStr s = s := by
  unfold cStr
  exact takeWhile_all fun c hc => by
    simp
    rintro rfl
    exact h hc

theorem replaceAll_spec (txt search new : Str) (h0 : Char.ofNat 0 ∉ search) (h1 : Char.ofNat 0 ∉ new) (hs : search ≠ []) :
    ∃ o, replaceAll txt search new = .ok o ∧ Replaced search new txt o := by
  have := doReplaceLoop_spec search new hs (txt.length + 1) [] txt (by omega)
  simpa [replaceAll, doReplace, cStr_eq h0, cStr_eq h1, hs] using this

theorem replaceAll_nil (txt new : Str) : replaceAll txt [] new = .ok txt := by
  simp [replaceAll, doReplace, cStr]

/-! ## Trim and case -/

theorem dropWhile_split {p : Char → Bool} (s : Str) : ∃ a, s = a ++ s.dropWhile p ∧ (∀ c ∈ a, p c = true) ∧
    ∀ c, (s.dropWhile p).head? = some c → p c = false := by
  refine ⟨s.takeWhile p, (List.takeWhile_append_dropWhile).symm, ?_, ?_⟩
  · intro c hc; exact mem_takeWhile hc
  · intro c hc
    have := List.head?_dropWhile_not p s
    rw [hc] at this
    simpa using this

theorem trim_decomp (s : Str) : ∃ a b, s = a ++ trim s ++ b ∧ (∀ c ∈ a, White c) ∧ (∀ c ∈ b, White c) ∧ Tight (trim s) := by
  obtain ⟨a, ha, hw, hh⟩ := dropWhile_split (p := isSpace) s
  obtain ⟨b, hb, hw', hh'⟩ := dropWhile_split (p := isSpace) (s.dropWhile isSpace).reverse
  have ht : trim s = ((s.dropWhile isSpace).reverse.dropWhile isSpace).reverse := rfl
  have e : s.dropWhile isSpace = trim s ++ b.reverse := by
    rw [ht, ← List.reverse_append, ← hb, List.reverse_reverse]
  refine ⟨a, b.reverse, ?_, ?_, ?_, ?_, ?_⟩
  · rw [List.append_assoc, ← e, ← ha]
  · intro c hc; exact (isSpace_iff c).1 (hw c hc)
  · intro c hc; exact (isSpace_iff c).1 (hw' c (by simpa using hc))
  · intro c hc hwc
    have : (s.dropWhile isSpace).head? = some c := by
      rw [e]
      cases h : trim s with
      | nil => rw [h] at hc; simp at hc
      | cons x xs => rw [h] at hc; simpa using hc
    have := hh c this
    rw [(isSpace_iff c).2 hwc] at this
    simp at this
  · intro c hc hwc
    have : ((s.dropWhile isSpace).reverse.dropWhile isSpace).head? = some c := by
      rw [ht] at hc; simpa using hc
    have := hh' c this
    rw [(isSpace_iff c).2 hwc] at this
    simp at this

theorem dropWhile_eq_self {p : Char → Bool} {s : Str} (h : ∀ c, s.head? = some c → p c = false) : s.dropWhile p = s := by
  cases s with
  | nil => rfl
  | cons c t => simp [h c rfl]

theorem trim_of_tight {t : Str} (h : Tight t) : trim t = t := by
  have h1 : t.dropWhile isSpace = t := dropWhile_eq_self fun c hc => by
    have := h.1 c hc
    rw [← isSpace_iff] at this
    simpa using this
  have h2 : t.reverse.dropWhile isSpace = t.reverse := dropWhile_eq_self fun c hc => by
    have := h.2 c (by simpa using hc)
    rw [← isSpace_iff] at this
    simpa using this
  simp [trim, h1, h2]

theorem dropWhile_white {a t : Str} (ha : ∀ c ∈ a, White c) : (a ++ t).dropWhile isSpace = t.dropWhile isSpace := by
  induction a with
  | nil => rfl
  | cons c a ih =>
    have : isSpace c = true := (isSpace_iff c).2 (ha c (by simp))
    simp [this, ih fun d hd => ha d (by simp [hd])]

theorem trim_of_decomp {a o b : Str} (ha : ∀ c ∈ a, White c) (hb : ∀ c ∈ b, White c) (ho : Tight o) :
    trim (a ++ o ++ b) = o := by
  have hsp : ∀ c, ¬ White c → isSpace c = false := fun c h => by
    rw [← isSpace_iff] at h; simpa using h
  cases o with
  | nil =>
    have : (a ++ [] ++ b).dropWhile isSpace = [] := dropWhile_all fun c hc => by
      rw [isSpace_iff]
      simp at hc
      rcases hc with h | h
      · exact ha c h
      · exact hb c h
    simp [trim] at this ⊢
    rw [this]; rfl
  | cons x xs =>
    have h1 : (a ++ (x :: xs) ++ b).dropWhile isSpace = x :: xs ++ b := by
      rw [List.append_assoc, dropWhile_white ha]
      exact dropWhile_eq_self fun c hc => hsp c (ho.1 c (by simpa using hc))
    have h2 : ((x :: xs) ++ b).reverse.dropWhile isSpace = (x :: xs).reverse := by
      rw [List.reverse_append, dropWhile_white fun c hc => hb c (by simpa using hc)]
      exact dropWhile_eq_self fun c hc => hsp c (ho.2 c (by rw [List.head?_reverse] at hc; exact hc))
    simp only [trim, h1, h2, List.reverse_reverse]

theorem toUpperC_idem (c : Char) : toUpperC (toUpperC c) = toUpperC c := by
  unfold toUpperC
  by_cases h : 97 ≤ c.toNat ∧ c.toNat ≤ 122
  · have : (Char.ofNat (c.toNat - 32)).toNat = c.toNat - 32 := toNat_ofNat (by omega)
    simp [h, this]; omega
  · have h' : (decide (97 ≤ c.toNat) && decide (c.toNat ≤ 122)) = false := by
      simp; omega
    simp [h']

theorem toLowerC_idem (c : Char) : toLowerC (toLowerC c) = toLowerC c := by
  unfold toLowerC
  by_cases h : 65 ≤ c.toNat ∧ c.toNat ≤ 90
  · have : (Char.ofNat (c.toNat + 32)).toNat = c.toNat + 32 := toNat_ofNat (by omega)
    simp [h, this]; omega
  · have h' : (decide (65 ≤ c.toNat) && decide (c.toNat ≤ 90)) = false := by
      simp; omega
    simp [h']

/-! ## Split -/

theorem takeWhile_ne_split {c : Char} {t : Str} (h : c ∈ t) :
    t = t.takeWhile (· != c) ++ c :: t.drop ((t.takeWhile (· != c)).length + 1) := by
  induction t with
  | nil => simp at h
  | cons d t ih =>
    by_cases hd : d = c
    · subst hd; simp
    · have hb : (d != c) = true := by simpa using hd
      have : c ∈ t := by
        rcases List.mem_cons.1 h with rfl | h
        · exact absurd rfl hd
        · exact h
      simp only [List.takeWhile_cons, hb, if_true, List.length_cons, List.drop_succ_cons, List.cons_append]
      rw [← ih this]

theorem not_mem_takeWhile_ne (c : Char) (t : Str) : c ∉ t.takeWhile (· != c) := by
  intro h
  have := mem_takeWhile h
  simp at this

theorem splitLoop_spec (c : Char) (n : Nat) (a t : Str) (out : List Str) (hn : t.length < n) :
    ∃ ps, splitLoop [c] (a ++ t) n a.length a.length out = .ok (out ++ ps) ∧ ps ≠ [] ∧ join c ps = t ∧
      ∀ p ∈ ps, c ∉ p := by
  induction n generalizing a t out with
  | zero => omega
  | succ n ih =>
    simp only [splitLoop, findFrom_append, findSub_char]
    by_cases h : c ∈ t
    · have ht := takeWhile_ne_split h
      generalize hp : t.takeWhile (· != c) = p at ht
      have hcp : c ∉ p := hp ▸ not_mem_takeWhile_ne c t
      generalize hr : t.drop (p.length + 1) = r at ht
      simp only [h, if_true, Option.map_some]
      have e1 : substr (a ++ t) a.length (p.length + a.length - a.length) = .ok p := by
        simp [substr, ht]
      have e2 : a ++ t = (a ++ p ++ [c]) ++ r := by rw [ht]; simp
      have e3 : p.length + a.length + 1 = (a ++ p ++ [c]).length := by simp; omega
      have hlen : r.length < n := by
        have : t.length = p.length + (r.length + 1) := by rw [ht]; simp
        omega
      obtain ⟨ps, h1, h2, h3, h4⟩ := ih (a ++ p ++ [c]) r (out ++ [p]) hlen
      refine ⟨p :: ps, ?_, by simp, ?_, ?_⟩
      · rw [e1]
        simp only [bind, Except.bind]
        rw [e3, e2, h1]
        simp
      · cases ps with
        | nil => exact absurd rfl h2
        | cons q qs => rw [join, h3, ← ht]
      · intro q hq
        rcases List.mem_cons.1 hq with rfl | hq
        · exact hcp
        · exact h4 q hq
    · refine ⟨[t], ?_, by simp, rfl, by simpa using h⟩
      simp [h, substrFrom, bind, Except.bind]

theorem split_spec (s : Str) (c : Char) : ∃ ps, split s [c] = .ok ps ∧ ps ≠ [] ∧ join c ps = s ∧ ∀ p ∈ ps, c ∉ p := by
  simpa [split] using splitLoop_spec c (s.length + 2) [] s [] (by omega)

/-! ## Numbers -/

theorem isDigit_iff (c : Char) : isDigit c = true ↔ Digit c := by
  simp [isDigit, Digit]

theorem decimal_append (a b : Str) (acc : Nat) : decimal (a ++ b) acc = decimal b (decimal a acc) := by
  induction a generalizing acc with
  | nil => rfl
  | cons c t ih => simp [decimal, ih]

theorem digitsVal_eq (s : Str) : digitsVal s = decimal s 0 := by
  have : ∀ acc, s.foldl (fun a c => a * 10 + digitVal c) acc = decimal s acc := by
    induction s with
    | nil => intro acc; rfl
    | cons c t ih => intro acc; rw [List.foldl_cons, ih]; rfl
  exact this 0

theorem digitChar_toNat {n : Nat} (h : n < 10) : (digitChar n).toNat = 48 + n := toNat_ofNat (by omega)

theorem natStrAux_spec (f n : Nat) (h : n < f) :
    natStrAux f n ≠ [] ∧ (∀ c ∈ natStrAux f n, Digit c) ∧ decimal (natStrAux f n) 0 = n := by
  induction f generalizing n with
  | zero => omega
  | succ f ih =>
    simp only [natStrAux]
    by_cases hn : n < 10
    · simp only [hn, if_true]
      have := digitChar_toNat hn
      refine ⟨by simp, ?_, ?_⟩
      · intro c hc
        simp at hc
        subst hc
        simp [Digit, this]; omega
      · simp [decimal, this]
    · simp only [hn, if_false]
      obtain ⟨_, h2, h3⟩ := ih (n / 10) (by omega)
      have := digitChar_toNat (show n % 10 < 10 by omega)
      refine ⟨by simp, ?_, ?_⟩
      · intro c hc
        rcases List.mem_append.1 hc with hc | hc
        · exact h2 c hc
        · simp at hc
          subst hc
          simp [Digit, this]; omega
      · rw [decimal_append, h3]
        simp [decimal, this]; omega

theorem natStr_spec (n : Nat) : natStr n ≠ [] ∧ (∀ c ∈ natStr n, Digit c) ∧ decimal (natStr n) 0 = n :=
  natStrAux_spec (n + 1) n (by omega)

theorem numeral_intStr (i : Int) : Numeral (intStr i) i := by
  cases i with
  | ofNat n =>
    obtain ⟨h1, h2, h3⟩ := natStr_spec n
    exact ⟨natStr n, h1, h2, Or.inl ⟨rfl, by rw [h3]; rfl⟩⟩
  | negSucc n =>
    obtain ⟨h1, h2, h3⟩ := natStr_spec (n + 1)
    exact ⟨natStr (n + 1), h1, h2, Or.inr (Or.inr ⟨rfl, by rw [h3]; rfl⟩)⟩

theorem digit_not_white {c : Char} (h : Digit c) : ¬ White c := by
  intro hw
  simp [White] at hw
  rcases hw with rfl | rfl | rfl | rfl | rfl | rfl <;> simp [Digit] at h

theorem takeWhile_append_stop {p : Char → Bool} {a b : Str} (ha : ∀ c ∈ a, p c = true)
    (hb : ∀ c, b.head? = some c → p c = false) : (a ++ b).takeWhile p = a := by
  induction a with
  | nil =>
    cases b with
    | nil => rfl
    | cons c t => simp [hb c rfl]
  | cons c t ih => simp [ha c (by simp), ih fun d hd => ha d (by simp [hd])]

theorem dropWhile_append_stop {p : Char → Bool} {a b : Str} (ha : ∀ c ∈ a, p c = true)
    (hb : ∀ c, b.head? = some c → p c = false) : (a ++ b).dropWhile p = b := by
  induction a with
  | nil =>
    cases b with
    | nil => rfl
    | cons c t => simp [hb c rfl]
  | cons c t ih => simp [ha c (by simp), ih fun d hd => ha d (by simp [hd])]

/-- Sign, digits and the part behind them. -/
def signSplit : Str → Bool × Nat × Str
  | '-' :: t => (true, 1, t)
  | '+' :: t => (false, 1, t)
  | t => (false, 0, t)

theorem strtol_eq (s : Str) : strtol s =
    (let r := signSplit (s.dropWhile isSpace)
     let ds := r.2.2.takeWhile isDigit
     if ds.isEmpty then none
     else some (if r.1 then -(digitsVal ds : Int) else digitsVal ds,
       (s.takeWhile isSpace).length + r.2.1 + ds.length)) := by
  rfl

theorem head_of_digits {ds : Str} (h1 : ds ≠ []) (h2 : ∀ c ∈ ds, Digit c) :
    ∃ c t, ds = c :: t ∧ Digit c := by
  cases ds with
  | nil => exact absurd rfl h1
  | cons c t => exact ⟨c, t, rfl, h2 c (by simp)⟩

theorem signSplit_digit {c : Char} {t : Str} (h : Digit c) : signSplit (c :: t) = (false, 0, c :: t) := by
  unfold signSplit
  split
  · rename_i heq; simp at heq; rw [heq.1] at h; simp [Digit] at h
  · rename_i heq; simp at heq; rw [heq.1] at h; simp [Digit] at h
  · rfl

theorem strtol_numeral {ws num rest : Str} {i : Int} (hw : ∀ c ∈ ws, White c) (hn : Numeral num i)
    (hr : ∀ c, rest.head? = some c → ¬ Digit c) :
    strtol (ws ++ num ++ rest) = some (i, (ws ++ num).length) := by
  obtain ⟨ds, h1, h2, h3⟩ := hn
  have hws : ∀ c ∈ ws, isSpace c = true := fun c hc => (isSpace_iff c).2 (hw c hc)
  have hds : ∀ c ∈ ds, isDigit c = true := fun c hc => (isDigit_iff c).2 (h2 c hc)
  have hrest : ∀ c, rest.head? = some c → isDigit c = false := fun c hc => by
    have := hr c hc
    rw [← isDigit_iff] at this
    simpa using this
  have hne : ∀ x : Str, (ds ++ x).takeWhile isDigit = [] → False := by
    intro x hx
    obtain ⟨c, t, rfl, hc⟩ := head_of_digits h1 h2
    simp [(isDigit_iff c).2 hc] at hx
  have hnum : ∀ c, (num ++ rest).head? = some c → isSpace c = false := by
    intro c hc
    obtain ⟨d, t, rfl, hd⟩ := head_of_digits h1 h2
    rcases h3 with ⟨rfl, _⟩ | ⟨rfl, _⟩ | ⟨rfl, _⟩
    · simp at hc
      subst hc
      have := digit_not_white hd
      rw [← isSpace_iff] at this
      simpa using this
    · simp at hc; subst hc; decide
    · simp at hc; subst hc; decide
  rw [strtol_eq, List.append_assoc, takeWhile_append_stop hws hnum, dropWhile_append_stop hws hnum]
  rcases h3 with ⟨rfl, rfl⟩ | ⟨rfl, rfl⟩ | ⟨rfl, rfl⟩
  · obtain ⟨c, t, rfl, hc⟩ := head_of_digits h1 h2
    rw [List.cons_append, signSplit_digit hc, ← List.cons_append]
    dsimp only
    rw [takeWhile_append_stop hds hrest]
    simp [digitsVal_eq]
  · simp only [signSplit, List.cons_append]
    rw [takeWhile_append_stop hds hrest]
    simp [digitsVal_eq, h1]; omega
  · simp only [signSplit, List.cons_append]
    rw [takeWhile_append_stop hds hrest]
    simp [digitsVal_eq, h1]; omega

theorem strtol_some {s : Str} {i : Int} {k : Nat} (h : strtol s = some (i, k)) :
    ∃ ws num rest, s = ws ++ num ++ rest ∧ (∀ c ∈ ws, White c) ∧ Numeral num i ∧
      (∀ c, rest.head? = some c → ¬ Digit c) ∧ k = (ws ++ num).length := by
  rw [strtol_eq] at h
  dsimp only at h
  split at h
  · simp at h
  · rename_i hne
    generalize hr : signSplit (s.dropWhile isSpace) = r at h hne
    obtain ⟨neg, sl, body⟩ := r
    simp only [Option.some.injEq, Prod.mk.injEq] at h
    obtain ⟨hi, hk⟩ := h
    have hd : ∀ c ∈ body.takeWhile isDigit, Digit c := fun c hc => (isDigit_iff c).1 (mem_takeWhile hc)
    have hb : body = body.takeWhile isDigit ++ body.dropWhile isDigit := List.takeWhile_append_dropWhile.symm
    have hrest : ∀ c, (body.dropWhile isDigit).head? = some c → ¬ Digit c := fun c hc => by
      obtain ⟨_, _, _, h3⟩ := dropWhile_split (p := isDigit) body
      rw [← isDigit_iff, h3 c hc]; simp
    have hws : ∀ c ∈ s.takeWhile isSpace, White c := fun c hc => (isSpace_iff c).1 (mem_takeWhile hc)
    have hs : s = s.takeWhile isSpace ++ s.dropWhile isSpace := List.takeWhile_append_dropWhile.symm
    have hne' : body.takeWhile isDigit ≠ [] := by simpa using hne
    unfold signSplit at hr
    split at hr
    · rename_i t heq
      simp only [Prod.mk.injEq] at hr
      obtain ⟨rfl, rfl, rfl⟩ := hr
      refine ⟨s.takeWhile isSpace, '-' :: t.takeWhile isDigit, t.dropWhile isDigit, ?_, hws,
        ⟨_, hne', hd, Or.inr (Or.inr ⟨rfl, ?_⟩)⟩, hrest, ?_⟩
      · rw [List.append_assoc, List.cons_append, ← hb, ← heq, ← hs]
      · rw [← hi]; simp [digitsVal_eq]
      · simp; omega
    · rename_i t heq
      simp only [Prod.mk.injEq] at hr
      obtain ⟨rfl, rfl, rfl⟩ := hr
      refine ⟨s.takeWhile isSpace, '+' :: t.takeWhile isDigit, t.dropWhile isDigit, ?_, hws,
        ⟨_, hne', hd, Or.inr (Or.inl ⟨rfl, ?_⟩)⟩, hrest, ?_⟩
      · rw [List.append_assoc, List.cons_append, ← hb, ← heq, ← hs]
      · rw [← hi]; simp [digitsVal_eq]
      · simp; omega
    · simp only [Prod.mk.injEq] at hr
      obtain ⟨rfl, rfl, rfl⟩ := hr
      refine ⟨s.takeWhile isSpace, _, (s.dropWhile isSpace).dropWhile isDigit, ?_, hws,
        ⟨_, hne', hd, Or.inl ⟨rfl, ?_⟩⟩, hrest, ?_⟩
      · rw [List.append_assoc, ← hb, ← hs]
      · rw [← hi]; simp [digitsVal_eq]
      · simp; omega

theorem digit_ne_zero {c : Char} (h : Digit c) : c ≠ Char.ofNat 0 := by
  rintro rfl; simp [Digit] at h

theorem numeral_no_nul {s : Str} {i : Int} (h : Numeral s i) : Char.ofNat 0 ∉ s := by
  obtain ⟨ds, _, h2, h3⟩ := h
  have : Char.ofNat 0 ∉ ds := fun hm => digit_ne_zero (h2 _ hm) rfl
  rcases h3 with ⟨rfl, _⟩ | ⟨rfl, _⟩ | ⟨rfl, _⟩
  · exact this
  · simp [this]
  · simp [this]

theorem white_no_nul {s : Str} (h : ∀ c ∈ s, White c) : Char.ofNat 0 ∉ s := by
  intro hm
  have := h _ hm
  revert this
  decide

theorem stoi_intStr {i : Int} (h : IsInt32 i) : stoi (intStr i) = .ok (i, (intStr i).length) := by
  have hn := numeral_intStr i
  have := strtol_numeral (ws := []) (rest := []) (by simp) hn (by simp)
  simp at this
  simp [stoi, cStr_eq (numeral_no_nul hn), this, h]

theorem stoi_intStr_big {i : Int} (h : ¬ IsInt32 i) : stoi (intStr i) = .error (.exn .outOfRange) := by
  have hn := numeral_intStr i
  have := strtol_numeral (ws := []) (rest := []) (by simp) hn (by simp)
  simp at this
  simp [stoi, cStr_eq (numeral_no_nul hn), this, h]

theorem cStr_prefix (s : Str) : ∃ r, s = cStr s ++ r ∧ (r = [] ∨ (cStr s).length < s.length) := by
  refine ⟨s.dropWhile (· != Char.ofNat 0), List.takeWhile_append_dropWhile.symm, ?_⟩
  cases h : s.dropWhile (· != Char.ofNat 0) with
  | nil => exact Or.inl rfl
  | cons c t =>
    right
    have : s = cStr s ++ c :: t := by rw [← h]; exact List.takeWhile_append_dropWhile.symm
    conv => rhs; rw [this]
    simp

theorem parseInt_iff (s : Str) (i : Int) :
    (∃ k, stoi s = .ok (i, k) ∧ ¬ k < s.length) ↔
      ∃ ws num, s = ws ++ num ∧ (∀ c ∈ ws, White c) ∧ Numeral num i ∧ IsInt32 i := by
  constructor
  · rintro ⟨k, h, hk⟩
    unfold stoi at h
    split at h
    · simp at h
    · rename_i v n hv
      split at h
      · rename_i hr
        simp at h
        obtain ⟨rfl, rfl⟩ := h
        obtain ⟨ws, num, rest, h1, h2, h3, -, h5⟩ := strtol_some hv
        obtain ⟨r, h6, h7⟩ := cStr_prefix s
        have hl : (cStr s).length = (ws ++ num).length + rest.length := by rw [h1]; simp; omega
        have hl2 : s.length = (cStr s).length + r.length := by conv => lhs; rw [h6]
                                                               simp
        have hrn : r = [] := by
          rcases h7 with h | h
          · exact h
          · omega
        have hrest : rest = [] := by
          rw [hrn] at hl2
          simp at hl2
          have : rest.length = 0 := by omega
          simpa using this
        refine ⟨ws, num, ?_, h2, h3, hr⟩
        rw [h6, hrn, h1, hrest]; simp
      · simp at h
  · rintro ⟨ws, num, rfl, h2, h3, h4⟩
    have hz : Char.ofNat 0 ∉ ws ++ num := by
      simp [white_no_nul h2, numeral_no_nul h3]
    refine ⟨(ws ++ num).length, ?_, by omega⟩
    have := strtol_numeral (rest := []) h2 h3 (by simp)
    simp only [List.append_nil] at this
    simp only [stoi, cStr_eq hz, this, h4, if_true]

/-! ## Format -/

theorem occursAt_get {a b c : Char} {txt : Str} {k : Nat} (h : OccursAt [a, b, c] txt k) :
    txt[k]? = some a ∧ txt[k + 1]? = some b ∧ txt[k + 2]? = some c := by
  obtain ⟨x, y, rfl, rfl⟩ := h
  refine ⟨?_, ?_, ?_⟩ <;> simp

/-- Literal pieces without curly brackets. -/
def LitFree (ps : List Piece) : Prop := ∀ p ∈ ps, match p with | .lit s => BraceFree s | .hole i => i < 10

theorem occurs_hole {x y : Char} {ps : List Piece} (hf : LitFree ps) {k : Nat} (h : OccursAt ['{', x, y] (sources ps) k) :
    ∃ pre i post, ps = pre ++ .hole i :: post ∧ k = (sources pre).length ∧ x = Char.ofNat (48 + i) ∧ y = '}' := by
  have hg := occursAt_get h
  clear h
  induction ps generalizing k with
  | nil => simp [sources] at hg
  | cons p ps ih =>
    have hf' : LitFree ps := fun q hq => hf q (by simp [hq])
    have hp := hf p (by simp)
    have hs : sources (p :: ps) = p.source ++ sources ps := by simp [sources]
    rw [hs] at hg
    by_cases hk : p.source.length ≤ k
    · have e : ∀ j, (p.source ++ sources ps)[k + j]? = (sources ps)[k - p.source.length + j]? := by
        intro j
        rw [List.getElem?_append_right (by omega)]
        congr 1; omega
      have e0 := e 0
      simp only [Nat.add_zero] at e0
      rw [e0, e 1, e 2] at hg
      obtain ⟨pre, i, post, h1, h2, h3, h4⟩ := ih hf' hg
      refine ⟨p :: pre, i, post, by simp [h1], ?_, h3, h4⟩
      have : (sources (p :: pre)).length = p.source.length + (sources pre).length := by simp [sources]
      omega
    · have hk : k < p.source.length := by omega
      obtain ⟨g0, g1, g2⟩ := hg
      rw [List.getElem?_append_left hk] at g0
      cases p with
      | lit s =>
        simp only [Piece.source] at g0 hp
        have := List.mem_of_getElem? g0
        exact absurd rfl (hp _ this).1
      | hole i =>
        simp only [Piece.source] at g0 g1 g2 hk hp
        have hd : (Char.ofNat (48 + i)).toNat = 48 + i := toNat_ofNat (by omega)
        match k, hk with
        | 0, _ =>
          simp at g1 g2
          exact ⟨[], i, ps, by simp, by simp [sources], g1.symm, g2.symm⟩
        | 1, _ =>
          simp at g0
          rw [g0] at hd
          simp at hd
          omega
        | 2, _ => simp at g0

theorem hole_occurs (pre post : List Piece) (i : Nat) :
    OccursAt ['{', Char.ofNat (48 + i), '}'] (sources (pre ++ .hole i :: post)) (sources pre).length :=
  ⟨sources pre, sources post, by simp [sources, Piece.source], rfl⟩

theorem holes_append (a b : List Piece) : holes (a ++ b) = holes a ++ holes b := by
  induction a with
  | nil => rfl
  | cons p a ih => cases p <;> simp [holes, ih]

theorem mem_holes {i : Nat} {ps : List Piece} : i ∈ holes ps ↔ ∃ pre post, ps = pre ++ .hole i :: post ∧ i ∉ holes pre := by
  induction ps with
  | nil => simp [holes]
  | cons p ps ih =>
    cases p with
    | lit s =>
      simp only [holes, ih]
      constructor
      · rintro ⟨pre, post, rfl, h⟩
        exact ⟨.lit s :: pre, post, by simp, by simpa [holes] using h⟩
      · rintro ⟨pre, post, h, hn⟩
        cases pre with
        | nil => simp at h
        | cons q pre =>
          simp at h
          obtain ⟨rfl, rfl⟩ := h
          exact ⟨pre, post, rfl, by simpa [holes] using hn⟩
    | hole j =>
      by_cases hj : i = j
      · subst hj
        simp only [holes, List.mem_cons, true_or, true_iff]
        exact ⟨[], ps, rfl, by simp [holes]⟩
      · simp only [holes, List.mem_cons, hj, false_or, ih]
        constructor
        · rintro ⟨pre, post, rfl, h⟩
          exact ⟨.hole j :: pre, post, by simp, by simp [holes, hj, h]⟩
        · rintro ⟨pre, post, h, hn⟩
          cases pre with
          | nil => simp at h; exact absurd h.1.symm hj
          | cons q pre =>
            simp at h
            obtain ⟨rfl, rfl⟩ := h
            exact ⟨pre, post, rfl, by simp [holes, hj] at hn; exact hn⟩

theorem digit_inj {i j : Nat} (hi : i < 10) (hj : j < 10) (h : Char.ofNat (48 + i) = Char.ofNat (48 + j)) : i = j := by
  have h1 : (Char.ofNat (48 + i)).toNat = 48 + i := toNat_ofNat (by omega)
  have h2 : (Char.ofNat (48 + j)).toNat = 48 + j := toNat_ofNat (by omega)
  rw [h] at h1; omega

theorem litFree_hole {ps pre post : List Piece} {i : Nat} (hf : LitFree ps) (h : ps = pre ++ .hole i :: post) : i < 10 := by
  have := hf (.hole i) (by simp [h])
  simpa using this

/-- Replace placeholder `i` by a literal text. -/
def plug (i : Nat) (a : Str) (ps : List Piece) : List Piece :=
  ps.map fun p => match p with | .hole j => if j = i then .lit a else .hole j | .lit s => .lit s

theorem plug_of_not_mem {i : Nat} {a : Str} {ps : List Piece} (h : i ∉ holes ps) : plug i a ps = ps := by
  induction ps with
  | nil => rfl
  | cons p ps ih =>
    cases p with
    | lit s => simp only [holes] at h; simp only [plug, List.map_cons] at ih ⊢; rw [ih h]
    | hole j =>
      simp only [holes, List.mem_cons, not_or] at h
      simp only [plug, List.map_cons] at ih ⊢
      rw [ih h.2]
      have hj : j ≠ i := fun e => h.1 e.symm
      simp [hj]

theorem plug_litFree {i : Nat} {a : Str} {ps : List Piece} (hf : LitFree ps) (ha : BraceFree a) : LitFree (plug i a ps) := by
  intro p hp
  simp only [plug, List.mem_map] at hp
  obtain ⟨q, hq, rfl⟩ := hp
  have := hf q hq
  cases q with
  | lit s => exact this
  | hole j =>
    by_cases h : j = i
    · simp only [h, if_true]; exact ha
    · simp only [h, if_false]; exact this

theorem holes_plug {i : Nat} {a : Str} {ps : List Piece} : holes (plug i a ps) = (holes ps).filter (· ≠ i) := by
  induction ps with
  | nil => rfl
  | cons p ps ih =>
    cases p with
    | lit s => simp only [plug, List.map_cons, holes] at ih ⊢; exact ih
    | hole j =>
      simp only [plug, List.map_cons] at ih ⊢
      by_cases h : j = i
      · simp [h, holes, ih]
      · simp [h, holes, ih]

theorem replaceInWithFill_none {ps : List Piece} (hf : LitFree ps) (x : Char) (arg : Str) :
    replaceInWithFill (sources ps) ['{', x, ','] arg = .ok (sources ps, false) := by
  have : findSub ['{', x, ','] (sources ps) = none := findSub_eq_none fun k hk => by
    obtain ⟨_, _, _, _, _, _, h⟩ := occurs_hole hf hk
    simp at h
  simp [replaceInWithFill, this]

/-- One step of `Format` on a text made of pieces. -/
theorem formatArg_pieces {ps : List Piece} (hf : LitFree ps) (hd : (holes ps).Nodup) {i : Nat} (hi : i < 10) {arg : Str}
    (ha : BraceFree arg) (err : Str) (hnull : i ∈ holes ps → arg ≠ nullString) :
    formatArg err (Char.ofNat (48 + i)) arg (sources ps) = .ok (sources (plug i arg ps)) := by
  by_cases hm : i ∈ holes ps
  · obtain ⟨pre, post, rfl, hpre⟩ := mem_holes.1 hm
    have hpost : i ∉ holes post := by
      rw [holes_append] at hd
      simp only [holes] at hd
      have := (List.nodup_append.1 hd).2.1
      exact (List.nodup_cons.1 this).1
    have hfirst : findSub ['{', Char.ofNat (48 + i), '}'] (sources (pre ++ .hole i :: post)) = some (sources pre).length := by
      apply findSub_eq_some
      refine ⟨hole_occurs pre post i, fun j hj ho => ?_⟩
      obtain ⟨pre', i', post', h1, h2, h3, -⟩ := occurs_hole hf ho
      have hii : i = i' := digit_inj hi (litFree_hole hf h1) h3
      subst hii
      have : pre'.length < pre.length ∨ pre = pre' ∨ pre.length < pre'.length := by
        rcases Nat.lt_trichotomy pre'.length pre.length with h | h | h
        · exact Or.inl h
        · exact Or.inr (Or.inl (List.append_inj_left h1 h.symm))
        · exact Or.inr (Or.inr h)
      rcases this with h | h | h
      · have hmem : (Piece.hole i) ∈ pre := by
          have e1 : (pre ++ .hole i :: post)[pre'.length]? = some (.hole i) := by rw [h1]; simp
          rw [List.getElem?_append_left h] at e1
          exact List.mem_of_getElem? e1
        obtain ⟨a, b, rfl⟩ := List.append_of_mem hmem
        simp [holes_append, holes] at hpre
      · subst h; omega
      · have hmem : (Piece.hole i) ∈ pre' := by
          have e1 : (pre' ++ .hole i :: post')[pre.length]? = some (.hole i) := by rw [← h1]; simp
          rw [List.getElem?_append_left h] at e1
          exact List.mem_of_getElem? e1
        have hsplit : ∃ a, pre' = pre ++ .hole i :: a := by
          have : pre <+: pre' := by
            have h2 : pre <+: pre' ++ .hole i :: post' := by rw [← h1]; exact List.prefix_append _ _
            exact List.prefix_of_prefix_length_le h2 (List.prefix_append _ _) (by omega)
          obtain ⟨a, rfl⟩ := this
          cases a with
          | nil => simp at h
          | cons z a =>
            rw [List.append_assoc] at h1
            have := List.append_cancel_left h1
            simp at this
            exact ⟨a, by rw [this.1]⟩
        obtain ⟨a, rfl⟩ := hsplit
        simp [sources] at h2
        simp [sources] at hj
        omega
    have e1 : spliceStr (sources (pre ++ .hole i :: post)) (sources pre).length 3 arg =
        sources (plug i arg (pre ++ .hole i :: post)) := by
      have : plug i arg (pre ++ .hole i :: post) = pre ++ .lit arg :: post := by
        have h1 := plug_of_not_mem (a := arg) hpre
        have h2 := plug_of_not_mem (a := arg) hpost
        simp only [plug] at h1 h2
        simp only [plug, List.map_append, List.map_cons, h1, h2, if_true]
      rw [this]
      simp [spliceStr, sources, Piece.source, List.drop_append]
    have hf2 : LitFree (plug i arg (pre ++ .hole i :: post)) := plug_litFree hf ha
    simp only [formatArg, replaceIn, hfirst, List.length_cons, List.length_nil, e1]
    simp only [replaceInWithFill_none hf2]
    simp [hnull hm, bind, Except.bind]
  · have hnone : findSub ['{', Char.ofNat (48 + i), '}'] (sources ps) = none := findSub_eq_none fun k hk => by
      obtain ⟨pre', i', post', h1, h2, h3, -⟩ := occurs_hole hf hk
      have hii : i = i' := digit_inj hi (litFree_hole hf h1) h3
      subst hii
      exact hm (by rw [h1, holes_append]; simp [holes])
    simp only [formatArg, replaceIn, hnone, replaceInWithFill_none hf, plug_of_not_mem hm]
    simp [bind, Except.bind]

/-- The argument number `i`, or the text that stands for a missing one. -/
def argOr (args : List Str) (i : Nat) : Str := match args[i]? with | some a => a | none => nullString

theorem nullString_free : BraceFree nullString := by
  intro c hc
  simp [nullString] at hc
  rcases hc with rfl | rfl | rfl | rfl | rfl | rfl | rfl <;> decide

theorem argOr_free {args : List Str} (h : ∀ a ∈ args, BraceFree a) (i : Nat) : BraceFree (argOr args i) := by
  unfold argOr
  split
  · rename_i a ha; exact h a (List.mem_of_getElem? ha)
  · exact nullString_free

theorem sources_plugs (args : List Str) (ps : List Piece) (h : ∀ i ∈ holes ps, i < args.length ∧ i < 5) :
    sources (plug 4 (argOr args 4) (plug 3 (argOr args 3) (plug 2 (argOr args 2) (plug 1 (argOr args 1)
      (plug 0 (argOr args 0) ps))))) = fill args ps := by
  induction ps with
  | nil => rfl
  | cons p ps ih =>
    cases p with
    | lit s =>
      simp only [holes] at h
      have := ih h
      simp only [sources, plug, List.map_cons, List.flatten_cons, fill, Piece.source] at this ⊢
      rw [this]
    | hole j =>
      simp only [holes, List.mem_cons, forall_eq_or_imp] at h
      obtain ⟨⟨h1, h5⟩, h2⟩ := h
      have e : args[j]? = some args[j] := List.getElem?_eq_getElem h1
      have hj : argOr args j = args[j] := by simp [argOr, e]
      have := ih h2
      simp only [sources, plug, List.map_cons, List.flatten_cons, fill, e] at this ⊢
      rw [this]
      congr 1
      have : j = 0 ∨ j = 1 ∨ j = 2 ∨ j = 3 ∨ j = 4 := by omega
      rcases this with rfl | rfl | rfl | rfl | rfl <;> simp [Piece.source, hj]

/-- `Format` fills the placeholders of a text made of pieces. -/
theorem format_pieces {args : List Str} {ps : List Piece}
    (hlit : ∀ s, Piece.lit s ∈ ps → BraceFree s) (harg : ∀ a ∈ args, BraceFree a ∧ a ≠ nullString)
    (hh : ∀ i ∈ holes ps, i < args.length ∧ i < 5) (hd : (holes ps).Nodup) :
    format (sources ps) (argOr args 0) (argOr args 1) (argOr args 2) (argOr args 3) (argOr args 4) =
      .ok (fill args ps) := by
  have hmem : ∀ i, Piece.hole i ∈ ps → i ∈ holes ps := fun i hi => by
    obtain ⟨a, b, rfl⟩ := List.append_of_mem hi
    simp [holes_append, holes]
  have hf0 : LitFree ps := fun p hp => by
    cases p with
    | lit s => exact hlit s hp
    | hole i => have := (hh i (hmem i hp)).2; simp only; omega
  have hA : ∀ i, BraceFree (argOr args i) := argOr_free fun a ha => (harg a ha).1
  have hN : ∀ i, i ∈ holes ps → argOr args i ≠ nullString := fun i hi => by
    have h1 := (hh i hi).1
    have e : args[i]? = some args[i] := List.getElem?_eq_getElem h1
    simp only [argOr, e]
    exact (harg _ (List.getElem_mem h1)).2
  have hf1 := plug_litFree (i := 0) hf0 (hA 0)
  have hf2 := plug_litFree (i := 1) hf1 (hA 1)
  have hf3 := plug_litFree (i := 2) hf2 (hA 2)
  have hf4 := plug_litFree (i := 3) hf3 (hA 3)
  have hd1 : (holes (plug 0 (argOr args 0) ps)).Nodup := by rw [holes_plug]; exact hd.filter _
  have hd2 : (holes (plug 1 (argOr args 1) (plug 0 (argOr args 0) ps))).Nodup := by rw [holes_plug]; exact hd1.filter _
  have hd3 : (holes (plug 2 (argOr args 2) (plug 1 (argOr args 1) (plug 0 (argOr args 0) ps)))).Nodup := by
    rw [holes_plug]; exact hd2.filter _
  have hd4 : (holes (plug 3 (argOr args 3) (plug 2 (argOr args 2) (plug 1 (argOr args 1)
      (plug 0 (argOr args 0) ps))))).Nodup := by rw [holes_plug]; exact hd3.filter _
  have m1 : ∀ {j i : Nat} {a : Str} {qs : List Piece}, i ∈ holes (plug j a qs) → i ∈ holes qs := fun h => by
    rw [holes_plug] at h; exact (List.mem_filter.1 h).1
  have s0 := fun err => formatArg_pieces hf0 hd (i := 0) (by omega) (hA 0) err (hN 0)
  have s1 := fun err => formatArg_pieces hf1 hd1 (i := 1) (by omega) (hA 1) err fun h => hN 1 (m1 h)
  have s2 := fun err => formatArg_pieces hf2 hd2 (i := 2) (by omega) (hA 2) err fun h => hN 2 (m1 (m1 h))
  have s3 := fun err => formatArg_pieces hf3 hd3 (i := 3) (by omega) (hA 3) err fun h => hN 3 (m1 (m1 (m1 h)))
  have s4 := fun err => formatArg_pieces hf4 hd4 (i := 4) (by omega) (hA 4) err fun h => hN 4 (m1 (m1 (m1 (m1 h))))
  rw [← sources_plugs args ps hh]
  unfold format
  have c0 : Char.ofNat (48 + 0) = '0' := rfl
  have c1 : Char.ofNat (48 + 1) = '1' := rfl
  have c2 : Char.ofNat (48 + 2) = '2' := rfl
  have c3 : Char.ofNat (48 + 3) = '3' := rfl
  have c4 : Char.ofNat (48 + 4) = '4' := rfl
  rw [c0] at s0; rw [c1] at s1; rw [c2] at s2; rw [c3] at s3; rw [c4] at s4
  simp only [s0, s1, s2, s3, s4, bind, Except.bind]

end Fuel
