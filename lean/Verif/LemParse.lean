import Verif.LemTok
import Verif.SpecParse
/-!
# Lemmas about the parser
-/

set_option linter.unusedSectionVars false
set_option linter.unusedSimpArgs false

namespace Fuel

open Spec

variable [World]

theorem dropSign_append {a b : Str} {c : Char} {t : Str} (h : dropSign a = c :: t) : dropSign (a ++ b) = c :: (t ++ b) := by
  match a with
  | [] => simp [dropSign] at h
  | d :: a =>
    by_cases h1 : d = '+'
    · subst h1; simp [dropSign] at h ⊢; simp [h]
    · by_cases h2 : d = '-'
      · subst h2; simp [dropSign] at h ⊢; simp [h]
      · simp [dropSign, h1, h2] at h ⊢; simp [h]

theorem numberLike_prefix {a b : Str} (h : NumberLike a) : NumberLike (a ++ b) := by
  obtain ⟨c, t, h1, h2⟩ := h
  refine ⟨c, t ++ b, dropSign_append h1, ?_⟩
  rcases h2 with h | ⟨h, d, u, rfl, h3⟩ | ⟨h, d, e, u, rfl, h3⟩ | ⟨h, d, e, u, rfl, h3⟩
  · exact Or.inl h
  · exact Or.inr (Or.inl ⟨h, d, u ++ b, rfl, h3⟩)
  · exact Or.inr (Or.inr (Or.inl ⟨h, d, e, u ++ b, rfl, h3⟩))
  · exact Or.inr (Or.inr (Or.inr ⟨h, d, e, u ++ b, rfl, h3⟩))

theorem signSplit_dropSign (s : Str) : (signSplit s).2.2 = dropSign s := by
  cases s with
  | nil => rfl
  | cons c t =>
    by_cases h1 : c = '-'
    · subst h1; rfl
    · by_cases h2 : c = '+'
      · subst h2; rfl
      · simp [signSplit, dropSign, h1, h2]

theorem toLowerC_eq {c d : Char} (hd : 97 ≤ d.toNat ∧ d.toNat ≤ 122) (h : toLowerC c = d) :
    c = d ∨ c.toNat + 32 = d.toNat := by
  unfold toLowerC at h
  by_cases hc : 65 ≤ c.toNat ∧ c.toNat ≤ 90
  · have : (Char.ofNat (c.toNat + 32)).toNat = c.toNat + 32 := toNat_ofNat (by omega)
    simp [hc] at h
    rw [h] at this
    exact Or.inr this.symm
  · have h' : (decide (65 ≤ c.toNat) && decide (c.toNat ≤ 90)) = false := by simp; omega
    rw [h'] at h
    exact Or.inl (by simpa using h)

theorem toUpperC_eq {c d : Char} (hd : 65 ≤ d.toNat ∧ d.toNat ≤ 90) (h : toUpperC c = d) :
    c = d ∨ c.toNat = d.toNat + 32 := by
  unfold toUpperC at h
  by_cases hc : 97 ≤ c.toNat ∧ c.toNat ≤ 122
  · have : (Char.ofNat (c.toNat - 32)).toNat = c.toNat - 32 := toNat_ofNat (by omega)
    simp [hc] at h
    rw [h] at this
    exact Or.inr (by omega)
  · have h' : (decide (97 ≤ c.toNat) && decide (c.toNat ≤ 122)) = false := by simp; omega
    rw [h'] at h
    exact Or.inl (by simpa using h)

theorem char_eq_of_toNat {c d : Char} (h : c.toNat = d.toNat) : c = d := by
  apply Char.ext
  apply UInt32.toNat_inj.1
  exact h

theorem lower_mem {c d D : Char} (hd : 97 ≤ d.toNat ∧ d.toNat ≤ 122) (hD : D.toNat + 32 = d.toNat) (h : toLowerC c = d) :
    c ∈ [d, D] := by
  rcases toLowerC_eq hd h with h | h
  · simp [h]
  · have : c = D := char_eq_of_toNat (by omega)
    simp [this]

theorem upper_mem {c d D : Char} (hD : 65 ≤ D.toNat ∧ D.toNat ≤ 90) (hd : D.toNat + 32 = d.toNat) (h : toUpperC c = D) :
    c ∈ [d, D] := by
  rcases toUpperC_eq hD h with h | h
  · simp [h]
  · have : c = d := char_eq_of_toNat (by omega)
    simp [this]

/-- The text after the sign is not a number. -/
theorem unsignedFloatLen_zero {r : Str} (h : ∀ c t, r = c :: t → ¬ (Digit c ∨ (c = '.' ∧ ∃ d u, t = d :: u ∧ Digit d) ∨
    (c ∈ ['i', 'I'] ∧ ∃ d e u, t = d :: e :: u ∧ d ∈ ['n', 'N'] ∧ e ∈ ['f', 'F']) ∨
    (c ∈ ['n', 'N'] ∧ ∃ d e u, t = d :: e :: u ∧ d ∈ ['a', 'A'] ∧ e ∈ ['n', 'N']))) : unsignedFloatLen r = 0 := by
  cases r with
  | nil => rfl
  | cons c t =>
    have h := h c t rfl
    have hinf : ∀ p : Str, (∃ q, p = c!"inf" ++ q) → prefixCI p (c :: t) = false := by
      rintro p ⟨q, rfl⟩
      cases hp : prefixCI (c!"inf" ++ q) (c :: t)
      · rfl
      · exfalso
        simp [prefixCI] at hp
        match t, hp with
        | d :: e :: u, hp =>
          simp at hp
          exact h (Or.inr (Or.inr (Or.inl ⟨lower_mem (d := 'i') (D := 'I') (by decide) (by decide) hp.1, d, e, u, rfl,
            lower_mem (d := 'n') (D := 'N') (by decide) (by decide) hp.2.1,
            lower_mem (d := 'f') (D := 'F') (by decide) (by decide) hp.2.2.1⟩)))
        | [d], hp => simp at hp
        | [], hp => simp at hp
    have hnan : prefixCI c!"nan" (c :: t) = false := by
      cases hp : prefixCI c!"nan" (c :: t)
      · rfl
      · exfalso
        simp [prefixCI] at hp
        match t, hp with
        | d :: e :: u, hp =>
          simp at hp
          exact h (Or.inr (Or.inr (Or.inr ⟨lower_mem (d := 'n') (D := 'N') (by decide) (by decide) hp.1, d, e, u, rfl,
            lower_mem (d := 'a') (D := 'A') (by decide) (by decide) hp.2.1,
            lower_mem (d := 'n') (D := 'N') (by decide) (by decide) hp.2.2⟩)))
        | [d], hp => simp at hp
        | [], hp => simp at hp
    have hd : isDigit c = false := by
      cases hc : isDigit c
      · rfl
      · exact absurd (Or.inl ((isDigit_iff c).1 hc)) h
    have hx : prefixCI c!"0x" (c :: t) = false := by
      cases hp : prefixCI c!"0x" (c :: t)
      · rfl
      · exfalso
        simp [prefixCI] at hp
        have hc : toLowerC c = '0' := by
          cases t with
          | nil => simp at hp
          | cons d t => simp at hp; exact hp.1
        have : c = '0' := by
          unfold toLowerC at hc
          by_cases hcc : 65 ≤ c.toNat ∧ c.toNat ≤ 90
          · have h2 : (Char.ofNat (c.toNat + 32)).toNat = c.toNat + 32 := toNat_ofNat (by omega)
            simp [hcc] at hc
            rw [hc] at h2
            have : '0'.toNat = 48 := rfl
            omega
          · have h' : (decide (65 ≤ c.toNat) && decide (c.toNat ≤ 90)) = false := by simp; omega
            rw [h'] at hc
            simpa using hc
        subst this
        simp [isDigit] at hd
    have hm : mantissaLen isDigit (c :: t) = 0 := by
      simp only [mantissaLen, List.takeWhile_cons, List.dropWhile_cons, hd]
      by_cases hc : c = '.'
      · subst hc
        have : t.takeWhile isDigit = [] := by
          cases t with
          | nil => rfl
          | cons d u =>
            have : isDigit d = false := by
              cases hdd : isDigit d
              · rfl
              · exact absurd (Or.inr (Or.inl ⟨rfl, d, u, rfl, (isDigit_iff d).1 hdd⟩)) h
            simp [List.takeWhile_cons, this]
        simp [this]
      · simp [hc]
    unfold unsignedFloatLen
    simp [hinf c!"infinity" ⟨c!"inity", rfl⟩, hinf c!"inf" ⟨[], rfl⟩, hnan, hx, hm]

theorem strtodLen_eq (s : Str) : strtodLen s =
    (let r := signSplit (s.dropWhile isSpace)
     let n := unsignedFloatLen r.2.2
     if n == 0 then 0 else (s.takeWhile isSpace).length + r.2.1 + n) := by
  unfold strtodLen
  simp only
  generalize s.dropWhile isSpace = x
  cases x with
  | nil => rfl
  | cons c t =>
    by_cases h1 : c = '-'
    · subst h1; rfl
    · by_cases h2 : c = '+'
      · subst h2; rfl
      · simp [signSplit, h1, h2]

theorem classify_symbol {s : Str} (h : SymbolName s) : classify s = .ok (.symbol, .str s) := by
  obtain ⟨hne, hp, hn, hr⟩ := h
  have hn' : ¬ NumberLike (cStr s) := by
    obtain ⟨r, h1, -⟩ := cStr_prefix s
    intro h2
    apply hn
    rw [h1]
    exact numberLike_prefix h2
  have hsp : ∀ c, (cStr s).head? = some c → isSpace c = false := by
    intro c hc
    apply plain_not_space (hp c ?_)
    obtain ⟨r, h1, -⟩ := cStr_prefix s
    rw [h1]
    cases h : cStr s with
    | nil => rw [h] at hc; simp at hc
    | cons d t => rw [h] at hc; simp at hc; simp [hc]
  have hdw : (cStr s).dropWhile isSpace = cStr s := dropWhile_eq_self hsp
  have hz : unsignedFloatLen (dropSign (cStr s)) = 0 := by
    apply unsignedFloatLen_zero
    intro c t hct hor
    exact hn' ⟨c, t, hct, hor⟩
  have hstod : stod s = .error (.exn .invalidArgument) := by
    have : strtodLen (cStr s) = 0 := by
      rw [strtodLen_eq, hdw]
      simp only [signSplit_dropSign, hz]
      rfl
    simp [stod, this]
  have hstoi : stoi s = .error (.exn .invalidArgument) := by
    have hd : (dropSign (cStr s)).takeWhile isDigit = [] := by
      cases hds : dropSign (cStr s) with
      | nil => rfl
      | cons c t =>
        have : isDigit c = false := by
          cases hc : isDigit c
          · rfl
          · exact absurd ⟨c, t, hds, Or.inl ((isDigit_iff c).1 hc)⟩ hn'
        simp [List.takeWhile_cons, this]
    have : strtol (cStr s) = none := by
      rw [strtol_eq, hdw]
      simp only [signSplit_dropSign, hd]
      rfl
    simp [stoi, this]
  have hhead : ∀ d ∈ ['"', '\'', '`', ',', '(', ')', ';'], s.head? ≠ some d := by
    intro d hd hs
    cases s with
    | nil => simp at hs
    | cons c t =>
      simp at hs
      subst hs
      have := (hp c (by simp)).2
      simp at this hd
      rcases hd with rfl | rfl | rfl | rfl | rfl | rfl | rfl <;> simp at this
  have hnil : toUpper s ≠ c!"NIL" := by
    intro hu
    match s, hu with
    | [a, b, c], hu =>
      simp [toUpper] at hu
      have h1 := upper_mem (d := 'n') (D := 'N') (by decide) (by decide) hu.1
      have h2 := upper_mem (d := 'i') (D := 'I') (by decide) (by decide) hu.2.1
      have h3 := upper_mem (d := 'l') (D := 'L') (by decide) (by decide) hu.2.2
      simp at h1 h2 h3
      apply hr
      rcases h1 with rfl | rfl <;> rcases h2 with rfl | rfl <;> rcases h3 with rfl | rfl <;> decide
    | [], hu => simp [toUpper] at hu
    | [_], hu => simp [toUpper] at hu
    | [_, _], hu => simp [toUpper] at hu
    | _ :: _ :: _ :: _ :: _, hu => simp [toUpper] at hu
  cases s with
  | nil => exact absurd rfl hne
  | cons c t =>
    simp at hhead
    have hr' : ∀ w ∈ [c!"true", c!"#t", c!"false", c!"#f"], c :: t ≠ w := by
      intro w hw he
      apply hr
      rw [he]
      simp at hw
      rcases hw with rfl | rfl | rfl | rfl <;> decide
    have e1 : (c :: t == c!"true" || c :: t == c!"#t") = false := by
      rw [Bool.or_eq_false_iff]
      exact ⟨beq_eq_false_iff_ne.2 (hr' _ (by simp)), beq_eq_false_iff_ne.2 (hr' _ (by simp))⟩
    have e2 : (c :: t == c!"false" || c :: t == c!"#f") = false := by
      rw [Bool.or_eq_false_iff]
      exact ⟨beq_eq_false_iff_ne.2 (hr' _ (by simp)), beq_eq_false_iff_ne.2 (hr' _ (by simp))⟩
    have e3 : (toUpper (c :: t) == c!"NIL") = false := beq_eq_false_iff_ne.2 hnil
    unfold classify
    rw [e1, e2, e3]
    simp [startsWith, hhead, int32TryParse, doubleTryParse, hstoi, hstod]

end Fuel
