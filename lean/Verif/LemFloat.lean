import Verif.LemParse
import Verif.SpecFloat
/-!
# The longest floating-point number at the beginning of a text
-/

set_option linter.unusedSectionVars false
set_option linter.unusedSimpArgs false
set_option linter.unusedVariables false

namespace Fuel

open Spec

section
variable {dig : Char → Bool} {D : Char → Prop}

theorem takeWhile_sat (p : Char → Bool) (s : Str) : ∀ c ∈ s.takeWhile p, p c = true := by
  intro c hc
  induction s with
  | nil => simp at hc
  | cons a s ih =>
    by_cases h : p a = true
    · simp [List.takeWhile_cons, h] at hc
      rcases hc with rfl | hc
      · exact h
      · exact ih hc
    · simp [List.takeWhile_cons, h] at hc
theorem takeWhile_ge {p : Char → Bool} {a b : Str} (h : ∀ c ∈ a, p c = true) : a.length ≤ ((a ++ b).takeWhile p).length := by
  rw [List.takeWhile_append_of_pos h]; simp
theorem takeWhile_stop {p : Char → Bool} {a b : Str} {c : Char} (h : ∀ c ∈ a, p c = true) (hc : p c = false) : (a ++ c :: b).takeWhile p = a := by
  rw [List.takeWhile_append_of_pos h]; simp [hc]
theorem dropWhile_stop {p : Char → Bool} {a b : Str} {c : Char} (h : ∀ c ∈ a, p c = true) (hc : p c = false) : (a ++ c :: b).dropWhile p = c :: b := by
  rw [List.dropWhile_append_of_pos h]; simp [hc]
theorem take_takeWhile (p : Char → Bool) (s : Str) : s.take (s.takeWhile p).length = s.takeWhile p := by
  have := List.takeWhile_append_dropWhile (p := p) (l := s)
  generalize s.takeWhile p = a at *
  rw [← this]
  simp

theorem mantissa_point (dig : Char → Bool) (hp : dig '.' = false) {a : Str} (h : ∀ c ∈ a, dig c = true) (t : Str) : mantissaLen dig (a ++ '.' :: t) =
    if a.length == 0 && (t.takeWhile dig).length == 0 then 0 else a.length + 1 + (t.takeWhile dig).length := by
  unfold mantissaLen
  rw [takeWhile_stop h hp, dropWhile_stop h hp]
  rfl

theorem mantissa_take (hD : ∀ c, dig c = true ↔ D c) {s : Str} (h : mantissaLen dig s ≠ 0) : Mantissa D (s.take (mantissaLen dig s)) := by
  have hs := List.takeWhile_append_dropWhile (p := dig) (l := s)
  have ha := takeWhile_sat dig s
  unfold mantissaLen at h ⊢
  generalize s.takeWhile dig = a at *
  generalize s.dropWhile dig = r at *
  subst hs
  dsimp only at h ⊢
  split at h
  · rename_i t
    split at h
    · exact absurd rfl h
    · rename_i hab
      rw [if_neg hab]
      have hb := takeWhile_sat dig t
      have ht := List.takeWhile_append_dropWhile (p := dig) (l := t)
      generalize t.takeWhile dig = b at *
      generalize t.dropWhile dig = u at *
      subst ht
      have : List.take (a.length + 1 + b.length) (a ++ '.' :: (b ++ u)) = a ++ '.' :: b := by
        rw [show a ++ '.' :: (b ++ u) = (a ++ '.' :: b) ++ u by simp, List.take_left' (by simp; omega)]
      rw [this]
      refine .point (fun c hc => (hD c).1 (ha c hc)) (fun c hc => (hD c).1 (hb c hc)) ?_
      cases a with
      | cons _ _ => exact .inl (by simp)
      | nil => cases b with
        | cons _ _ => exact .inr (by simp)
        | nil => simp at hab
  · rename_i hr
    rw [List.take_left' rfl]
    exact .whole (by intro e; subst e; exact h rfl) fun c hc => (hD c).1 (ha c hc)

theorem mantissa_max (hD : ∀ c, dig c = true ↔ D c) (hp : dig '.' = false) {m u : Str} (h : Mantissa D m) : m.length ≤ mantissaLen dig (m ++ u) := by
  cases h with
  | whole h1 h2 =>
    have := takeWhile_ge (p := dig) (a := m) (b := u) fun c hc => (hD c).2 (h2 c hc)
    have hl := List.length_pos_iff.2 h1
    unfold mantissaLen
    dsimp only
    split
    · split
      · rename_i h; simp at h; rw [h.1] at this; simp at this; exact absurd this h1
      · omega
    · exact this
  | @point a b h1 h2 h3 =>
    have e : (a ++ '.' :: b) ++ u = a ++ '.' :: (b ++ u) := by simp
    rw [e, mantissa_point dig hp fun c hc => (hD c).2 (h1 c hc)]
    have := takeWhile_ge (p := dig) (a := b) (b := u) fun c hc => (hD c).2 (h2 c hc)
    split
    · rename_i h
      simp at h
      rw [h.2] at this
      simp at this
      subst this
      rcases h3 with h3 | h3
      · exact absurd h.1 h3
      · exact absurd rfl h3
    · simp; omega

theorem mantissa_stop (hD : ∀ c, dig c = true ↔ D c) (hp : dig '.' = false) {m u : Str} {c : Char} (h : Mantissa D m) (hc : dig c = false) (hc' : c ≠ '.') :
    mantissaLen dig (m ++ c :: u) = m.length := by
  cases h with
  | whole h1 h2 =>
    unfold mantissaLen
    rw [takeWhile_stop (fun c hc => (hD c).2 (h2 c hc)) hc, dropWhile_stop (fun c hc => (hD c).2 (h2 c hc)) hc]
    dsimp only
    split
    · rename_i h; simp at h; exact absurd h.1 hc'
    · rfl
  | @point a b h1 h2 h3 =>
    have e : (a ++ '.' :: b) ++ c :: u = a ++ '.' :: (b ++ c :: u) := by simp
    rw [e, mantissa_point dig hp fun c hc => (hD c).2 (h1 c hc)]
    rw [takeWhile_stop (fun c hc => (hD c).2 (h2 c hc)) hc]
    split
    · rename_i h
      simp at h
      rw [h.1, h.2] at h3
      simp at h3
    · simp; omega

theorem exponent_len_some {lo up c : Char} {t : Str} (hc : c = lo ∨ c = up) : exponentLen lo up (c :: t) =
    (let r := signSplit t
     let n := (r.2.2.takeWhile isDigit).length
     if n == 0 then 0 else 1 + r.2.1 + n) := by
  have hb : (c == lo || c == up) = true := by simpa using hc
  unfold exponentLen
  simp only [hb, if_true]
  cases t with
  | nil => rfl
  | cons d t =>
    by_cases h1 : d = '-'
    · subst h1; rfl
    · by_cases h2 : d = '+'
      · subst h2; rfl
      · simp [signSplit, h1, h2]

theorem signSplit_eq (t : Str) : ∃ sign, t = sign ++ (signSplit t).2.2 ∧ sign.length = (signSplit t).2.1 ∧ (sign = [] ∨ sign = c!"+" ∨ sign = c!"-") := by
  cases t with
  | nil => exact ⟨[], rfl, rfl, .inl rfl⟩
  | cons d t =>
    by_cases h1 : d = '-'
    · subst h1; exact ⟨['-'], rfl, rfl, .inr (.inr rfl)⟩
    · by_cases h2 : d = '+'
      · subst h2; exact ⟨['+'], rfl, rfl, .inr (.inl rfl)⟩
      · exact ⟨[], by simp [signSplit, h1, h2], by simp [signSplit, h1, h2], .inl rfl⟩

theorem exponent_take {lo up : Char} (s : Str) : Exponent lo up (s.take (exponentLen lo up s)) := by
  cases s with
  | nil => exact .none
  | cons c t =>
    by_cases hc : c = lo ∨ c = up
    · rw [exponent_len_some hc]
      obtain ⟨sign, h1, h2, h3⟩ := signSplit_eq t
      dsimp only
      split
      · exact .none
      · rename_i hn
        generalize (signSplit t).2.2 = r at *
        rw [← h2]
        subst h1
        have hd := takeWhile_sat isDigit r
        have ht := take_takeWhile isDigit r
        have : List.take (1 + sign.length + (r.takeWhile isDigit).length) (c :: (sign ++ r)) = c :: (sign ++ r.takeWhile isDigit) := by
          rw [show 1 + sign.length + (r.takeWhile isDigit).length = (sign.length + (r.takeWhile isDigit).length) + 1 by omega, List.take_succ_cons,
            List.take_append, List.take_of_length_le (by omega), show sign.length + (r.takeWhile isDigit).length - sign.length = (r.takeWhile isDigit).length by omega, ht]
        rw [this]
        refine .some hc h3 ?_ fun d hd' => (isDigit_iff d).1 (hd d hd')
        intro e
        rw [e] at hn
        simp at hn
    · have hb : (c == lo || c == up) = false := by simpa using hc
      unfold exponentLen
      simp only [hb, Bool.false_eq_true, if_false]
      exact .none

theorem signSplit_digits {sign ds u : Str} (h3 : sign = [] ∨ sign = c!"+" ∨ sign = c!"-") (h4 : ds ≠ []) (h5 : ∀ d ∈ ds, Digit d) :
    (signSplit (sign ++ (ds ++ u))).2 = (sign.length, ds ++ u) := by
  obtain ⟨d, t, rfl, hd⟩ := head_of_digits h4 h5
  rcases h3 with rfl | rfl | rfl
  · simp only [List.nil_append, List.cons_append, signSplit_digit hd]; rfl
  · rfl
  · rfl

theorem exponent_max {lo up : Char} {e u : Str} (h : Exponent lo up e) : e.length ≤ exponentLen lo up (e ++ u) := by
  cases h with
  | none => exact Nat.zero_le _
  | @some c sign ds h1 h3 h4 h5 =>
    rw [show c :: (sign ++ ds) ++ u = c :: (sign ++ (ds ++ u)) by simp, exponent_len_some h1]
    have := signSplit_digits (u := u) h3 h4 h5
    dsimp only
    rw [this]
    dsimp only
    have := takeWhile_ge (p := isDigit) (a := ds) (b := u) fun d hd => (isDigit_iff d).2 (h5 d hd)
    have := List.length_pos_iff.2 h4
    split
    · rename_i h; simp only [beq_iff_eq] at h; omega
    · simp; omega

/-- Mantissa and exponent. -/
def scanLen (dig : Char → Bool) (lo up : Char) (s : Str) : Nat :=
  if mantissaLen dig s == 0 then 0 else mantissaLen dig s + exponentLen lo up (s.drop (mantissaLen dig s))

theorem scan_take (hD : ∀ c, dig c = true ↔ D c) {lo up : Char} {s : Str} (h : mantissaLen dig s ≠ 0) :
    ∃ m e, s.take (scanLen dig lo up s) = m ++ e ∧ Mantissa D m ∧ Exponent lo up e := by
  refine ⟨s.take (mantissaLen dig s), _, ?_, mantissa_take hD h, exponent_take (s.drop (mantissaLen dig s))⟩
  unfold scanLen
  rw [if_neg (by simpa using h), List.take_add]

theorem scan_max (hD : ∀ c, dig c = true ↔ D c) (hp : dig '.' = false) {lo up : Char} (hl : dig lo = false) (hu : dig up = false) (hl' : lo ≠ '.') (hu' : up ≠ '.')
    {m e u : Str} (hm : Mantissa D m) (he : Exponent lo up e) : (m ++ e).length ≤ scanLen dig lo up (m ++ e ++ u) := by
  have hpos : m ≠ [] := by
    cases hm with
    | whole h _ => exact h
    | point _ _ _ => simp
  have hpos := List.length_pos_iff.2 hpos
  unfold scanLen
  cases he with
  | none =>
    have := mantissa_max hD hp (u := u) hm
    rw [List.append_nil]
    rw [if_neg (by simp; omega)]
    omega
  | @some c sign ds h1 h3 h4 h5 =>
    have hcd : dig c = false ∧ c ≠ '.' := by rcases h1 with rfl | rfl <;> exact ⟨by assumption, by assumption⟩
    have := mantissa_stop (u := sign ++ ds ++ u) hD hp hm hcd.1 hcd.2
    have e : m ++ c :: (sign ++ ds) ++ u = m ++ c :: (sign ++ ds ++ u) := by simp
    rw [e, this, if_neg (by simp; omega), List.drop_left]
    have := exponent_max (u := u) (Exponent.some h1 h3 h4 h5)
    rw [show c :: (sign ++ ds) ++ u = c :: (sign ++ ds ++ u) by simp] at this
    simp at this ⊢
    omega

end

theorem isHexDigit_iff (c : Char) : isHexDigit c = true ↔ HexDigit c := by
  simp [isHexDigit, HexDigit, ← isDigit_iff, or_assoc]

variable [World]

theorem spells_of_lower : {w t : Str} → (∀ d ∈ w, 97 ≤ d.toNat ∧ d.toNat ≤ 122) → t.map toLowerC = w → Spells w t
  | [], t, _, h => by cases t with | nil => exact .nil | cons _ _ => simp at h
  | d :: w, t, hw, h => by
    cases t with
    | nil => simp at h
    | cons c t =>
      simp at h
      refine .cons ?_ (spells_of_lower (fun x hx => hw x (List.mem_cons_of_mem _ hx)) h.2)
      exact toLowerC_eq (hw d List.mem_cons_self) h.1

theorem lower_of {c d : Char} (hd : 97 ≤ d.toNat ∧ d.toNat ≤ 122) (h : c = d ∨ c.toNat + 32 = d.toNat) : toLowerC c = d := by
  unfold toLowerC
  rcases h with rfl | h
  · rw [if_neg (by simp; omega)]
  · rw [if_pos (by simp; omega), h]
    exact char_eq_of_toNat (toNat_ofNat (by omega))

theorem spells_lower {w t : Str} (hw : ∀ d ∈ w, 97 ≤ d.toNat ∧ d.toNat ≤ 122) (h : Spells w t) : t.map toLowerC = w := by
  induction h with
  | nil => rfl
  | @cons d w c t h1 _ ih => rw [List.map_cons, lower_of (hw d List.mem_cons_self) h1, ih fun x hx => hw x (List.mem_cons_of_mem _ hx)]

theorem spells_length {w t : Str} (h : Spells w t) : t.length = w.length := by
  induction h with
  | nil => rfl
  | cons _ _ ih => simp [ih]

theorem prefixCI_spells {w t u : Str} (hw : ∀ d ∈ w, 97 ≤ d.toNat ∧ d.toNat ≤ 122) (h : Spells w t) : prefixCI w (t ++ u) = true := by
  unfold prefixCI
  rw [← spells_length h, List.take_left, spells_lower hw h]
  simp

theorem spells_prefixCI {w s : Str} (hw : ∀ d ∈ w, 97 ≤ d.toNat ∧ d.toNat ≤ 122) (h : prefixCI w s = true) : Spells w (s.take w.length) := by
  unfold prefixCI at h
  exact spells_of_lower hw (by simpa using h)

theorem prefixCI_head {d c : Char} {w s : Str} (h : toLowerC c ≠ d) : prefixCI (d :: w) (c :: s) = false := by
  simp [prefixCI, h]

theorem inf_letters : ∀ d ∈ c!"inf", 97 ≤ d.toNat ∧ d.toNat ≤ 122 := by decide
theorem infinity_letters : ∀ d ∈ c!"infinity", 97 ≤ d.toNat ∧ d.toNat ≤ 122 := by decide
theorem nan_letters : ∀ d ∈ c!"nan", 97 ≤ d.toNat ∧ d.toNat ≤ 122 := by decide

/-- The number is one of the words. -/
def isWord (s : Str) : Bool := prefixCI c!"infinity" s || prefixCI c!"inf" s || prefixCI c!"nan" s

/-- The number is hexadecimal. -/
def isHex (s : Str) : Bool := prefixCI c!"0x" s && mantissaLen isHexDigit (s.drop 2) != 0

theorem unsigned_hex {s : Str} (h1 : isWord s = false) (h2 : isHex s = true) : unsignedFloatLen s = 2 + scanLen isHexDigit 'p' 'P' (s.drop 2) := by
  simp [isWord] at h1
  have h3 : (mantissaLen isHexDigit (s.drop 2) == 0) = false := by simp [isHex] at h2; simpa using h2.2
  unfold isHex at h2
  unfold unsignedFloatLen scanLen
  simp [h1, h2, h3, List.drop_drop, Nat.add_assoc]

theorem unsigned_dec {s : Str} (h1 : isWord s = false) (h2 : isHex s = false) : unsignedFloatLen s = scanLen isDigit 'e' 'E' s := by
  simp [isWord] at h1
  unfold isHex at h2
  unfold unsignedFloatLen scanLen
  rw [h2]
  simp [h1]

theorem hex_prefix {s : Str} (h : prefixCI c!"0x" s = true) : ∃ x t, s = '0' :: x :: t ∧ (x = 'x' ∨ x = 'X') := by
  unfold prefixCI at h
  match s with
  | [] => simp at h
  | [_] => simp at h
  | a :: x :: t =>
    simp at h
    have ha : a = '0' := by
      have h := h.1
      unfold toLowerC at h
      split at h
      · rename_i hc
        have := congrArg Char.toNat h
        simp at hc
        rw [toNat_ofNat (by omega)] at this
        have h0 : ('0' : Char).toNat = 48 := rfl
        omega
      · exact h
    have hx := toLowerC_eq (by decide) h.2
    refine ⟨x, t, by rw [ha], ?_⟩
    rcases hx with h | h
    · exact .inl h
    · exact .inr (char_eq_of_toNat (by have h0 : ('x' : Char).toNat = 120 := rfl; have h1 : ('X' : Char).toNat = 88 := rfl; omega))

theorem unsigned_take {s : Str} (h : unsignedFloatLen s ≠ 0) : Unsigned (s.take (unsignedFloatLen s)) := by
  cases h1 : isWord s with
  | false =>
    cases h2 : isHex s with
    | false =>
      rw [unsigned_dec h1 h2] at h ⊢
      have hm : mantissaLen isDigit s ≠ 0 := by
        intro e
        simp [scanLen, e] at h
      obtain ⟨m, e, h3, h4, h5⟩ := scan_take (D := Digit) isDigit_iff (lo := 'e') (up := 'E') hm
      rw [h3]
      exact .decimal h4 h5
    | true =>
      rw [unsigned_hex h1 h2]
      simp [isHex] at h2
      obtain ⟨m, e, h3, h4, h5⟩ := scan_take (D := HexDigit) isHexDigit_iff (lo := 'p') (up := 'P') h2.2
      obtain ⟨x, t, rfl, hx⟩ := hex_prefix h2.1
      simp only [List.drop_succ_cons, List.drop_zero] at h3 ⊢
      rw [Nat.add_comm, List.take_succ_cons, List.take_succ_cons, h3]
      exact .hex hx h4 h5
  | true =>
    unfold unsignedFloatLen
    cases h2 : prefixCI c!"infinity" s with
    | true => rw [if_pos rfl]; exact .infinity (spells_prefixCI infinity_letters h2)
    | false =>
      cases h3 : prefixCI c!"inf" s with
      | true => rw [if_neg (by simp), if_pos rfl]; exact .inf (spells_prefixCI inf_letters h3)
      | false =>
        have h4 : prefixCI c!"nan" s = true := by simpa [isWord, h2, h3] using h1
        rw [if_neg (by simp), if_neg (by simp), if_pos h4]
        have h5 : Spells c!"nan" (s.take 3) := spells_prefixCI nan_letters h4
        split
        · rename_i t ht
          dsimp only
          split
          · rename_i hc
            have hs : s = s.take 3 ++ '(' :: t := by rw [← ht, List.take_append_drop]
            have hw := takeWhile_sat (fun c => isDigit c || c.isAlpha || c == '_') t
            have htt := take_takeWhile (fun c => isDigit c || c.isAlpha || c == '_') t
            generalize t.takeWhile (fun c => isDigit c || c.isAlpha || c == '_') = q at *
            have hd : t = q ++ t.drop q.length := by conv => lhs; rw [← List.take_append_drop q.length t, htt]
            have hl : (s.take 3).length = 3 := by have := spells_length h5; exact this
            cases hr : t.drop q.length with
            | nil => rw [hr] at hc; simp at hc
            | cons y ys =>
              rw [hr] at hc
              simp at hc
              subst hc
              rw [hr] at hd
              have : s.take (3 + 1 + q.length + 1) = s.take 3 ++ '(' :: (q ++ c!")") := by
                generalize s.take 3 = w at *
                subst hs
                subst hd
                rw [show w ++ '(' :: (q ++ ')' :: ys) = (w ++ '(' :: (q ++ c!")")) ++ ys by simp, List.take_left' (by simp; omega)]
              rw [this]
              refine .nanWith h5 fun c hcq => ?_
              have := hw c hcq
              simp only [Bool.or_eq_true, beq_iff_eq] at this
              rcases this with (h | h) | h
              · exact .inl ((isDigit_iff c).1 h)
              · exact .inr (.inl h)
              · exact .inr (.inr h)
          · exact .nan h5
        · exact .nan h5

instance (c : Char) : Decidable (Digit c) := decidable_of_iff _ (isDigit_iff c)

theorem not_word {c : Char} {s : Str} (h : c = '.' ∨ HexDigit c ∧ (Digit c)) : isWord (c :: s) = false := by
  have hl : toLowerC c = c := by
    unfold toLowerC
    rcases h with rfl | ⟨-, h⟩
    · rfl
    · rw [if_neg]
      simp only [Digit] at h
      have h9 : ('9' : Char).toNat = 57 := rfl
      simp
      omega
  have h1 : c ≠ 'i' ∧ c ≠ 'n' := by
    rcases h with rfl | ⟨-, h⟩
    · decide
    · refine ⟨?_, ?_⟩ <;> rintro rfl <;> exact absurd h (by decide)
  simp [isWord, prefixCI, hl, h1]

theorem mantissa_head {m : Str} (h : Mantissa Digit m) : ∃ c t, m = c :: t ∧ (c = '.' ∨ Digit c) := by
  cases h with
  | whole h1 h2 => obtain ⟨c, t, rfl, h⟩ := head_of_digits h1 h2; exact ⟨c, t, rfl, .inr h⟩
  | @point a b h1 h2 h3 =>
    cases a with
    | nil => exact ⟨'.', b, rfl, .inl rfl⟩
    | cons c a => exact ⟨c, a ++ '.' :: b, rfl, .inr (h1 c List.mem_cons_self)⟩

theorem unsigned_max {t u : Str} (h : Unsigned t) : t.length ≤ unsignedFloatLen (t ++ u) := by
  cases h with
  | @decimal m e hm he =>
    have hw : isWord (m ++ e ++ u) = false := by
      obtain ⟨c, r, rfl, hc⟩ := mantissa_head hm
      exact not_word (hc.imp id fun h => ⟨.inl h, h⟩)
    have hmax := scan_max (D := Digit) (u := u) isDigit_iff (by decide) (lo := 'e') (up := 'E') (by decide) (by decide) (by decide) (by decide) hm he
    cases h2 : isHex (m ++ e ++ u) with
    | false => rw [unsigned_dec hw h2]; exact hmax
    | true =>
      rw [unsigned_hex hw h2]
      simp [isHex] at h2
      have h2 := h2.1
      rw [← List.append_assoc] at h2
      obtain ⟨x, v, hv, hx⟩ := hex_prefix h2
      rw [hv] at hmax
      have : scanLen isDigit 'e' 'E' ('0' :: x :: v) = 1 := by
        have hm : mantissaLen isDigit ('0' :: x :: v) = 1 := by
          rcases hx with rfl | rfl <;> rfl
        unfold scanLen
        rw [hm]
        rcases hx with rfl | rfl <;> rfl
      omega
  | @hex x m e hx hm he =>
    have hmax := scan_max (D := HexDigit) (u := u) isHexDigit_iff (by decide) (lo := 'p') (up := 'P') (by decide) (by decide) (by decide) (by decide) hm he
    have hw : isWord ('0' :: x :: (m ++ e) ++ u) = false := not_word (.inr ⟨.inl (by decide), by decide⟩)
    have hpos : mantissaLen isHexDigit (m ++ e ++ u) ≠ 0 := by
      have := mantissa_max (dig := isHexDigit) (D := HexDigit) isHexDigit_iff (by decide) (u := e ++ u) hm
      rw [← List.append_assoc] at this
      have h0 : m ≠ [] := by
        cases hm with
        | whole h _ => exact h
        | point _ _ _ => simp
      have := List.length_pos_iff.2 h0
      omega
    have hh : isHex ('0' :: x :: (m ++ e) ++ u) = true := by
      have h1 : prefixCI c!"0x" ('0' :: x :: (m ++ e) ++ u) = true := by rcases hx with rfl | rfl <;> rfl
      unfold isHex
      rw [h1]
      simpa using hpos
    rw [unsigned_hex hw hh]
    simp at hmax ⊢
    omega
  | inf h =>
    have := prefixCI_spells (u := u) inf_letters h
    have hl : t.length = 3 := spells_length h
    unfold unsignedFloatLen
    cases h2 : prefixCI c!"infinity" (t ++ u) with
    | true => simp; omega
    | false => rw [if_neg (by simp), if_pos this]; omega
  | infinity h =>
    have := prefixCI_spells (u := u) infinity_letters h
    have hl : t.length = 8 := spells_length h
    unfold unsignedFloatLen
    rw [if_pos this]; omega
  | nan h =>
    have hp := prefixCI_spells (u := u) nan_letters h
    have hl : t.length = 3 := spells_length h
    have hn := spells_lower nan_letters h
    match t, hl with
    | [a, b, c], _ =>
      simp at hn
      have h1 : prefixCI c!"infinity" ([a, b, c] ++ u) = false := prefixCI_head (by rw [hn.1]; decide)
      have h2 : prefixCI c!"inf" ([a, b, c] ++ u) = false := prefixCI_head (by rw [hn.1]; decide)
      unfold unsignedFloatLen
      rw [if_neg (by rw [h1]; simp), if_neg (by rw [h2]; simp), if_pos hp]
      split
      · dsimp only
        split <;> simp
        omega
      · simp
  | @nanWith t q h hq =>
    have hp := prefixCI_spells (u := '(' :: (q ++ c!")") ++ u) nan_letters h
    have hl : t.length = 3 := spells_length h
    have hn := spells_lower nan_letters h
    match t, hl with
    | [a, b, c], _ =>
      simp at hn
      have e : [a, b, c] ++ '(' :: (q ++ c!")") ++ u = [a, b, c] ++ ('(' :: (q ++ c!")") ++ u) := by simp
      rw [e]
      have h1 : prefixCI c!"infinity" ([a, b, c] ++ ('(' :: (q ++ c!")") ++ u)) = false := prefixCI_head (by rw [hn.1]; decide)
      have h2 : prefixCI c!"inf" ([a, b, c] ++ ('(' :: (q ++ c!")") ++ u)) = false := prefixCI_head (by rw [hn.1]; decide)
      unfold unsignedFloatLen
      rw [if_neg (by rw [h1]; simp), if_neg (by rw [h2]; simp), if_pos hp]
      have ht : (q ++ ')' :: u).takeWhile (fun c => isDigit c || c.isAlpha || c == '_') = q := takeWhile_stop (fun c hc => by
        simp only [Bool.or_eq_true, beq_iff_eq]
        rcases hq c hc with h | h | h
        · exact .inl (.inl ((isDigit_iff c).2 h))
        · exact .inl (.inr h)
        · exact .inr h) (by decide)
      have hd : List.drop 3 ([a, b, c] ++ ('(' :: (q ++ c!")") ++ u)) = '(' :: (q ++ ')' :: u) := by simp
      rw [hd]
      dsimp only
      show _ ≤ if ((q ++ ')' :: u).drop ((q ++ ')' :: u).takeWhile _).length).head? == some ')' then 3 + 1 + ((q ++ ')' :: u).takeWhile _).length + 1 else 3
      rw [ht, List.drop_left]
      simp
      omega

theorem floating_sign {f : Str} (h : Floating f) (u : Str) : ∃ sign r, f ++ u = sign ++ (r ++ u) ∧ f = sign ++ r ∧ Unsigned r ∧
    (signSplit (f ++ u)).2 = (sign.length, r ++ u) ∧ ∀ c, (f ++ u).head? = some c → isSpace c = false := by
  obtain ⟨sign, r, rfl, hs, hr⟩ := h
  have hh : ∃ c t, r = c :: t ∧ c ≠ '+' ∧ c ≠ '-' ∧ isSpace c = false := by
    have dot : ∀ c : Char, c = '.' ∨ Digit c → c ≠ '+' ∧ c ≠ '-' ∧ isSpace c = false := by
      intro c h
      rcases h with rfl | h
      · decide
      · refine ⟨?_, ?_, ?_⟩
        · rintro rfl; exact absurd h (by decide)
        · rintro rfl; exact absurd h (by decide)
        · cases hsp : isSpace c with
          | false => rfl
          | true =>
            exfalso
            have := (isSpace_iff c).1 hsp
            simp [White] at this
            rcases this with rfl | rfl | rfl | rfl | rfl | rfl <;> exact absurd h (by decide)
    have letter : ∀ c d : Char, (97 ≤ d.toNat ∧ d.toNat ≤ 122) → (c = d ∨ c.toNat + 32 = d.toNat) → c ≠ '+' ∧ c ≠ '-' ∧ isSpace c = false := by
      intro c d hd h
      have hc : 65 ≤ c.toNat := by rcases h with rfl | h <;> omega
      refine ⟨?_, ?_, ?_⟩
      · rintro rfl; revert hc; decide
      · rintro rfl; revert hc; decide
      · cases hsp : isSpace c with
        | false => rfl
        | true =>
          exfalso
          have := (isSpace_iff c).1 hsp
          simp [White] at this
          rcases this with rfl | rfl | rfl | rfl | rfl | rfl <;> revert hc <;> decide
    have word : ∀ {w t : Str} {d : Char}, 97 ≤ d.toNat ∧ d.toNat ≤ 122 → Spells (d :: w) t → ∃ c v, t = c :: v ∧ c ≠ '+' ∧ c ≠ '-' ∧ isSpace c = false := by
      intro w t d hd h
      cases h with
      | @cons _ _ c t h1 _ => exact ⟨c, t, rfl, letter c d hd h1⟩
    cases hr with
    | decimal hm he =>
      obtain ⟨c, t, rfl, hc⟩ := mantissa_head hm
      exact ⟨c, _, rfl, dot c hc⟩
    | hex hx hm he => exact ⟨'0', _, rfl, by decide⟩
    | inf h => exact word (by decide) h
    | infinity h => exact word (by decide) h
    | nan h => exact word (by decide) h
    | nanWith h hq =>
      obtain ⟨c, v, rfl, hc⟩ := word (by decide) h
      exact ⟨c, _, rfl, hc⟩
  obtain ⟨c, t, rfl, h1, h2, h3⟩ := hh
  refine ⟨sign, c :: t, by simp, rfl, hr, ?_, ?_⟩
  · rcases hs with rfl | rfl | rfl
    · simp [signSplit, h1, h2]
    · rfl
    · rfl
  · intro d hd
    rcases hs with rfl | rfl | rfl
    · simp at hd; rw [← hd]; exact h3
    · simp at hd; rw [← hd]; decide
    · simp at hd; rw [← hd]; decide

/-- `strtod` finds the longest number. -/
theorem strtod_longest (s : Str) : (strtodLen s = 0 ∧ ∀ p, ¬ NumberPrefix s p) ∨ (strtodLen s ≠ 0 ∧ LongestNumber s (s.take (strtodLen s))) := by
  have max : ∀ q, NumberPrefix s q → q.length ≤ strtodLen s ∧ q ≠ [] := by
    rintro q ⟨⟨u, rfl⟩, w, f, rfl, hw, hf⟩
    obtain ⟨sign, r, h1, h2, h3, h4, h5⟩ := floating_sign hf u
    rw [strtodLen_eq]
    have hsp : ∀ c ∈ w, isSpace c = true := fun c hc => (isSpace_iff c).2 (hw c hc)
    have hd : (f ++ u).dropWhile isSpace = f ++ u := dropWhile_eq_self h5
    have ht : (f ++ u).takeWhile isSpace = [] := by
      cases hfu : f ++ u with
      | nil => rfl
      | cons c t => rw [hfu] at h5; simp [h5 c rfl]
    rw [List.append_assoc, List.dropWhile_append_of_pos hsp, List.takeWhile_append_of_pos hsp, hd, ht]
    dsimp only
    rw [h4]
    have hr := unsigned_max (u := u) h3
    have hne : r ≠ [] := by
      cases h3 with
      | decimal hm he => obtain ⟨c, t, rfl, -⟩ := mantissa_head hm; simp
      | hex hx hm he => simp
      | inf h => intro e; have := spells_length h; rw [e] at this; simp at this
      | infinity h => intro e; have := spells_length h; rw [e] at this; simp at this
      | nan h => intro e; have := spells_length h; rw [e] at this; simp at this
      | nanWith h hq => simp
    have hpos := List.length_pos_iff.2 hne
    rw [if_neg (by simp; omega)]
    subst h2
    simp
    refine ⟨by omega, fun _ _ => hne⟩
  by_cases h0 : strtodLen s = 0
  · refine .inl ⟨h0, fun p hp => ?_⟩
    obtain ⟨h1, h2⟩ := max p hp
    have := List.length_pos_iff.2 h2
    omega
  · refine .inr ⟨h0, ⟨List.take_prefix _ _, ?_⟩, fun q hq => ?_⟩
    · have hs := List.takeWhile_append_dropWhile (p := isSpace) (l := s)
      have hw := takeWhile_sat isSpace s
      rw [strtodLen_eq] at h0 ⊢
      dsimp only at h0 ⊢
      generalize s.takeWhile isSpace = w at *
      generalize s.dropWhile isSpace = r at *
      subst hs
      obtain ⟨sign, h1, h2, h3⟩ := signSplit_eq r
      rw [← h2] at h0 ⊢
      generalize (signSplit r).2.2 = v at *
      subst h1
      have hn : unsignedFloatLen v ≠ 0 := by intro e; simp [e] at h0
      rw [if_neg (by simpa using hn)]
      refine ⟨w, sign ++ v.take (unsignedFloatLen v), ?_, fun c hc => (isSpace_iff c).1 (hw c hc), sign, _, rfl, h3, unsigned_take hn⟩
      rw [Nat.add_assoc, List.take_length_add_append, List.take_length_add_append]
    · have := (max q hq).1
      rw [List.length_take]
      have := hq.1.length_le
      omega

section
variable [World]

theorem longest_unique {s p q : Str} (hp : LongestNumber s p) (hq : LongestNumber s q) : p = q := by
  have h := Nat.le_antisymm (hq.2 p hp.1) (hp.2 q hq.1)
  rw [List.prefix_iff_eq_take.1 hp.1.1, List.prefix_iff_eq_take.1 hq.1.1, h]

theorem stod_longest {s p : Str} (h0 : Char.ofNat 0 ∉ s) (hp : LongestNumber s p) : ∃ n, s.take n = p ∧
    stod s = match World.dStod p with
      | some d => .ok (d, n)
      | none => .error (.exn .outOfRange) := by
  rcases strtod_longest s with ⟨_, h⟩ | ⟨h1, h2⟩
  · exact absurd hp.1 (h p)
  · have hl := longest_unique h2 hp
    refine ⟨_, hl, ?_⟩
    unfold stod
    simp only [cStr_eq h0, hl]
    rw [if_neg (by simpa using h1)]
    cases World.dStod p <;> rfl

theorem stod_none {s : Str} (h0 : Char.ofNat 0 ∉ s) (hp : ∀ p, ¬ NumberPrefix s p) : stod s = .error (.exn .invalidArgument) := by
  rcases strtod_longest s with ⟨h, _⟩ | ⟨_, h⟩
  · unfold stod
    simp [cStr_eq h0, h]
  · exact absurd h.1 (hp _)

theorem number_or_not (s : Str) : (∃ p, LongestNumber s p) ∨ ∀ p, ¬ NumberPrefix s p := by
  rcases strtod_longest s with ⟨_, h⟩ | ⟨_, h⟩
  · exact .inr h
  · exact .inl ⟨_, h⟩

theorem word_classify {t : Str} (h : Word t) : ∃ K, (t ∉ reserved → K = .ok (.symbol, .str t)) ∧
    classify t = match int32TryParse t with
      | .error f => .error f
      | .ok (some i) => .ok (.int, .int i)
      | .ok none => match doubleTryParse t with
        | .error f => .error f
        | .ok (some d) => .ok (.double, .dbl d)
        | .ok none => K := by
  obtain ⟨hne, hp⟩ := h
  cases t with
  | nil => exact absurd rfl hne
  | cons c t =>
    have hhead : ∀ d ∈ ['"', '\'', '`', ',', '(', ')', ';'], c ≠ d := by
      rintro d hd rfl
      have := (hp c (by simp)).1.2
      simp at this hd
      rcases hd with rfl | rfl | rfl | rfl | rfl | rfl | rfl <;> simp at this
    have s1 : ∀ d, c ≠ d → startsWith (c :: t) [d] = false := fun d h => by simp [startsWith, h]
    have s2 : ∀ d u, c ≠ d → (c :: t == d :: u) = false := fun d u h => beq_eq_false_iff_ne.2 fun e => h (by simp at e; exact e.1)
    refine ⟨if c :: t == c!"true" || c :: t == c!"#t" then .ok (.true_, .bool true)
      else if c :: t == c!"false" || c :: t == c!"#f" then .ok (.false_, .bool false)
      else if toUpper (c :: t) == c!"NIL" then .ok (.nil, .int 0)
      else .ok (.symbol, .str (c :: t)), ?_, ?_⟩
    rotate_left
    · unfold classify
      rw [s1 '"' (hhead _ (by simp)), s2 '\'' _ (hhead _ (by simp)), s2 '`' _ (hhead _ (by simp)), s2 ',' _ (hhead _ (by simp)),
        s2 ',' _ (hhead _ (by simp)), s2 '(' _ (hhead _ (by simp)), s2 ')' _ (hhead _ (by simp)), s1 ';' (hhead _ (by simp))]
      simp only [Bool.false_eq_true, if_false]
      rfl
    · intro hr
      have hr' : ∀ w ∈ [c!"true", c!"#t", c!"false", c!"#f"], (c :: t == w) = false := by
        intro w hw
        refine beq_eq_false_iff_ne.2 fun he => hr ?_
        rw [he]
        simp at hw
        rcases hw with rfl | rfl | rfl | rfl <;> decide
      have hnil : toUpper (c :: t) ≠ c!"NIL" := by
        intro hu
        match c, t, hu with
        | a, [b, c], hu =>
          simp [toUpper] at hu
          have h1 := upper_mem (d := 'n') (D := 'N') (by decide) (by decide) hu.1
          have h2 := upper_mem (d := 'i') (D := 'I') (by decide) (by decide) hu.2.1
          have h3 := upper_mem (d := 'l') (D := 'L') (by decide) (by decide) hu.2.2
          simp at h1 h2 h3
          apply hr
          rcases h1 with rfl | rfl <;> rcases h2 with rfl | rfl <;> rcases h3 with rfl | rfl <;> decide
        | _, [], hu => simp [toUpper] at hu
        | _, [_], hu => simp [toUpper] at hu
        | _, _ :: _ :: _ :: _, hu => simp [toUpper] at hu
      rw [hr' _ (by simp), hr' _ (by simp), hr' _ (by simp), hr' _ (by simp), beq_eq_false_iff_ne.2 hnil]
      rfl

theorem word_nul {t : Str} (h : Word t) : Char.ofNat 0 ∉ t := fun hc => (h.2 _ hc).2 rfl

theorem word_spaces {t : Str} (h : Word t) : t.dropWhile isSpace = t ∧ t.takeWhile isSpace = [] := by
  cases t with
  | nil => exact ⟨rfl, rfl⟩
  | cons c t => simp [plain_not_space (h.2 c List.mem_cons_self).1]

theorem word_stoi {t : Str} (h : Word t) : (∃ i num rest, t = num ++ rest ∧ Numeral num i ∧ (∀ c, rest.head? = some c → ¬ Digit c) ∧
      stoi t = if IsInt32 i then .ok (i, num.length) else .error (.exn .outOfRange)) ∨
    (∀ i, ¬ LeadingInt t i) ∧ stoi t = .error (.exn .invalidArgument) := by
  have lead : ∀ i num rest, t = num ++ rest → Numeral num i → (∀ c, rest.head? = some c → ¬ Digit c) →
      stoi t = if IsInt32 i then .ok (i, num.length) else .error (.exn .outOfRange) := by
    intro i num rest h1 h2 h3
    have := strtol_numeral (ws := []) (by simp) h2 h3
    simp only [List.nil_append, ← h1] at this
    simp [stoi, cStr_eq (word_nul h), this]
  by_cases hl : ∃ i, LeadingInt t i
  · obtain ⟨i, num, rest, h1, h2, h3⟩ := hl
    exact .inl ⟨i, num, rest, h1, h2, h3, lead i num rest h1 h2 h3⟩
  · refine .inr ⟨fun i hi => hl ⟨i, hi⟩, ?_⟩
    have : strtol t = none := by
      rw [strtol_eq, (word_spaces h).1, (word_spaces h).2]
      obtain ⟨sign, h1, h2, h3⟩ := signSplit_eq t
      dsimp only
      rw [if_pos]
      cases he : ((signSplit t).2.2.takeWhile isDigit).isEmpty with
      | true => rfl
      | false =>
        exfalso
        generalize (signSplit t).2.2 = r at *
        have hne : r.takeWhile isDigit ≠ [] := by intro e; simp [e] at he
        have hds : ∀ c ∈ r.takeWhile isDigit, Digit c := fun c hc => (isDigit_iff c).1 (takeWhile_sat isDigit r c hc)
        have hrest : ∀ c, (r.dropWhile isDigit).head? = some c → ¬ Digit c := by
          intro c hc hd
          have := List.head?_dropWhile_not isDigit r
          rw [hc] at this
          simp at this
          rw [(isDigit_iff c).2 hd] at this
          exact absurd this (by simp)
        have hr := List.takeWhile_append_dropWhile (p := isDigit) (l := r)
        have ht : t = (sign ++ r.takeWhile isDigit) ++ r.dropWhile isDigit := by rw [List.append_assoc, hr]; exact h1
        apply hl
        rcases h3 with rfl | rfl | rfl
        · exact ⟨_, _, _, ht, ⟨_, hne, hds, .inl ⟨rfl, rfl⟩⟩, hrest⟩
        · exact ⟨_, _, _, ht, ⟨_, hne, hds, .inr (.inl ⟨rfl, rfl⟩)⟩, hrest⟩
        · exact ⟨_, _, _, ht, ⟨_, hne, hds, .inr (.inr ⟨rfl, rfl⟩)⟩, hrest⟩
    simp [stoi, cStr_eq (word_nul h), this]

theorem word_not_int {t : Str} (h : Word t) (hn : ∀ i, ¬ Numeral t i) (h32 : ∀ i, LeadingInt t i → IsInt32 i) :
    int32TryParse t = .ok none := by
  rcases word_stoi h with ⟨i, num, rest, h1, h2, h3, h4⟩ | ⟨_, h4⟩
  · rw [if_pos (h32 i ⟨num, rest, h1, h2, h3⟩)] at h4
    have : num.length < t.length := by
      cases rest with
      | nil => exact absurd (by rw [h1]; simpa using h2) (hn i)
      | cons c r => rw [h1]; simp
    simp [int32TryParse, h4, this]
  · simp [int32TryParse, h4]

theorem word_float {t : Str} (h : Word t) (hf : Floating t) : LongestNumber t t :=
  ⟨⟨List.prefix_refl _, [], t, rfl, by simp, hf⟩, fun _ hq => hq.1.length_le⟩

theorem floating_head {t : Str} (h : Floating t) (next : Str) : (t ++ next).head? ≠ some '@' := by
  have key : ∀ {c : Char} {s : Str}, t = c :: s → c ≠ '@' → (t ++ next).head? ≠ some '@' := by
    rintro c s rfl hc
    simpa using hc
  have dig : ∀ {c : Char}, Digit c → c ≠ '@' := by rintro c hc rfl; exact absurd hc (by simp [Digit])
  have man : ∀ {m e : Str}, Mantissa Digit m → ∃ c s, m ++ e = c :: s ∧ c ≠ '@' := by
    intro m e hm
    cases hm with
    | whole hne hd =>
      cases m with
      | nil => exact absurd rfl hne
      | cons c m => exact ⟨c, m ++ e, rfl, dig (hd c (by simp))⟩
    | @point a b ha _ _ =>
      cases a with
      | nil => exact ⟨'.', _, rfl, by decide⟩
      | cons c a => exact ⟨c, _, rfl, dig (ha c (by simp))⟩
  have sp : ∀ {d : Char} {w t' : Str}, Spells (d :: w) t' → d.toNat ≠ 96 → d ≠ '@' → ∃ c s, t' = c :: s ∧ c ≠ '@' := by
    intro d w t' hs hd hd'
    cases hs with
    | @cons _ _ c t hc _ =>
      refine ⟨c, t, rfl, ?_⟩
      rintro rfl
      rcases hc with hc | hc
      · exact hd' hc.symm
      · exact hd hc.symm
  obtain ⟨sign, u, rfl, hs, hu⟩ := h
  rcases hs with rfl | rfl | rfl
  · have : ∃ c s, u = c :: s ∧ c ≠ '@' := by
      cases hu with
      | decimal hm he => exact man hm
      | hex _ _ _ => exact ⟨'0', _, rfl, by decide⟩
      | inf h => exact sp h (by decide) (by decide)
      | infinity h => exact sp h (by decide) (by decide)
      | nan h => exact sp h (by decide) (by decide)
      | nanWith h _ =>
        obtain ⟨c, s, rfl, hc⟩ := sp h (by decide) (by decide)
        exact ⟨c, _, rfl, hc⟩
    obtain ⟨c, s, rfl, hc⟩ := this
    exact key rfl hc
  · exact key (c := '+') rfl (by decide)
  · exact key (c := '-') rfl (by decide)

/-- The word of a floating-point number is a token of type Double. -/
theorem classify_float {t : Str} {d : Dbl} (h : FloatWord t d) : classify t = .ok (.double, .dbl d) := by
  obtain ⟨n, h1, h2⟩ := stod_longest (word_nul h.word) (word_float h.word h.floating)
  have hl : ¬ n < t.length := by
    intro hlt
    have := congrArg List.length h1
    rw [List.length_take] at this
    omega
  rw [h.value] at h2
  have hd : doubleTryParse t = .ok (some d) := by simp [doubleTryParse, h2, hl]
  obtain ⟨K, hK, hc⟩ := word_classify h.word
  rw [hc, word_not_int h.word h.noInt h.leading]
  simp only [hd]

theorem word_of_all {t : Str} (h : t ≠ [] ∧ t.all (fun c => decide (Plain c) && c != Char.ofNat 0) = true) : Word t := by
  refine ⟨h.1, fun c hc => ?_⟩
  have := List.all_eq_true.1 h.2 c hc
  simpa using this

theorem leading_iff {s : Str} {i : Int} (h : Word s) (hi : LeadingInt s i) : ∃ n, strtol s = some (i, n) := by
  obtain ⟨num, rest, h1, h2, h3⟩ := hi
  have := strtol_numeral (ws := []) (by simp) h2 h3
  simp only [List.nil_append, ← h1] at this
  exact ⟨_, this⟩

theorem numeral_leading {s : Str} {i : Int} (h : Numeral s i) : LeadingInt s i ∧ strtol s = some (i, s.length) := by
  have := strtol_numeral (ws := []) (rest := []) (by simp) h (by simp)
  simp only [List.nil_append, List.append_nil] at this
  exact ⟨⟨s, [], by simp, h, by simp⟩, this⟩

/-- A way to show that a word is the notation of a floating-point number. -/
theorem floatWord_of {t : Str} {d : Dbl} {i : Int} {n : Nat} (h : t ≠ [] ∧ t.all (fun c => decide (Plain c) && c != Char.ofNat 0) = true)
    (hf : Floating t) (hs : strtol t = some (i, n)) (hn : n ≠ t.length) (hi : IsInt32 i) (hv : World.dStod t = some d) : FloatWord t d := by
  have hw := word_of_all h
  refine ⟨hw, hf, fun j hj => ?_, fun j hj => ?_, hv⟩
  · have := (numeral_leading hj).2
    rw [hs] at this
    simp at this
    exact hn this.2
  · obtain ⟨m, hm⟩ := leading_iff hw hj
    rw [hs] at hm
    simp at hm
    rw [← hm.1]
    exact hi

end

end Fuel
