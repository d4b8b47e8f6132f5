import Verif.LemFloat
import Verif.PropsTok
import Verif.PropsText
import Verif.PropsConv
import Verif.Demo
/-!
# Properties of floating-point numbers as text (C77)
-/

set_option linter.unusedSectionVars false
set_option linter.unusedSimpArgs false
set_option linter.unusedVariables false

namespace Fuel

open Spec

section
variable [World]

/-! ## C77 the notation of floating-point numbers -/

/-- C77: `(parse-float txt)` is the value of the longest floating-point number at the beginning of the text; the result is undefined
if there is none or if its value does not fit into a `double`.  The characters behind the number are ignored. -/
theorem C77_parse_float {k : Nat} (hk : 2 ≤ k) {p : Ptr} {txt : Str} (sid : Nat) (st : St) (hp : Holds p (IsStr · txt))
    (h0 : Char.ofNat 0 ∉ txt) :
    Returns (callPrim (run k) .parseFloat [p] sid) st fun v st' => Extends st st' ∧
      ((∃ num d, LongestNumber txt num ∧ World.dStod num = some d ∧ IsDbl v d) ∨
       IsUndef v ∧ ((∀ num, ¬ NumberPrefix txt num) ∨ ∃ num, LongestNumber txt num ∧ World.dStod num = none)) := by
  obtain ⟨k, rfl⟩ : ∃ m, k = m + 2 := ⟨k - 2, by omega⟩
  obtain ⟨j, w, rfl, hw⟩ := hp
  rcases number_or_not txt with ⟨num, hn⟩ | hn
  · obtain ⟨n, -, hs⟩ := stod_longest h0 hn
    cases hd : World.dStod num with
    | some d =>
      rw [hd] at hs
      refine returns_dbl d ?_ fun v' _ he ho => ⟨he, .inl ⟨num, d, hn, hd, ho⟩⟩
      simp [callPrim, ret, bParseFloat, checkArgs, argMk, arg, run_n, M.rd_apply, mkVariant, varStr_str hw, hs, catchAny]
    | none =>
      rw [hd] at hs
      refine ⟨undefinedV, st, ?_, Extends.refl _, .inr ⟨rfl, .inr ⟨num, hn, hd⟩⟩⟩
      simp [callPrim, ret, bParseFloat, checkArgs, argMk, arg, run_n, M.rd_apply, mkVariant, varStr_str hw, hs, catchAny]
  · refine ⟨undefinedV, st, ?_, Extends.refl _, .inr ⟨rfl, .inl hn⟩⟩
    simp [callPrim, ret, bParseFloat, checkArgs, argMk, arg, run_n, M.rd_apply, mkVariant, varStr_str hw, stod_none h0 hn, catchAny]

theorem tokenize_word {t : Str} (h : Word t) (off : Int) : match classify t with
    | .ok (ty, v) => ∃ tok, tokenize t off = .ok [tok] ∧ tok.type = ty ∧ tok.value = v
    | .error f => tokenize t off = .error f := by
  have h3 := lx_word (b := []) h.1 (fun c hc => (h.2 c hc).1) (by simp)
  rw [List.append_nil] at h3
  cases hc : classify t with
  | error f => rw [hc] at h3; exact tokenize_of_lx_err off h3
  | ok r =>
    rw [hc] at h3
    obtain ⟨toks, h4, h5⟩ := tokenize_of_lx off h3
    obtain ⟨tok, rfl, h5⟩ := List.map_eq_singleton_iff.1 h5
    simp [Token.kind] at h5
    exact ⟨tok, h4, by rw [← h5], by rw [← h5]⟩

/-- C77: a word in the notation of a floating-point number that is no decimal integer is one token of type Double with the value of
the number, or raises `std::out_of_range` if the value does not fit into a `double`. -/
theorem C77_literal {t : Str} (h : Word t) (hf : Floating t) (hn : ∀ i, ¬ Numeral t i) (h32 : ∀ i, LeadingInt t i → IsInt32 i)
    (off : Int) : match World.dStod t with
      | some d => ∃ tok, tokenize t off = .ok [tok] ∧ tok.type = .double ∧ tok.value = .dbl d
      | none => tokenize t off = .error (.exn .outOfRange) := by
  have ht := tokenize_word h off
  obtain ⟨n, h1, h2⟩ := stod_longest (word_nul h) (word_float h hf)
  have hl : ¬ n < t.length := by
    intro hlt
    have := congrArg List.length h1
    rw [List.length_take] at this
    omega
  obtain ⟨K, hK, hc⟩ := word_classify h
  rw [hc, word_not_int h hn h32] at ht
  dsimp only at ht
  cases hd : World.dStod t with
  | some d =>
    rw [hd] at h2
    have : doubleTryParse t = .ok (some d) := by simp [doubleTryParse, h2, hl]
    rw [this] at ht
    exact ht
  | none =>
    rw [hd] at h2
    have : doubleTryParse t = .error (.exn .outOfRange) := by simp [doubleTryParse, h2]
    rw [this] at ht
    exact ht

/-- C77: every other word is a symbol, even if it starts with a number. -/
theorem C77_symbol {t : Str} (h : Word t) (hf : ¬ Floating t) (hn : ∀ i, ¬ Numeral t i) (hr : t ∉ reserved)
    (h32 : ∀ i, LeadingInt t i → IsInt32 i) (hd : ∀ p, LongestNumber t p → ∃ d, World.dStod p = some d) (off : Int) :
    ∃ tok, tokenize t off = .ok [tok] ∧ tok.type = .symbol ∧ tok.value = .str t := by
  have ht := tokenize_word h off
  have : doubleTryParse t = .ok none := by
    rcases number_or_not t with ⟨p, hp⟩ | hp
    · obtain ⟨n, h1, h2⟩ := stod_longest (word_nul h) hp
      obtain ⟨d, hd⟩ := hd p hp
      rw [hd] at h2
      have hl : n < t.length := by
        apply Nat.lt_of_not_le
        intro hle
        rw [List.take_of_length_le hle] at h1
        subst h1
        obtain ⟨⟨-, w, f, h1, h3, h4⟩, -⟩ := hp
        cases w with
        | nil => rw [List.nil_append] at h1; exact hf (h1 ▸ h4)
        | cons c w => exact (h.2 c (by rw [h1]; simp)).1.1 (h3 c (by simp))
      simp [doubleTryParse, h2, hl]
    · simp [doubleTryParse, stod_none (word_nul h) hp]
  obtain ⟨K, hK, hc⟩ := word_classify h
  rw [hc, word_not_int h hn h32] at ht
  dsimp only at ht
  rw [this] at ht
  dsimp only at ht
  rw [hK hr] at ht
  exact ht

/-- C77, negative part: a word that starts with a decimal integer outside of the 32-bit range raises `std::out_of_range`, even if the
word is a floating-point number. -/
theorem C77_literal_range_wrong {t : Str} {i : Int} (h : Word t) (hi : LeadingInt t i) (h32 : ¬ IsInt32 i) (off : Int) :
    tokenize t off = .error (.exn .outOfRange) := by
  have ht := tokenize_word h off
  obtain ⟨num, rest, h1, h2, h3⟩ := hi
  have := strtol_numeral (ws := []) (by simp) h2 h3
  simp only [List.nil_append, ← h1] at this
  obtain ⟨K, hK, hc⟩ := word_classify h
  rw [hc] at ht
  simpa [int32TryParse, stoi, cStr_eq (word_nul h), this, h32] using ht

/-- C77: which decimal notation a number is written in. -/
example : Floating c!"-1.5e+03" :=
  ⟨c!"-", c!"1.5e+03", rfl, by simp, .decimal (m := c!"1.5") (e := c!"e+03") (.point (a := c!"1") (b := c!"5") (by decide) (by decide) (by decide))
    (.some (sign := c!"+") (ds := c!"03") (by simp) (by simp) (by simp) (by decide))⟩

theorem strtod_of {s p : Str} {n : Nat} (h : strtodLen s = n) (hn : n ≠ 0) (hp : s.take n = p) : LongestNumber s p := by
  rcases strtod_longest s with ⟨h', _⟩ | ⟨_, h'⟩
  · omega
  · rw [h, hp] at h'; exact h'

example (off : Int) : match World.dStod c!"1.5e3" with
    | some d => ∃ tok, tokenize c!"1.5e3" off = .ok [tok] ∧ tok.type = .double ∧ tok.value = .dbl d
    | none => tokenize c!"1.5e3" off = .error (.exn .outOfRange) := by
  have hw : Word c!"1.5e3" := word_of_all (by decide)
  refine C77_literal hw ⟨[], c!"1.5e3", rfl, by simp, .decimal (m := c!"1.5") (e := c!"e3")
    (.point (a := c!"1") (b := c!"5") (by decide) (by decide) (by decide)) (.some (sign := []) (ds := c!"3") (by simp) (by simp) (by simp) (by decide))⟩ ?_ ?_ off
  · intro i hi
    have := (numeral_leading hi).2
    have h2 : strtol c!"1.5e3" = some (1, 1) := by rfl
    rw [h2] at this
    simp at this
  · intro i hi
    obtain ⟨n, hn⟩ := leading_iff hw hi
    have h2 : strtol c!"1.5e3" = some (1, 1) := by rfl
    rw [h2] at hn
    simp at hn
    rw [← hn.1]
    decide

example : LongestNumber c!" 1.5e+x" c!" 1.5" := strtod_of (n := 4) rfl (by simp) rfl


example (off : Int) : tokenize c!"3000000000.0" off = .error (.exn .outOfRange) :=
  C77_literal_range_wrong (i := 3000000000) (word_of_all (by decide))
    ⟨c!"3000000000", c!".0", rfl, ⟨c!"3000000000", by simp, by decide, .inl ⟨rfl, by decide⟩⟩, by decide⟩ (by decide) off

example (st : St) : Returns (callPrim (run 2) .parseFloat [strArg 0 c!"abc"] 0) st fun v _ => IsUndef v := by
  obtain ⟨v, st', h, _, h3⟩ := C77_parse_float (Nat.le_refl 2) 0 st (strArg_holds 0 c!"abc") (by decide)
  refine ⟨v, st', h, ?_⟩
  rcases h3 with ⟨num, d, h4, -⟩ | ⟨h3, -⟩
  · rcases strtod_longest c!"abc" with ⟨-, h5⟩ | ⟨h5, -⟩
    · exact absurd h4.1 (h5 num)
    · exact absurd rfl h5
  · exact h3

end

section
attribute [local instance] demoWorld

/-- The words `1+` and `1e` are symbols. -/
example : ∃ tok, tokenize c!"1+" 0 = .ok [tok] ∧ tok.type = .symbol ∧ tok.value = .str c!"1+" := by
  have hw : Word c!"1+" := word_of_all (by decide)
  have h1 : LongestNumber c!"1+" c!"1" := strtod_of (n := 1) rfl (by simp) rfl
  have h2 : strtol c!"1+" = some (1, 1) := by rfl
  refine C77_symbol hw (fun hf => ?_) (fun i hi => ?_) (by decide) (fun i hi => ?_) (fun p _ => ⟨_, rfl⟩) 0
  · have := longest_unique (word_float hw hf) h1
    simp at this
  · have := (numeral_leading hi).2
    rw [h2] at this
    simp at this
  · obtain ⟨n, hn⟩ := leading_iff hw hi
    rw [h2] at hn
    simp at hn
    rw [← hn.1]
    decide

end

end Fuel
