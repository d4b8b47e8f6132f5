import Verif.World
import Verif.SpecTok
/-!
# Specification of the notation of floating-point numbers
-/

namespace Fuel.Spec

/-- A hexadecimal digit. -/
def HexDigit (c : Char) : Prop := Digit c ∨ (97 ≤ c.toNat ∧ c.toNat ≤ 102) ∨ (65 ≤ c.toNat ∧ c.toNat ≤ 70)

/-- At least one digit, possibly with a point before, behind or between them. -/
inductive Mantissa (dig : Char → Prop) : Str → Prop
  | whole {a} : a ≠ [] → (∀ c ∈ a, dig c) → Mantissa dig a
  | point {a b} : (∀ c ∈ a, dig c) → (∀ c ∈ b, dig c) → a ≠ [] ∨ b ≠ [] → Mantissa dig (a ++ '.' :: b)

/-- Nothing, or a letter, an optional sign and at least one decimal digit. -/
inductive Exponent (lower upper : Char) : Str → Prop
  | none : Exponent lower upper []
  | some {c sign ds} : c = lower ∨ c = upper → sign = [] ∨ sign = c!"+" ∨ sign = c!"-" → ds ≠ [] → (∀ d ∈ ds, Digit d) →
      Exponent lower upper (c :: (sign ++ ds))

/-- `Spells word t`: the text `t` is the word (in lower case) in lower case and upper case letters. -/
inductive Spells : Str → Str → Prop
  | nil : Spells [] []
  | cons {d w c t} : c = d ∨ c.toNat + 32 = d.toNat → Spells w t → Spells (d :: w) (c :: t)

/-- The notation of a floating-point number without sign in the C language: decimal, hexadecimal, infinity, or not a number. -/
inductive Unsigned : Str → Prop
  | decimal {m e} : Mantissa Digit m → Exponent 'e' 'E' e → Unsigned (m ++ e)
  | hex {x m e} : x = 'x' ∨ x = 'X' → Mantissa HexDigit m → Exponent 'p' 'P' e → Unsigned ('0' :: x :: (m ++ e))
  | inf {t} : Spells c!"inf" t → Unsigned t
  | infinity {t} : Spells c!"infinity" t → Unsigned t
  | nan {t} : Spells c!"nan" t → Unsigned t
  | nanWith {t q} : Spells c!"nan" t → (∀ c ∈ q, Digit c ∨ c.isAlpha ∨ c = '_') → Unsigned (t ++ '(' :: (q ++ c!")"))

/-- The notation of a floating-point number, with an optional sign. -/
def Floating (t : Str) : Prop := ∃ sign u, t = sign ++ u ∧ (sign = [] ∨ sign = c!"+" ∨ sign = c!"-") ∧ Unsigned u

/-- The text starts with `p`, which is the notation of a number after optional white space. -/
def NumberPrefix (s p : Str) : Prop := p <+: s ∧ ∃ w f, p = w ++ f ∧ (∀ c ∈ w, White c) ∧ Floating f

/-- The longest such beginning of the text. -/
def LongestNumber (s p : Str) : Prop := NumberPrefix s p ∧ ∀ q, NumberPrefix s q → q.length ≤ p.length

/-- The text starts with the decimal integer `i`: an optional sign and all the digits that follow. -/
def LeadingInt (t : Str) (i : Int) : Prop := ∃ num rest, t = num ++ rest ∧ Numeral num i ∧ ∀ c, rest.head? = some c → ¬ Digit c

/-- The text of a word: not empty, of characters that can be part of a word, except the zero byte. -/
def Word (t : Str) : Prop := t ≠ [] ∧ ∀ c ∈ t, Plain c ∧ c ≠ Char.ofNat 0

/-- The word is the notation of the floating-point number `d` in a program: it is no decimal integer, and if it starts with one, then with one
of 32 bits. -/
structure FloatWord [World] (t : Str) (d : Dbl) : Prop where
  word : Word t
  floating : Floating t
  noInt : ∀ i, ¬ Numeral t i
  leading : ∀ i, LeadingInt t i → IsInt32 i
  value : World.dStod t = some d

end Fuel.Spec
