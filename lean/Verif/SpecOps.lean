import Verif.SpecValue
/-!
# Specifications for arithmetic, comparison and concatenation
-/

namespace Fuel.Spec

/-- Two lists have the same length and corresponding elements are related. -/
inductive Each {α β : Type} (R : α → β → Prop) : List α → List β → Prop
  | nil : Each R [] []
  | cons {a b l m} : R a b → Each R l m → Each R (a :: l) (b :: m)

/-- `q` and `r` are quotient and remainder of the division that rounds towards zero: the remainder is smaller than the
divisor and has the sign of the dividend. -/
def Truncated (x y q r : Int) : Prop :=
  x = q * y + r ∧ r.natAbs < y.natAbs ∧ (0 ≤ x → 0 ≤ r) ∧ (x ≤ 0 → r ≤ 0)

/-- `s` is the text of the value: the string itself, the name of a symbol, the digits of a number. -/
def Shows [World] (v : Variant) (s : Str) : Prop :=
  IsStr v s ∨ IsSym v s ∨ (∃ i, IsInt v i ∧ s = intStr i) ∨ ∃ d, IsDbl v d ∧ s = World.dToStr d

/-- Lexicographic order by character codes. -/
inductive LexLt : Str → Str → Prop
  | nil {b t} : LexLt [] (b :: t)
  | head {a b s t} : a.toNat < b.toNat → LexLt (a :: s) (b :: t)
  | tail {a s t} : LexLt s t → LexLt (a :: s) (a :: t)

/-- No zero byte. -/
def NoZero (s : Str) : Prop := Char.ofNat 0 ∉ s

/-- Two evaluated values are the same integer, string or boolean. -/
def SameAtom (p q : Ptr) : Prop :=
  (∃ i, Holds p (IsInt · i) ∧ Holds q (IsInt · i)) ∨ (∃ s, Holds p (IsStr · s) ∧ Holds q (IsStr · s)) ∨
  (∃ b, Holds p (IsBool · b) ∧ Holds q (IsBool · b))

/-- An evaluated integer, string or boolean. -/
def PlainAtom (p : Ptr) : Prop :=
  (∃ i, Holds p (IsInt · i)) ∨ (∃ s, Holds p (IsStr · s)) ∨ (∃ b, Holds p (IsBool · b))

end Fuel.Spec
