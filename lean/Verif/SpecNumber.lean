import Verif.SpecOps
import Verif.SpecText
/-!
# Values used as numbers
-/

namespace Fuel.Spec

variable [World]

/-- The text starts with white space and a decimal number that ends before `rest`. -/
def StartsWithNumber (s : Str) (i : Int) : Prop :=
  ∃ ws num rest, s = ws ++ num ++ rest ∧ (∀ c ∈ ws, White c) ∧ Numeral num i ∧ ∀ c, rest.head? = some c → ¬ Digit c

/-- The integer for which a value stands where a number is expected: an integer itself, 1 or 0 for a boolean, the number at the beginning of a text
(0 if there is none), the integral part of a floating-point number. -/
inductive CountsAs : Variant → Int → Prop
  | int {v i} : IsInt v i → CountsAs v i
  | bool {v b} : IsBool v b → CountsAs v (if b then 1 else 0)
  | text {v s i} : IsStr v s → StartsWithNumber s i → IsInt32 i → CountsAs v i
  | noNumber {v s} : IsStr v s → (∀ i, ¬ StartsWithNumber s i) → CountsAs v 0
  | float {v d i} : IsDbl v d → World.dToInt d = some i → IsInt32 i → CountsAs v i

end Fuel.Spec
