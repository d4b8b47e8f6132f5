import Verif.SpecOps
/-!
# Specification for the bit functions
-/

namespace Fuel.Spec

/-- Bit number `i` of an integer in two's complement (number 0 is the lowest); `/` rounds down. -/
def Bit (x : Int) (i : Nat) : Prop := x / 2 ^ i % 2 = 1

end Fuel.Spec
