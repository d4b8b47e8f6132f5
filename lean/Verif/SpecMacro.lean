import Verif.SpecCore
/-!
# Simultaneous replacement

What it means to replace the parameters of a macro by its arguments, all at once.
-/

namespace Fuel.Spec.Core

mutual
/-- Every symbol that has a replacement is replaced by it. -/
def replace (σ : Str → Option Sexp) : Sexp → Sexp
  | .sym n => (σ n).getD (.sym n)
  | .pre k x => .pre k (replace σ x)
  | .list l => .list (replaces σ l)
  | x => x
/-- The same for all elements. -/
def replaces (σ : Str → Option Sexp) : List Sexp → List Sexp
  | [] => []
  | x :: l => replace σ x :: replaces σ l
end

/-- The parameters are replaced by the arguments in the same position. -/
def pairing : List Str → List Sexp → Str → Option Sexp
  | p :: ps, a :: as, n => if n = p then some a else pairing ps as n
  | _, _, _ => none

/-- The parameters are distinct and no argument uses a parameter behind its own one. -/
def Apart : List Str → List Sexp → Prop
  | p :: ps, a :: as => p ∉ ps ∧ (∀ q ∈ ps, ¬ Uses q a) ∧ Apart ps as
  | _, _ => True

end Fuel.Spec.Core
