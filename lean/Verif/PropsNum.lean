import Verif.SpecNum
import Verif.PropsArith
/-!
# C65 Floating-point numbers
-/

set_option linter.unusedSectionVars false
set_option linter.unusedSimpArgs false

namespace Fuel
open Spec
variable [World]

theorem toDouble_num {v : Variant} {d : Dbl} (h : Number v d) (st : St) (n : Nat) : v.toDouble st n = .ok d := by
  cases h with
  | int h => simp [Variant.toDouble, h.1, intValue_int h]
  | dbl h => simp [Variant.toDouble, h.1, doubleValue_dbl h]

theorem number_type {v : Variant} {d : Dbl} (h : Number v d) : v.type = .int ∨ v.type = .double := by
  cases h with
  | int h => exact .inl h.1
  | dbl h => exact .inr h.1

theorem isDbl_type {v : Variant} {d : Dbl} (h : Number v d) (hd : v.type = .double) : IsDbl v d := by
  cases h with
  | int h => rw [h.1] at hd; cases hd
  | dbl h => exact h

/-- C65: if one argument is a floating-point number and the other one a number, the arithmetic functions apply the floating-point operation to the two
numbers, in this order, and the result is a floating-point number. -/
theorem C65_arith {k : Nat} {b : Builtin} {f : Dbl → Dbl → Dbl} {p q : Ptr} {x y : Dbl} (sid : Nat) (st : St) (hb : DblOp b f)
    (hp : Holds p (Number · x)) (hq : Holds q (Number · y)) (hd : Holds p (IsDbl · x) ∨ Holds q (IsDbl · y)) :
    Returns (callPrim (run k) b [p, q] sid) st fun v st' => IsDbl v (f x y) ∧ Extends st st' := by
  obtain ⟨i, v, rfl, hv⟩ := hp
  obtain ⟨j, w, rfl, hw⟩ := hq
  have hd : v.type = .double ∨ w.type = .double := by
    rcases hd with ⟨i, v, e, h⟩ | ⟨i, v, e, h⟩ <;> cases e
    · exact .inl h.1
    · exact .inr h.1
  have h1 : ¬ (v.type = .string ∨ w.type = .string) := by
    rcases number_type hv with h | h <;> rcases number_type hw with h' | h' <;> simp [h, h']
  refine returns_dbl (f x y) ?_ fun _ _ he hi => ⟨hi, he⟩
  cases hb <;>
  simp [callPrim, ret, bSub, mkVariant_var, arithFold_two, arith, h1, hd, M.rd_apply, toDouble_num hv, toDouble_num hw, ArithOp.dbl]

/-- C65: the same for the comparisons; two numbers are equal if their difference is less than the tolerance. -/
theorem C65_compare {k : Nat} {b : Builtin} {f : Dbl → Dbl → Bool} {p q : Ptr} {x y : Dbl} (sid : Nat) (st : St) (hb : DblCmp b f)
    (hp : Holds p (Number · x)) (hq : Holds q (Number · y)) (hd : Holds p (IsDbl · x) ∨ Holds q (IsDbl · y)) :
    Returns (callPrim (run k) b [p, q] sid) st fun v st' => IsBool v (f x y) ∧ Extends st st' := by
  obtain ⟨i, v, rfl, hv⟩ := hp
  obtain ⟨j, w, rfl, hw⟩ := hq
  have hd : v.type = .double ∨ w.type = .double := by
    rcases hd with ⟨i, v, e, h⟩ | ⟨i, v, e, h⟩ <;> cases e
    · exact .inl h.1
    · exact .inr h.1
  refine returns_bool (f x y) ?_ fun _ _ he hi => ⟨hi, he⟩
  have h2 : ∀ n, equalOp st n v w = .ok (World.dNear x y) := by
    intro n
    rcases number_type hv with h | h <;> rcases number_type hw with h' | h' <;>
      simp [equalOp, h, h', M.rd_apply, toDouble_num hv, toDouble_num hw] <;> simp [h, h'] at hd
  cases hb <;>
  simp [callPrim, ret, bCmp_two, M.rd_apply, CmpOp.run, vLt, vLe, hd, hd.symm, toDouble_num hv, toDouble_num hw, h2]

/-- C65: a mathematical function of a number is the function of the C library applied to the number. -/
theorem C65_math {k : Nat} {f : MathFn} {p : Ptr} {x : Dbl} (sid : Nat) (st : St) (hp : Holds p (Number · x)) :
    Returns (callPrim (run k) (.math f) [p] sid) st fun v st' => IsDbl v (World.math f x) ∧ Extends st st' := by
  obtain ⟨i, v, rfl, hv⟩ := hp
  refine returns_dbl _ ?_ fun _ _ he hi => ⟨hi, he⟩
  simp [callPrim, ret, bMath, checkArgs, argV, arg, toVariant_var, M.rd_apply, toDouble_num hv]

/-- C65: `(Math-Pow x y)` is `x` to the power of `y`, and `(Math-Pi)` is the constant. -/
theorem C65_pow {k : Nat} {p q : Ptr} {x y : Dbl} (sid : Nat) (st : St) (hp : Holds p (Number · x)) (hq : Holds q (Number · y)) :
    (Returns (callPrim (run k) .mathPow [p, q] sid) st fun v st' => IsDbl v (World.dPow x y) ∧ Extends st st') ∧
    (Returns (callPrim (run k) .mathPi [] sid) st fun v st' => IsDbl v World.pi ∧ Extends st st') := by
  obtain ⟨i, v, rfl, hv⟩ := hp
  obtain ⟨j, w, rfl, hw⟩ := hq
  constructor <;> refine returns_dbl _ ?_ fun _ _ he hi => ⟨hi, he⟩ <;>
  simp [callPrim, ret, bMathPow, bMathPi, checkArgs, argV, arg, toVariant_var, M.rd_apply, toDouble_num hv, toDouble_num hw]

/-- The sum of 2 and the floating-point number 1, in an arbitrary state. -/
example (st : St) : Returns (callPrim (run 0) .add [.mk 0 (.var ⟨.int, .mk 1 (.int 2), .none, none⟩),
    .mk 2 (.var ⟨.double, .mk 3 (.dbl (World.dOfInt 1)), .none, none⟩)] 0) st
    fun v st' => IsDbl v (World.dAdd (World.dOfInt 2) (World.dOfInt 1)) ∧ Extends st st' :=
  C65_arith 0 st .add ⟨_, _, rfl, .int ⟨rfl, _, rfl⟩⟩ ⟨_, _, rfl, .dbl ⟨rfl, _, rfl⟩⟩ (.inr ⟨_, _, rfl, rfl, _, rfl⟩)

end Fuel
