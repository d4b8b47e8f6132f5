import Verif.PropsArith
import Verif.SpecBits
/-!
# Properties of the bit functions (C58)
-/

set_option linter.unusedSectionVars false
set_option linter.unusedSimpArgs false

namespace Fuel

open Spec

variable [World]

/-! ## Bits of integers and bit vectors -/

theorem bit_mod (x : Int) (m p c : Nat) (hp : 0 < p) (h : m = p * (2 * c)) (hm : 0 < m) :
    (x % (m : Int)).toNat / p % 2 = 1 ↔ x / (p : Int) % 2 = 1 := by
  have h0 : 0 ≤ x % (m : Int) := Int.emod_nonneg _ (by omega)
  have h1 : x / (p : Int) = (x % (m : Int)) / p + 2 * (c * (x / (m : Int))) := by
    have e : (m : Int) * (x / (m : Int)) = p * (2 * (c * (x / (m : Int)))) := by
      generalize x / (m : Int) = y
      rw [h, Int.natCast_mul, Int.natCast_mul]
      simp only [Int.mul_assoc]
      rfl
    conv => lhs; rw [← Int.emod_add_mul_ediv x (m : Int), e]
    rw [Int.add_mul_ediv_left _ _ (by omega)]
  have h2 : (((x % (m : Int)).toNat / p : Nat) : Int) = (x % (m : Int)) / p := by
    rw [Int.natCast_ediv, Int.toNat_of_nonneg h0]
  rw [h1]
  generalize (x % (m : Int)) / p = a at *
  generalize (x % (m : Int)).toNat / p = b at *
  omega

theorem bit_ofInt (x : Int) {i : Nat} (hi : i < 32) : (BitVec.ofInt 32 x).getLsbD i = true ↔ Bit x i := by
  rw [BitVec.getLsbD, BitVec.toNat_ofInt, Nat.testBit_eq_decide_div_mod_eq, decide_eq_true_iff, Bit]
  obtain ⟨d, hd⟩ : ∃ d, 32 = i + (d + 1) := ⟨31 - i, by omega⟩
  have hp : (2 : Nat) ^ 32 = 2 ^ i * (2 * 2 ^ d) := by
    rw [hd, Nat.pow_add, Nat.pow_succ, Nat.mul_comm (2 ^ d) 2]
  have := bit_mod x (2 ^ 32) (2 ^ i) (2 ^ d) (Nat.pow_pos (by decide)) hp (Nat.pow_pos (by decide))
  rw [this, Int.natCast_pow]
  rfl

theorem bit_toInt (b : BitVec 32) {i : Nat} (hi : i < 32) : Bit b.toInt i ↔ b.getLsbD i = true := by
  rw [← bit_ofInt _ hi, BitVec.ofInt_toInt]

theorem toInt_32 (b : BitVec 32) : IsInt32 b.toInt := by
  have h1 := BitVec.toInt_lt (x := b)
  have h2 := BitVec.le_toInt (x := b)
  constructor <;> omega

/-- C58: a 32-bit integer is determined by its 32 bits. -/
theorem C58_bits {x y : Int} (hx : IsInt32 x) (hy : IsInt32 y) (h : ∀ i, i < 32 → (Bit x i ↔ Bit y i)) : x = y := by
  have e : BitVec.ofInt 32 x = BitVec.ofInt 32 y := by
    apply BitVec.eq_of_getLsbD_eq
    intro i hi
    have := h i hi
    rw [← bit_ofInt x hi, ← bit_ofInt y hi] at this
    exact Bool.eq_iff_iff.2 this
  have ex := BitVec.toInt_ofInt_eq_self (w := 32) (by decide) (n := x) (by have := hx.1; omega) (by have := hx.2; omega)
  have ey := BitVec.toInt_ofInt_eq_self (w := 32) (by decide) (n := y) (by have := hy.1; omega) (by have := hy.2; omega)
  rw [← ex, ← ey, e]

section C58
variable {k : Nat} {p q : Ptr} {x y : Int} (sid : Nat) (st : St) (hp : Holds p (IsInt · x)) (hq : Holds q (IsInt · y))
include hp hq

theorem bBit_ints (op : BitOp) (hb : ∀ l, callPrim (run k) b l sid = ret (bBit op k l sid)) :
    callPrim (run k) b [p, q] sid st = (do let c ← M.lift (op.int x y); let v ← mkInt c; pure (some v) : M _) st := by
  obtain ⟨i, v, rfl, hv⟩ := hp
  obtain ⟨j, w, rfl, hw⟩ := hq
  simp [hb, ret, bBit, checkArgs, argV, arg, M.rd_apply, toVariant_var, intValue_int hv, intValue_int hw]
  cases M.lift (op.int x y) st <;> rfl

/-- C58: `(& x y)`: a bit of the result is set if it is set in both numbers. -/
theorem C58_and : Returns (callPrim (run k) .band [p, q] sid) st fun v st' =>
    ∃ r, IsInt v r ∧ IsInt32 r ∧ (∀ i, i < 32 → (Bit r i ↔ Bit x i ∧ Bit y i)) ∧ Extends st st' := by
  refine returns_int (BitVec.ofInt 32 x &&& BitVec.ofInt 32 y).toInt ?_ fun _ _ he hi => ⟨_, hi, toInt_32 _, ?_, he⟩
  · rw [bBit_ints sid st hp hq .band fun _ => by simp [callPrim, run_n]]; simp [BitOp.int, ret]
  · intro i hi; rw [bit_toInt _ hi, BitVec.getLsbD_and, Bool.and_eq_true, bit_ofInt _ hi, bit_ofInt _ hi]

/-- C58: `(| x y)`: a bit of the result is set if it is set in one of the numbers. -/
theorem C58_or : Returns (callPrim (run k) .bor [p, q] sid) st fun v st' =>
    ∃ r, IsInt v r ∧ IsInt32 r ∧ (∀ i, i < 32 → (Bit r i ↔ Bit x i ∨ Bit y i)) ∧ Extends st st' := by
  refine returns_int (BitVec.ofInt 32 x ||| BitVec.ofInt 32 y).toInt ?_ fun _ _ he hi => ⟨_, hi, toInt_32 _, ?_, he⟩
  · rw [bBit_ints sid st hp hq .bor fun _ => by simp [callPrim, run_n]]; simp [BitOp.int, ret]
  · intro i hi; rw [bit_toInt _ hi, BitVec.getLsbD_or, Bool.or_eq_true, bit_ofInt _ hi, bit_ofInt _ hi]

/-- C58: `(^ x y)`: a bit of the result is set if it is set in exactly one of the numbers. -/
theorem C58_xor : Returns (callPrim (run k) .bxor [p, q] sid) st fun v st' =>
    ∃ r, IsInt v r ∧ IsInt32 r ∧ (∀ i, i < 32 → (Bit r i ↔ ¬ (Bit x i ↔ Bit y i))) ∧ Extends st st' := by
  refine returns_int (BitVec.ofInt 32 x ^^^ BitVec.ofInt 32 y).toInt ?_ fun _ _ he hi => ⟨_, hi, toInt_32 _, ?_, he⟩
  · rw [bBit_ints sid st hp hq .bxor fun _ => by simp [callPrim, run_n]]; simp [BitOp.int, ret]
  · intro i hi
    rw [bit_toInt _ hi, BitVec.getLsbD_xor, ← bit_ofInt _ hi, ← bit_ofInt _ hi]
    generalize (BitVec.ofInt 32 x).getLsbD i = a
    generalize (BitVec.ofInt 32 y).getLsbD i = b
    cases a <;> cases b <;> decide

/-- C58: `(>> x y)` for `0 ≤ y < 32` is the quotient of `x` by `2 ^ y`, rounded down; for other `y` the program has undefined
behaviour. -/
theorem C58_shr :
    (0 ≤ y → y < 32 → Returns (callPrim (run k) .shr [p, q] sid) st fun v st' =>
      ∃ r s, IsInt v r ∧ x = r * 2 ^ y.toNat + s ∧ 0 ≤ s ∧ s < 2 ^ y.toNat ∧ Extends st st') ∧
    ((y < 0 ∨ 32 ≤ y) → callPrim (run k) .shr [p, q] sid st = .fail (.ub .shift) st) := by
  constructor
  · intro h1 h2
    have hpos : (0 : Int) < 2 ^ y.toNat := Int.pow_pos (by decide)
    refine returns_int (x / 2 ^ y.toNat) ?_ fun _ _ he hi => ⟨_, x % 2 ^ y.toNat, hi, ?_, ?_, ?_, he⟩
    · rw [bBit_ints sid st hp hq .shr fun _ => by simp [callPrim, run_n]]
      have : ¬ (y < 0 ∨ 32 ≤ y) := by omega
      simp [BitOp.int, ret, this]
    · have := Int.ediv_mul_add_emod x (2 ^ y.toNat)
      exact this.symm
    · exact Int.emod_nonneg _ (by omega)
    · exact Int.emod_lt_of_pos _ hpos
  · intro h
    rw [bBit_ints sid st hp hq .shr fun _ => by simp [callPrim, run_n]]
    simp [BitOp.int, h, R.ub]

/-- C58: `(<< x y)` for `0 ≤ x` and `0 ≤ y < 32` is `x * 2 ^ y` if this has 31 bits, and the negative number with the same bits if it has 32 bits; otherwise
the program has undefined behaviour. -/
theorem C58_shl :
    (0 ≤ y → y < 32 → 0 ≤ x → x * 2 ^ y.toNat < 2 ^ 31 → Returns (callPrim (run k) .shl [p, q] sid) st fun v st' =>
      IsInt v (x * 2 ^ y.toNat) ∧ Extends st st') ∧
    (0 ≤ y → y < 32 → 0 ≤ x → 2 ^ 31 ≤ x * 2 ^ y.toNat → x * 2 ^ y.toNat < 2 ^ 32 →
      Returns (callPrim (run k) .shl [p, q] sid) st fun v st' => IsInt v (x * 2 ^ y.toNat - 2 ^ 32) ∧ Extends st st') ∧
    ((y < 0 ∨ 32 ≤ y ∨ x < 0 ∨ 2 ^ 32 ≤ x * 2 ^ y.toNat) → callPrim (run k) .shl [p, q] sid st = .fail (.ub .shift) st) := by
  have hpos : (0 : Int) < 2 ^ y.toNat := Int.pow_pos (by decide)
  refine ⟨fun h1 h2 h3 h4 => ?_, fun h1 h2 h3 h4 h5 => ?_, fun h => ?_⟩
  · have h0 : 0 ≤ x * 2 ^ y.toNat := Int.mul_nonneg h3 (by omega)
    refine returns_int _ ?_ fun _ _ he hi => ⟨hi, he⟩
    rw [bBit_ints sid st hp hq .shl fun _ => by simp [callPrim, run_n]]
    simp only [BitOp.int]
    generalize x * 2 ^ y.toNat = z at *
    have : ¬ (y < 0 ∨ 32 ≤ y ∨ x < 0 ∨ 4294967296 ≤ z) := by omega
    have hz : wrap32 z = z := wrap32_id (by constructor <;> omega)
    simp [ret, this, hz]
  · refine returns_int _ ?_ fun _ _ he hi => ⟨hi, he⟩
    rw [bBit_ints sid st hp hq .shl fun _ => by simp [callPrim, run_n]]
    simp only [BitOp.int]
    generalize x * 2 ^ y.toNat = z at *
    have : ¬ (y < 0 ∨ 32 ≤ y ∨ x < 0 ∨ 4294967296 ≤ z) := by omega
    have hz : wrap32 z = z - 2 ^ 32 := by unfold wrap32 Int.bmod; simp only []; split <;> omega
    simp [ret, this, hz]
  · rw [bBit_ints sid st hp hq .shl fun _ => by simp [callPrim, run_n]]
    simp only [BitOp.int]
    generalize x * 2 ^ y.toNat = z at *
    have : (y < 0 ∨ 32 ≤ y ∨ x < 0 ∨ 4294967296 ≤ z) := by omega
    simp [this, R.ub]
end C58

/-- C58: `(~ x)` has exactly the bits that are not set in `x`. -/
theorem C58_not {k : Nat} {p : Ptr} {x : Int} (hx : IsInt32 x) (sid : Nat) (st : St) (hp : Holds p (IsInt · x)) :
    Returns (callPrim (run k) .bnot [p] sid) st fun v st' =>
      ∃ r, IsInt v r ∧ IsInt32 r ∧ (∀ i, Bit r i ↔ ¬ Bit x i) ∧ Extends st st' := by
  obtain ⟨i, v, rfl, hv⟩ := hp
  refine returns_int (-x - 1) ?_ fun _ _ he hi => ⟨_, hi, ?_, ?_, he⟩
  · simp [callPrim, ret, bBitNot, checkArgs, argV, arg, M.rd_apply, toVariant_var, intValue_int hv]
  · have := hx.1; have := hx.2; constructor <;> omega
  · intro i
    have hpos : (0 : Int) < 2 ^ i := Int.pow_pos (by decide)
    have : (-x - 1) / 2 ^ i = - (x / 2 ^ i) - 1 := by
      have h1 := Int.ediv_mul_add_emod x (2 ^ i)
      have h2 := Int.emod_nonneg x (show (2 : Int) ^ i ≠ 0 by omega)
      have h3 := Int.emod_lt_of_pos x hpos
      generalize x % 2 ^ i = m at *
      generalize x / 2 ^ i = d at *
      have : -x - 1 = (2 ^ i - 1 - m) + (2 ^ i) * (-d - 1) := by
        rw [← h1, Int.mul_sub, Int.mul_neg, Int.mul_comm d]; omega
      rw [this, Int.add_mul_ediv_left _ _ (by omega), Int.ediv_eq_zero_of_lt (by omega) (by omega)]
      omega
    unfold Bit
    rw [this]
    omega

example : Bit (-2) 31 ∧ ¬ Bit (-2) 0 ∧ Bit 5 2 := by simp [Bit]
example [World] (st : St) : Returns (callPrim (run 1) .band [intArg 0 12, intArg 2 (-6)] 0) st fun v _ =>
    ∃ r, IsInt v r ∧ (Bit r 3 ∧ ¬ Bit r 2) := by
  obtain ⟨v, st', h, r, h1, _, h3, _⟩ := C58_and 0 st (intArg_holds 0 12) (intArg_holds 2 (-6))
  exact ⟨v, st', h, r, h1, (h3 3 (by decide)).2 (by simp [Bit]), fun e => absurd ((h3 2 (by decide)).1 e) (by simp [Bit])⟩

end Fuel
