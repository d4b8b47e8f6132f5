import Verif.PropsArith
import Verif.PropsText
/-!
# C19: equality of values of different types; C12: search with a length beyond the needle
-/

set_option linter.unusedSectionVars false
set_option linter.unusedSimpArgs false

namespace Fuel

open Spec

/-- The text of a number, truth value or text, as `print` shows it. -/
inductive Spec.TextOf : Variant → Str → Prop
  | str {v s} : IsStr v s → TextOf v s
  | int {v x} : IsInt v x → TextOf v (intStr x)
  | yes {v} : IsBool v true → TextOf v c!"#t"
  | no {v} : IsBool v false → TextOf v c!"#f"

/-- The number that a number or truth value counts as. -/
inductive Spec.NumberOf : Variant → Int → Prop
  | int {v x} : IsInt v x → NumberOf v x
  | yes {v} : IsBool v true → NumberOf v 1
  | no {v} : IsBool v false → NumberOf v 0

section
variable [World]

theorem textOf_str {v : Variant} {s : Str} (h : TextOf v s) (st : St) (n : Nat) : varStr st (n + 2) v = .ok s := by
  cases h with
  | str h => exact varStr_str h
  | int h => exact varStr_int h
  | yes h => rw [varStr_bool h]; rfl
  | no h => rw [varStr_bool h]; rfl

theorem textOf_type {v : Variant} {s : Str} (h : TextOf v s) : v.type = .string ∨ v.type = .int ∨ v.type = .bool := by
  cases h with
  | str h => exact .inl h.1
  | int h => exact .inr (.inl h.1)
  | yes h => exact .inr (.inr h.1)
  | no h => exact .inr (.inr h.1)

/-- C19: a text is equal to a number, truth value or text exactly if it is the text that is shown for it. -/
theorem C19_text {k : Nat} (hk : 2 ≤ k) {p q : Ptr} {x y : Str} (sid : Nat) (st : St) (hp : Holds p (IsStr · x)) (hq : Holds q (TextOf · y)) :
    (Returns (callPrim (run k) .eq [p, q] sid) st fun v st' => IsBool v (decide (x = y)) ∧ Extends st st') ∧
    (Returns (callPrim (run k) .eq [q, p] sid) st fun v st' => IsBool v (decide (x = y)) ∧ Extends st st') := by
  obtain ⟨k, rfl⟩ : ∃ m, k = m + 2 := ⟨k - 2, by omega⟩
  obtain ⟨v, hp, hv⟩ := hp.val
  obtain ⟨w, hq, hw⟩ := hq.val
  have h1 := varStr_str (st := st) (n := k) hv
  have h2 := textOf_str hw st k
  have e1 : (x == y) = decide (x = y) := Bool.beq_eq_decide_eq x y
  have e2 : (y == x) = decide (x = y) := by rw [Bool.beq_eq_decide_eq]; simp [eq_comm]
  constructor
  · refine eq_two sid st hp hq ?_
    rcases textOf_type hw with h | h | h <;> simp [equalOp, hv.1, h, h1, h2, e1]
  · refine eq_two sid st hq hp ?_
    rcases textOf_type hw with h | h | h <;> simp [equalOp, hv.1, h, h1, h2, e2]

theorem numberOf_toInt {v : Variant} {x : Int} (h : NumberOf v x) (st : St) (n : Nat) : v.toInt st n = .ok x := by
  cases h with
  | int h => exact toInt_int h
  | yes h => simp [Variant.toInt, h.1, boolValue_bool h]
  | no h => simp [Variant.toInt, h.1, boolValue_bool h]

/-- C19: numbers and truth values: true counts as 1, false as 0. -/
theorem C19_number_bool {k : Nat} {p q : Ptr} {x y : Int} (sid : Nat) (st : St) (hp : Holds p (NumberOf · x)) (hq : Holds q (NumberOf · y)) :
    Returns (callPrim (run k) .eq [p, q] sid) st fun v st' => IsBool v (decide (x = y)) ∧ Extends st st' := by
  obtain ⟨v, hp, hv⟩ := hp.val
  obtain ⟨w, hq, hw⟩ := hq.val
  refine eq_two sid st hp hq ?_
  have h1 := numberOf_toInt hv st k
  have h2 := numberOf_toInt hw st k
  cases hv with
  | int hv => cases hw with
    | int hw | yes hw | no hw => simp [equalOp, hv.1, hw.1, h1, h2]
  | yes hv => cases hw with
    | int hw => simp [equalOp, hv.1, hw.1, h1, h2]
    | yes hw | no hw => simp [equalOp, hv.1, hw.1, boolValue_bool hv, boolValue_bool hw]
  | no hv => cases hw with
    | int hw => simp [equalOp, hv.1, hw.1, h1, h2]
    | yes hw | no hw => simp [equalOp, hv.1, hw.1, boolValue_bool hv, boolValue_bool hw]

/-- C19: a symbol is equal to nothing but a symbol, and nil to nothing but nil. -/
theorem C19_other_type {k : Nat} {p q : Ptr} {v w : Variant} (sid : Nat) (st : St) (hp : Holds p (· = v)) (hq : Holds q (· = w))
    (h : (v.type = .symbol ∨ w.type = .symbol ∨ v.type = .nil ∨ w.type = .nil) ∧ v.type ≠ w.type) :
    Returns (callPrim (run k) .eq [p, q] sid) st fun r st' => IsBool r false ∧ Extends st st' := by
  refine eq_two sid st hp hq ?_
  obtain ⟨h1, h2⟩ := h
  cases hv : v.type <;> cases hw : w.type <;> simp_all [equalOp]

/-- C19: so == is not transitive: `1` is equal to `#t` and `#t` to `"#t"`, but `1` is not equal to `"#t"`. -/
theorem C19_transitive_wrong {k : Nat} (hk : 2 ≤ k) {p q r : Ptr} (sid : Nat) (st : St) (hp : Holds p (IsInt · 1)) (hq : Holds q (IsBool · true)) (hr : Holds r (IsStr · c!"#t")) :
    (Returns (callPrim (run k) .eq [p, q] sid) st fun v _ => IsBool v true) ∧ (Returns (callPrim (run k) .eq [q, r] sid) st fun v _ => IsBool v true) ∧
    (Returns (callPrim (run k) .eq [p, r] sid) st fun v _ => IsBool v false) := by
  have imp : ∀ {m : M (Option Variant)} {b c : Bool}, b = c → (Returns m st fun v st' => IsBool v b ∧ Extends st st') → Returns m st fun v _ => IsBool v c := by
    rintro m b _ rfl ⟨v, st', h1, h2, -⟩; exact ⟨v, st', h1, h2⟩
  have hold : ∀ {p : Ptr} {P Q : Variant → Prop}, (∀ v, P v → Q v) → Holds p P → Holds p Q := by
    rintro p P Q h ⟨i, v, rfl, hv⟩; exact ⟨i, v, rfl, h v hv⟩
  refine ⟨imp (by decide) (C19_number_bool sid st (hold (fun _ => .int) hp) (hold (fun _ => .yes) hq)), imp (by decide) (C19_text hk sid st hr (hold (fun _ => .yes) hq)).2,
    imp (by decide) (C19_text hk sid st hr (hold (fun _ => .int) hp)).2⟩

example (st : St) : Returns (callPrim (run 2) .eq [intArg 0 12, strArg 2 c!"12"] 0) st fun v _ => IsBool v true := ⟨_, _, rfl, rfl, _, rfl⟩

example (st : St) : (Returns (callPrim (run 2) .eq [intArg 0 1, .mk 2 (.var ⟨.bool, .mk 3 (.bool true), .none, none⟩)] 0) st fun v _ => IsBool v true) ∧
    (Returns (callPrim (run 2) .eq [.mk 0 (.var ⟨.symbol, .mk 1 (.str c!"a"), .none, none⟩), strArg 2 c!"a"] 0) st fun v _ => IsBool v false) :=
  ⟨⟨_, _, rfl, rfl, _, rfl⟩, ⟨_, _, rfl, rfl, _, rfl⟩⟩

/-- C12: out-of-range arguments raise no exception if the given length is that of the needle plus at least 2: bytes behind the needle
are read.  If it is that plus 1, the zero byte behind the needle is part of what is searched. -/
theorem C12_search_len_wrong {k : Nat} (hk : 2 ≤ k) {p q r t : Ptr} {needle txt : Str} {pos : Int} {len : Nat} (sid : Nat) (st : St)
    (hp : Holds p (IsStr · needle)) (hq : Holds q (IsStr · txt)) (hr : Holds r (IsInt · pos)) (ht : Holds t (IsInt · (len : Int))) (h0 : 0 ≤ pos)
    (h32 : IsInt32 pos) (hlen : IsInt32 len) :
    (needle.length + 2 ≤ len → callPrim (run k) .search [p, q, r, t] sid st = .fail (.ub .index) st) ∧
    (len = needle.length + 1 → ∃ p' : Ptr, Holds p' (IsStr · (needle ++ [Char.ofNat 0])) ∧
      callPrim (run k) .search [p, q, r, t] sid st = callPrim (run k) .search [p', q, r] sid st) := by
  obtain ⟨k, rfl⟩ : ∃ m, k = m + 2 := ⟨k - 2, by omega⟩
  obtain ⟨i, v, rfl, hv⟩ := hp
  obtain ⟨j, w, rfl, hw⟩ := hq
  obtain ⟨l, u, rfl, hu⟩ := hr
  obtain ⟨m, y, rfl, hy⟩ := ht
  have e1 : sizeT pos ≠ 18446744073709551615 := by unfold sizeT IsInt32 at *; omega
  have e2 : sizeT (len : Int) = len := by unfold sizeT IsInt32 at *; omega
  have e3 : len ≠ 18446744073709551615 := by unfold IsInt32 at *; omega
  constructor
  · intro hn
    have e4 : ¬ len ≤ needle.length + 1 := by omega
    simp [callPrim, ret, bSearch, checkOptionalArgs, argMk, argV, arg, run_n, M.rd_apply, M.lift_apply, mkVariant, toVariant, varStr_str hv,
      varStr_str hw, optSize, hw.1, searchStr, toInt_int hu, toInt_int hy, e1, e2, e3, e4, indexOfLen, R.ub]
  · intro hn
    refine ⟨strArg 0 (needle ++ [Char.ofNat 0]), strArg_holds 0 _, ?_⟩
    obtain ⟨i', v', he, hv'⟩ := strArg_holds 0 (needle ++ [Char.ofNat 0])
    rw [he]
    have e4 : len ≤ needle.length + 1 := by omega
    have e5 : (needle ++ [Char.ofNat 0]).take len = needle ++ [Char.ofNat 0] := List.take_of_length_le (by simp; omega)
    simp [callPrim, ret, bSearch, checkOptionalArgs, argMk, argV, arg, run_n, M.rd_apply, M.lift_apply, mkVariant, toVariant, varStr_str hv, varStr_str hv',
      varStr_str hw, optSize, hw.1, searchStr, toInt_int hu, toInt_int hy, e1, e2, e3, e4, e5, indexOfLen]

example (st : St) : callPrim (run 2) .search [strArg 0 c!"b", strArg 2 c!"abcb", intArg 4 0, intArg 6 3] 0 st = .fail (.ub .index) st := rfl

end

end Fuel
