import Verif.PropsMixed
import Verif.PropsNumber
/-!
# C25: dictionary functions applied to other values; C18: texts compared with numbers
-/

set_option linter.unusedSectionVars false
set_option linter.unusedSimpArgs false

namespace Fuel

open Spec

section
variable [World]

theorem dictOf_text {v : Variant} {s : Str} (h : TextOf v s) : dictOf v = .error (.ub .badUnion) := by
  cases h with
  | str h => obtain ⟨_, i, h⟩ := h; simp [dictOf, h, R.ub]
  | int h => obtain ⟨_, i, h⟩ := h; simp [dictOf, h, R.ub]
  | yes h => obtain ⟨_, i, h⟩ := h; simp [dictOf, h, R.ub]
  | no h => obtain ⟨_, i, h⟩ := h; simp [dictOf, h, R.ub]

/-- C25: the dictionary functions do not check their first argument: with a number, truth value or text instead of a dictionary the
behaviour is undefined, no exception is raised. -/
theorem C25_no_dictionary_wrong (k : Nat) {p q r : Ptr} {s : Str} (sid : Nat) (st : St) (hp : Holds p (TextOf · s)) :
    callPrim (run k) .dictSet [p, q, r] sid st = .fail (.ub .badUnion) st ∧
    (∀ b ∈ [Builtin.dictGet, .dictRemove, .dictContainsKey, .dictContainsValue], callPrim (run k) b [p, q] sid st = .fail (.ub .badUnion) st) ∧
    ∀ b ∈ [Builtin.dictKeys, .dictClear], callPrim (run k) b [p] sid st = .fail (.ub .badUnion) st := by
  obtain ⟨i, v, rfl, hv⟩ := hp
  have h := dictOf_text hv
  refine ⟨?_, ?_, ?_⟩
  · simp [callPrim, ret, bDictSet, checkArgs, argDict, argV, arg, toVariant, M.lift_apply, h]
  · intro b hb
    simp only [List.mem_cons, List.not_mem_nil, or_false] at hb
    rcases hb with rfl | rfl | rfl | rfl <;>
      simp [callPrim, ret, bDictGet, bDictRemove, bDictContainsKey, bDictContainsValue, checkArgs, argDict, argV, arg, toVariant, M.lift_apply, h]
  · intro b hb
    simp only [List.mem_cons, List.not_mem_nil, or_false] at hb
    rcases hb with rfl | rfl <;>
      simp [callPrim, ret, bDictKeys, bDictClear, checkArgs, argDict, argV, arg, toVariant, M.lift_apply, h]

theorem intStr_zero : intStr 0 = c!"0" := by decide

/-- C18: <= and >= do not agree with == for a text and a number: a text without a number is both <= 0 and >= 0, but it is not equal to 0. -/
theorem C18_equal_wrong {k : Nat} (hk : 2 ≤ k) {p q : Ptr} {s : Str} (sid : Nat) (st : St) (hp : Holds p (IsStr · s)) (hs : ∀ i, ¬ StartsWithNumber s i) (hq : Holds q (IsInt · 0)) :
    (Returns (callPrim (run k) .le [p, q] sid) st fun v _ => IsBool v true) ∧ (Returns (callPrim (run k) .ge [p, q] sid) st fun v _ => IsBool v true) ∧
    (Returns (callPrim (run k) .eq [p, q] sid) st fun v _ => IsBool v false) := by
  have imp : ∀ {m : M (Option Variant)} {b c : Bool}, b = c → (Returns m st fun v st' => IsBool v b ∧ Extends st st') → Returns m st fun v _ => IsBool v c := by
    rintro m b _ rfl ⟨v, st', h1, h2, -⟩; exact ⟨v, st', h1, h2⟩
  have hc : Holds p (fun v => CountsAs v 0 ∧ (∀ d, ¬ IsDbl v d) ∧ ((CmpOp.le = .eq ∨ CmpOp.le = .ne) → ∀ s, ¬ IsStr v s)) := by
    obtain ⟨i, v, rfl, hv⟩ := hp
    exact ⟨i, v, rfl, .noNumber hv hs, fun d hd => (by have := hv.1.symm.trans hd.1; cases this), fun h => (by cases h <;> contradiction)⟩
  have hc' : Holds p (fun v => CountsAs v 0 ∧ (∀ d, ¬ IsDbl v d) ∧ ((CmpOp.ge = .eq ∨ CmpOp.ge = .ne) → ∀ s, ¬ IsStr v s)) := by
    obtain ⟨i, v, rfl, hv⟩ := hp
    exact ⟨i, v, rfl, .noNumber hv hs, fun d hd => (by have := hv.1.symm.trans hd.1; cases this), fun h => (by cases h <;> contradiction)⟩
  obtain ⟨-, -, h3, h4⟩ := C18_int (k := k) sid st hq hq
  refine ⟨?_, ?_, ?_⟩
  · rw [Returns, (C80_compare (by omega) .le (b := .le) (by simp) sid st hq hc hq).2]
    exact imp (by simp) h3
  · rw [Returns, (C80_compare (by omega) .ge (b := .ge) (by simp) sid st hq hc' hq).2]
    exact imp (by simp) h4
  · have hq' : Holds q (TextOf · c!"0") := by
      obtain ⟨i, v, rfl, hv⟩ := hq
      exact ⟨i, v, rfl, intStr_zero ▸ .int hv⟩
    refine imp (decide_eq_false ?_) (C19_text hk sid st hp hq').1
    rintro rfl
    exact hs 0 ⟨[], c!"0", [], rfl, by simp, ⟨c!"0", by decide, by simp [Digit], .inl ⟨rfl, rfl⟩⟩, by simp⟩

example (st : St) : callPrim (run 2) .dictSet [intArg 0 5, intArg 2 1, intArg 4 2] 0 st = .fail (.ub .badUnion) st :=
  (C25_no_dictionary_wrong 2 0 st (p := intArg 0 5) ⟨_, _, rfl, .int (isInt_mk _ _ _ _)⟩).1

example (st : St) : (Returns (callPrim (run 2) .le [strArg 0 c!"x", intArg 2 0] 0) st fun v _ => IsBool v true) ∧
    (Returns (callPrim (run 2) .ge [strArg 0 c!"x", intArg 2 0] 0) st fun v _ => IsBool v true) ∧
    (Returns (callPrim (run 2) .eq [strArg 0 c!"x", intArg 2 0] 0) st fun v _ => IsBool v false) := ⟨⟨_, _, rfl, rfl, _, rfl⟩, ⟨_, _, rfl, rfl, _, rfl⟩, ⟨_, _, rfl, rfl, _, rfl⟩⟩

end

end Fuel
