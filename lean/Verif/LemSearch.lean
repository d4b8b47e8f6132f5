import Verif.SpecEval
import Verif.LemText
/-!
# Searching in lists
-/

namespace Fuel

open Spec

variable [World]

theorem searchList_ok {st : St} {n : Nat} {needle : Str} {ps : List Ptr} {ts : List Str} (h : All2 (fun p t => ptrStr st n p = .ok t) ps ts) (i : Nat) :
    (∃ j, searchList st n needle ps i = .ok (some (i + j)) ∧ ts[j]? = some needle ∧ ∀ k, k < j → ts[k]? ≠ some needle) ∨
      (searchList st n needle ps i = .ok none ∧ needle ∉ ts) := by
  induction h generalizing i with
  | nil => exact Or.inr ⟨rfl, by simp⟩
  | @cons p s ps ss ht _ ih =>
    by_cases hs : s = needle
    · exact Or.inl ⟨0, by simp [searchList, ht, hs, bind, Except.bind], by simp [hs], fun k hk => absurd hk (by omega)⟩
    · have hstep : searchList st n needle (p :: ps) i = searchList st n needle ps (i + 1) := by
        simp [searchList, ht, hs, bind, Except.bind]
      rcases ih (i + 1) with ⟨x, h1, h2, h3⟩ | ⟨h1, h2⟩
      · refine Or.inl ⟨x + 1, by rw [hstep, h1]; congr 2; omega, by simpa using h2, fun k hk => ?_⟩
        cases k with
        | zero => simpa using hs
        | succ k => simpa using h3 k (by omega)
      · exact Or.inr ⟨hstep.trans h1, by simp only [List.mem_cons, not_or]; exact ⟨fun e => hs e.symm, h2⟩⟩

theorem listValue_ok {st : St} {w : Variant} {ps : List Ptr} (hw : IsListOrNil st w ps) (n : Nat) :
    w.type ≠ .string ∧ w.isList = true ∧ w.listValue st n = .ok ps := by
  rcases hw with ⟨a, hw, hls⟩ | ⟨hw, rfl⟩
  · exact ⟨by rw [hw.1]; decide, by simp [Variant.isList, hw.1], by simp [Variant.listValue, hw.1, hw.2, hls, toEnumerable]⟩
  · exact ⟨by rw [show w.type = .nil from hw]; decide, by simp [Variant.isList, show w.type = .nil from hw], by simp [Variant.listValue, show w.type = .nil from hw]⟩

end Fuel
