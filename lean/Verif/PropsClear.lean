import Verif.PropsDbg
import Verif.PropsText
/-!
# C50: the command `clear` without a number
-/

set_option linter.unusedSectionVars false
set_option linter.unusedSimpArgs false

namespace Fuel

namespace Spec

/-- The answers that are taken as yes. -/
def Yes (l : Str) : Prop :=
  l ∈ [c!"y", c!"Y", c!"yes", c!"yeS", c!"yEs", c!"yES", c!"Yes", c!"YeS", c!"YEs", c!"YES"]

/-- The answers that are taken as no. -/
def No (l : Str) : Prop :=
  l ∈ [c!"n", c!"N", c!"no", c!"nO", c!"No", c!"NO"]

end Spec

open Spec

theorem toNat_valid {n : Nat} (h : n.isValidChar) : (Char.ofNat n).toNat = n := by
  simp [Char.ofNat, h, Char.ofNatAux, Char.toNat]

theorem upper_letter {c u : Char} (h1 : 65 ≤ u.toNat) (h2 : u.toNat ≤ 90) : toUpperC c = u ↔ c = u ∨ c = Char.ofNat (u.toNat + 32) := by
  unfold toUpperC
  split
  · rename_i h
    simp only [Bool.and_eq_true, decide_eq_true_eq] at h
    constructor
    · intro e
      right
      subst e
      have hv : (c.toNat - 32).isValidChar := by left; omega
      have : (Char.ofNat (c.toNat - 32)).toNat = c.toNat - 32 := toNat_valid hv
      rw [this, show c.toNat - 32 + 32 = c.toNat by omega, Char.ofNat_toNat]
    · rintro (e | e)
      · subst e; omega
      · have hv : (u.toNat + 32).isValidChar := by left; omega
        have : c.toNat = u.toNat + 32 := by rw [e]; exact toNat_valid hv
        rw [this, show u.toNat + 32 - 32 = u.toNat by omega, Char.ofNat_toNat]
  · rename_i h
    simp only [Bool.and_eq_true, decide_eq_true_eq] at h
    constructor
    · exact .inl
    · rintro (e | e)
      · exact e
      · have hv : (u.toNat + 32).isValidChar := by left; omega
        have : c.toNat = u.toNat + 32 := by rw [e]; exact toNat_valid hv
        omega

theorem upper_Y {c : Char} : toUpperC c = 'Y' ↔ c = 'Y' ∨ c = 'y' := upper_letter (by decide) (by decide)
theorem upper_E {c : Char} : toUpperC c = 'E' ↔ c = 'E' ∨ c = 'e' := upper_letter (by decide) (by decide)
theorem upper_S {c : Char} : toUpperC c = 'S' ↔ c = 'S' ∨ c = 's' := upper_letter (by decide) (by decide)
theorem upper_N {c : Char} : toUpperC c = 'N' ↔ c = 'N' ∨ c = 'n' := upper_letter (by decide) (by decide)
theorem upper_O {c : Char} : toUpperC c = 'O' ↔ c = 'O' ∨ c = 'o' := upper_letter (by decide) (by decide)

theorem yes_iff {l : Str} : Yes l ↔ (toUpper l == c!"Y" || toUpper l == c!"YES") = true := by
  simp only [Bool.or_eq_true, beq_iff_eq]
  constructor
  · intro h
    simp only [Yes, List.mem_cons, List.not_mem_nil, or_false] at h
    rcases h with rfl | rfl | rfl | rfl | rfl | rfl | rfl | rfl | rfl | rfl <;> decide
  · intro h
    match l, h with
    | [], h => simp [toUpper] at h
    | [a], h =>
      simp [toUpper, upper_Y] at h
      rcases h with rfl | rfl <;> simp [Yes]
    | [a, b], h => simp [toUpper] at h
    | [a, b, c], h =>
      simp [toUpper, upper_Y, upper_E, upper_S] at h
      obtain ⟨rfl | rfl, rfl | rfl, rfl | rfl⟩ := h <;> simp [Yes]
    | a :: b :: c :: d :: t, h => simp [toUpper] at h

theorem no_iff {l : Str} : No l ↔ (toUpper l == c!"N" || toUpper l == c!"NO") = true := by
  simp only [Bool.or_eq_true, beq_iff_eq]
  constructor
  · intro h
    simp only [No, List.mem_cons, List.not_mem_nil, or_false] at h
    rcases h with rfl | rfl | rfl | rfl | rfl | rfl <;> decide
  · intro h
    match l, h with
    | [], h => simp [toUpper] at h
    | [a], h =>
      simp [toUpper, upper_N] at h
      rcases h with rfl | rfl <;> simp [No]
    | [a, b], h =>
      simp [toUpper, upper_N, upper_O] at h
      obtain ⟨rfl | rfl, rfl | rfl⟩ := h <;> simp [No]
    | a :: b :: c :: t, h => simp [toUpper] at h

theorem yes_not_no {l : Str} (h : Yes l) : ¬ No l := by
  simp only [Yes, List.mem_cons, List.not_mem_nil, or_false] at h
  rcases h with rfl | rfl | rfl | rfl | rfl | rfl | rfl | rfl | rfl | rfl <;> simp [No]

section
variable [World]

theorem ask_succ (n : Nat) (st : St) : askClear (n + 1) st =
    match st.input with
    | [] => askClear n st
    | l :: ls => if (toUpper l == c!"Y" || toUpper l == c!"YES") = true then .ok true { st with input := ls }
      else if (toUpper l == c!"N" || toUpper l == c!"NO") = true then .ok false { st with input := ls } else askClear n { st with input := ls } := by
  simp only [askClear, M.bind_apply, readLine, M.get_apply]
  cases st.input with
  | nil => simp [toUpper]
  | cons l ls => simp only [M.bind_apply, M.modify_apply, M.pure_apply]; repeat' (first | rfl | split)

theorem ask_answer {pre rest : List Str} {a : Str} (hp : ∀ l ∈ pre, ¬ Yes l ∧ ¬ No l) (n : Nat) (hn : pre.length < n) (st : St) (hi : st.input = pre ++ a :: rest) :
    (Yes a → askClear n st = .ok true { st with input := rest }) ∧ (No a → askClear n st = .ok false { st with input := rest }) := by
  induction pre generalizing n st with
  | nil =>
    obtain ⟨n, rfl⟩ : ∃ m, n = m + 1 := ⟨n - 1, by simp at hn; omega⟩
    rw [ask_succ, hi]
    simp only [List.nil_append]
    exact ⟨fun h => by rw [if_pos (yes_iff.1 h)], fun h => by rw [if_neg fun g => yes_not_no (yes_iff.2 g) h, if_pos (no_iff.1 h)]⟩
  | cons l pre ih =>
    simp only [List.length_cons] at hn
    obtain ⟨n, rfl⟩ : ∃ m, n = m + 1 := ⟨n - 1, by omega⟩
    have hl := hp l (by simp)
    rw [ask_succ, hi]
    simp only [List.cons_append]
    rw [if_neg fun g => hl.1 (yes_iff.2 g), if_neg fun g => hl.2 (no_iff.2 g)]
    exact ih (fun x hx => hp x (by simp [hx])) n (by omega) { st with input := pre ++ a :: rest } rfl

theorem ask_forever (n : Nat) (st : St) (hi : ∀ l ∈ st.input, ¬ Yes l ∧ ¬ No l) : ∃ s, askClear n st = .fail .fuel s := by
  induction n generalizing st with
  | zero => exact ⟨st, rfl⟩
  | succ n ih =>
    rw [ask_succ]
    cases e : st.input with
    | nil => exact ih st hi
    | cons l ls =>
      rw [e] at hi
      have hl := hi l (by simp)
      simp only
      rw [if_neg fun g => hl.1 (yes_iff.2 g), if_neg fun g => hl.2 (no_iff.2 g)]
      exact ih _ fun x hx => hi x (by simp [show x ∈ ls from hx])

/-- The question of the command. -/
def clearQuestion : Str := c!"Really delete all breakpoints? (y/n)\n"

theorem clear_command (r : Rec) (top : Nat) (fromMain : Bool) (d : DS) (st : St) :
    dbgCommand r top fromMain c!"clear" d st =
      match askClear (st.input.length + 1) { st with out := st.out ++ clearQuestion } with
      | .ok true s => .ok ({ d with dbg := { d.dbg with bps := [] } }, .again) s
      | .ok false s => .ok (d, .again) s
      | .fail f s => .fail f s := by
  have hc : dcmd c!"clear" = .clear := by decide
  have hs : substrFrom c!"clear" 5 = .ok [] := by decide
  simp only [dbgCommand, M.bind_apply, M.get_apply, hc, clearCommand, M.lift_apply, hs, show trim [] = ([] : Str) from rfl, List.isEmpty_nil, if_true, writeLine, write,
    M.modify_apply]
  rw [show st.out ++ (c!"Really delete all breakpoints? (y/n)" ++ c!"\n") = st.out ++ clearQuestion by simp [clearQuestion]]
  cases askClear (st.input.length + 1) { st with out := st.out ++ clearQuestion } with
  | ok b s => cases b <;> rfl
  | fail f s => rfl

/-- C50: `clear` without a number asks until a line is an answer (yes or no, or only the first letter, in small or capital letters); lines that are no answer are
skipped.  After a yes there is no breakpoint left, after a no all are as before; nothing else changes. -/
theorem C50_clear_all (r : Rec) (top : Nat) (fromMain : Bool) (d : DS) (st : St) {pre rest : List Str} {a : Str} (hi : st.input = pre ++ a :: rest)
    (hp : ∀ l ∈ pre, ¬ Yes l ∧ ¬ No l) :
    (Yes a → dbgCommand r top fromMain c!"clear" d st =
      .ok ({ d with dbg := { d.dbg with bps := [] } }, .again) { st with out := st.out ++ clearQuestion, input := rest }) ∧
    (No a → dbgCommand r top fromMain c!"clear" d st = .ok (d, .again) { st with out := st.out ++ clearQuestion, input := rest }) := by
  have h := ask_answer hp (st.input.length + 1) (by rw [hi]; simp; omega) { st with out := st.out ++ clearQuestion } hi
  rw [clear_command]
  exact ⟨fun g => by rw [h.1 g], fun g => by rw [h.2 g]⟩

/-- C50, negative part: if the input ends without an answer, the program asks forever: whatever number of questions is granted, it is used up. -/
theorem C50_no_answer_wrong (r : Rec) (top : Nat) (fromMain : Bool) (d : DS) (st : St) (hi : ∀ l ∈ st.input, ¬ Yes l ∧ ¬ No l) :
    (∀ n, ∃ s, askClear n st = .fail .fuel s) ∧ ∃ s, dbgCommand r top fromMain c!"clear" d st = .fail .fuel s := by
  refine ⟨fun n => ask_forever n st hi, ?_⟩
  obtain ⟨s, h⟩ := ask_forever (st.input.length + 1) { st with out := st.out ++ clearQuestion } hi
  exact ⟨s, by rw [clear_command, h]⟩

-- a line that is no answer, then yes
example (r : Rec) (d : DS) : dbgCommand r 0 true c!"clear" d { input := [c!"maybe", c!"Yes", c!"list"] } =
    .ok ({ d with dbg := { d.dbg with bps := [] } }, .again) { out := clearQuestion, input := [c!"list"] } :=
  (C50_clear_all r 0 true d { input := [c!"maybe", c!"Yes", c!"list"] } (pre := [c!"maybe"]) rfl (by simp [Yes, No])).1 (by simp [Yes])

-- no
example (r : Rec) (d : DS) : dbgCommand r 0 true c!"clear" d { input := [c!"n"] } = .ok (d, .again) { out := clearQuestion, input := [] } :=
  (C50_clear_all r 0 true d { input := [c!"n"] } (pre := []) rfl (by simp)).2 (by simp [No])

-- the end of the input
example (r : Rec) (d : DS) : ∃ s, dbgCommand r 0 true c!"clear" d { input := [c!"maybe"] } = .fail .fuel s :=
  (C50_no_answer_wrong r 0 true d { input := [c!"maybe"] } (by simp [Yes, No])).2
end

end Fuel
