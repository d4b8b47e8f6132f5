import Verif.SpecTree
import Verif.LemEval
import Verif.Demo
/-!
# The result of an access to a dictionary does not depend on the shape of the search tree (C25)
-/

set_option linter.unusedSectionVars false
set_option linter.unusedSimpArgs false
set_option linter.unusedVariables false

namespace Fuel

open Spec

section
variable [World]

/-- All comparisons with the key have a result: `less` and `greater` are these results. -/
def Compared (st : St) (n : Nat) (k : Variant) (less greater : Variant → Bool) (d : List (Variant × Ptr)) : Prop :=
  ∀ e ∈ d, vLt st n e.1 k = .ok (less e.1) ∧ vLt st n k e.1 = .ok (greater e.1)

theorem dictCmp_map {st : St} {n : Nat} {k : Variant} {less greater : Variant → Bool} {d : List (Variant × Ptr)} (h : Compared st n k less greater d) :
    dictCmp st n k d = .ok (d.map fun e => (less e.1, greater e.1)) := by
  induction d with
  | nil => rfl
  | cons e d ih =>
    obtain ⟨h1, h2⟩ := h e (by simp)
    simp only [dictCmp, h1, h2, bind_ok_R, ih fun e he => h e (by simp [he]), List.map_cons]

/-- The entries that are less come first. -/
def Sorted2 (less : Variant → Bool) (d : List (Variant × Ptr)) : Prop := ∃ a b, d = a ++ b ∧ (∀ e ∈ a, less e.1 = true) ∧ ∀ e ∈ b, less e.1 = false

theorem partitioned_sorted {less greater : Variant → Bool} {d : List (Variant × Ptr)} (h : partitioned (d.map fun e => (less e.1, greater e.1)) = true) : Sorted2 less d := by
  induction d with
  | nil => exact ⟨[], [], rfl, by simp, by simp⟩
  | cons e d ih =>
    simp only [List.map_cons] at h
    cases h1 : less e.1 with
    | false =>
      refine ⟨[], e :: d, rfl, by simp, ?_⟩
      simp [h1, partitioned] at h
      simp only [List.mem_cons]
      rintro x (rfl | hx)
      · exact h1
      · exact (h x.1 x.2 hx).1
    | true =>
      cases h2 : greater e.1 with
      | true => simp [h1, h2, partitioned] at h
      | false =>
        simp only [h1, h2, partitioned] at h
        obtain ⟨a, b, rfl, ha, hb⟩ := ih h
        exact ⟨e :: a, b, rfl, by simpa [h1] using ha, hb⟩

theorem lowerBound_sorted {less : Variant → Bool} {a b : List (Variant × Ptr)} (ha : ∀ e ∈ a, less e.1 = true) (hb : ∀ e ∈ b, less e.1 = false) {t : Tree} (ht : t.entries = a ++ b) :
    LowerBound less t a.length := by
  induction t generalizing a b with
  | leaf =>
    simp [Tree.entries] at ht
    rw [ht.1]
    exact .leaf
  | node l e r ihl ihr =>
    simp only [Tree.entries] at ht
    rcases List.append_eq_append_iff.1 ht with ⟨c, rfl, hc⟩ | ⟨c, h1, h2⟩
    · cases c with
      | nil =>
        have he : less e.1 = false := hb e (by rw [← List.nil_append b, ← hc]; simp)
        have := ihl (a := l.entries) (b := []) (fun e he => ha e (by simp [he])) (by simp) (by simp)
        simpa using LowerBound.left he this
      | cons x c =>
        simp only [List.cons_append, List.cons.injEq] at hc
        obtain ⟨rfl, hc⟩ := hc
        have he := ha e (by simp)
        have := LowerBound.right (l := l) he (ihr (a := c) (b := b) (fun e he => ha e (by simp [he])) hb hc)
        have hl : (l.entries ++ e :: c).length = l.entries.length + 1 + c.length := by simp; omega
        rw [hl]
        exact this
    · have he : less e.1 = false := hb e (by rw [h2]; simp)
      exact .left he (ihl (a := a) (b := c) ha (fun e he => hb e (by rw [h2]; simp [he])) h1)

theorem dictSplit_shape {st : St} {n : Nat} {k : Variant} {less greater : Variant → Bool} {d : List (Variant × Ptr)} (h : Compared st n k less greater d)
    {pre post : List (Variant × Ptr)} {hit : Option (Variant × Ptr)} (hd : dictSplit st n k d = .ok (pre, hit, post)) :
    d = pre ++ hit.toList ++ post ∧ (∀ e ∈ pre, less e.1 = true) ∧ (∀ e, hit = some e → less e.1 = false ∧ greater e.1 = false) ∧
      (hit = none → ∀ e ∈ post.head?, less e.1 = false ∧ greater e.1 = true) := by
  induction d generalizing pre with
  | nil =>
    simp [dictSplit] at hd
    obtain ⟨rfl, rfl, rfl⟩ := hd
    simp
  | cons e d ih =>
    obtain ⟨h1, h2⟩ := h e (by simp)
    simp only [dictSplit, h1, h2, bind_ok_R] at hd
    cases hl : less e.1 with
    | true =>
      simp only [hl, if_true] at hd
      cases hx : dictSplit st n k d with
      | error => rw [hx] at hd; cases hd
      | ok x =>
        obtain ⟨p, q, r⟩ := x
        rw [hx] at hd
        simp only [bind_ok_R, Except.ok.injEq, Prod.mk.injEq] at hd
        obtain ⟨rfl, rfl, rfl⟩ := hd
        obtain ⟨g1, g2, g3, g4⟩ := ih (fun e he => h e (by simp [he])) hx
        exact ⟨by rw [g1]; simp, by simpa [hl] using g2, g3, g4⟩
    | false =>
      simp only [hl, Bool.false_eq_true, if_false] at hd
      cases hg : greater e.1 with
      | true =>
        simp only [hg, if_true, Except.ok.injEq, Prod.mk.injEq] at hd
        obtain ⟨rfl, rfl, rfl⟩ := hd
        simp [hl, hg]
      | false =>
        simp only [hg, Bool.false_eq_true, if_false, Except.ok.injEq, Prod.mk.injEq] at hd
        obtain ⟨rfl, rfl, rfl⟩ := hd
        simp [hl, hg]

/-- C25: where the model gives a result for an access to the entries of a dictionary (and all comparisons have a result), the access by the search in a tree gives the same
result for every shape of the tree. -/
theorem C25_shape {st : St} {n : Nat} {k : Variant} {less greater : Variant → Bool} {d : List (Variant × Ptr)} (h : Compared st n k less greater d)
    {pre post : List (Variant × Ptr)} {hit : Option (Variant × Ptr)} (hd : dictAccess st n k d = .ok (pre, hit, post)) {t : Tree} (ht : t.entries = d) :
    Access less greater t pre hit post := by
  have key : dictSplit st n k d = .ok (pre, hit, post) ∧ Sorted2 less d := by
    match d with
    | [] => exact ⟨hd, [], [], rfl, by simp, by simp⟩
    | [e] =>
      refine ⟨hd, ?_⟩
      cases hl : less e.1 with
      | true => exact ⟨[e], [], rfl, by simpa using hl, by simp⟩
      | false => exact ⟨[], [e], rfl, by simp, by simpa using hl⟩
    | a :: b :: d =>
      simp only [dictAccess, dictCmp_map h] at hd
      split at hd
      · rename_i hp
        exact ⟨hd, partitioned_sorted hp⟩
      · cases hd
  obtain ⟨h1, a, b, hab, ha, hb⟩ := key
  obtain ⟨g1, g2, g3, g4⟩ := dictSplit_shape h h1
  have hlen : pre = a := by
    subst ht
    have e : a ++ b = pre ++ (hit.toList ++ post) := by rw [← hab, g1, List.append_assoc]
    have hfirst : ∀ x ∈ (hit.toList ++ post).head?, less x.1 = false := by
      cases hit with
      | none => intro x hx; exact (g4 rfl x (by simpa using hx)).1
      | some y => intro x hx; simp at hx; subst hx; exact (g3 _ rfl).1
    rcases List.append_eq_append_iff.1 e with ⟨c, h2, h3⟩ | ⟨c, h2, h3⟩
    · cases c with
      | nil => simpa using h2
      | cons x c =>
        have := g2 x (by rw [h2]; simp)
        rw [hb x (by rw [h3]; simp)] at this
        cases this
    · cases c with
      | nil => simpa using h2.symm
      | cons x c =>
        have := ha x (by rw [h2]; simp)
        rw [hfirst x (by rw [h3]; simp)] at this
        cases this
  subst hlen
  exact ⟨lowerBound_sorted ha hb (ht.trans hab), ht.trans g1, fun e he => (g3 e he).2, fun hn e he => (g4 hn e he).2⟩

/-- The result of the search in a tree is unique. -/
theorem LowerBound.unique {less : Variant → Bool} {t : Tree} {n m : Nat} (h : LowerBound less t n) (h' : LowerBound less t m) : n = m := by
  induction h generalizing m with
  | leaf => cases h'; rfl
  | right h1 _ ih =>
    cases h' with
    | right _ h => rw [ih h]
    | left h2 _ => rw [h1] at h2; cases h2
  | left h1 _ ih =>
    cases h' with
    | right h2 _ => rw [h1] at h2; cases h2
    | left _ h => exact ih h

end

/-! ## The hypotheses are met -/

section
attribute [local instance] demoWorld

/-- The integer `x` as a key. -/
def intKey (x : Int) : Variant := ⟨.int, .mk 1 (.int x), .none, none⟩

/-- Entries with the keys 1, 3 and 5 in two trees of different shape. -/
def demoEntries : List (Variant × Ptr) := [(intKey 1, .mk 2 .undef), (intKey 3, .mk 3 .undef), (intKey 5, .mk 4 .undef)]

example : dictAccess ({} : St) 5 (intKey 3) demoEntries = .ok ([(intKey 1, .mk 2 .undef)], some (intKey 3, .mk 3 .undef), [(intKey 5, .mk 4 .undef)]) := by decide +kernel

example : Compared ({} : St) 5 (intKey 3) (fun v => decide (v = intKey 1)) (fun v => decide (v = intKey 5)) demoEntries := by
  unfold Compared
  decide +kernel

example : (Tree.node (.node .leaf (intKey 1, .mk 2 .undef) .leaf) (intKey 3, .mk 3 .undef) (.node .leaf (intKey 5, .mk 4 .undef) .leaf)).entries = demoEntries ∧
    (Tree.node .leaf (intKey 1, .mk 2 .undef) (.node .leaf (intKey 3, .mk 3 .undef) (.node .leaf (intKey 5, .mk 4 .undef) .leaf))).entries = demoEntries := ⟨rfl, rfl⟩

end

end Fuel
