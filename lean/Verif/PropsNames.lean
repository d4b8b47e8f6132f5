import Verif.SpecNames
import Verif.PropsDefault
/-!
# C48 The meaning of the names in a new interpreter
-/

namespace Fuel
open Spec
variable [World]

theorem table_functions : ∀ x ∈ functionNames, ∃ e ∈ defaultTable, e.name = x.1 ∧ e.fn = x.2 ∧ e.special = false := by decide +kernel

theorem table_forms : ∀ x ∈ formNames, ∃ e ∈ defaultTable, e.name = x.1 ∧ e.fn = x.2 ∧ e.special = true := by decide +kernel

theorem table_complete : ∀ e ∈ defaultTable, (e.name, e.fn) ∈ (if e.special then formNames else functionNames) := by decide +kernel

theorem means_entry {st st' : St} {s : Nat} (hn : NewInterpreter st s st') {e : Entry} (he : e ∈ defaultTable) :
    Means st' s e.name e.fn e.special := by
  obtain ⟨p, hp, i, v, rfl, hv, -⟩ := hn.functions e he
  exact ⟨_, hp, i, v, rfl, _, hv, rfl, rfl⟩

/-- C48: in a new interpreter exactly the names of the tables are bound to built-in functions and special forms, each name to its function or form. -/
theorem C48_meaning {st st' : St} {s : Nat} (h : createDefaultScope st = .ok s st') (name : Str) (b : Builtin) :
    (Means st' s name b false ↔ (name, b) ∈ functionNames) ∧ (Means st' s name b true ↔ (name, b) ∈ formNames) := by
  obtain ⟨st1, h1, hn⟩ := C48_new st
  rw [h1] at h; cases h
  have key : ∀ sp, Means st' st.next name b sp → ∃ e ∈ defaultTable, e.name = name ∧ e.fn = b ∧ e.special = sp := by
    rintro sp ⟨p, hp, i, v, rfl, w, hv, hw, hs⟩
    by_cases hx : ∀ e ∈ defaultTable, e.name ≠ name
    · by_cases hy : name ∈ [c!"###modules###", c!"###macros###", c!"###tracebuffer###", c!"###traceon###"]
      · exfalso
        obtain ⟨i1, m1, e1, -⟩ := hn.modules
        obtain ⟨i2, m2, e2, -⟩ := hn.macros
        obtain ⟨i3, m3, e3, e4⟩ := hn.trace
        simp only [List.mem_cons, List.mem_nil_iff, or_false] at hy
        rcases hy with rfl | rfl | rfl | rfl
        · rw [e1] at hp; cases hp
        · rw [e2] at hp; cases hp
        · rw [e3] at hp; cases hp
        · rw [e4] at hp; cases hp
      · rw [hn.others name hx hy] at hp; cases hp
    · have : ∃ e ∈ defaultTable, e.name = name := by
        apply Classical.byContradiction
        intro hc
        exact hx fun e he hn => hc ⟨e, he, hn⟩
      obtain ⟨e, he, rfl⟩ := this
      obtain ⟨q, hq, j, u, rfl, hu, -⟩ := hn.functions e he
      rw [hq] at hp
      cases hp
      obtain ⟨-, _, h3⟩ := hu
      obtain ⟨-, _, h4⟩ := hv
      rw [h3] at h4
      cases h4
      cases hw
      exact ⟨e, he, rfl, rfl, hs⟩
  refine ⟨⟨fun h => ?_, fun h => ?_⟩, ⟨fun h => ?_, fun h => ?_⟩⟩
  · obtain ⟨e, he, rfl, rfl, hs⟩ := key _ h
    have := table_complete e he
    rwa [hs, if_neg (by decide)] at this
  · obtain ⟨e, he, h2, h3, h4⟩ := table_functions _ h
    have := means_entry hn he
    rwa [h2, h3, h4] at this
  · obtain ⟨e, he, rfl, rfl, hs⟩ := key _ h
    have := table_complete e he
    rwa [hs, if_pos rfl] at this
  · obtain ⟨e, he, h2, h3, h4⟩ := table_forms _ h
    have := means_entry hn he
    rwa [h2, h3, h4] at this

/-- A new interpreter exists in every state, and `Math-Sqrt` means the square root in it. -/
example (st : St) : ∃ s st', createDefaultScope st = .ok s st' ∧ Means st' s c!"Math-Sqrt" (.math .sqrt) false := by
  obtain ⟨st', h, -⟩ := C48_new st
  exact ⟨_, _, h, ((C48_meaning h _ _).1).2 (by decide +kernel)⟩

end Fuel
