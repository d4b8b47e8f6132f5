import Verif.LemM
/-!
# Relations between the state before and after a computation

`Pres R m`: whatever the outcome of `m`, the state afterwards is related by `R` to the state before.
-/

set_option linter.unusedSectionVars false

namespace Fuel

open Spec

variable [World]

/-- The state after a computation. -/
def Out.st {α : Type} : Out α → St
  | .ok _ s => s
  | .fail _ s => s

/-- Every outcome of the computation is related to the state before. -/
class Pres {α : Type} (R : St → St → Prop) (m : M α) : Prop where
  rel : ∀ s, R s (m s).st

/-- Objects are created; the scopes stay properly linked. -/
structure Grows (st st' : St) : Prop extends Extends st st' where
  links : Links st → Links st'

theorem links_same {a b : St} (h1 : a.next ≤ b.next) (h2 : b.clos = a.clos) (h3 : b.scopes = a.scopes) (h : Links a) : Links b where
  clos i := by rw [h2]; have := h.clos i; omega
  old i c hc := h.old i c (by rw [← h3]; exact hc)
  fresh i hi := by rw [h3]; exact h.fresh i (Nat.le_trans h1 hi)
  callers i c hc := by have := h.callers i c (by rw [← h3]; exact hc); omega

theorem Grows.refl (s : St) : Grows s s := ⟨.refl s, id⟩
theorem Grows.trans {a b c : St} (h : Grows a b) (g : Grows b c) : Grows a c := ⟨h.toExtends.trans g.toExtends, fun l => g.links (h.links l)⟩

/-- A preorder that allows the creation of new objects. -/
class Rel (R : St → St → Prop) : Prop where
  refl : ∀ s, R s s
  trans : ∀ {a b c}, R a b → R b c → R a c
  ext : ∀ {a b}, Grows a b → R a b

instance : Rel Extends := ⟨Extends.refl, Extends.trans, Grows.toExtends⟩
instance : Rel Grows := ⟨Grows.refl, Grows.trans, id⟩

variable {R : St → St → Prop} [Rel R] {α β : Type}

instance Pres.pure (a : α) : Pres R (Pure.pure a : M α) := ⟨fun s => Rel.refl s⟩
instance Pres.fail (f : Fail) : Pres R (M.fail f : M α) := ⟨fun s => Rel.refl s⟩
instance Pres.ub (u : UB) : Pres R (ub u : M α) := ⟨fun s => Rel.refl s⟩
instance Pres.get (g : St → α) : Pres R (M.get g) := ⟨fun s => Rel.refl s⟩
instance Pres.rd (g : St → Fuel.R α) : Pres R (M.rd g) := ⟨fun s => by
  show R s (M.rd g s).st
  rw [M.rd_apply]; cases g s <;> exact Rel.refl s⟩
instance Pres.lift (r : Fuel.R α) : Pres R (M.lift r) := Pres.rd _
theorem Pres.bind {m : M α} {k : α → M β} (h : Pres R m) (hk : ∀ a, Pres R (k a)) : Pres R (m >>= k) := ⟨fun s => by
  have := h.rel s
  rw [M.bind_apply]
  cases hm : m s with
  | ok a s' => rw [hm] at this; exact Rel.trans this ((hk a).rel s')
  | fail f s' => rw [hm] at this; exact this⟩

instance (o : Obj) : Pres R (allocObj o) := ⟨fun s => Rel.ext ⟨extends_next s _ (Nat.le_succ _), links_same (Nat.le_succ _) rfl rfl⟩⟩
instance (l : List Ptr) : Pres R (allocList l) := ⟨fun s => Rel.ext ⟨extends_list s l, links_same (Nat.le_succ _) rfl rfl⟩⟩
instance (l : List Ptr) : Pres R (allocVec l) := ⟨fun s => Rel.ext ⟨extends_list s l, links_same (Nat.le_succ _) rfl rfl⟩⟩
instance (d : List (Variant × Ptr)) : Pres R (allocDict d) := ⟨fun s => Rel.ext ⟨extends_dict s d, links_same (Nat.le_succ _) rfl rfl⟩⟩
instance (v : Variant) : Pres R (box v) := inferInstanceAs (Pres R (allocObj _))
instance (m : Str) (sid : Nat) : Pres R (throwScope m sid : M α) := ⟨fun s => Rel.refl s⟩
instance (m : Str) (t : Option Token) (sid : Nat) : Pres R (throwTok m t sid : M α) := ⟨fun s => Rel.refl s⟩

/-- Proves `Pres R m` by following the structure of `m`. -/
macro "pres" : tactic => `(tactic| repeat' (first
  | infer_instance
  | assumption
  | with_reducible refine Pres.bind ?_ fun _ => ?_
  | split
  | dsimp only))

theorem extends_copyScope (st : St) (j : Nat) :
    Grows st { st with next := st.next + 2, scopes := fset st.scopes st.next (st.scopes j) } := by
  refine ⟨⟨by simp, fun _ _ => rfl, fun _ _ => rfl, fun _ _ => rfl, fun _ hi => fset_ne _ _ (Nat.ne_of_lt hi), rfl, rfl, rfl, rfl, rfl⟩, fun h => ⟨?_, ?_, ?_, ?_⟩⟩
  · intro i; have := h.clos i; simp only; omega
  · intro i c hc
    by_cases e : i = st.next
    · subst e
      simp at hc
      rcases Nat.lt_or_ge j st.next with hj | hj
      · exact Nat.lt_trans (h.old j c hc) hj
      · rw [h.fresh j hj] at hc; simp at hc
    · simp [fset, e] at hc; exact h.old i c hc
  · intro i hi
    simp at hi
    simp [fset, show i ≠ st.next by omega]
    exact h.fresh i (by omega)
  · intro i p hp
    by_cases e : i = st.next
    · subst e
      simp at hp
      have := h.callers j p hp
      simp only; omega
    · simp [fset, e] at hp
      have := h.callers i p hp
      simp only; omega
instance (p : Ptr) : Pres R (copyObj p) := by
  unfold copyObj
  split
  · pres
  · pres
  · pres
  · rename_i j; exact ⟨fun s => Rel.ext (extends_copyScope s j)⟩
  · pres
instance (o : Obj) : Pres R (mkAtom o) := by unfold mkAtom; pres
instance (o) : Pres R (mkInt o) := by unfold mkInt; pres
instance (o) : Pres R (mkStr o) := by unfold mkStr; pres
instance (o) : Pres R (mkBool o) := by unfold mkBool; pres
instance (o) : Pres R (mkDbl o) := by unfold mkDbl; pres
instance (l) : Pres R (mkList l) := by unfold mkList; pres

end Fuel
