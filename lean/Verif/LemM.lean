import Verif.Interp
import Verif.SpecValue
/-!
# Basic lemmas about the state monad, reading values and allocation
-/

set_option linter.unusedSectionVars false

namespace Fuel

open Spec

theorem wrap32_id {x : Int} (h : IsInt32 x) : wrap32 x = x := by
  obtain ⟨h1, h2⟩ := h
  exact Int.bmod_eq_of_le (by omega) (by omega)

theorem wrap32_range (x : Int) : IsInt32 (wrap32 x) := by
  have h1 := Int.le_bmod (x := x) (m := 4294967296) (by decide)
  have h2 := Int.bmod_lt (x := x) (m := 4294967296) (by decide)
  unfold IsInt32 wrap32
  omega

@[simp] theorem M.bind_apply {α β} (m : M α) (k : α → M β) (s : St) :
    (m >>= k) s = match m s with | .ok a s' => k a s' | .fail f s' => .fail f s' := rfl
@[simp] theorem M.pure_apply {α} (a : α) (s : St) : (Pure.pure a : M α) s = .ok a s := rfl
@[simp] theorem M.fail_apply {α} (f : Fail) (s : St) : (M.fail f : M α) s = .fail f s := rfl
@[simp] theorem ub_apply {α} (u : UB) (s : St) : (ub u : M α) s = .fail (.ub u) s := rfl
@[simp] theorem M.get_apply {α} (g : St → α) (s : St) : (M.get g) s = .ok (g s) s := rfl
@[simp] theorem M.modify_apply (g : St → St) (s : St) : (M.modify g) s = .ok () (g s) := rfl
theorem M.rd_apply {α} (g : St → R α) (s : St) :
    (M.rd g) s = match g s with | .ok a => .ok a s | .error f => .fail f s := rfl
theorem M.lift_apply {α} (r : R α) (s : St) :
    (M.lift r) s = match r with | .ok a => .ok a s | .error f => .fail f s := rfl
@[simp] theorem M.rd_ok {α} {g : St → R α} {s : St} {a : α} (h : g s = .ok a) : (M.rd g) s = .ok a s := by
  simp [M.rd_apply, h]
@[simp] theorem M.rd_error {α} {g : St → R α} {s : St} {f : Fail} (h : g s = .error f) : (M.rd g) s = .fail f s := by
  simp [M.rd_apply, h]
@[simp] theorem M.lift_ok {α} (a : α) (s : St) : (M.lift (.ok a : R α)) s = .ok a s := rfl
@[simp] theorem M.lift_error {α} (f : Fail) (s : St) : (M.lift (.error f : R α)) s = .fail f s := rfl

@[simp] theorem bind_ok_R {α β} (a : α) (k : α → R β) : ((.ok a : R α) >>= k) = k a := rfl
@[simp] theorem bind_error_R {α β} (f : Fail) (k : α → R β) : ((.error f : R α) >>= k) = .error f := rfl

@[simp] theorem allocObj_apply (o : Obj) (s : St) :
    allocObj o s = .ok (.mk s.next o) { s with next := s.next + 1 } := rfl
@[simp] theorem allocList_apply (l : List Ptr) (s : St) :
    allocList l s = .ok (.mk s.next .list) { s with next := s.next + 1, lists := fset s.lists s.next l } := rfl
@[simp] theorem box_apply (v : Variant) (s : St) :
    box v s = .ok (.mk s.next (.var v)) { s with next := s.next + 1 } := rfl
@[simp] theorem mkAtom_apply (o : Obj) (s : St) :
    mkAtom o s = .ok ⟨o.lispType, .mk s.next o, .none, none⟩ { s with next := s.next + 1 } := rfl
@[simp] theorem mkInt_apply (i : Int) (s : St) :
    mkInt i s = .ok ⟨.int, .mk s.next (.int i), .none, none⟩ { s with next := s.next + 1 } := rfl
@[simp] theorem mkStr_apply (t : Str) (s : St) :
    mkStr t s = .ok ⟨.string, .mk s.next (.str t), .none, none⟩ { s with next := s.next + 1 } := rfl
@[simp] theorem mkBool_apply (b : Bool) (s : St) :
    mkBool b s = .ok ⟨.bool, .mk s.next (.bool b), .none, none⟩ { s with next := s.next + 1 } := rfl
@[simp] theorem mkDbl_apply (d : Dbl) (s : St) :
    mkDbl d s = .ok ⟨.double, .mk s.next (.dbl d), .none, none⟩ { s with next := s.next + 1 } := rfl
@[simp] theorem mkList_apply (l : List Ptr) (s : St) :
    mkList l s = .ok ⟨.list, .mk s.next .list, .none, none⟩
      { s with next := s.next + 1, lists := fset s.lists s.next l } := rfl

@[simp] theorem fset_self {α} (f : Nat → α) (k : Nat) (v : α) : fset f k v k = v := by simp [fset]
theorem fset_ne {α} (f : Nat → α) {k i : Nat} (v : α) (h : i ≠ k) : fset f k v i = f i := by simp [fset, h]

variable [World]

theorem checkArgs_ok {name : Str} {c : Nat} {args : List Ptr} {sid : Nat} (h : args.length = c) :
    checkArgs name c args sid = pure () := by simp [checkArgs, h]
theorem checkOptionalArgs_ok {name : Str} {lo hi : Nat} {args : List Ptr} {sid : Nat} (h : lo ≤ args.length ∧ args.length ≤ hi) :
    checkOptionalArgs name lo hi args sid = pure () := by simp [checkOptionalArgs, h]

theorem IsStr.type {v : Variant} {s : Str} (h : IsStr v s) : v.type = .string := h.1

/-! ## Reading values -/

theorem isStr_mk (i : Nat) (s : Str) (u t) : IsStr ⟨.string, .mk i (.str s), u, t⟩ s := ⟨rfl, i, rfl⟩
theorem isInt_mk (i : Nat) (x : Int) (u t) : IsInt ⟨.int, .mk i (.int x), u, t⟩ x := ⟨rfl, i, rfl⟩
theorem isBool_mk (i : Nat) (x : Bool) (u t) : IsBool ⟨.bool, .mk i (.bool x), u, t⟩ x := ⟨rfl, i, rfl⟩
theorem isDbl_mk (i : Nat) (x : Dbl) (u t) : IsDbl ⟨.double, .mk i (.dbl x), u, t⟩ x := ⟨rfl, i, rfl⟩

theorem varStr_str {st : St} {n : Nat} {v : Variant} {s : Str} (h : IsStr v s) : varStr st (n + 2) v = .ok s := by
  obtain ⟨h1, i, h2⟩ := h
  simp [varStr, h1, h2, ptrStr]
theorem varStr_sym {st : St} {n : Nat} {v : Variant} {s : Str} (h : IsSym v s) : varStr st (n + 2) v = .ok s := by
  obtain ⟨h1, i, h2⟩ := h
  simp [varStr, h1, h2, ptrStr]
theorem varStr_int {st : St} {n : Nat} {v : Variant} {x : Int} (h : IsInt v x) : varStr st (n + 1) v = .ok (intStr x) := by
  obtain ⟨h1, i, h2⟩ := h
  simp [varStr, h1, h2]
theorem varStr_bool {st : St} {n : Nat} {v : Variant} {b : Bool} (h : IsBool v b) :
    varStr st (n + 1) v = .ok (if b then c!"#t" else c!"#f") := by
  obtain ⟨h1, i, h2⟩ := h
  simp [varStr, h1, h2]
theorem ptrStr_var {st : St} {n : Nat} {i : Nat} {v : Variant} : ptrStr st (n + 1) (.mk i (.var v)) = varStr st n v := by
  simp [ptrStr]
theorem stringValue_str {st : St} {n : Nat} {v : Variant} {s : Str} (h : IsStr v s) : v.stringValue st (n + 1) = .ok s := by
  obtain ⟨h1, i, h2⟩ := h
  simp [Variant.stringValue, h2, ptrStr]
theorem stringValue_int {st : St} {n : Nat} {v : Variant} {x : Int} (h : IsInt v x) :
    v.stringValue st (n + 1) = .ok (intStr x) := by
  obtain ⟨h1, i, h2⟩ := h
  simp [Variant.stringValue, h2, ptrStr]
theorem intValue_int {st : St} {n : Nat} {v : Variant} {x : Int} (h : IsInt v x) : v.intValue st n = .ok x := by
  obtain ⟨h1, i, h2⟩ := h
  simp [Variant.intValue, h1, h2]
theorem toInt_int {st : St} {n : Nat} {v : Variant} {x : Int} (h : IsInt v x) : v.toInt st n = .ok x := by
  have := intValue_int (st := st) (n := n) h
  simp [Variant.toInt, h.1, this]
theorem boolValue_bool {st : St} {n : Nat} {v : Variant} {b : Bool} (h : IsBool v b) : v.boolValue st n = .ok b := by
  obtain ⟨h1, i, h2⟩ := h
  simp [Variant.boolValue, h1, h2]
theorem doubleValue_dbl {st : St} {n : Nat} {v : Variant} {b : Dbl} (h : IsDbl v b) : v.doubleValue st n = .ok b := by
  obtain ⟨h1, i, h2⟩ := h
  simp [Variant.doubleValue, h1, h2]
theorem listValue_list {st : St} {n : Nat} {v : Variant} {l : List Ptr} (h : IsListOrNil st v l) :
    v.listValue st n = .ok l := by
  rcases h with ⟨i, ⟨h1, h2⟩, h3⟩ | ⟨h1, rfl⟩
  · simp [Variant.listValue, h1, h2, toEnumerable, h3]
  · rw [IsNil] at h1; simp [Variant.listValue, h1]
theorem isList_of {st : St} {v : Variant} {l : List Ptr} (h : IsListOrNil st v l) : v.isList = true := by
  rcases h with ⟨i, ⟨h1, _⟩, _⟩ | ⟨h1, _⟩
  · simp [Variant.isList, h1]
  · rw [IsNil] at h1; simp [Variant.isList, h1]
theorem functionValue_fn {st : St} {n : Nat} {v : Variant} {f : FnW} (h : IsFn v f) : v.functionValue st n = .ok f := by
  obtain ⟨h1, i, h2⟩ := h
  simp [Variant.functionValue, h1, h2]

/-! ## `Extends` -/

theorem Spec.Extends.refl (st : St) : Extends st st := by constructor <;> simp

theorem Spec.Extends.trans {a b c : St} (h : Extends a b) (g : Extends b c) : Extends a c where
  next := Nat.le_trans h.next g.next
  lists i hi := by rw [g.lists i (Nat.lt_of_lt_of_le hi h.next), h.lists i hi]
  dicts i hi := by rw [g.dicts i (Nat.lt_of_lt_of_le hi h.next), h.dicts i hi]
  clos i hi := by rw [g.clos i (Nat.lt_of_lt_of_le hi h.next), h.clos i hi]
  scopes i hi := by rw [g.scopes i (Nat.lt_of_lt_of_le hi h.next), h.scopes i hi]
  out := by rw [g.out, h.out]
  input := by rw [g.input, h.input]
  files := by rw [g.files, h.files]
  clock := by rw [g.clock, h.clock]
  libPath := by rw [g.libPath, h.libPath]

theorem extends_next (st : St) (k : Nat) (h : st.next ≤ k) : Extends st { st with next := k } := by
  constructor <;> simp [h]

theorem extends_list (st : St) (l : List Ptr) :
    Extends st { st with next := st.next + 1, lists := fset st.lists st.next l } := by
  constructor <;> simp
  intro i hi
  exact fset_ne _ _ (by omega)

theorem extends_dict (st : St) (d : List (Variant × Ptr)) :
    Extends st { st with next := st.next + 1, dicts := fset st.dicts st.next d } := by
  constructor <;> simp
  intro i hi
  exact fset_ne _ _ (by omega)

theorem returns_str {m : M (Option Variant)} {st : St} (s : Str) {P : Variant → St → Prop}
    (h : m st = ret (mkStr s) st) (hP : ∀ v st', Extends st st' → IsStr v s → P v st') : Returns m st P :=
  ⟨_, _, h, hP _ _ (extends_next _ _ (Nat.le_succ _)) (isStr_mk _ _ _ _)⟩
theorem returns_int {m : M (Option Variant)} {st : St} (x : Int) {P : Variant → St → Prop}
    (h : m st = ret (mkInt x) st) (hP : ∀ v st', Extends st st' → IsInt v x → P v st') : Returns m st P :=
  ⟨_, _, h, hP _ _ (extends_next _ _ (Nat.le_succ _)) (isInt_mk _ _ _ _)⟩
theorem returns_bool {m : M (Option Variant)} {st : St} (x : Bool) {P : Variant → St → Prop}
    (h : m st = ret (mkBool x) st) (hP : ∀ v st', Extends st st' → IsBool v x → P v st') : Returns m st P :=
  ⟨_, _, h, hP _ _ (extends_next _ _ (Nat.le_succ _)) (isBool_mk _ _ _ _)⟩
theorem returns_dbl {m : M (Option Variant)} {st : St} (x : Dbl) {P : Variant → St → Prop}
    (h : m st = ret (mkDbl x) st) (hP : ∀ v st', Extends st st' → IsDbl v x → P v st') : Returns m st P :=
  ⟨_, _, h, hP _ _ (extends_next _ _ (Nat.le_succ _)) (isDbl_mk _ _ _ _)⟩
theorem returns_list {m : M (Option Variant)} {st : St} (l : List Ptr) {P : Variant → St → Prop}
    (h : m st = ret (mkList l) st) (hP : ∀ v st', Extends st st' → IsList st' v l → P v st') : Returns m st P :=
  ⟨_, _, h, hP _ _ (extends_list _ _) ⟨_, ⟨rfl, rfl⟩, by simp⟩⟩

theorem run_n (k : Nat) : (run k).n = k := by cases k <;> rfl

end Fuel
