import Verif.LemValid
/-!
# The functions on values and scopes keep a state valid
-/

set_option linter.unusedSectionVars false
set_option linter.unusedSimpArgs false
set_option linter.unusedVariables false
set_option synthInstance.maxHeartbeats 20000

namespace Fuel

open Spec

variable [World] {w : Lay}

/-! ## Reading -/

instance (p : Ptr) [h : Good w p] : RGood w (toVariant p) := by
  unfold toVariant
  safe
instance (p : Ptr) [h : Good w p] : RGood w (mkVariant p) := by
  unfold mkVariant
  split
  · infer_instance
  · safe
  · rename_i i o hn
    exact ⟨fun v e => by cases e; exact good_tagged h.is hn⟩
instance (s : St) [Ok w s] (p : Ptr) [Good w p] : RGood w (toListRef s p) := by
  unfold toListRef
  safe
instance (s : St) [Ok w s] (p : Ptr) [Good w p] : RGood w (toEnumerable s p) := by
  unfold toEnumerable
  safe
theorem rgood_castExn {α : Type} [HasGood α] (s : St) (n v name msg) : RGood w (castExn s n v name msg : R α) := by
  unfold castExn
  exact .bind' fun _ _ => .bind' fun _ _ => inferInstance
instance {α : Type} [HasGood α] (s : St) (n v name msg) : RGood w (castExn s n v name msg : R α) := rgood_castExn ..
instance {α : Type} [HasGood α] (s : St) (n v to) : RGood w (convExn s n v to : R α) := by
  unfold convExn
  exact .bind' fun _ _ => .bind' fun _ _ => inferInstance
instance {α : Type} [HasGood α] (op l r) : RGood w (opExn op l r : R α) := by
  unfold opExn
  exact .bind' fun _ _ => inferInstance
instance (s : St) (n : Nat) (v : Variant) [Good w v] : RGood w (v.functionValue s n) := by
  unfold Variant.functionValue
  safe
instance (s : St) [Ok w s] (n : Nat) (v : Variant) [Good w v] : RGood w (v.listValue s n) := by
  unfold Variant.listValue
  safe
instance (s : St) (n : Nat) (v : Variant) [Good w v] : RGood w (v.intValue s n) := by
  unfold Variant.intValue
  safe
instance (d : Dbl) : RGood w (dblToInt d) := by
  unfold dblToInt
  split
  · split
    · rename_i h; exact ⟨fun _ e => by cases e; exact ⟨h⟩⟩
    · infer_instance
  · infer_instance
instance (x : Int) : RGood w (chk32 x) := by
  unfold chk32
  split
  · rename_i h; exact ⟨fun _ e => by cases e; exact ⟨h⟩⟩
  · infer_instance
instance (s : Str) : RGood w (atoi s) := by
  unfold atoi
  safe
instance (s : St) (n : Nat) (v : Variant) [Good w v] : RGood w (v.toInt s n) := by
  unfold Variant.toInt
  safe
theorem tmod_range {a b : Int} (hb : ¬ b = 0) (h : IsInt32 a) : IsInt32 (a.tmod b) := by
  unfold IsInt32 at *
  have h1 : (a.tmod b).natAbs = a.natAbs % b.natAbs := Int.natAbs_tmod a b
  have h2 := Nat.mod_le a.natAbs b.natAbs
  rcases Int.le_total 0 a with h0 | h0
  · have := Int.tmod_nonneg b h0
    omega
  · have := Int.tmod_nonneg b (show 0 ≤ -a by omega)
    rw [Int.neg_tmod] at this
    omega
instance (op : ArithOp) (a b : Int) [ha : Good w a] [Good w b] : RGood w (op.int a b) := by
  unfold ArithOp.int
  split
  · safe
  · safe
  · safe
  · safe
  · split
    · infer_instance
    · split
      · rename_i hb hq
        exact ⟨fun _ e => by cases e; exact ⟨tmod_range hb ha.ok⟩⟩
      · infer_instance
theorem bits_range (x : BitVec 32) : IsInt32 x.toInt := by
  have h1 := BitVec.toInt_lt (x := x)
  have h2 := BitVec.le_toInt x
  unfold IsInt32
  omega
theorem shr_range {a : Int} {n : Nat} (h : IsInt32 a) : IsInt32 (a / 2 ^ n) := by
  have hp : (0 : Int) < 2 ^ n := Int.pow_pos (by omega)
  unfold IsInt32 at *
  refine ⟨(Int.le_ediv_iff_mul_le hp).2 ?_, ?_⟩
  · have : (1 : Int) ≤ 2 ^ n := hp
    have := Int.mul_le_mul_of_nonneg_left this (show (0 : Int) ≤ 2147483648 by omega)
    omega
  · rcases Int.le_total 0 a with h0 | h0
    · have := Int.ediv_le_self (2 ^ n) h0
      omega
    · have := Int.ediv_nonpos_of_nonpos_of_neg h0 hp
      omega
instance (op : BitOp) (a b : Int) [ha : Good w a] [Good w b] : RGood w (op.int a b) := by
  unfold BitOp.int
  split
  · safe
  · split
    · infer_instance
    · exact ⟨fun _ e => by cases e; exact ⟨shr_range ha.ok⟩⟩
  · exact ⟨fun _ e => by cases e; exact ⟨bits_range _⟩⟩
  · exact ⟨fun _ e => by cases e; exact ⟨bits_range _⟩⟩
  · exact ⟨fun _ e => by cases e; exact ⟨bits_range _⟩⟩

/-! ## Lookup -/

theorem mapFind_mem {α : Type} {k : Str} {l : List (Str × α)} {a : α} (h : mapFind k l = some a) : ∃ e ∈ l, e.2 = a := by
  induction l with
  | nil => cases h
  | cons e t ih =>
    obtain ⟨x, v⟩ := e
    simp only [mapFind] at h
    split at h
    · cases h; exact ⟨_, List.mem_cons_self .., rfl⟩
    · obtain ⟨e, he, rfl⟩ := ih h; exact ⟨e, List.mem_cons_of_mem _ he, rfl⟩

instance (k : Str) (l : List (Str × Ptr)) [h : Good w l] : Good w (mapFind k l) :=
  ⟨fun a e => by obtain ⟨x, hx, rfl⟩ := mapFind_mem e; exact (h.mem hx).snd.ok⟩
theorem good_mapSet {α : Type} [HasGood α] {k : Str} {a : α} {l : List (Str × α)} (h : Good w l) (ha : Good w a) : Good w (mapSet k a l) := by
  induction l with
  | nil => unfold mapSet; infer_instance
  | cons e t ih =>
    obtain ⟨x, v⟩ := e
    have := h.head
    have := h.tail
    have := ih h.tail
    unfold mapSet
    split
    · infer_instance
    · split <;> infer_instance
theorem good_mapErase {α : Type} [HasGood α] {k : Str} {l : List (Str × α)} (h : Good w l) : Good w (mapErase k l) := by
  induction l with
  | nil => unfold mapErase; infer_instance
  | cons e t ih =>
    obtain ⟨x, v⟩ := e
    have := h.head
    have := h.tail
    have := ih h.tail
    unfold mapErase
    split <;> infer_instance

theorem strLt_trans : ∀ {a b c : Str}, strLt a b = true → strLt b c = true → strLt a c = true
  | a, b, [], _, h => by cases b <;> simp [strLt] at h
  | a, [], _ :: _, h, _ => by cases a <;> simp [strLt] at h
  | [], _ :: _, _ :: _, _, _ => rfl
  | x :: a, y :: b, z :: c, h, g => by
    simp only [strLt] at h g ⊢
    split at h
    · split at g
      · rw [if_pos (by omega)]
      · split at g
        · cases g
        · rw [if_pos (by omega)]
    · split at h
      · cases h
      · split at g
        · rw [if_pos (by omega)]
        · split at g
          · cases g
          · rw [if_neg (by omega), if_neg (by omega)]; exact strLt_trans h g
theorem strLt_total : ∀ (a b : Str), strLt a b = true ∨ a = b ∨ strLt b a = true
  | [], [] => .inr (.inl rfl)
  | [], _ :: _ => .inl rfl
  | _ :: _, [] => .inr (.inr rfl)
  | x :: a, y :: b => by
    simp only [strLt]
    by_cases h : x.toNat < y.toNat
    · exact .inl (by rw [if_pos h])
    · by_cases g : y.toNat < x.toNat
      · exact .inr (.inr (by rw [if_pos g]))
      · rw [if_neg h, if_neg g, if_neg g, if_neg h]
        have : x = y := Char.toNat_inj.1 (by omega)
        subst this
        rcases strLt_total a b with q | q | q
        · exact .inl q
        · exact .inr (.inl (by rw [q]))
        · exact .inr (.inr q)
theorem strLt_irrefl : ∀ (a : Str), strLt a a = false
  | [] => rfl
  | x :: a => by simp [strLt, strLt_irrefl a]

/-- The names are in order. -/
def Names (l : List (Str × Ptr)) : Prop := (l.map Prod.fst).Pairwise fun a b => strLt a b = true

theorem mem_mapSet {k : Str} {a : Ptr} {l : List (Str × Ptr)} {e : Str × Ptr} (h : e ∈ mapSet k a l) : e = (k, a) ∨ e ∈ l := by
  induction l with
  | nil => simpa [mapSet] using h
  | cons x t ih =>
    obtain ⟨n, v⟩ := x
    simp only [mapSet] at h
    split at h
    · rcases List.mem_cons.1 h with h | h
      · exact .inl h
      · exact .inr (List.mem_cons_of_mem _ h)
    · split at h
      · rcases List.mem_cons.1 h with h | h
        · exact .inl h
        · exact .inr h
      · rcases List.mem_cons.1 h with h | h
        · exact .inr (h ▸ List.mem_cons_self ..)
        · rcases ih h with h | h
          · exact .inl h
          · exact .inr (List.mem_cons_of_mem _ h)
theorem mem_mapErase {k : Str} {l : List (Str × Ptr)} {e : Str × Ptr} (h : e ∈ mapErase k l) : e ∈ l := by
  induction l with
  | nil => cases h
  | cons x t ih =>
    simp only [mapErase] at h
    split at h
    · exact List.mem_cons_of_mem _ (ih h)
    · rcases List.mem_cons.1 h with h | h
      · exact h ▸ List.mem_cons_self ..
      · exact List.mem_cons_of_mem _ (ih h)
theorem names_mapSet {k : Str} {a : Ptr} {l : List (Str × Ptr)} (h : Names l) : Names (mapSet k a l) := by
  induction l with
  | nil => simp [Names, mapSet]
  | cons x t ih =>
    obtain ⟨n, v⟩ := x
    obtain ⟨h1, h2⟩ := List.pairwise_cons.1 h
    simp only [mapSet]
    split
    · rename_i e; subst e; exact h
    · split
      · rename_i e g
        refine List.pairwise_cons.2 ⟨fun m hm => ?_, h⟩
        rcases List.mem_cons.1 hm with rfl | hm
        · exact g
        · exact strLt_trans g (h1 m hm)
      · rename_i e g
        refine List.pairwise_cons.2 ⟨fun m hm => ?_, ih h2⟩
        obtain ⟨y, hy, rfl⟩ := List.mem_map.1 hm
        rcases mem_mapSet hy with rfl | hy
        · rcases strLt_total n k with q | q | q
          · exact q
          · exact absurd q e
          · exact absurd q g
        · exact h1 _ (List.mem_map_of_mem hy)
theorem names_mapErase {k : Str} {l : List (Str × Ptr)} (h : Names l) : Names (mapErase k l) := by
  induction l with
  | nil => exact .nil
  | cons x t ih =>
    obtain ⟨n, v⟩ := x
    obtain ⟨h1, h2⟩ := List.pairwise_cons.1 h
    simp only [mapErase]
    split
    · exact ih h2
    · refine List.pairwise_cons.2 ⟨fun m hm => ?_, ih h2⟩
      obtain ⟨y, hy, rfl⟩ := List.mem_map.1 hm
      exact h1 _ (List.mem_map_of_mem (mem_mapErase hy))

theorem good_scope_vars {sc : Scope} (h : Good w sc) {v : List (Str × Ptr)} (hn : Names v) (hv : Good w v) : Good w { sc with vars := v } :=
  ⟨⟨hn, fun e he => (hv.mem he).snd.ok, h.ok.global, h.ok.closure, h.ok.next, h.ok.prev⟩⟩

instance (sid : Nat) (name : Str) (p : Ptr) [h : Is w sid .scope] [g : Good w p] : Safe w (setVar sid name p) :=
  Safe.modScope h fun sc hs => good_scope_vars hs (names_mapSet hs.ok.names) (good_mapSet hs.vars g)

theorem closureFind_good {s : St} [Ok w s] {name : Str} : ∀ {k sid : Nat} {c : Nat} {p : Ptr}, Is w sid .scope →
    closureFind s name k sid = .ok (some (c, p)) → Is w c .scope ∧ Good w p
  | 0, _, _, _, _, e => by cases e
  | k + 1, sid, c, p, h, e => by
    unfold closureFind at e
    split at e
    · cases e
    · saturate_at w
      split at e
      · cases e
        rename_i heq
        exact ⟨inferInstance, Good.some_inv (heq ▸ inferInstance)⟩
      · exact closureFind_good inferInstance e

theorem moduleSearch_good {s : St} [Ok w s] {name : Str} : ∀ {l : List (Str × Ptr)}, Good w l → RGood w (moduleSearch s name l)
  | [], _ => by unfold moduleSearch; infer_instance
  | (a, p) :: t, h => by
    have := moduleSearch_good (s := s) (name := name) h.tail
    cases p with
    | null => simp only [moduleSearch]; infer_instance
    | mk i o =>
      cases o <;> simp only [moduleSearch] <;> safe
instance (s : St) [Ok w s] (name : Str) (l : List (Str × Ptr)) [h : Good w l] : RGood w (moduleSearch s name l) := moduleSearch_good h
instance (s : St) [Ok w s] (gid : Nat) (name : Str) [Is w gid .scope] : RGood w (findInModules s gid name) := by
  unfold findInModules
  safe
instance (s : St) [Ok w s] (n sid : Nat) (p : Ptr) [Is w sid .scope] [Good w p] : RGood w (resolve s n sid p) := by
  unfold resolve
  refine .bind' fun name _ => ?_
  split
  · safe
  · split
    · safe
    · refine .bind' fun c hc => ?_
      split
      · have := (closureFind_good (w := w) inferInstance hc).2
        infer_instance
      · safe
instance (sid : Nat) (name : Str) (p : Ptr) [Is w sid .scope] [Good w p] : Safe w (setInScopes sid name p) := by
  unfold setInScopes
  refine .bind (.get' _ fun _ _ => inferInstance) fun w sc hx hs => ?_
  transport
  saturate
  dsimp only
  split
  · infer_instance
  · split
    · infer_instance
    · refine .rd_bind fun s c hs hc => ?_
      split
      · have := (closureFind_good (w := w) inferInstance hc).1
        infer_instance
      · safe
instance (sid next : Nat) [h : Is w sid .scope] [g : Is w next .scope] : Safe w (pushNext sid next) := by
  unfold pushNext
  refine .bind (Safe.modScope h fun sc hs => ?_) fun w' _ hx _ => Safe.modScope (g.mono hx) fun sc hs => ?_
  · exact ⟨⟨hs.ok.names, hs.ok.vars, hs.ok.global, hs.ok.closure, fun c e => by cases e; exact g.ok, hs.ok.prev⟩⟩
  · exact ⟨⟨hs.ok.names, hs.ok.vars, hs.ok.global, hs.ok.closure, hs.ok.next, fun c e => by cases e; exact (h.mono hx).ok⟩⟩
instance (sid : Nat) [h : Is w sid .scope] : Safe w (popNext sid) := by
  unfold popNext
  refine Safe.get_bind fun s hs => ?_
  split
  · infer_instance
  · saturate
    refine .bind (Safe.modScope inferInstance fun sc hs => ?_) fun w' _ hx _ => Safe.modScope (h.mono hx) fun sc hs => ?_
    · exact ⟨⟨hs.ok.names, hs.ok.vars, hs.ok.global, hs.ok.closure, hs.ok.next, fun c e => by cases e⟩⟩
    · exact ⟨⟨hs.ok.names, hs.ok.vars, hs.ok.global, hs.ok.closure, (fun c e => by cases e), hs.ok.prev⟩⟩
instance (s : St) [Ok w s] (name : Str) (g : Nat) (m : Str) [h : Is w g .scope] : Good w (mkScope s name g m) :=
  ⟨⟨.nil, (fun e he => by cases he), h.ok, (fun c e => by cases e), (fun c e => by cases e), (fun c e => by cases e)⟩⟩
instance (s : St) [Ok w s] (sid : Nat) [Is w sid .scope] : RGood w (macroScope s sid) := inferInstance
instance (s : St) [Ok w s] (n : Nat) (f : Ptr) (sid : Nat) [Is w sid .scope] : RGood w (getMacro s n f sid) := by
  unfold getMacro
  refine .bind' fun m hm => ?_
  unfold macroScope at hm
  split at hm
  · cases hm; infer_instance
  · cases hm
    saturate
    exact .bind' fun _ _ => inferInstance
  · cases hm
instance (s : St) [Ok w s] (p : Ptr) [Good w p] : RGood w (getExpression s p) := by
  unfold getExpression
  safe
instance (n : Nat) (name : Str) (p : Ptr) (sid : Nat) [Good w p] : Safe w (checkForFunction n name p sid) := by
  unfold checkForFunction
  safe
instance (n : Nat) (name : Str) (sid : Nat) (p : Ptr) [Good w p] : Safe w (checkForList n name p sid) := by
  unfold checkForList
  have hn : ∀ w v, Safe w (checkForList.notList name sid v) := fun w v => by
    unfold checkForList.notList
    safe
  safe
instance (name : Str) (c : Nat) (args : List Ptr) (sid : Nat) : Safe w (checkArgs name c args sid) := by
  unfold checkArgs
  safe
instance (name : Str) (lo hi : Nat) (args : List Ptr) (sid : Nat) : Safe w (checkOptionalArgs name lo hi args sid) := by
  unfold checkOptionalArgs
  safe
instance (args : List Ptr) (i : Nat) [Good w args] : Safe w (arg args i) := by
  unfold arg
  safe
instance (args : List Ptr) (i : Nat) [Good w args] : Safe w (argV args i) := by
  unfold argV
  safe
instance (args : List Ptr) (i : Nat) [Good w args] : Safe w (argMk args i) := by
  unfold argMk
  safe
instance (n : Nat) (args : List Ptr) (i : Nat) [Good w args] : Safe w (argStr n args i) := by
  unfold argStr
  safe

/-! ## New values -/

theorem Safe.mkAtom {o : Obj} (h : GoodObj w o) (hv : ∀ v, o ≠ .var v) : Safe w (mkAtom o) :=
  Safe.allocObj_bind h fun w' i hx hi => by
    have := good_tagged (u := .none) (t := none) hi hv
    infer_instance
instance (x : Int) [Good w x] : Safe w (mkInt x) := Safe.mkAtom inferInstance (by simp)
instance (x) : Safe w (mkDbl x) := Safe.mkAtom inferInstance (by simp)
instance (x) : Safe w (mkBool x) := Safe.mkAtom inferInstance (by simp)
instance (x) : Safe w (mkStr x) := Safe.mkAtom inferInstance (by simp)
instance (l : List Ptr) [Good w l] : Safe w (mkList l) := by
  unfold mkList
  safe
instance (p : Ptr) [h : Good w p] : Safe w (copyObj p) := by
  unfold copyObj
  split
  · infer_instance
  · safe
  · safe
  · safe
  · rename_i i o _ _ _
    have : GoodObj w o := ⟨w.objs i o h.ok⟩
    infer_instance
instance (n : Nat) (op : ArithOp) (l r : Variant) [Good w l] [Good w r] : Safe w (arith n op l r) := by
  unfold arith
  safe

/-! ## Dictionaries -/

theorem dictSplit_good {s : St} {n : Nat} {k : Variant} : ∀ {d : List (Variant × Ptr)}, Good w d → RGood w (dictSplit s n k d)
  | [], _ => by unfold dictSplit; infer_instance
  | e :: d, h => by
    have := h.head
    have := h.tail
    have := dictSplit_good (s := s) (n := n) (k := k) h.tail
    unfold dictSplit
    refine .bind' fun a _ => ?_
    split
    · refine .bind inferInstance fun x hx => ?_
      obtain ⟨x, y, z⟩ := x
      saturate
      infer_instance
    · refine .bind' fun b _ => ?_
      split <;> infer_instance
instance (s : St) (n : Nat) (k : Variant) (d : List (Variant × Ptr)) [h : Good w d] : RGood w (dictAccess s n k d) := by
  unfold dictAccess
  split
  · exact dictSplit_good h
  · exact dictSplit_good h
  · split
    · split
      · exact dictSplit_good h
      · infer_instance
    · infer_instance
    · infer_instance
instance (s : St) (n : Nat) (k : Variant) (v : Ptr) (d : List (Variant × Ptr)) [Good w k] [Good w v] [Good w d] : RGood w (dictSet s n k v d) := by
  unfold dictSet
  refine .bind inferInstance fun x hx => ?_
  obtain ⟨x, y, z⟩ := x
  cases y <;> saturate
  · simp only [Option.map, Option.getD]
    infer_instance
  · simp only [Option.map, Option.getD]
    infer_instance
instance (s : St) (n : Nat) (k : Variant) (d : List (Variant × Ptr)) [Good w d] : RGood w (dictFind s n k d) := by
  unfold dictFind
  refine .bind inferInstance fun x hx => ?_
  obtain ⟨x, y, z⟩ := x
  cases y <;> saturate
  · simp only [Option.map]
    infer_instance
  · simp only [Option.map]
    infer_instance
instance (s : St) (n : Nat) (k : Variant) (d : List (Variant × Ptr)) [Good w d] : RGood w (dictErase s n k d) := by
  unfold dictErase
  refine .bind inferInstance fun x hx => ?_
  obtain ⟨x, y, z⟩ := x
  saturate
  infer_instance

end Fuel
