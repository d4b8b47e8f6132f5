import Verif.LemPrim
import Verif.PropsArith
/-!
# Properties of the list functions (C20 - C24)

`callPrim (run k) b args sid` is the call of builtin function `b` with evaluated arguments `args` from scope `sid`
with step budget `k`.
-/

set_option linter.unusedSectionVars false
set_option linter.unusedSimpArgs false

namespace Fuel

open Spec

variable [World]

theorem mkVariant_elem {p : Ptr} (h : IsElem p) : ∃ v, mkVariant p = .ok v ∧ Denotes p v := by
  obtain ⟨w, h⟩ := h
  cases h with
  | value => exact ⟨_, rfl, .value⟩
  | list h => exact ⟨_, rfl, .list ⟨rfl, rfl⟩⟩
  | int h => exact ⟨_, rfl, .int ⟨rfl, _, rfl⟩⟩
  | dbl h => exact ⟨_, rfl, .dbl ⟨rfl, _, rfl⟩⟩
  | str h => exact ⟨_, rfl, .str ⟨rfl, _, rfl⟩⟩
  | bool h => exact ⟨_, rfl, .bool ⟨rfl, _, rfl⟩⟩

theorem listOrNil_types {st : St} {v : Variant} {l : List Ptr} (h : IsListOrNil st v l) : v.type ≠ .string ∧ v.type ≠ .native := by
  rcases h with ⟨i, ⟨h, _⟩, _⟩ | ⟨h, _⟩
  · simp [h]
  · rw [IsNil] at h; simp [h]

theorem sizeT_ofNat {i : Nat} (h : IsInt32 i) : sizeT (i : Int) = i := by
  obtain ⟨_, h⟩ := h
  have h1 : ((i : Int) % 18446744073709551616) = i := Int.emod_eq_of_lt (by omega) (by omega)
  rw [sizeT, h1]; rfl

/-! ## C20 constructors and selectors -/

/-- C20: `(list a ...)` is a new list of exactly its arguments. -/
theorem C20_list (k : Nat) (args : List Ptr) (sid : Nat) (st : St) :
    Returns (callPrim (run k) .list args sid) st fun v st' => IsList st' v args ∧ Extends st st' :=
  returns_list args rfl fun _ _ he hi => ⟨hi, he⟩

/-- C20: `(cons x l)` is a new list with `x` in front of the elements of `l`. -/
theorem C20_cons (k : Nat) {x q : Ptr} {l : List Ptr} (sid : Nat) (st : St) (hq : Holds q (IsListOrNil st · l)) :
    Returns (callPrim (run k) .cons [x, q] sid) st fun v st' => IsList st' v (x :: l) ∧ Extends st st' := by
  obtain ⟨i, w, rfl, hw⟩ := hq
  refine returns_list (x :: l) ?_ fun _ _ he hi => ⟨hi, he⟩
  simp [callPrim, bCons, ret, toVariant_var, isList_of hw, M.rd_apply, listValue_list hw]

/-- C20: `(first l)` is the first element of a non-empty list. -/
theorem C20_first (k : Nat) {q x : Ptr} {l : List Ptr} (sid : Nat) (st : St) (hq : Holds q (IsListOrNil st · (x :: l)))
    (hx : IsElem x) (hs : (st.scopes sid).needsLValue = false) :
    Returns (callPrim (run k) .first [q] sid) st fun v st' => Denotes x v ∧ st' = st := by
  obtain ⟨i, w, rfl, hw⟩ := hq
  obtain ⟨v, hv, hd⟩ := mkVariant_elem hx
  refine ⟨v, st, ?_, hd, rfl⟩
  simp [callPrim, bFirst, ret, checkArgs, arg, toVariant_var, (listOrNil_types hw).1, hs, M.rd_apply, listValue_list hw, hv]

/-- C20: `(rest l)` is a new list of the elements after the first. -/
theorem C20_rest (k : Nat) {q x : Ptr} {l : List Ptr} (sid : Nat) (st : St) (hq : Holds q (IsListOrNil st · (x :: l))) :
    Returns (callPrim (run k) .rest [q] sid) st fun v st' => IsList st' v l ∧ Extends st st' := by
  obtain ⟨i, w, rfl, hw⟩ := hq
  refine returns_list l ?_ fun _ _ he hi => ⟨hi, he⟩
  simp [callPrim, bRest, ret, checkArgs, argV, arg, toVariant_var, (listOrNil_types hw).1, M.rd_apply, listValue_list hw]

/-- C20: `(last l)` is the last element of a non-empty list. -/
theorem C20_last (k : Nat) {q x : Ptr} {l : List Ptr} (sid : Nat) (st : St) (hq : Holds q (IsListOrNil st · (l ++ [x])))
    (hx : IsElem x) (hs : (st.scopes sid).needsLValue = false) :
    Returns (callPrim (run k) .last [q] sid) st fun v st' => Denotes x v ∧ st' = st := by
  obtain ⟨i, w, rfl, hw⟩ := hq
  obtain ⟨v, hv, hd⟩ := mkVariant_elem hx
  refine ⟨v, st, ?_, hd, rfl⟩
  simp [callPrim, bLast, ret, checkArgs, arg, toVariant_var, (listOrNil_types hw).1, hs, M.rd_apply, listValue_list hw, hv]

/-- C20: on the empty list `first`, `last` and `rest` have undefined behaviour; no exception is raised. -/
theorem C20_empty (k : Nat) {q : Ptr} (sid : Nat) (st : St) (hq : Holds q (IsListOrNil st · [])) (hs : (st.scopes sid).needsLValue = false) :
    ∀ b ∈ [Builtin.first, .last, .rest], callPrim (run k) b [q] sid st = .fail (.ub .index) st := by
  obtain ⟨i, w, rfl, hw⟩ := hq
  intro b hb
  simp only [List.mem_cons, List.not_mem_nil, or_false] at hb
  rcases hb with rfl | rfl | rfl
  · simp [callPrim, bFirst, ret, checkArgs, arg, toVariant_var, (listOrNil_types hw).1, hs, M.rd_apply, listValue_list hw]
  · simp [callPrim, bLast, ret, checkArgs, arg, toVariant_var, (listOrNil_types hw).1, hs, M.rd_apply, listValue_list hw]
  · simp [callPrim, bRest, ret, checkArgs, argV, arg, toVariant_var, (listOrNil_types hw).1, hs, M.rd_apply, listValue_list hw]

/-- C20: a position that the list does not have gives undefined behaviour. -/
theorem C20_nth_outside (k : Nat) {p q : Ptr} {l : List Ptr} {i : Int} (sid : Nat) (st : St) (hp : Holds p (IsInt · i)) (hi : IsInt32 i)
    (hq : Holds q (IsListOrNil st · l)) (hl : l.length < 9223372036854775808) (ho : i < 0 ∨ l.length ≤ i) (hs : (st.scopes sid).needsLValue = false) :
    callPrim (run k) .nth [p, q] sid st = .fail (.ub .index) st := by
  obtain ⟨j, w, rfl, hw⟩ := hq
  obtain ⟨_, u, rfl, hu⟩ := hp
  have : l[sizeT i]? = none := by
    rw [List.getElem?_eq_none_iff]
    unfold IsInt32 at hi
    unfold sizeT
    omega
  simp [callPrim, bNth, ret, checkArgs, argV, arg, toVariant_var, (listOrNil_types hw).1, hs, M.rd_apply, listValue_list hw,
    intValue_int hu, this]

/-- C20: `(nth i l)` is the element of `l` at position `i`, counted from 0. -/
theorem C20_nth (k : Nat) {p q x : Ptr} {l : List Ptr} {i : Nat} (sid : Nat) (st : St) (hp : Holds p (IsInt · i)) (hi : IsInt32 i)
    (hq : Holds q (IsListOrNil st · l)) (hl : l[i]? = some x)
    (hx : IsElem x) (hs : (st.scopes sid).needsLValue = false) :
    Returns (callPrim (run k) .nth [p, q] sid) st fun v st' => Denotes x v ∧ st' = st := by
  obtain ⟨j, w, rfl, hw⟩ := hq
  obtain ⟨_, u, rfl, hu⟩ := hp
  obtain ⟨v, hv, hd⟩ := mkVariant_elem hx
  refine ⟨v, st, ?_, hd, rfl⟩
  simp [callPrim, bNth, ret, checkArgs, argV, arg, toVariant_var, (listOrNil_types hw).1, hs, M.rd_apply, listValue_list hw, hv,
    intValue_int hu, sizeT_ofNat hi, hl]

/-- C20: `(len l)` is the number of elements. -/
theorem C20_len (k : Nat) {q : Ptr} {l : List Ptr} (sid : Nat) (st : St) (hq : Holds q (IsListOrNil st · l))
    (hn : IsInt32 l.length) :
    Returns (callPrim (run k) .len [q] sid) st fun v st' => IsInt v l.length ∧ Extends st st' := by
  obtain ⟨i, w, rfl, hw⟩ := hq
  refine returns_int l.length ?_ fun _ _ he hi => ⟨hi, he⟩
  simp [callPrim, bLen, lenRest, ret, checkArgs, argV, arg, toVariant_var, listOrNil_types hw, M.rd_apply, listValue_list hw,
    wrap32_id hn]

theorem appendLoop_lists {st : St} {n : Nat} {args : List Ptr} {ls : List (List Ptr)}
    (h : Each (fun q l => Holds q (IsListOrNil st · l)) args ls) : appendLoop st n args = .ok ls.flatten := by
  induction h with
  | nil => rfl
  | cons hp h ih =>
    obtain ⟨i, w, rfl, hw⟩ := hp
    simp [appendLoop, toVariant_var, listValue_list hw, ih]

/-- C20: `(append l1 l2 ...)` is a new list of the elements of all lists in order. -/
theorem C20_append (k : Nat) {args : List Ptr} {ls : List (List Ptr)} (sid : Nat) (st : St)
    (h : Each (fun q l => Holds q (IsListOrNil st · l)) args ls) :
    Returns (callPrim (run k) .append args sid) st fun v st' => IsList st' v ls.flatten ∧ Extends st st' := by
  refine returns_list ls.flatten ?_ fun _ _ he hi => ⟨hi, he⟩
  simp [callPrim, bAppend, ret, M.rd_apply, appendLoop_lists h]

/-- C20: `(reverse l)` is a new list of the elements in reverse order. -/
theorem C20_reverse (k : Nat) {q : Ptr} {l : List Ptr} (sid : Nat) (st : St) (hq : Holds q (IsListOrNil st · l)) :
    Returns (callPrim (run k) .reverse [q] sid) st fun v st' => IsList st' v l.reverse ∧ Extends st st' := by
  obtain ⟨i, w, rfl, hw⟩ := hq
  refine returns_list l.reverse ?_ fun _ _ he hi => ⟨hi, he⟩
  simp [callPrim, bReverse, ret, checkArgs, argV, arg, toVariant_var, (listOrNil_types hw).1, M.rd_apply, listValue_list hw]

/-- C20: `(first (cons x l))` is `x`. -/
theorem C20_first_cons (k : Nat) {x q : Ptr} {l : List Ptr} (sid : Nat) (st : St) (hx : IsElem x)
    (hq : Holds q (IsListOrNil st · l)) (hsid : sid < st.next) (hs : (st.scopes sid).needsLValue = false) :
    Returns (callPrim (run k) .cons [x, q] sid) st fun c st' =>
      ∀ p, Holds p (· = c) → Returns (callPrim (run k) .first [p] sid) st' fun v _ => Denotes x v := by
  obtain ⟨c, st', h1, h2, h3⟩ := C20_cons k (x := x) sid st hq
  refine ⟨c, st', h1, fun p hp => ?_⟩
  obtain ⟨i, _, rfl, rfl⟩ := hp
  obtain ⟨v, st'', h4, h5, _⟩ := C20_first k sid st' ⟨i, _, rfl, .inl h2⟩ hx (by rw [h3.scopes sid hsid]; exact hs)
  exact ⟨v, st'', h4, h5⟩

/-- C20: `(rest (cons x l))` has the elements of `l`. -/
theorem C20_rest_cons (k : Nat) {x q : Ptr} {l : List Ptr} (sid : Nat) (st : St) (hq : Holds q (IsListOrNil st · l)) :
    Returns (callPrim (run k) .cons [x, q] sid) st fun c st' =>
      ∀ p, Holds p (· = c) → Returns (callPrim (run k) .rest [p] sid) st' fun v st'' => IsList st'' v l := by
  obtain ⟨c, st', h1, h2, h3⟩ := C20_cons k (x := x) sid st hq
  refine ⟨c, st', h1, fun p hp => ?_⟩
  obtain ⟨i, _, rfl, rfl⟩ := hp
  obtain ⟨v, st'', h4, h5, _⟩ := C20_rest k sid st' ⟨i, _, rfl, .inl h2⟩
  exact ⟨v, st'', h4, h5⟩

/-- C20: the length of `(append a b)` is the sum of the lengths. -/
theorem C20_len_append (k : Nat) {p q : Ptr} {a b : List Ptr} (sid : Nat) (st : St) (hp : Holds p (IsListOrNil st · a))
    (hq : Holds q (IsListOrNil st · b)) (hn : IsInt32 (a.length + b.length)) :
    Returns (callPrim (run k) .append [p, q] sid) st fun c st' =>
      ∀ p, Holds p (· = c) → Returns (callPrim (run k) .len [p] sid) st' fun v _ => IsInt v (a.length + b.length) := by
  obtain ⟨c, st', h1, h2, h3⟩ := C20_append k sid st (.cons hp (.cons hq .nil))
  refine ⟨c, st', h1, fun p hp => ?_⟩
  obtain ⟨i, _, rfl, rfl⟩ := hp
  obtain ⟨v, st'', h4, h5, _⟩ := C20_len k sid st' ⟨i, _, rfl, .inl h2⟩ (by simpa using hn)
  refine ⟨v, st'', h4, ?_⟩
  simp at h5
  exact h5

/-- C20: position `i` of `(append a b)` is position `i` of `a`, or position `i - len a` of `b`. -/
theorem C20_nth_append (k : Nat) {p q n x : Ptr} {a b : List Ptr} {i : Nat} (sid : Nat) (st : St)
    (hp : Holds p (IsListOrNil st · a)) (hq : Holds q (IsListOrNil st · b)) (hn : Holds n (IsInt · i)) (hi : IsInt32 i)
    (hx : (if i < a.length then a[i]? else b[i - a.length]?) = some x) (he : IsElem x) (hsid : sid < st.next)
    (hs : (st.scopes sid).needsLValue = false) :
    Returns (callPrim (run k) .append [p, q] sid) st fun c st' =>
      ∀ p, Holds p (· = c) → Returns (callPrim (run k) .nth [n, p] sid) st' fun v _ => Denotes x v := by
  obtain ⟨c, st', h1, h2, h3⟩ := C20_append k sid st (.cons hp (.cons hq .nil))
  refine ⟨c, st', h1, fun p hp => ?_⟩
  obtain ⟨j, _, rfl, rfl⟩ := hp
  obtain ⟨v, st'', h4, h5, _⟩ := C20_nth k sid st' hn hi ⟨j, _, rfl, .inl h2⟩
    (by simpa [List.getElem?_append] using hx) he (by rw [h3.scopes sid hsid]; exact hs)
  exact ⟨v, st'', h4, h5⟩

/-- C20: reversing a list twice gives a list with the original elements. -/
theorem C20_reverse_reverse (k : Nat) {q : Ptr} {l : List Ptr} (sid : Nat) (st : St) (hq : Holds q (IsListOrNil st · l)) :
    Returns (callPrim (run k) .reverse [q] sid) st fun c st' =>
      ∀ p, Holds p (· = c) → Returns (callPrim (run k) .reverse [p] sid) st' fun v st'' => IsList st'' v l := by
  obtain ⟨c, st', h1, h2, h3⟩ := C20_reverse k sid st hq
  refine ⟨c, st', h1, fun p hp => ?_⟩
  obtain ⟨i, _, rfl, rfl⟩ := hp
  obtain ⟨v, st'', h4, h5, _⟩ := C20_reverse k sid st' ⟨i, _, rfl, .inl h2⟩
  refine ⟨v, st'', h4, ?_⟩
  simpa using h5

/-- An example state: object 1 is the list (7 "x"), reachable through the value `listArg 0`. -/
def listSt : St := { next := 100, lists := fun i => if i = 1 then [intArg 10 7, strArg 20 c!"x"] else [] }

/-- A value that is list object `i + 1`. -/
def listArg (i : Nat) : Ptr := .mk i (.var ⟨.list, .mk (i + 1) .list, .none, none⟩)

theorem listArg_holds (st : St) (i : Nat) : Holds (listArg i) (IsListOrNil st · (st.lists (i + 1))) :=
  ⟨_, _, rfl, .inl ⟨_, ⟨rfl, rfl⟩, rfl⟩⟩

example : Holds (listArg 0) (IsListOrNil listSt · [intArg 10 7, strArg 20 c!"x"]) ∧ IsElem (intArg 10 7) ∧
    IsElem (strArg 20 c!"x") ∧ IsInt32 1 ∧ Holds (intArg 30 1) (IsInt · 1) ∧ (listSt.scopes 5).needsLValue = false ∧
    [intArg 10 7, strArg 20 c!"x"][1]? = some (strArg 20 c!"x") ∧ 5 < listSt.next :=
  ⟨listArg_holds listSt 0, ⟨_, .value⟩, ⟨_, .value⟩, by decide, intArg_holds _ _, rfl, rfl, by decide⟩

/-! ## C21 map and reduce -/

theorem copyObj_elem {e : Ptr} (h : IsElem e) (s : St) :
    ∃ c s', copyObj e s = .ok c s' ∧ Extends s s' ∧ CopyOf s s' e c := by
  obtain ⟨v, h⟩ := h
  cases h with
  | value => exact ⟨_, _, rfl, extends_next _ _ (Nat.le_succ _), .value⟩
  | list h => exact ⟨_, _, rfl, extends_list _ _, .list (by simp)⟩
  | int h => exact ⟨_, _, rfl, extends_next _ _ (Nat.le_succ _), .int⟩
  | dbl h => exact ⟨_, _, rfl, extends_next _ _ (Nat.le_succ _), .dbl⟩
  | str h => exact ⟨_, _, rfl, extends_next _ _ (Nat.le_succ _), .str⟩
  | bool h => exact ⟨_, _, rfl, extends_next _ _ (Nat.le_succ _), .bool⟩

theorem mapCalls_ext {f : List Ptr → M (Option Variant)} {l s s' vs s2} (he : Extends s s') 
    (h : MapCalls f l s' vs s2) (hl : l ≠ []) (hc : ∀ s0 e c, CopyOf s' s0 e c → CopyOf s s0 e c) : MapCalls f l s vs s2 := by
  cases h with
  | nil => exact absurd rfl hl
  | cons h1 h2 h3 h4 h5 => exact .cons (he.trans h1) (hc _ _ _ h2) h3 h4 h5

/-- Outcome of the loop of `map`. -/
theorem mapLoop_spec (r : Rec) (fw : FnW) (sid : Nat) {l : List Ptr} (hl : ∀ e ∈ l, IsElem e) (s : St) :
    match mapLoop r fw sid l s with
    | .ok ps s' => ∃ vs s1, MapCalls (r.call fw · sid) l s vs s1 ∧ Each (fun p v => Holds p (· = v)) ps vs ∧ s' = s1
    | .fail f s' => ∃ l1 e l2 vs s1 s0 c, l = l1 ++ e :: l2 ∧ MapCalls (r.call fw · sid) l1 s vs s1 ∧ Extends s1 s0 ∧
        CopyOf s1 s0 e c ∧ (r.call fw [c] sid s0 = .fail f s' ∨ (r.call fw [c] sid s0 = .ok none s' ∧ f = .ub .nullDeref)) := by
  induction l generalizing s with
  | nil => exact ⟨[], s, .nil, .nil, rfl⟩
  | cons e t ih =>
    obtain ⟨c, s0, h1, h2, h3⟩ := copyObj_elem (hl e (by simp)) s
    simp only [mapLoop, M.bind_apply, h1]
    cases hcall : r.call fw [c] sid s0 with
    | fail f s' => exact ⟨[], e, t, [], s, s0, c, rfl, .nil, h2, h3, .inl hcall⟩
    | ok o s1 =>
      cases o with
      | none => exact ⟨[], e, t, [], s, s0, c, rfl, .nil, h2, h3, .inr ⟨hcall, rfl⟩⟩
      | some v =>
        simp only [derefV, M.pure_apply, box_apply]
        have := ih (fun e he => hl e (by simp [he])) { s1 with next := s1.next + 1 }
        have hx : Extends s1 { s1 with next := s1.next + 1 } := extends_next _ _ (Nat.le_succ _)
        cases hm : mapLoop r fw sid t { s1 with next := s1.next + 1 } with
        | ok ps s' =>
          rw [hm] at this
          obtain ⟨vs, s2, h4, h5, h6⟩ := this
          exact ⟨v :: vs, s2, .cons h2 h3 hcall hx h4, .cons ⟨_, _, rfl, rfl⟩ h5, h6⟩
        | fail f s' =>
          rw [hm] at this
          obtain ⟨l1, e', l2, vs, s2, s3, c', rfl, h4, h5⟩ := this
          exact ⟨e :: l1, e', l2, v :: vs, s2, s3, c', rfl, .cons h2 h3 hcall hx h4, h5⟩

/-- A list argument of `map` and `reduce`. -/
theorem checkForList_list {st : St} {q : Ptr} {l : List Ptr} (n : Nat) (name : Str) (sid : Nat)
    (hq : Holds q (IsListOrNil st · l)) : checkForList n name q sid st = .ok l st := by
  obtain ⟨i, w, rfl, hw⟩ := hq
  simp [checkForList, toVariant_var, (listOrNil_types hw).2, isList_of hw, M.rd_apply, listValue_list hw]

theorem checkForFunction_fn {st : St} {q : Ptr} {f : FnW} (n : Nat) (name : Str) (sid : Nat)
    (hq : Holds q (IsFn · f)) : checkForFunction n name q sid st = .ok f st := by
  obtain ⟨i, w, rfl, hw⟩ := hq
  simp [checkForFunction, toVariant_var, hw.1, M.rd_apply, functionValue_fn hw]

/-- C21: `(map f l)` calls `f` once for every element of `l`, from left to right.  If all calls return a value, it returns
a list of these values in the same order.  Otherwise it stops at the first call that fails and fails in the same way
(if a call returns no value at all, the behaviour of the program is undefined). -/
theorem C21_map (k : Nat) {p q : Ptr} {f : FnW} {l : List Ptr} (sid : Nat) (st : St) (hp : Holds p (IsFn · f))
    (hq : Holds q (IsListOrNil st · l)) (hl : ∀ e ∈ l, IsElem e) :
    (∃ vs ps st1, MapCalls ((run k).call f · sid) l st vs st1 ∧ Each (fun p v => Holds p (· = v)) ps vs ∧
      Returns (callPrim (run k) .map [p, q] sid) st fun v st' => IsList st' v ps ∧ Extends st1 st') ∨
    (∃ l1 e l2 vs st1 st0 c, l = l1 ++ e :: l2 ∧ MapCalls ((run k).call f · sid) l1 st vs st1 ∧ Extends st1 st0 ∧
      CopyOf st1 st0 e c ∧ ∃ g st', callPrim (run k) .map [p, q] sid st = .fail g st' ∧
        ((run k).call f [c] sid st0 = .fail g st' ∨ ((run k).call f [c] sid st0 = .ok none st' ∧ g = .ub .nullDeref))) := by
  have hm : callPrim (run k) .map [p, q] sid st = (do let l ← mapLoop (run k) f sid l; ret (mkList l)) st := by
    simp only [callPrim, ret, bMap, M.bind_apply, checkArgs, arg, List.length_cons, List.length_nil, if_true, M.pure_apply,
      List.getElem?_cons_zero, List.getElem?_cons_succ, checkForFunction_fn _ _ _ hp, checkForList_list _ _ _ hq]
    cases mapLoop (run k) f sid l st <;> simp
  have := mapLoop_spec (run k) f sid hl st
  simp only [M.bind_apply] at hm
  cases h : mapLoop (run k) f sid l st with
  | ok ps s' =>
    rw [h] at this hm
    obtain ⟨vs, s1, h1, h2, rfl⟩ := this
    exact .inl ⟨vs, ps, s', h1, h2, _, _, hm, ⟨_, ⟨rfl, rfl⟩, by simp⟩, extends_list _ _⟩
  | fail g s' =>
    rw [h] at this hm
    obtain ⟨l1, e, l2, vs, s1, s0, c, h1, h2, h3, h4, h5⟩ := this
    exact .inr ⟨l1, e, l2, vs, s1, s0, c, h1, h2, h3, h4, g, s', hm, h5⟩

/-- Outcome of the loop of `reduce`. -/
theorem reduceLoop_spec (r : Rec) (fw : FnW) (sid : Nat) {l : List Ptr} (hl : ∀ e ∈ l, IsElem e) (a : Variant) (s : St) :
    match reduceLoop r fw sid a l s with
    | .ok w s' => FoldCalls (r.call fw · sid) a l s w s'
    | .fail f s' => ∃ l1 e l2 b s1 s0 c d, l = l1 ++ e :: l2 ∧ FoldCalls (r.call fw · sid) a l1 s b s1 ∧ Extends s1 s0 ∧
        CopyOf s1 s0 e c ∧ Holds d (· = b) ∧
        (r.call fw [c, d] sid s0 = .fail f s' ∨ (r.call fw [c, d] sid s0 = .ok none s' ∧ f = .ub .nullDeref)) := by
  induction l generalizing a s with
  | nil => exact .nil
  | cons e t ih =>
    obtain ⟨c, s0, h1, h2, h3⟩ := copyObj_elem (hl e (by simp)) s
    simp only [reduceLoop, M.bind_apply, h1, box_apply]
    have h2' : Extends s { s0 with next := s0.next + 1 } := h2.trans (extends_next _ _ (Nat.le_succ _))
    have h3' : CopyOf s { s0 with next := s0.next + 1 } e c := by
      cases h3 <;> constructor
      assumption
    cases hcall : r.call fw [c, .mk s0.next (.var a)] sid { s0 with next := s0.next + 1 } with
    | fail f s' => exact ⟨[], e, t, a, s, _, c, _, rfl, .nil, h2', h3', ⟨_, _, rfl, rfl⟩, .inl hcall⟩
    | ok o s1 =>
      cases o with
      | none => exact ⟨[], e, t, a, s, _, c, _, rfl, .nil, h2', h3', ⟨_, _, rfl, rfl⟩, .inr ⟨hcall, rfl⟩⟩
      | some v =>
        simp only [derefV, M.pure_apply, box_apply]
        have := ih (fun e he => hl e (by simp [he])) v s1
        cases hm : reduceLoop r fw sid v t s1 with
        | ok w s' =>
          rw [hm] at this
          exact .cons h2' h3' ⟨_, _, rfl, rfl⟩ hcall this
        | fail f s' =>
          rw [hm] at this
          obtain ⟨l1, e', l2, vs, s2, s3, c', d, rfl, h4, h5⟩ := this
          exact ⟨e :: l1, e', l2, vs, s2, s3, c', d, rfl, .cons h2' h3' ⟨_, _, rfl, rfl⟩ hcall h4, h5⟩

/-- C21: `(reduce f l init)` calls `f` once for every element of `l`, from left to right, with the element and the result
of the previous call (`init` at first), and returns the last result; `init` if the list is empty.  It stops at the first
call that fails. -/
theorem C21_reduce (k : Nat) {p q c : Ptr} {f : FnW} {l : List Ptr} {a : Variant} (sid : Nat) (st : St)
    (hp : Holds p (IsFn · f)) (hq : Holds q (IsListOrNil st · l)) (hc : Holds c (· = a)) (hl : ∀ e ∈ l, IsElem e) :
    (∃ w st', FoldCalls ((run k).call f · sid) a l st w st' ∧ callPrim (run k) .reduce [p, q, c] sid st = .ok (some w) st') ∨
    (∃ l1 e l2 b st1 st0 c' d, l = l1 ++ e :: l2 ∧ FoldCalls ((run k).call f · sid) a l1 st b st1 ∧ Extends st1 st0 ∧
      CopyOf st1 st0 e c' ∧ Holds d (· = b) ∧ ∃ g st', callPrim (run k) .reduce [p, q, c] sid st = .fail g st' ∧
        ((run k).call f [c', d] sid st0 = .fail g st' ∨
          ((run k).call f [c', d] sid st0 = .ok none st' ∧ g = .ub .nullDeref))) := by
  obtain ⟨i, a, rfl, rfl⟩ := hc
  have hm : callPrim (run k) .reduce [p, q, .mk i (.var a)] sid st = ret (reduceLoop (run k) f sid a l) st := by
    simp only [callPrim, ret, bReduce, M.bind_apply, checkArgs, arg, argV, List.length_cons, List.length_nil, if_true, M.pure_apply,
      List.getElem?_cons_zero, List.getElem?_cons_succ, checkForFunction_fn _ _ _ hp, checkForList_list _ _ _ hq, toVariant_var,
      M.lift_ok]
  have := reduceLoop_spec (run k) f sid hl a st
  simp only [ret, M.bind_apply] at hm
  cases h : reduceLoop (run k) f sid a l st with
  | ok w s' =>
    rw [h] at this hm
    exact .inl ⟨w, s', this, hm⟩
  | fail g s' =>
    rw [h] at this hm
    obtain ⟨l1, e, l2, b, s1, s0, c', d, h1, h2, h3, h4, h5, h6⟩ := this
    exact .inr ⟨l1, e, l2, b, s1, s0, c', d, h1, h2, h3, h4, h5, g, s', hm, h6⟩

/-- The function `first` as an evaluated argument. -/
def fnArg (i : Nat) (b : Builtin) : Ptr := .mk i (.var ⟨.function, .mk (i + 1) (.fn ⟨.prim b, [], [], [], true, false, false⟩), .none, none⟩)

example : Holds (fnArg 0 .str) (IsFn · ⟨.prim .str, [], [], [], true, false, false⟩) ∧
    Holds (listArg 0) (IsListOrNil listSt · [intArg 10 7, strArg 20 c!"x"]) ∧
    (∀ e ∈ [intArg 10 7, strArg 20 c!"x"], IsElem e) ∧
    ∃ vs st1, MapCalls ((run 5).call ⟨.prim .str, [], [], [], true, false, false⟩ · 5) [intArg 10 7, strArg 20 c!"x"] listSt vs st1 :=
  ⟨⟨_, _, rfl, rfl, _, rfl⟩, listArg_holds listSt 0, by simp only [List.mem_cons, List.not_mem_nil, or_false]; rintro e (rfl | rfl) <;> exact ⟨_, .value⟩,
    _, _, .cons (c := .mk 50 (.var _)) (Extends.refl _) .value rfl (Extends.refl _) (.cons (c := .mk 60 (.var _)) (Extends.refl _) .value rfl (Extends.refl _) .nil)⟩

/-! ## C22 no modification -/

/-- C22: the read-only functions leave every list, dictionary, function and variable that existed before unchanged,
and neither read nor write anything, whatever their arguments are and however the call ends. -/
theorem C22_readOnly (k : Nat) {b : Builtin} (hb : b ∈ readOnly) (args : List Ptr) (sid : Nat) (st : St) :
    match callPrim (run k) b args sid st with
    | .ok _ st' => Extends st st'
    | .fail _ st' => Extends st st' := by
  have := (pres_readOnly (run k) hb args sid).rel st
  cases h : callPrim (run k) b args sid st <;> rw [h] at this <;> exact this

example : Builtin.append ∈ readOnly ∧ Builtin.reverse ∈ readOnly ∧ Builtin.push ∉ readOnly := by decide

/-! ## C23 push and pop -/

theorem onlyList_set (st : St) (i n : Nat) (h : st.next ≤ n) (l : List Ptr) :
    OnlyList i st { st with next := n, lists := fset st.lists i l } := by
  constructor <;> simp [h]
  intro j _ hj
  exact fset_ne _ _ hj

theorem onlyList_trans {i : Nat} {a b c : St} (h : OnlyList i a b) (g : Extends b c) : OnlyList i a c where
  next := Nat.le_trans h.next g.next
  lists j hj hi := by rw [g.lists j (Nat.lt_of_lt_of_le hj h.next), h.lists j hj hi]
  dicts i hi := by rw [g.dicts i (Nat.lt_of_lt_of_le hi h.next), h.dicts i hi]
  clos i hi := by rw [g.clos i (Nat.lt_of_lt_of_le hi h.next), h.clos i hi]
  scopes i hi := by rw [g.scopes i (Nat.lt_of_lt_of_le hi h.next), h.scopes i hi]
  out := by rw [g.out, h.out]
  input := by rw [g.input, h.input]
  files := by rw [g.files, h.files]
  clock := by rw [g.clock, h.clock]
  libPath := by rw [g.libPath, h.libPath]

/-- An optional position: absent (0) or an integer. -/
def IsPos (ps : List Ptr) (i : Int) : Prop := (ps = [] ∧ i = 0) ∨ ∃ p, ps = [p] ∧ Holds p (IsInt · i)

/-- C23: `(push e l i)` with `0 ≤ i < len l` (`i` is 0 if absent) inserts `e` at position `i` of the list object itself, so that the change
is visible through every reference to this object, changes nothing else and returns a list with the new elements. -/
theorem C23_push (k : Nat) {e q : Ptr} {ps : List Ptr} {v w : Variant} {j i : Nat} (sid : Nat) (st : St) (he : Holds e (· = v))
    (hq : Holds q (· = w)) (hw : IsListAt w j) (hj : j < st.next) (hps : IsPos ps i) (hi : i < (st.lists j).length) :
    Returns (callPrim (run k) .push (e :: q :: ps) sid) st fun r st' => ∃ x, Holds x (· = v) ∧
      st'.lists j = (st.lists j).take i ++ x :: (st.lists j).drop i ∧ IsList st' r (st'.lists j) ∧ OnlyList j st st' := by
  obtain ⟨ie, v, rfl, rfl⟩ := he
  obtain ⟨iq, w, rfl, rfl⟩ := hq
  have hl : IsListOrNil st w (st.lists j) := .inl ⟨j, hw, rfl⟩
  have hpos : ∀ a b : Ptr, optPos (run k).n (a :: b :: ps) 2 st = .ok (i : Int) st := by
    intro a b
    rcases hps with ⟨rfl, h⟩ | ⟨p, rfl, _, u, rfl, hu⟩
    · simp [optPos, h]
    · simp [optPos, argV, arg, toVariant_var, M.rd_apply, toInt_int hu]
  have hargs : ∀ a b : Ptr, checkOptionalArgs c!"push" 2 3 (a :: b :: ps) sid = pure () := by
    intro a b
    apply checkOptionalArgs_ok
    rcases hps with ⟨rfl, _⟩ | ⟨p, rfl, _⟩ <;> simp
  have h1 : ((i : Int) < ((st.lists j).length : Int)) := by omega
  have h2 : ¬ ((i : Int) < 0) := by omega
  have hne : j ≠ st.next + 1 := by omega
  let l' := (st.lists j).take i ++ .mk st.next (.var v) :: (st.lists j).drop i
  let st1 : St := { st with next := st.next + 1, lists := fset st.lists j l' }
  have hr : callPrim (run k) .push (.mk ie (.var v) :: .mk iq (.var w) :: ps) sid st = ret (mkList l') st1 := by
    simp [callPrim, ret, bPush, hargs, argV, arg, toVariant_var, hpos, isList_of hl, M.rd_apply, listValue_list hl, h1, h2, hw.2,
      setList, st1, l', hi]
  have hl' : fset st1.lists st1.next l' j = l' := by rw [fset_ne _ _ (by show j ≠ st.next + 1; omega)]; simp [st1]
  refine ⟨_, _, hr, .mk st.next (.var v), ⟨_, _, rfl, rfl⟩, hl', ⟨_, ⟨rfl, rfl⟩, ?_⟩, ?_⟩
  · simp only [hl']; simp
  · exact onlyList_trans (onlyList_set st j _ (Nat.le_succ _) l') (extends_list st1 l')

/-- C23: pushing at a position at or behind the end (in particular onto an empty list or NIL) changes nothing and
returns NIL. -/
theorem C23_push_end (k : Nat) {e q : Ptr} {ps l : List Ptr} {v : Variant} {i : Int} (sid : Nat) (st : St) (he : Holds e (· = v))
    (hq : Holds q (IsListOrNil st · l)) (hps : IsPos ps i) (hi : l.length ≤ i) :
    Returns (callPrim (run k) .push (e :: q :: ps) sid) st fun r st' => IsNil r ∧ st' = st := by
  obtain ⟨ie, v, rfl, rfl⟩ := he
  obtain ⟨_, w, rfl, hl⟩ := hq
  have hpos : ∀ a b : Ptr, optPos (run k).n (a :: b :: ps) 2 st = .ok i st := by
    intro a b
    rcases hps with ⟨rfl, h⟩ | ⟨p, rfl, _, u, rfl, hu⟩
    · simp [optPos, h]
    · simp [optPos, argV, arg, toVariant_var, M.rd_apply, toInt_int hu]
  have hargs : ∀ a b : Ptr, checkOptionalArgs c!"push" 2 3 (a :: b :: ps) sid = pure () := by
    intro a b
    apply checkOptionalArgs_ok
    rcases hps with ⟨rfl, _⟩ | ⟨p, rfl, _⟩ <;> simp
  have h1 : ¬ (i < (l.length : Int)) := by omega
  refine ⟨nilV, st, ?_, rfl, rfl⟩
  simp [callPrim, ret, bPush, hargs, argV, arg, toVariant_var, hpos, isList_of hl, M.rd_apply, listValue_list hl, h1]

/-- C23: `(pop l i)` with `0 ≤ i < len l` (`i` is 0 if absent) removes the element at position `i` from the list object itself,
changes nothing else and returns the removed element. -/
theorem C23_pop (k : Nat) {q x : Ptr} {ps : List Ptr} {w : Variant} {j i : Nat} (sid : Nat) (st : St)
    (hq : Holds q (· = w)) (hw : IsListAt w j) (hps : IsPos ps i) (hi : (st.lists j)[i]? = some x) (hx : IsElem x) :
    Returns (callPrim (run k) .pop (q :: ps) sid) st fun r st' => Denotes x r ∧
      st'.lists j = (st.lists j).take i ++ (st.lists j).drop (i + 1) ∧ OnlyList j st st' := by
  obtain ⟨iq, w, rfl, rfl⟩ := hq
  have hl : IsListOrNil st w (st.lists j) := .inl ⟨j, hw, rfl⟩
  have hpos : ∀ a : Ptr, optPos (run k).n (a :: ps) 1 st = .ok (i : Int) st := by
    intro a
    rcases hps with ⟨rfl, h⟩ | ⟨p, rfl, _, u, rfl, hu⟩
    · simp [optPos, h]
    · simp [optPos, argV, arg, toVariant_var, M.rd_apply, toInt_int hu]
  have hargs : ∀ a : Ptr, checkOptionalArgs c!"pop" 1 2 (a :: ps) sid = pure () := by
    intro a
    apply checkOptionalArgs_ok
    rcases hps with ⟨rfl, _⟩ | ⟨p, rfl, _⟩ <;> simp
  obtain ⟨hlt, hget⟩ := List.getElem?_eq_some_iff.1 hi
  have h1 : ((i : Int) < ((st.lists j).length : Int)) := by omega
  have h2 : ¬ ((i : Int) < 0) := by omega
  obtain ⟨v, hv, hd⟩ := mkVariant_elem hx
  let st1 : St := { st with lists := fset st.lists j ((st.lists j).take i ++ (st.lists j).drop (i + 1)) }
  refine ⟨v, st1, ?_, hd, by simp [st1], onlyList_set st j st.next (Nat.le_refl _) _⟩
  simp [callPrim, ret, bPop, hargs, arg, toVariant_var, hpos, isList_of hl, M.rd_apply, listValue_list hl, h1, h2, hw.2,
      setList, st1, hv, hlt, hget]

/-- C23: popping at a position at or behind the end changes nothing and returns NIL. -/
theorem C23_pop_end (k : Nat) {q : Ptr} {ps l : List Ptr} {i : Int} (sid : Nat) (st : St)
    (hq : Holds q (IsListOrNil st · l)) (hps : IsPos ps i) (hi : l.length ≤ i) :
    Returns (callPrim (run k) .pop (q :: ps) sid) st fun r st' => IsNil r ∧ st' = st := by
  obtain ⟨_, w, rfl, hl⟩ := hq
  have hpos : ∀ a : Ptr, optPos (run k).n (a :: ps) 1 st = .ok i st := by
    intro a
    rcases hps with ⟨rfl, h⟩ | ⟨p, rfl, _, u, rfl, hu⟩
    · simp [optPos, h]
    · simp [optPos, argV, arg, toVariant_var, M.rd_apply, toInt_int hu]
  have hargs : ∀ a : Ptr, checkOptionalArgs c!"pop" 1 2 (a :: ps) sid = pure () := by
    intro a
    apply checkOptionalArgs_ok
    rcases hps with ⟨rfl, _⟩ | ⟨p, rfl, _⟩ <;> simp
  have h1 : ¬ (i < (l.length : Int)) := by omega
  refine ⟨nilV, st, ?_, rfl, rfl⟩
  simp [callPrim, ret, bPop, hargs, arg, toVariant_var, hpos, isList_of hl, M.rd_apply, listValue_list hl, h1]

example : Holds (listArg 0) (IsListAt · 1) ∧ 1 < listSt.next ∧ IsPos [intArg 30 1] 1 ∧ IsPos [] 0 ∧ 1 < (listSt.lists 1).length ∧
    (listSt.lists 1)[1]? = some (strArg 20 c!"x") :=
  ⟨⟨_, _, rfl, rfl, rfl⟩, by decide, .inr ⟨_, rfl, intArg_holds _ _⟩, .inl ⟨rfl, rfl⟩, by decide, rfl⟩

end Fuel
