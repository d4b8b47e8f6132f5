import Verif.SpecDisplay
import Verif.PropsExpand
import Verif.PropsInfo
/-!
# Display strings (C73)
-/

set_option linter.unusedSectionVars false
set_option linter.unusedSimpArgs false
set_option linter.unusedVariables false

namespace Fuel

open Spec

variable [World]

theorem joinLoop_texts {α : Type} {f : α → R Str} {sep acc : Str} {ps : List α} {ts : List Str} (h : All2 (fun p t => f p = .ok t ∧ t ≠ []) ps ts) (ha : acc ≠ []) :
    joinLoop f sep acc ps = .ok (List.intercalate sep (acc :: ts)) := by
  induction h generalizing acc with
  | nil => simp [joinLoop, List.intercalate]
  | @cons p t ps ts hp _ ih =>
    have he : acc.isEmpty = false := by simpa using ha
    simp only [joinLoop, hp.1, bind_ok_R, he]
    rw [ih (by simp [ha])]
    cases ts <;> simp [List.intercalate, List.intersperse]

theorem joinLoop_all {α : Type} {f : α → R Str} {sep : Str} {ps : List α} {ts : List Str} (h : All2 (fun p t => f p = .ok t ∧ t ≠ []) ps ts) :
    joinLoop f sep [] ps = .ok (List.intercalate sep ts) := by
  cases h with
  | nil => rfl
  | cons hp h =>
    simp only [joinLoop, hp.1, bind_ok_R, List.isEmpty_nil, if_true, List.nil_append]
    exact joinLoop_texts h hp.2

theorem item_ne {st : St} {p : Ptr} {t : Str} (h : Item st p t) : t ≠ [] := by
  cases h with
  | text h => simp
  | value _ _ h => exact h
  | code _ => simp

/-- The texts of a value in the model. -/
def DispOk (st : St) (v : Variant) (t : Str) : Prop := ∃ K, ∀ n, K ≤ n → varStr st n v = .ok t
/-- The texts of an element in the model. -/
def ItemOk (st : St) (p : Ptr) (t : Str) : Prop := ∃ K, ∀ n, K ≤ n → expandStr st n p = .ok t ∧ ((∃ i v, p = .mk i (.var v)) → nativeStr st n p = .ok t)

theorem key_text {st : St} {v : Variant} {t : Str} (h : KeyText v t) (n : Nat) : nativeStr st (n + 2) v.value = .ok t := by
  cases h with
  | text h => obtain ⟨_, i, h⟩ := h; rw [h]; rfl
  | symbol h => obtain ⟨_, i, h⟩ := h; rw [h]; rfl
  | int h => obtain ⟨_, i, h⟩ := h; rw [h]; rfl
  | double h => obtain ⟨_, i, h⟩ := h; rw [h]; rfl
  | bool h => obtain ⟨_, i, h⟩ := h; rw [h]; rfl

theorem isStr_not {v : Variant} {s : Str} : IsStr v s → v.type = .string := fun h => h.1

mutual
theorem display_ok {st : St} {v : Variant} {t : Str} : Displays st v t → DispOk st v t
  | .undefined h => ⟨1, fun n hn => by obtain ⟨m, rfl⟩ : ∃ m, n = m + 1 := ⟨n - 1, by omega⟩; unfold IsUndef at h; simp [varStr, h]⟩
  | .nil h => ⟨1, fun n hn => by obtain ⟨m, rfl⟩ : ∃ m, n = m + 1 := ⟨n - 1, by omega⟩; unfold IsNil at h; simp [varStr, h]⟩
  | .bool h => ⟨1, fun n hn => by obtain ⟨m, rfl⟩ : ∃ m, n = m + 1 := ⟨n - 1, by omega⟩; obtain ⟨h, i, e⟩ := h; simp [varStr, h, e]⟩
  | .int h => ⟨1, fun n hn => by obtain ⟨m, rfl⟩ : ∃ m, n = m + 1 := ⟨n - 1, by omega⟩; obtain ⟨h, i, e⟩ := h; simp [varStr, h, e]⟩
  | .double h => ⟨1, fun n hn => by obtain ⟨m, rfl⟩ : ∃ m, n = m + 1 := ⟨n - 1, by omega⟩; obtain ⟨h, i, e⟩ := h; simp [varStr, h, e]⟩
  | .text h => ⟨2, fun n hn => by obtain ⟨m, rfl⟩ : ∃ m, n = m + 2 := ⟨n - 2, by omega⟩; obtain ⟨h, i, e⟩ := h; simp [varStr, h, e, ptrStr]⟩
  | .symbol h => ⟨2, fun n hn => by obtain ⟨m, rfl⟩ : ∃ m, n = m + 2 := ⟨n - 2, by omega⟩; obtain ⟨h, i, e⟩ := h; simp [varStr, h, e, ptrStr]⟩
  | .function h => ⟨1, fun n hn => by obtain ⟨m, rfl⟩ : ∃ m, n = m + 1 := ⟨n - 1, by omega⟩; obtain ⟨h, i, e⟩ := h; simp [varStr, h, e]⟩
  | .list (i := i) h hi => by
    obtain ⟨K, hK⟩ := items_ok hi
    refine ⟨K + 1, fun n hn => ?_⟩
    obtain ⟨m, rfl⟩ : ∃ m, n = m + 1 := ⟨n - 1, by omega⟩
    simp only [varStr, h.1, h.2, toEnumerable, bind_ok_R, joinLoop_all (hK m (by omega))]
  | .dict (i := i) h hi => by
    obtain ⟨K, hK⟩ := entries_ok hi
    refine ⟨K + 2, fun n hn => ?_⟩
    obtain ⟨m, rfl⟩ : ∃ m, n = m + 2 := ⟨n - 2, by omega⟩
    simp only [varStr, h.1, h.2, nativeStr]
    rw [joinLoop_all (hK m (by omega))]
    rfl
theorem item_ok {st : St} {p : Ptr} {t : Str} : Item st p t → ItemOk st p t
  | .text h => ⟨3, fun n hn => by
      obtain ⟨m, rfl⟩ : ∃ m, n = m + 3 := ⟨n - 3, by omega⟩
      obtain ⟨i, v, rfl, h, j, e⟩ := h
      constructor
      · simp [expandStr, h, varStr, e, ptrStr]
      · intro _; simp [nativeStr, h, varStr, e, ptrStr]⟩
  | .value (i := i) (v := v) hs hd _ => by
    obtain ⟨K, hK⟩ := display_ok hd
    have hne : v.type ≠ .string := by
      intro e
      cases hd with
      | text h => exact hs _ h
      | undefined h => unfold IsUndef at h; rw [h] at e; cases e
      | nil h => unfold IsNil at h; rw [h] at e; cases e
      | bool h => rw [h.1] at e; cases e
      | int h => rw [h.1] at e; cases e
      | double h => rw [h.1] at e; cases e
      | symbol h => rw [h.1] at e; cases e
      | function h => rw [h.1] at e; cases e
      | list h => rw [h.1] at e; cases e
      | dict h => rw [h.1] at e; cases e
    refine ⟨K + 2, fun n hn => ?_⟩
    obtain ⟨m, rfl⟩ : ∃ m, n = m + 2 := ⟨n - 2, by omega⟩
    constructor
    · simp [expandStr, hne, ptrStr, hK m (by omega)]
    · intro _; simp [nativeStr, hne, hK (m + 1) (by omega)]
  | .code hi => by
    obtain ⟨K, hK⟩ := items_ok hi
    refine ⟨K + 1, fun n hn => ?_⟩
    obtain ⟨m, rfl⟩ : ∃ m, n = m + 1 := ⟨n - 1, by omega⟩
    constructor
    · simp only [expandStr, joinLoop_all (hK m (by omega)), bind_ok_R]
    · rintro ⟨i, v, e⟩; cases e
theorem items_ok {st : St} {ps : List Ptr} {ts : List Str} : Items st ps ts → ∃ K, ∀ n, K ≤ n → All2 (fun p t => expandStr st n p = .ok t ∧ t ≠ []) ps ts
  | .nil => ⟨0, fun _ _ => .nil⟩
  | .cons h hs => by
    obtain ⟨K, hK⟩ := item_ok h
    obtain ⟨L, hL⟩ := items_ok hs
    exact ⟨max K L, fun n hn => .cons ⟨(hK n (by omega)).1, item_ne h⟩ (hL n (by omega))⟩
theorem entries_ok {st : St} {l : List (Variant × Ptr)} {ts : List Str} : Entries st l ts →
    ∃ K, ∀ n, K ≤ n → All2 (fun (e : Variant × Ptr) t => (do
        let a ← nativeStr st n e.1.value
        let b ← nativeStr st n e.2
        .ok (c!"[" ++ a ++ c!" : " ++ b ++ c!"]") : R Str) = .ok t ∧ t ≠ []) l ts
  | .nil => ⟨0, fun _ _ => .nil⟩
  | .cons hk h hs => by
    obtain ⟨K, hK⟩ := item_ok h
    obtain ⟨L, hL⟩ := entries_ok hs
    refine ⟨max (K + 2) L, fun n hn => .cons ⟨?_, by simp⟩ (hL n (by omega))⟩
    obtain ⟨m, rfl⟩ : ∃ m, n = m + 2 := ⟨n - 2, by omega⟩
    simp only [key_text hk, (hK (m + 2) (by omega)).2 ⟨_, _, rfl⟩, bind_ok_R]
end

/-- C73: a value has at most one display string. -/
theorem C73_unique {st : St} {v : Variant} {t t' : Str} (h : Displays st v t) (h' : Displays st v t') : t = t' := by
  obtain ⟨K, hK⟩ := display_ok h
  obtain ⟨L, hL⟩ := display_ok h'
  have := (hK (max K L) (by omega)).symm.trans (hL (max K L) (by omega))
  cases this; rfl

/-- C73: `(str x)` is the display string of `x` as a string; nothing else changes. -/
theorem C73_str {st : St} {p : Ptr} {v : Variant} {t : Str} (hp : Holds p (· = v)) (h : Displays st v t) (sid : Nat) :
    ∃ K, ∀ k, K ≤ k → Returns (callPrim (run k) .str [p] sid) st fun w st' => IsStr w t ∧ Extends st st' := by
  obtain ⟨i, v, rfl, rfl⟩ := hp
  obtain ⟨K, hK⟩ := display_ok h
  refine ⟨K + 1, fun k hk => returns_str t ?_ fun _ _ he hi => ⟨hi, he⟩⟩
  obtain ⟨m, rfl⟩ : ∃ m, k = m + 1 := ⟨k - 1, by omega⟩
  have h1 : ptrStr st (m + 1) (.mk i (.var v)) = .ok t := by rw [ptrStr, hK m (by omega)]
  simp only [callPrim, ret, bStr, checkArgs, List.length_cons, List.length_nil, if_true, arg, run_n, M.bind_apply, M.rd_apply, h1, M.pure_apply]
  by_cases hn : v.type = .native
  · have h2 := hK (m + 1 + 1) (by omega)
    simp only [varStr, hn] at h2
    simp [arg, M.rd_apply, h1, hn, h2]
  · simp [arg, M.rd_apply, h1, hn]

theorem args_text {st : St} {args : List Ptr} {ts : List Str} (h : All2 (fun p t => Holds p (Displays st · t)) args ts) :
    ∃ K, ∀ k, K ≤ k → All2 (fun p t => ptrStr st k p = .ok t) args ts := by
  induction h with
  | nil => exact ⟨0, fun _ _ => .nil⟩
  | cons h _ ih =>
    obtain ⟨i, v, rfl, h⟩ := h
    obtain ⟨K, hK⟩ := display_ok h
    obtain ⟨L, hL⟩ := ih
    refine ⟨max (K + 1) L, fun k hk => .cons ?_ (hL k (by omega))⟩
    obtain ⟨m, rfl⟩ : ∃ m, k = m + 1 := ⟨k - 1, by omega⟩
    rw [ptrStr, hK m (by omega)]

/-- C73: `(print a b ...)` writes the display strings of its arguments, separated by single blanks, and returns this text;
nothing else changes (without `trace`). -/
theorem C73_print {st : St} {args : List Ptr} {ts : List Str} (h : All2 (fun p t => Holds p (Displays st · t)) args ts) (sid : Nat)
    (ht : binding st sid c!"###traceon###" = none) :
    ∃ K, ∀ k, K ≤ k → Returns (callPrim (run k) .print args sid) st fun w st' => IsStr w (joined ts) ∧ Extends { st with out := st.out ++ joined ts } st' := by
  obtain ⟨K, hK⟩ := args_text h
  refine ⟨K, fun k hk => ?_⟩
  have ht' : mapFind traceonKey (st.scopes sid).vars = none := by rw [mapFind_eq_lookup]; exact ht
  have hr : stringRep k args sid st = .ok (joined ts) st := by
    simp only [stringRep, M.bind_apply, M.rd_apply, joinLoop_joined (hK k hk), M.get_apply, ht', M.pure_apply]
  refine ⟨⟨.string, .mk st.next (.str (joined ts)), .none, none⟩, { st with out := st.out ++ joined ts, next := st.next + 1 }, ?_, isStr_mk _ _ _ _, extends_next _ _ (Nat.le_succ _)⟩
  simp [callPrim, ret, bPrint, run_n, hr, write]

/-- C73: `(println a b ...)` does the same and ends the line. -/
theorem C73_println {st : St} {args : List Ptr} {ts : List Str} (h : All2 (fun p t => Holds p (Displays st · t)) args ts) (sid : Nat)
    (ht : binding st sid c!"###traceon###" = none) :
    ∃ K, ∀ k, K ≤ k → Returns (callPrim (run k) .println args sid) st fun w st' => IsStr w (joined ts) ∧ Extends { st with out := st.out ++ joined ts ++ c!"\n" } st' := by
  obtain ⟨K, hK⟩ := args_text h
  refine ⟨K, fun k hk => ?_⟩
  have ht' : mapFind traceonKey (st.scopes sid).vars = none := by rw [mapFind_eq_lookup]; exact ht
  have hr : stringRep k args sid st = .ok (joined ts) st := by
    simp only [stringRep, M.bind_apply, M.rd_apply, joinLoop_joined (hK k hk), M.get_apply, ht', M.pure_apply]
  refine ⟨⟨.string, .mk st.next (.str (joined ts)), .none, none⟩, { st with out := st.out ++ joined ts ++ c!"\n", next := st.next + 1 }, ?_, isStr_mk _ _ _ _, extends_next _ _ (Nat.le_succ _)⟩
  simp [callPrim, ret, bPrintLn, run_n, hr, writeLine, write]

/-- A state with the list `(1 "a" (b))` and a dictionary, for the examples. -/
def dispState : St :=
  let e : St := {}
  { e with next := 100,
           lists := fun i => if i = 1 then [.mk 10 (.var ⟨.int, .mk 11 (.int 1), .none, none⟩), strArg 12 c!"a", .mk 2 .list]
                             else if i = 2 then [.mk 14 (.var ⟨.symbol, .mk 15 (.str c!"b"), .none, none⟩)] else [],
           dicts := fun i => if i = 3 then [(⟨.int, .mk 20 (.int 1), .none, none⟩, strArg 21 c!"x"),
                                            (⟨.string, .mk 23 (.str c!"k"), .none, none⟩, .mk 24 (.var ⟨.list, .mk 1 .list, .none, none⟩))] else [] }

/-- Example for C73: the display string of the list. -/
theorem disp_list : Displays dispState ⟨.list, .mk 1 .list, .none, none⟩ c!"(1 \"a\" (b))" := by
  have hb : Items dispState (dispState.lists 2) [c!"b"] := .cons (.value (fun s h => by cases h.1) (.symbol ⟨rfl, 15, rfl⟩) (by decide)) .nil
  have h1 : Items dispState (dispState.lists 1) [intStr 1, c!"\"" ++ c!"a" ++ c!"\"", c!"(" ++ List.intercalate c!" " [c!"b"] ++ c!")"] :=
    .cons (.value (fun s h => by cases h.1) (.int ⟨rfl, 11, rfl⟩) (by decide)) (.cons (.text (strArg_holds 12 c!"a")) (.cons (.code hb) .nil))
  have := Displays.list (st := dispState) (v := ⟨.list, .mk 1 .list, .none, none⟩) ⟨rfl, rfl⟩ h1
  exact this

/-- Example for C73: the display string of the dictionary. -/
example : Displays dispState ⟨.native, .mk 3 .dict, .none, none⟩ c!"{ [1 : \"x\"], [\"k\" : (1 \"a\" (b))] }" := by
  have h1 : Entries dispState (dispState.dicts 3) [c!"[" ++ intStr 1 ++ c!" : " ++ (c!"\"" ++ c!"x" ++ c!"\"") ++ c!"]",
      c!"[" ++ (c!"\"" ++ c!"k" ++ c!"\"") ++ c!" : " ++ c!"(1 \"a\" (b))" ++ c!"]"] :=
    .cons (.int ⟨rfl, 20, rfl⟩) (.text (strArg_holds 21 c!"x"))
      (.cons (.text ⟨rfl, 23, rfl⟩) (.value (fun s h => by cases h.1) disp_list (by decide)) .nil)
  exact Displays.dict (st := dispState) (v := ⟨.native, .mk 3 .dict, .none, none⟩) ⟨rfl, rfl⟩ h1

/-- Example for C73: `(str l)` and `(print "l =" l)`. -/
example : (∃ K, ∀ k, K ≤ k → Returns (callPrim (run k) .str [.mk 30 (.var ⟨.list, .mk 1 .list, .none, none⟩)] 0) dispState fun w st' =>
      IsStr w c!"(1 \"a\" (b))" ∧ Extends dispState st') ∧
    (∃ K, ∀ k, K ≤ k → Returns (callPrim (run k) .print [strArg 31 c!"l =", .mk 30 (.var ⟨.list, .mk 1 .list, .none, none⟩)] 0) dispState fun w st' =>
      IsStr w c!"l = (1 \"a\" (b))" ∧ Extends { dispState with out := dispState.out ++ c!"l = (1 \"a\" (b))" } st') :=
  ⟨C73_str ⟨30, _, rfl, rfl⟩ disp_list 0,
   C73_print (ts := [c!"l =", c!"(1 \"a\" (b))"])
     (.cons ⟨31, _, rfl, .text ⟨rfl, _, rfl⟩⟩ (.cons ⟨30, _, rfl, disp_list⟩ .nil)) 0 rfl⟩

/-- C73, negative part: the number 1 and the truth value in a list and as a key: a truth value is `#t`, but as a key of a dictionary it is `true`. -/
theorem C73_bool_key_wrong {st : St} {p q : Ptr} {v k : Variant} {i j : Nat} {x : Int} {w : Variant} (hp : Holds p (· = v)) (hv : IsDictAt v i) (hd : st.dicts i = [(k, .mk j (.var w))])
    (hk : IsBool k true) (hw : IsInt w x) (hq : Holds q (· = k)) (sid : Nat) :
    ∃ K, ∀ n, K ≤ n →
      (Returns (callPrim (run n) .str [p] sid) st fun r _ => IsStr r (c!"{ [true : " ++ intStr x ++ c!"] }")) ∧
      Returns (callPrim (run n) .str [q] sid) st fun r _ => IsStr r c!"#t" := by
  have hx : intStr x ≠ [] := by
    cases x with
    | ofNat n => exact (natStr_spec n).1
    | negSucc n => simp [intStr]
  have hi : Item st (.mk j (.var w)) (intStr x) := .value (fun s h => by have h1 := hw.1; have h2 := h.1; rw [h1] at h2; cases h2) (.int hw) hx
  have he : Entries st (st.dicts i) [c!"[" ++ c!"true" ++ c!" : " ++ intStr x ++ c!"]"] := by rw [hd]; exact .cons (.bool hk) hi .nil
  obtain ⟨K, hK⟩ := C73_str hp (.dict hv he) sid
  obtain ⟨L, hL⟩ := C73_str hq (.bool hk) sid
  refine ⟨max K L, fun n hn => ⟨?_, ?_⟩⟩
  · obtain ⟨r, st', h1, h2, _⟩ := hK n (by omega)
    exact ⟨r, st', h1, by simpa [List.intercalate] using h2⟩
  · obtain ⟨r, st', h1, h2, _⟩ := hL n (by omega)
    exact ⟨r, st', h1, h2⟩

/-- C73, negative part: an empty text at the beginning is printed without the blank that follows every other text. -/
theorem C73_empty_wrong {st : St} {p q : Ptr} {t : Str} (hp : Holds p (IsStr · [])) (hq : Holds q (IsStr · t)) (hne : t ≠ []) (sid : Nat)
    (ht : binding st sid c!"###traceon###" = none) :
    ∃ K, ∀ n, K ≤ n →
      (Returns (callPrim (run n) .print [p, q] sid) st fun r _ => IsStr r t) ∧
      Returns (callPrim (run n) .print [q, p, q] sid) st fun r _ => IsStr r (t ++ c!"  " ++ t) := by
  have hp : Holds p (Displays st · []) := by obtain ⟨i, v, e, h⟩ := hp; exact ⟨i, v, e, .text h⟩
  have hq : Holds q (Displays st · t) := by obtain ⟨i, v, e, h⟩ := hq; exact ⟨i, v, e, .text h⟩
  obtain ⟨K, hK⟩ := C73_print (.cons hp (.cons hq .nil)) sid ht
  obtain ⟨L, hL⟩ := C73_print (.cons hq (.cons hp (.cons hq .nil))) sid ht
  have e : t.isEmpty = false := by simpa using hne
  refine ⟨max K L, fun n hn => ⟨?_, ?_⟩⟩
  · obtain ⟨r, st', h1, h2, _⟩ := hK n (by omega)
    exact ⟨r, st', h1, by simpa [joined, List.dropWhile, e, List.intercalate] using h2⟩
  · obtain ⟨r, st', h1, h2, _⟩ := hL n (by omega)
    exact ⟨r, st', h1, by simpa [joined, List.dropWhile, e, List.intercalate] using h2⟩

/-- Example for both: the keys and texts exist. -/
example : IsBool ⟨.bool, .mk 1 (.bool true), .none, none⟩ true ∧ Holds (strArg 2 []) (IsStr · []) ∧ Holds (strArg 3 c!"a") (IsStr · c!"a") :=
  ⟨⟨rfl, 1, rfl⟩, strArg_holds 2 [], strArg_holds 3 _⟩

end Fuel
