import Verif.LemSearch
import Verif.PropsAssign
import Verif.PropsText
import Verif.PropsArith
import Verif.LemValidOps
import Verif.SpecConv
/-!
# Properties of types and conversions (C59), files (C60) and variables that are removed (C61)
-/

set_option linter.unusedSectionVars false
set_option linter.unusedSimpArgs false

namespace Fuel

open Spec

variable [World]

/-! ## C59 types and conversions -/

theorem hasType_code {v : Variant} {n : Int} {s : Str} (h : HasType v n s) : v.type.code = n ∧ v.typeString = .ok s := by
  cases h with
  | undefined h => simp [IsUndef] at h; simp [LispType.code, Variant.typeString, h]
  | nil h => simp [IsNil] at h; simp [LispType.code, Variant.typeString, h]
  | bool h => simp [LispType.code, Variant.typeString, h.1]
  | int h => simp [LispType.code, Variant.typeString, h.1]
  | double h => simp [LispType.code, Variant.typeString, h.1]
  | string h => simp [LispType.code, Variant.typeString, h.1]
  | list h => simp [LispType.code, Variant.typeString, h.1]
  | function h => simp [LispType.code, Variant.typeString, h.1]
  | symbol h => simp [LispType.code, Variant.typeString, h.1]
  | dict h => simp [LispType.code, Variant.typeString, h.1, h.2]

/-- C59: `(type x)` is the number of the type of `x`. -/
theorem C59_type (k : Nat) {p : Ptr} {n : Int} {s : Str} (sid : Nat) (st : St) (hp : Holds p (HasType · n s)) :
    Returns (callPrim (run k) .type [p] sid) st fun v st' => IsInt v n ∧ Extends st st' := by
  obtain ⟨i, w, rfl, hw⟩ := hp
  obtain ⟨h1, h2⟩ := hasType_code hw
  refine returns_int n ?_ fun _ _ he hi => ⟨hi, he⟩
  simp [callPrim, ret, bType, checkArgs, argV, arg, toVariant_var, h1]

/-- C59: `(typestr x)` is the name of the type of `x`. -/
theorem C59_typestr (k : Nat) {p : Ptr} {n : Int} {s : Str} (sid : Nat) (st : St) (hp : Holds p (HasType · n s)) :
    Returns (callPrim (run k) .typestr [p] sid) st fun v st' => IsStr v s ∧ Extends st st' := by
  obtain ⟨i, w, rfl, hw⟩ := hp
  obtain ⟨h1, h2⟩ := hasType_code hw
  refine returns_str s ?_ fun _ _ he hi => ⟨hi, he⟩
  simp [callPrim, ret, bTypeStr, checkArgs, argV, arg, toVariant_var, h2]

/-- C59: number and name determine each other, and a value has only one type. -/
theorem C59_one_type {v w : Variant} {n m : Int} {s t : Str} (h : HasType v n s) (g : HasType w m t) :
    (n = m ↔ s = t) ∧ (v = w → n = m) := by
  constructor
  · cases h <;> cases g <;> decide
  · rintro rfl
    rw [← (hasType_code h).1, ← (hasType_code g).1]

example (st : St) : Returns (callPrim (run 0) .typestr [intArg 0 5] 0) st fun v _ => IsStr v c!"Int" := by
  obtain ⟨v, st', h, h', _⟩ := C59_typestr 0 0 st (p := intArg 0 5) (n := 3) ⟨0, _, rfl, .int (isInt_mk _ _ _ _)⟩
  exact ⟨v, st', h, h'⟩

/-- C59: `(int x)` is `x` for an integer, 1 or 0 for a boolean, the integral part of a floating-point number (if it has 32 bits; otherwise the
behaviour is undefined) and the result of `(parse-integer x)` for a text. -/
theorem C59_int (k : Nat) {p : Ptr} (sid : Nat) (st : St) :
    (∀ x, Holds p (IsInt · x) → Returns (callPrim (run k) .toInt [p] sid) st fun v st' => IsInt v x ∧ Extends st st') ∧
    (∀ b, Holds p (IsBool · b) → Returns (callPrim (run k) .toInt [p] sid) st fun v st' => IsInt v (if b then 1 else 0) ∧ Extends st st') ∧
    (∀ d x, Holds p (IsDbl · d) → World.dToInt d = some x → IsInt32 x →
      Returns (callPrim (run k) .toInt [p] sid) st fun v st' => IsInt v x ∧ Extends st st') ∧
    (∀ d, Holds p (IsDbl · d) → (∀ x, World.dToInt d = some x → ¬ IsInt32 x) → callPrim (run k) .toInt [p] sid st = .fail (.ub .convert) st) ∧
    (∀ s, Holds p (IsStr · s) → callPrim (run k) .toInt [p] sid st = callPrim (run k) .parseInteger [p] sid st) := by
  refine ⟨fun x hp => ?_, fun b hp => ?_, fun d x hp hx h32 => ?_, fun d hp hx => ?_, fun s hp => ?_⟩ <;> obtain ⟨i, v, rfl, hv⟩ := hp
  · refine returns_int x ?_ fun _ _ he hi => ⟨hi, he⟩
    simp [callPrim, ret, bToInt, checkArgs, argMk, arg, mkVariant, M.rd_apply, hv.1, intValue_int hv]
  · refine returns_int _ ?_ fun _ _ he hi => ⟨hi, he⟩
    simp [callPrim, ret, bToInt, checkArgs, argMk, arg, mkVariant, M.rd_apply, hv.1, boolValue_bool hv]
  · refine returns_int x ?_ fun _ _ he hi => ⟨hi, he⟩
    simp [callPrim, ret, bToInt, checkArgs, argMk, arg, mkVariant, M.rd_apply, hv.1, doubleValue_dbl hv, dblToInt, hx, h32]
  · simp only [callPrim, ret, bToInt, checkArgs, argMk, arg, mkVariant, M.rd_apply, hv.1, doubleValue_dbl hv, dblToInt, List.length_cons,
      List.length_nil, Nat.zero_add, if_true, List.getElem?_cons_zero, M.bind_apply, M.pure_apply, M.lift_ok, reduceCtorEq, if_false]
    cases h : World.dToInt d with
    | none => simp [R.ub]
    | some x => simp [R.ub, hx x h]
  · simp only [callPrim, ret, bToInt, checkArgs, argMk, arg, mkVariant, hv.1, List.length_cons, List.length_nil, Nat.zero_add, if_true,
      List.getElem?_cons_zero, M.bind_apply, M.pure_apply, M.lift_ok, reduceCtorEq, if_false]

/-- C59, negative part: `(int x)` of NIL, of an undefined value, a list, a function, a symbol or a dictionary is the number 0, as if `x` were 0. -/
theorem C59_int_wrong (k : Nat) {p : Ptr} {n : Int} {s : Str} (sid : Nat) (st : St) (hp : Holds p (HasType · n s)) (hn : n < 2 ∨ 5 < n) :
    Returns (callPrim (run k) .toInt [p] sid) st fun v st' => IsInt v 0 ∧ Extends st st' := by
  obtain ⟨i, w, rfl, hw⟩ := hp
  have h1 := (hasType_code hw).1
  refine returns_int 0 ?_ fun _ _ he hi => ⟨hi, he⟩
  have : w.type ≠ .int ∧ w.type ≠ .double ∧ w.type ≠ .string ∧ w.type ≠ .bool := by
    refine ⟨?_, ?_, ?_, ?_⟩ <;> (intro e; rw [e] at h1; simp [LispType.code] at h1; omega)
  simp [callPrim, ret, bToInt, checkArgs, argMk, arg, mkVariant, this]

/-- C59: `(float x)` is `x` for a floating-point number, the same number for an integer, 1 or 0 for a boolean and the result of `(parse-float x)`
for a text. -/
theorem C59_float (k : Nat) {p : Ptr} (sid : Nat) (st : St) :
    (∀ d, Holds p (IsDbl · d) → Returns (callPrim (run k) .toFloat [p] sid) st fun v st' => IsDbl v d ∧ Extends st st') ∧
    (∀ x, Holds p (IsInt · x) → Returns (callPrim (run k) .toFloat [p] sid) st fun v st' => IsDbl v (World.dOfInt x) ∧ Extends st st') ∧
    (∀ b, Holds p (IsBool · b) → Returns (callPrim (run k) .toFloat [p] sid) st fun v st' =>
      IsDbl v (World.dOfInt (if b then 1 else 0)) ∧ Extends st st') ∧
    (∀ s, Holds p (IsStr · s) → callPrim (run k) .toFloat [p] sid st = callPrim (run k) .parseFloat [p] sid st) := by
  refine ⟨fun x hp => ?_, fun b hp => ?_, fun d hp => ?_, fun s hp => ?_⟩ <;> obtain ⟨i, v, rfl, hv⟩ := hp
  · refine returns_dbl x ?_ fun _ _ he hi => ⟨hi, he⟩
    simp [callPrim, ret, bToFloat, checkArgs, argMk, arg, mkVariant, M.rd_apply, hv.1, doubleValue_dbl hv]
  · refine returns_dbl _ ?_ fun _ _ he hi => ⟨hi, he⟩
    simp [callPrim, ret, bToFloat, checkArgs, argMk, arg, mkVariant, M.rd_apply, hv.1, intValue_int hv]
  · refine returns_dbl _ ?_ fun _ _ he hi => ⟨hi, he⟩
    simp [callPrim, ret, bToFloat, checkArgs, argMk, arg, mkVariant, M.rd_apply, hv.1, boolValue_bool hv]
  · simp only [callPrim, ret, bToFloat, checkArgs, argMk, arg, mkVariant, hv.1, List.length_cons, List.length_nil, Nat.zero_add, if_true,
      List.getElem?_cons_zero, M.bind_apply, M.pure_apply, M.lift_ok, reduceCtorEq, if_false]

/-- C59: `(sym x)` of a text is the symbol with this name, and `(str (sym x))` is the text again. -/
theorem C59_sym {k : Nat} (hk : 3 ≤ k) {p : Ptr} {s : Str} (sid : Nat) (st : St) (hp : Holds p (IsStr · s)) :
    Returns (callPrim (run k) .sym [p] sid) st fun v st' => IsSym v s ∧ Extends st st' ∧
      ∀ q st2, Holds q (· = v) → Returns (callPrim (run k) .str [q] sid) st2 fun r st3 => IsStr r s ∧ Extends st2 st3 := by
  obtain ⟨k, rfl⟩ : ∃ m, k = m + 3 := ⟨k - 3, by omega⟩
  obtain ⟨i, w, rfl, hw⟩ := hp
  have hs : IsSym ⟨.symbol, .mk st.next (.str s), .none, none⟩ s := ⟨rfl, _, rfl⟩
  refine ⟨_, { st with next := st.next + 1 }, ?_, hs, extends_next _ _ (Nat.le_succ _), ?_⟩
  · simp [callPrim, ret, bSym, checkArgs, argStr, arg, run_n, M.rd_apply, ptrStr_var, varStr_str hw, Variant.ofType]
  · rintro q st2 ⟨x, u, rfl, rfl⟩
    refine returns_str s ?_ fun _ _ he hi => ⟨hi, he⟩
    simp [callPrim, ret, bStr, checkArgs, arg, run_n, M.rd_apply, ptrStr_var, varStr_sym hs]

example (st : St) : Returns (callPrim (run 3) .sym [strArg 0 c!"abc"] 0) st fun v _ => IsSym v c!"abc" := by
  obtain ⟨v, st', h, h', _⟩ := C59_sym (Nat.le_refl 3) 0 st (strArg_holds 0 c!"abc")
  exact ⟨v, st', h, h'⟩

/-! ## C60 files -/

theorem lookup_mapSet' {α : Type} (name : Str) (p : α) (l : List (Str × α)) (n : Str) :
    (mapSet name p l).lookup n = if n = name then some p else l.lookup n := by
  induction l with
  | nil =>
    by_cases h : n = name
    · subst h; simp [mapSet, List.lookup]
    · have : (n == name) = false := by simpa using h
      simp [mapSet, List.lookup, h, this]
  | cons e t ih =>
    obtain ⟨a, w⟩ := e
    simp only [mapSet]
    split
    · rename_i h; subst h
      by_cases h : n = a
      · subst h; simp [List.lookup]
      · have : (n == a) = false := by simpa using h
        simp [List.lookup, h, this]
    · rename_i hne
      split
      · by_cases h : n = name
        · subst h; simp [List.lookup]
        · have : (n == name) = false := by simpa using h
          rw [List.lookup, this, if_neg h]
      · by_cases h : n = a
        · subst h
          simp [List.lookup, hne]
        · have : (n == a) = false := by simpa using h
          rw [List.lookup, this, ih, List.lookup, this]

theorem mapFind_lookup {α : Type} (name : Str) (l : List (Str × α)) : mapFind name l = l.lookup name := by
  induction l with
  | nil => rfl
  | cons e t ih =>
    obtain ⟨a, w⟩ := e
    simp only [mapFind, List.lookup]
    by_cases h : a = name
    · subst h; simp
    · have : (name == a) = false := by simpa using fun e => h e.symm
      simp [h, this, ih]

/-- C60: `(File-WriteAllText name text)` returns true and gives the file this content, if the operating system allows to write the file; otherwise it returns false
and changes no file. -/
theorem C60_write {k : Nat} (hk : 2 ≤ k) {p q : Ptr} {name text : Str} (sid : Nat) (st : St)
    (hp : Holds p (IsStr · name)) (hq : Holds q (IsStr · text)) :
    Returns (callPrim (run k) .fileWrite [p, q] sid) st fun v st' =>
      (World.canWrite name = true ∧ IsBool v true ∧ FileWritten st st' name text) ∨
      (World.canWrite name = false ∧ IsBool v false ∧ Extends st st') := by
  obtain ⟨k, rfl⟩ : ∃ m, k = m + 2 := ⟨k - 2, by omega⟩
  obtain ⟨i, v, rfl, hv⟩ := hp
  obtain ⟨j, w, rfl, hw⟩ := hq
  cases hc : World.canWrite name with
  | false =>
    refine returns_bool false ?_ fun _ _ he hi => .inr ⟨rfl, hi, he⟩
    simp [callPrim, ret, bFileWrite, checkArgs, argV, arg, run_n, M.rd_apply, toVariant_var, varStr_str hv, varStr_str hw, hc]
  | true =>
    refine ⟨⟨.bool, .mk st.next (.bool true), .none, none⟩, { st with next := st.next + 1, files := mapSet name text st.files }, ?_,
      .inl ⟨rfl, isBool_mk _ _ _ _, ?_, ?_, ?_⟩⟩
    · simp [callPrim, ret, bFileWrite, checkArgs, argV, arg, run_n, M.rd_apply, toVariant_var, varStr_str hv, varStr_str hw, hc, M.modify]
    · simp [content, lookup_mapSet']
    · intro n hn; simp [content, lookup_mapSet', hn]
    · exact extends_next _ _ (Nat.le_succ _)

/-- C60: `(File-ReadAllText name)` is the content of the file (the empty text if there is no such file) and `(File-Exists name)` says whether the file exists. -/
theorem C60_read {k : Nat} (hk : 2 ≤ k) {p : Ptr} {name : Str} (sid : Nat) (st : St) (hp : Holds p (IsStr · name)) :
    (Returns (callPrim (run k) .fileRead [p] sid) st fun v st' => Extends st st' ∧
      (∀ t, content st name = some t → IsStr v t) ∧ (content st name = none → IsStr v [])) ∧
    (Returns (callPrim (run k) .fileExists [p] sid) st fun v st' => Extends st st' ∧ ∃ b, IsBool v b ∧ (b = true ↔ ∃ t, content st name = some t)) := by
  obtain ⟨k, rfl⟩ : ∃ m, k = m + 2 := ⟨k - 2, by omega⟩
  obtain ⟨i, v, rfl, hv⟩ := hp
  constructor
  · cases hc : content st name with
    | none =>
      refine returns_str [] ?_ fun _ _ he hi => ⟨he, (fun t e => by cases e), fun _ => hi⟩
      rw [content, ← mapFind_lookup] at hc
      simp [callPrim, ret, bFileRead, checkArgs, argV, arg, run_n, M.rd_apply, toVariant_var, varStr_str hv, hc]
    | some t =>
      refine returns_str t ?_ fun _ _ he hi => ⟨he, (fun t e => by cases e; exact hi), fun e => by cases e⟩
      rw [content, ← mapFind_lookup] at hc
      simp [callPrim, ret, bFileRead, checkArgs, argV, arg, run_n, M.rd_apply, toVariant_var, varStr_str hv, hc]
  · refine returns_bool (content st name).isSome ?_ fun _ _ he hi => ⟨he, _, hi, ?_⟩
    · simp [callPrim, ret, bFileExists, checkArgs, argV, arg, run_n, M.rd_apply, toVariant_var, varStr_str hv, content, mapFind_lookup]
    · rw [Option.isSome_iff_exists]

/-- C60: a text that has been written successfully is read back, until the file is written again. -/
theorem C60_write_read {k : Nat} (hk : 2 ≤ k) {p q : Ptr} {name text : Str} (sid : Nat) (st : St)
    (hp : Holds p (IsStr · name)) (hq : Holds q (IsStr · text)) (hc : World.canWrite name = true) :
    Returns (callPrim (run k) .fileWrite [p, q] sid) st fun v st' => IsBool v true ∧
      ∀ st2, content st2 name = content st' name → Returns (callPrim (run k) .fileRead [p] sid) st2 fun r st3 => IsStr r text ∧ Extends st2 st3 := by
  obtain ⟨v, st', h, h'⟩ := C60_write hk sid st hp hq
  rcases h' with ⟨_, h1, h2⟩ | ⟨e, _⟩
  · refine ⟨v, st', h, h1, fun st2 e => ?_⟩
    obtain ⟨r, st3, g, g1, g2, _⟩ := (C60_read hk sid st2 hp).1
    exact ⟨r, st3, g, g2 _ (e.trans h2.written), g1⟩
  · rw [hc] at e; cases e

example (st : St) : content { st with files := [(c!"a", c!"x"), (c!"b", c!"y")] } c!"b" = some c!"y" := rfl

/-! ## C61 delvar -/

theorem lookup_mapErase (name : Str) (l : List (Str × Ptr)) (n : Str) : (mapErase name l).lookup n = if n = name then none else l.lookup n := by
  induction l with
  | nil => simp [mapErase]
  | cons e t ih =>
    obtain ⟨a, w⟩ := e
    simp only [mapErase]
    by_cases hx : a = name
    · subst hx
      rw [if_pos rfl, ih]
      by_cases hn : n = a
      · simp [hn]
      · have : (n == a) = false := by simpa using hn
        simp [hn, List.lookup, this]
    · rw [if_neg hx]
      by_cases hn : n = a
      · subst hn
        simp [List.lookup, hx]
      · have : (n == a) = false := by simpa using hn
        rw [List.lookup, this, List.lookup, this]
        exact ih

/-- C61: `(delvar name)` removes the variable from the current scope, and nothing else, and tells whether it existed. -/
theorem C61_delvar {k : Nat} (hk : 2 ≤ k) {st : St} {s : Nat} {p : Ptr} {name : Str} (hp : Holds p (IsName · name)) :
    Returns (callPrim (run k) .delvar [p] s) st fun v st' => Removed st st' s name ∧ ∃ b, IsBool v b ∧ (b = true ↔ ∃ q, binding st s name = some q) := by
  obtain ⟨k, rfl⟩ : ∃ m, k = m + 2 := ⟨k - 2, by omega⟩
  obtain ⟨i, v, rfl, hv⟩ := hp
  refine ⟨⟨.bool, .mk st.next (.bool (mapFind name (st.scopes s).vars).isSome), .none, none⟩,
    { st with next := st.next + 1, scopes := fset st.scopes s { st.scopes s with vars := mapErase name (st.scopes s).vars } }, ?_,
    ⟨?_, ?_, ?_, ?_⟩, _, isBool_mk _ _ _ _, ?_⟩
  · simp [callPrim, ret, bDelVar, checkArgs, argV, arg, run_n, M.rd_apply, toVariant_var, varStr_name hv, modScope, M.modify]
  · simp [binding, lookup_mapErase]
  · intro n hne; simp [binding, lookup_mapErase, hne]
  · simp
  · constructor <;> simp
    intro i hi
    by_cases e : i = s
    · subst e; simp
    · rw [fset_ne _ _ e, fset_ne _ _ e]
  · rw [mapFind_lookup, Option.isSome_iff_exists]; rfl

/-- A state with one scope with two variables, for examples. -/
def twoVars : St :=
  { next := 1, lists := fun _ => [], dicts := fun _ => [], clos := fun _ => ⟨[], [], [], 0⟩,
    scopes := fun _ => { vars := [(c!"a", .null), (c!"b", .null)] }, out := [], input := [], files := [], clock := 0, libPath := [] }

example : Returns (callPrim (run 2) .delvar [strArg 0 c!"b"] 0) twoVars fun v st' => IsBool v true ∧ binding st' 0 c!"b" = none ∧
    binding st' 0 c!"a" = some .null := by
  obtain ⟨v, st', h, h1, b, h2, h3⟩ := C61_delvar (Nat.le_refl 2) (st := twoVars) (s := 0) (p := strArg 0 c!"b") (name := c!"b") ⟨0, _, rfl, .inr (isStr_mk _ _ _ _)⟩
  have : b = true := h3.2 ⟨.null, rfl⟩
  subst this
  exact ⟨v, st', h, h2, h1.removed, by rw [h1.others c!"a" (by decide)]; rfl⟩

/-! ## C12 search in lists -/

theorem strs_text {st : St} {n : Nat} {ps : List Ptr} {ss : List Str} (h : All2 (fun p s => Holds p (IsStr · s)) ps ss) :
    All2 (fun p t => ptrStr st (n + 3) p = .ok t) ps ss := by
  induction h with
  | nil => exact .nil
  | cons hp _ ih =>
    obtain ⟨j, v, rfl, hv⟩ := hp
    refine .cons ?_ ih
    rw [ptrStr]
    exact varStr_str hv

/-- C12: `(search needle l)` for a list of texts is the position of the first element that is the needle, -1 if there is none.  (The length of
the list has 32 bits.) -/
theorem C12_search_list {k : Nat} (hk : 3 ≤ k) {p q : Ptr} {needle : Str} {ps : List Ptr} {ss : List Str} (sid : Nat) (st : St)
    (hp : Holds p (IsStr · needle)) (hq : Holds q (IsListOrNil st · ps)) (hs : All2 (fun p s => Holds p (IsStr · s)) ps ss) (hl : IsInt32 ss.length) :
    Returns (callPrim (run k) .search [p, q] sid) st fun v st' => Extends st st' ∧
      ∃ r : Int, IsInt v r ∧ ((∃ i : Nat, r = i ∧ ss[i]? = some needle ∧ ∀ j, j < i → ss[j]? ≠ some needle) ∨ (r = -1 ∧ needle ∉ ss)) := by
  obtain ⟨k, rfl⟩ : ∃ m, k = m + 3 := ⟨k - 3, by omega⟩
  obtain ⟨i, v, rfl, hv⟩ := hp
  obtain ⟨j, w, rfl, hw⟩ := hq
  obtain ⟨h0, h1, h2⟩ := listValue_ok hw (k + 3)
  rcases searchList_ok (needle := needle) (strs_text (st := st) (n := k) hs) 0 with ⟨x, h3, h4, h5⟩ | ⟨h3, h4⟩
  · refine returns_int x ?_ fun _ _ he ho => ⟨he, _, ho, Or.inl ⟨x, rfl, h4, h5⟩⟩
    have hx : wrap32 (x : Int) = x := wrap32_id (by
      have := (List.getElem?_eq_some_iff.1 h4).1
      unfold IsInt32 at *
      omega)
    simp [hx, callPrim, ret, bSearch, checkOptionalArgs, argMk, argV, arg, run_n, M.rd_apply, M.lift_apply, mkVariant, toVariant,
      varStr_str hv, optSize, h0, h1, h2, h3]
  · refine returns_int (-1) ?_ fun _ _ he ho => ⟨he, _, ho, Or.inr ⟨rfl, h4⟩⟩
    simp [callPrim, ret, bSearch, checkOptionalArgs, argMk, argV, arg, run_n, M.rd_apply, M.lift_apply, mkVariant, toVariant,
      varStr_str hv, optSize, h0, h1, h2, h3]

example [World] : ∃ st : St, Returns (callPrim (run 3) .search [strArg 0 c!"b", listArg 2] 0) st fun v _ => IsInt v 1 :=
  ⟨{ lists := fun _ => [strArg 10 c!"a", strArg 12 c!"b", strArg 14 c!"b"] }, _, _, rfl, isInt_mk _ _ _ _⟩

end Fuel
