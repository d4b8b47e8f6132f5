import Verif.LemM
import Verif.LemText
import Verif.Demo
/-!
# Properties of the text functions (C09 - C14)

`callPrim (run k) b args sid` is the call of builtin function `b` with evaluated arguments `args` from scope `sid`
with step budget `k`.
-/

set_option linter.unusedSectionVars false
set_option linter.unusedSimpArgs false

namespace Fuel

open Spec

variable [World]

/-- Boxed string value, for examples. -/
def strArg (i : Nat) (s : Str) : Ptr := .mk i (.var ⟨.string, .mk (i + 1) (.str s), .none, none⟩)
/-- Boxed integer value, for examples. -/
def intArg (i : Nat) (x : Int) : Ptr := .mk i (.var ⟨.int, .mk (i + 1) (.int x), .none, none⟩)

theorem strArg_holds (i : Nat) (s : Str) : Holds (strArg i s) (IsStr · s) := ⟨i, _, rfl, isStr_mk _ _ _ _⟩
theorem intArg_holds (i : Nat) (x : Int) : Holds (intArg i x) (IsInt · x) := ⟨i, _, rfl, isInt_mk _ _ _ _⟩

/-! ## C09 replace -/

/-- C09: `(replace txt search new)` returns the text in which every occurrence of `search`, scanned from left to right,
is replaced by `new`; nothing else changes.  The scan always ends.  Texts with a zero byte are excluded for `search`
and `new`, because they are passed as C strings. -/
theorem C09_replace {k : Nat} (hk : 3 ≤ k) {p q r : Ptr} {txt search new : Str} (sid : Nat) (st : St)
    (hp : Holds p (IsStr · txt)) (hq : Holds q (IsStr · search)) (hr : Holds r (IsStr · new))
    (hs : Char.ofNat 0 ∉ search) (hn : Char.ofNat 0 ∉ new) :
    Returns (callPrim (run k) .replace [p, q, r] sid) st fun v st' => Extends st st' ∧
      ∃ out, IsStr v out ∧ (search = [] → out = txt) ∧
        (search ≠ [] → ∀ o, Replaced search new txt o ↔ o = out) := by
  obtain ⟨k, rfl⟩ : ∃ m, k = m + 3 := ⟨k - 3, by omega⟩
  obtain ⟨i, v, rfl, hv⟩ := hp
  obtain ⟨j, w, rfl, hw⟩ := hq
  obtain ⟨l, u, rfl, hu⟩ := hr
  have hout : ∃ out, replaceAll txt search new = .ok out ∧ (search = [] → out = txt) ∧
      (search ≠ [] → ∀ o, Replaced search new txt o ↔ o = out) := by
    by_cases h : search = []
    · subst h
      exact ⟨txt, replaceAll_nil _ _, fun _ => rfl, fun h => absurd rfl h⟩
    · obtain ⟨out, h1, h2⟩ := replaceAll_spec txt search new hs hn h
      exact ⟨out, h1, fun h' => absurd h' h, fun _ o => ⟨fun ho => Replaced.unique h ho h2, fun ho => ho ▸ h2⟩⟩
  obtain ⟨out, h1, h2, h3⟩ := hout
  refine returns_str out ?_ fun _ _ he ho => ⟨he, out, ho, h2, h3⟩
  simp [callPrim, ret, bReplace, checkArgs, argStr, arg, run_n, M.rd_apply, ptrStr_var, varStr_str hv, varStr_str hw,
    varStr_str hu, h1]

example : Replaced c!"aa" c!"a" c!"aaaxa" c!"aaxa" :=
  .hit (.skip (by decide) (.skip (by decide) (.skip (by decide) .done)))

example [World] (st : St) : Returns (callPrim (run 3) .replace [strArg 0 c!"aaaxa", strArg 2 c!"aa", strArg 4 c!"a"] 0) st
    fun v _ => IsStr v c!"aaxa" := by
  obtain ⟨v, st', h, _, out, ho, _, h3⟩ := C09_replace (Nat.le_refl 3) 0 st (strArg_holds 0 c!"aaaxa")
    (strArg_holds 2 c!"aa") (strArg_holds 4 c!"a") (by decide) (by decide)
  have := (h3 (by decide) c!"aaxa").1 (.hit (.skip (by decide) (.skip (by decide) (.skip (by decide) .done))))
  exact ⟨v, st', h, this ▸ ho⟩

/-! ## C10 trim, upper-case, lower-case -/

theorem strFn_ok {name : Str} {f : Str → Str} {n : Nat} {p : Ptr} {s : Str} (hp : Holds p (IsStr · s)) (sid : Nat)
    (st : St) : strFn name f (n + 2) [p] sid st =
      .ok ⟨.string, .mk st.next (.str (f s)), .none, none⟩ { st with next := st.next + 1 } := by
  obtain ⟨i, v, rfl, hv⟩ := hp
  simp [strFn, checkArgs, argV, arg, toVariant, M.rd_apply, varStr_str hv]

/-- C10: `(trim txt)` removes the white space at both ends and nothing else: the result is the only text without outer
white space from which `txt` arises by adding white space. -/
theorem C10_trim {k : Nat} (hk : 2 ≤ k) {p : Ptr} {txt : Str} (sid : Nat) (st : St) (hp : Holds p (IsStr · txt)) :
    Returns (callPrim (run k) .trim [p] sid) st fun v st' => Extends st st' ∧
      ∃ out, IsStr v out ∧ ∀ o, (Tight o ∧ ∃ a b, txt = a ++ o ++ b ∧ (∀ c ∈ a, White c) ∧ (∀ c ∈ b, White c)) ↔ o = out := by
  obtain ⟨k, rfl⟩ : ∃ m, k = m + 2 := ⟨k - 2, by omega⟩
  refine returns_str (trim txt) ?_ fun _ _ he ho => ⟨he, _, ho, ?_⟩
  · simp [callPrim, ret, bTrim, run_n, strFn_ok hp]
  · intro o
    constructor
    · rintro ⟨h1, a, b, rfl, h3, h4⟩
      exact (trim_of_decomp h3 h4 h1).symm
    · rintro rfl
      obtain ⟨a, b, h1, h2, h3, h4⟩ := trim_decomp txt
      exact ⟨h4, a, b, h1, h2, h3⟩

/-- C10: trimming a trimmed text changes nothing. -/
theorem C10_trim_idem {k : Nat} (hk : 2 ≤ k) {p q : Ptr} {txt out : Str} (sid : Nat) (st st' st'' : St) {v : Variant}
    (hp : Holds p (IsStr · txt)) (h : callPrim (run k) .trim [p] sid st = .ok (some v) st') (ho : IsStr v out)
    (hq : Holds q (IsStr · out)) : Returns (callPrim (run k) .trim [q] sid) st'' fun v' _ => IsStr v' out := by
  obtain ⟨v1, s1, h1, -, o1, ho1, hu1⟩ := C10_trim hk sid st hp
  rw [h] at h1
  simp only [Out.ok.injEq, Option.some.injEq] at h1
  obtain ⟨rfl, rfl⟩ := h1
  have e : o1 = out := by
    obtain ⟨_, i, h2⟩ := ho
    obtain ⟨_, j, h3⟩ := ho1
    rw [h2] at h3
    simp at h3
    exact h3.2.symm
  subst e
  obtain ⟨v2, s2, h2, -, o2, ho2, hu2⟩ := C10_trim hk sid st'' hq
  have := (hu2 o1).1 ⟨((hu1 o1).2 rfl).1, [], [], by simp, by simp, by simp⟩
  exact ⟨v2, s2, h2, this ▸ ho2⟩

example [World] (st : St) : Returns (callPrim (run 2) .trim [strArg 0 c!" \ta b\n"] 0) st fun v _ => IsStr v c!"a b" := by
  obtain ⟨v, st', h, _, out, ho, h3⟩ := C10_trim (Nat.le_refl 2) 0 st (strArg_holds 0 c!" \ta b\n")
  have := (h3 c!"a b").1 ⟨by simp [Tight, White], c!" \t", c!"\n", by decide, by decide, by decide⟩
  exact ⟨v, st', h, this ▸ ho⟩

theorem upper_toUpperC (c : Char) : Upper c (toUpperC c) := by
  unfold Upper toUpperC
  by_cases h : 97 ≤ c.toNat ∧ c.toNat ≤ 122
  · have : (Char.ofNat (c.toNat - 32)).toNat = c.toNat - 32 := toNat_ofNat (by omega)
    simp [h, this]; omega
  · have h' : (decide (97 ≤ c.toNat) && decide (c.toNat ≤ 122)) = false := by simp; omega
    have h'' : ¬ ('a'.toNat ≤ c.toNat ∧ c.toNat ≤ 'z'.toNat) := h
    rw [if_neg h'', h']
    rfl

theorem lower_toLowerC (c : Char) : Lower c (toLowerC c) := by
  unfold Lower toLowerC
  by_cases h : 65 ≤ c.toNat ∧ c.toNat ≤ 90
  · have : (Char.ofNat (c.toNat + 32)).toNat = c.toNat + 32 := toNat_ofNat (by omega)
    simp [h, this]
  · have h' : (decide (65 ≤ c.toNat) && decide (c.toNat ≤ 90)) = false := by simp; omega
    have h'' : ¬ ('A'.toNat ≤ c.toNat ∧ c.toNat ≤ 'Z'.toNat) := h
    rw [if_neg h'', h']
    rfl

theorem pointwise_map {R : Char → Char → Prop} {f : Char → Char} (h : ∀ c, R c (f c)) (txt : Str) :
    Pointwise R txt (txt.map f) := by
  refine ⟨by simp, fun i c d h1 h2 => ?_⟩
  simp [h1] at h2
  subst h2
  exact h c

/-- C10: `(upper-case txt)` replaces every lower case letter by the corresponding upper case letter and keeps every
other character; doing it twice is the same as doing it once. -/
theorem C10_upper {k : Nat} (hk : 2 ≤ k) {p : Ptr} {txt : Str} (sid : Nat) (st : St) (hp : Holds p (IsStr · txt)) :
    Returns (callPrim (run k) .upper [p] sid) st fun v st' => Extends st st' ∧
      ∃ out, IsStr v out ∧ Pointwise Upper txt out ∧ ∀ q st2, Holds q (IsStr · out) →
        Returns (callPrim (run k) .upper [q] sid) st2 fun v' _ => IsStr v' out := by
  obtain ⟨k, rfl⟩ : ∃ m, k = m + 2 := ⟨k - 2, by omega⟩
  refine returns_str (toUpper txt) ?_ fun _ _ he ho => ⟨he, _, ho, pointwise_map upper_toUpperC txt, ?_⟩
  · simp [callPrim, ret, bUpper, run_n, strFn_ok hp]
  · intro q st2 hq
    refine ⟨_, _, by simp only [callPrim, ret, bUpper, run_n, M.bind_apply, strFn_ok hq]; rfl, ?_⟩
    have : toUpper (toUpper txt) = toUpper txt := by simp [toUpper, toUpperC_idem]
    rw [this]; exact isStr_mk _ _ _ _

/-- C10: the same for `(lower-case txt)`. -/
theorem C10_lower {k : Nat} (hk : 2 ≤ k) {p : Ptr} {txt : Str} (sid : Nat) (st : St) (hp : Holds p (IsStr · txt)) :
    Returns (callPrim (run k) .lower [p] sid) st fun v st' => Extends st st' ∧
      ∃ out, IsStr v out ∧ Pointwise Lower txt out ∧ ∀ q st2, Holds q (IsStr · out) →
        Returns (callPrim (run k) .lower [q] sid) st2 fun v' _ => IsStr v' out := by
  obtain ⟨k, rfl⟩ : ∃ m, k = m + 2 := ⟨k - 2, by omega⟩
  refine returns_str (toLower txt) ?_ fun _ _ he ho => ⟨he, _, ho, pointwise_map lower_toLowerC txt, ?_⟩
  · simp [callPrim, ret, bLower, run_n, strFn_ok hp]
  · intro q st2 hq
    refine ⟨_, _, by simp only [callPrim, ret, bLower, run_n, M.bind_apply, strFn_ok hq]; rfl, ?_⟩
    have : toLower (toLower txt) = toLower txt := by simp [toLower, toLowerC_idem]
    rw [this]; exact isStr_mk _ _ _ _

example [World] (st : St) : Returns (callPrim (run 2) .upper [strArg 0 c!"aZ9"] 0) st fun v _ => IsStr v c!"AZ9" :=
  ⟨_, _, rfl, isStr_mk _ _ _ _⟩

/-! ## C11 splitting -/

/-- C11: splitting at a one-character separator gives pieces without the separator whose join is the text, for every
text. -/
theorem C11_split (txt : Str) (sep : Char) :
    ∃ pieces, split txt [sep] = .ok pieces ∧ pieces ≠ [] ∧ join sep pieces = txt ∧ ∀ p ∈ pieces, sep ∉ p :=
  split_spec txt sep

/-- C11: the pieces are determined by these conditions. -/
theorem join_unique {sep : Char} {ps qs : List Str} (hp : ps ≠ []) (hq : qs ≠ []) (h1 : ∀ p ∈ ps, sep ∉ p)
    (h2 : ∀ q ∈ qs, sep ∉ q) (h : join sep ps = join sep qs) : ps = qs := by
  have key : ∀ (a b x y : Str), sep ∉ a → sep ∉ b → a ++ sep :: x = b ++ sep :: y → a = b ∧ x = y := by
    intro a
    induction a with
    | nil =>
      intro b x y _ hb h
      cases b with
      | nil => simpa using h
      | cons d b => simp at h; simp [h.1] at hb
    | cons c a ih =>
      intro b x y ha hb h
      cases b with
      | nil => simp at h; simp [← h.1] at ha
      | cons d b =>
        simp at h ha hb
        obtain ⟨h1, h2⟩ := ih b x y ha.2 hb.2 h.2
        exact ⟨by rw [h.1, h1], h2⟩
  induction ps generalizing qs with
  | nil => exact absurd rfl hp
  | cons p ps ih =>
    cases qs with
    | nil => exact absurd rfl hq
    | cons q qs =>
      cases ps with
      | nil =>
        cases qs with
        | nil => simp [join] at h; simp [h]
        | cons q2 qs =>
          simp only [join] at h
          have := h1 p (by simp)
          rw [h] at this
          simp at this
      | cons p2 ps =>
        cases qs with
        | nil =>
          simp only [join] at h
          have := h2 q (by simp)
          rw [← h] at this
          simp at this
        | cons q2 qs =>
          simp only [join] at h
          obtain ⟨e1, e2⟩ := key p q _ _ (h1 p (by simp)) (h2 q (by simp)) h
          have := ih (by simp) (by simp) (fun x hx => h1 x (by simp [hx])) (fun x hx => h2 x (by simp [hx])) e2
          rw [e1, this]

/-- The first `n` results of `(readline)`. -/
def readLines (k sid : Nat) : Nat → M (List (Option Variant))
  | 0 => pure []
  | n + 1 => do
    let v ← callPrim (run k) .readline [] sid
    let r ← readLines k sid n
    pure (v :: r)

theorem readLines_spec (k sid : Nat) (ls : List Str) (extra : Nat) (st : St) (h : st.input = ls) :
    ∃ vs st', readLines k sid (ls.length + extra) st = .ok vs st' ∧ vs.length = ls.length + extra ∧
      ∀ (i : Nat) (v : Option Variant), vs[i]? = some v → ∃ w, v = some w ∧
        IsStr w (match ls[i]? with | some l => l | none => []) := by
  induction ls generalizing st with
  | nil =>
    simp only [List.length_nil, Nat.zero_add]
    induction extra generalizing st with
    | zero => exact ⟨[], st, rfl, rfl, by simp⟩
    | succ n ih =>
      obtain ⟨vs, st', h1, h2, h3⟩ := ih { st with next := st.next + 1 } h
      refine ⟨some ⟨.string, .mk st.next (.str []), .none, none⟩ :: vs, st', ?_, by simp [h2], ?_⟩
      · rw [h] at h1
        simp only [readLines, callPrim, ret, bReadLine, checkArgs]
        simp [h, h1]
      · intro i v hi
        cases i with
        | zero => simp at hi; subst hi; exact ⟨_, rfl, isStr_mk _ _ _ _⟩
        | succ i =>
          obtain ⟨w, hw, hs⟩ := h3 i v (by simpa using hi)
          exact ⟨w, hw, by simpa using hs⟩
  | cons l ls ih =>
    obtain ⟨vs, st', h1, h2, h3⟩ := ih { st with input := ls, next := st.next + 1 } rfl
    refine ⟨some ⟨.string, .mk st.next (.str l), .none, none⟩ :: vs, st', ?_, by simp [h2]; omega, ?_⟩
    · have : (l :: ls).length + extra = ls.length + extra + 1 := by simp; omega
      rw [this]
      simp only [readLines, callPrim, ret, bReadLine, checkArgs]
      simp [h, h1]
    · intro i v hi
      cases i with
      | zero => simp at hi; subst hi; exact ⟨_, rfl, isStr_mk _ _ _ _⟩
      | succ i =>
        obtain ⟨w, hw, hs⟩ := h3 i v (by simpa using hi)
        exact ⟨w, hw, by simpa using hs⟩

/-- C11: reading a text line by line returns exactly its lines: the i-th `(readline)` gives the i-th of the pieces
between the newlines, and the empty string when there is no more line. -/
theorem C11_readline (k sid : Nat) (txt : Str) (extra : Nat) (st : St) :
    ∃ lines st0, join '\n' lines = txt ∧ (∀ l ∈ lines, '\n' ∉ l) ∧ textReader txt st = .ok () st0 ∧
      ∃ vs st', readLines k sid (lines.length + extra) st0 = .ok vs st' ∧ vs.length = lines.length + extra ∧
        ∀ (i : Nat) (v : Option Variant), vs[i]? = some v → ∃ w, v = some w ∧
          IsStr w (match lines[i]? with | some l => l | none => []) := by
  obtain ⟨ps, h1, -, h3, h4⟩ := split_spec txt '\n'
  exact ⟨ps, { st with input := ps }, h3, h4, by simp [textReader, h1], readLines_spec k sid ps extra _ rfl⟩

example : split c!"a\n\nb" ['\n'] = .ok [c!"a", c!"", c!"b"] := by decide

/-- C11, negative part: splitting at a longer separator steps over one character only, so that the pieces do not give
the text back. -/
theorem C11_split_long_wrong : split c!"a--b" c!"--" = .ok [c!"a", c!"-b"] := by decide

/-! ## C12 search and slice -/

/-- C12: `(len txt)` is the number of characters (if this number has 32 bits). -/
theorem C12_len (k : Nat) {p : Ptr} {txt : Str} (sid : Nat) (st : St) (hp : Holds p (IsStr · txt)) (hl : IsInt32 txt.length) :
    Returns (callPrim (run (k + 1)) .len [p] sid) st fun v st' => IsInt v txt.length ∧ Extends st st' := by
  obtain ⟨i, v, rfl, hv⟩ := hp
  refine returns_int txt.length ?_ fun _ _ he hi => ⟨hi, he⟩
  simp [callPrim, bLen, lenRest, ret, checkArgs, argV, arg, toVariant, hv.1, M.rd_apply, run_n, stringValue_str (n := k) hv,
    wrap32_id hl]

example [World] (st : St) : Returns (callPrim (run 1) .len [strArg 0 c!"ab c"] 0) st fun v st' => IsInt v 4 ∧ Extends st st' :=
  C12_len 0 (txt := c!"ab c") 0 st (strArg_holds 0 _) (by decide)

/-! ## C57 -/

/-- C57: `(first txt)` is the text of the first character; the empty text for the empty text. -/
theorem C57_first (k : Nat) {p : Ptr} {txt : Str} (sid : Nat) (st : St) (hp : Holds p (IsStr · txt)) :
    Returns (callPrim (run (k + 1)) .first [p] sid) st fun v st' => IsStr v (txt.take 1) ∧ Extends st st' := by
  obtain ⟨i, v, rfl, hv⟩ := hp
  refine returns_str (txt.take 1) ?_ fun _ _ he hi => ⟨hi, he⟩
  simp [callPrim, bFirst, ret, checkArgs, argV, arg, toVariant, hv.1, M.rd_apply, run_n, stringValue_str (n := k) hv, substr]

/-- C57: `(rest txt)` is the text without its first character; the empty text raises an exception. -/
theorem C57_rest (k : Nat) {p : Ptr} {txt : Str} (sid : Nat) (st : St) (hp : Holds p (IsStr · txt)) :
    (∀ c t, txt = c :: t → Returns (callPrim (run (k + 1)) .rest [p] sid) st fun v st' => IsStr v t ∧ Extends st st') ∧
    (txt = [] → callPrim (run (k + 1)) .rest [p] sid st = .fail (.exn .outOfRange) st) := by
  obtain ⟨i, v, rfl, hv⟩ := hp
  refine ⟨?_, ?_⟩
  · rintro c t rfl
    refine returns_str t ?_ fun _ _ he hi => ⟨hi, he⟩
    simp [callPrim, bRest, ret, checkArgs, argV, arg, toVariant, hv.1, M.rd_apply, run_n, stringValue_str (n := k) hv, substrFrom]
  · rintro rfl
    simp [callPrim, bRest, ret, checkArgs, argV, arg, toVariant, hv.1, M.rd_apply, run_n, stringValue_str (n := k) hv, substrFrom, M.lift_apply]

/-- C57: `(last txt)` is the text of the last character; the empty text raises an exception.  (The length of a text is below 2^63.) -/
theorem C57_last (k : Nat) {p : Ptr} {txt : Str} (sid : Nat) (st : St) (hp : Holds p (IsStr · txt)) (hl : txt.length < 9223372036854775808) :
    (∀ c t, txt = t ++ [c] → Returns (callPrim (run (k + 1)) .last [p] sid) st fun v st' => IsStr v [c] ∧ Extends st st') ∧
    (txt = [] → callPrim (run (k + 1)) .last [p] sid st = .fail (.exn .outOfRange) st) := by
  obtain ⟨i, v, rfl, hv⟩ := hp
  refine ⟨?_, ?_⟩
  · intro c t ht
    refine returns_str [c] ?_ fun _ _ he hi => ⟨hi, he⟩
    have : substrFrom txt (sizeT ((txt.length : Int) - 1)) = .ok [c] := by
      have hz : sizeT ((txt.length : Int) - 1) = t.length := by
        rw [ht] at hl ⊢
        simp at hl ⊢
        unfold sizeT
        omega
      rw [hz, ht]
      simp [substrFrom]
    simp [callPrim, bLast, ret, checkArgs, argV, arg, toVariant, hv.1, M.rd_apply, run_n, stringValue_str (n := k) hv, this]
  · rintro rfl
    simp [callPrim, bLast, ret, checkArgs, argV, arg, toVariant, hv.1, M.rd_apply, run_n, stringValue_str (n := k) hv, substrFrom, sizeT, M.lift_apply]

/-- C57: `(nth i txt)` is the text of the character at position `i`, counted from 0; the empty text for the position behind the last
character; other positions raise an exception. -/
theorem C57_nth (k : Nat) {p q : Ptr} {txt : Str} {i : Int} (sid : Nat) (st : St) (hp : Holds p (IsInt · i)) (hi : IsInt32 i) (hq : Holds q (IsStr · txt))
    (hl : txt.length < 9223372036854775808) :
    (∀ j : Nat, i = j → j ≤ txt.length → Returns (callPrim (run (k + 1)) .nth [p, q] sid) st fun v st' => IsStr v (txt[j]?.toList) ∧ Extends st st') ∧
    (i < 0 ∨ txt.length < i → callPrim (run (k + 1)) .nth [p, q] sid st = .fail (.exn .outOfRange) st) := by
  obtain ⟨_, u, rfl, hu⟩ := hp
  obtain ⟨_, v, rfl, hv⟩ := hq
  refine ⟨?_, ?_⟩
  · rintro j rfl hj
    have hs : sizeT (j : Int) = j := by
      unfold IsInt32 at hi
      unfold sizeT
      omega
    refine returns_str (txt[j]?.toList) ?_ fun _ _ he hi => ⟨hi, he⟩
    have : (txt.drop j).take 1 = txt[j]?.toList := by
      rw [← List.head?_drop]
      cases txt.drop j <;> rfl
    simp [callPrim, bNth, ret, checkArgs, argV, arg, toVariant, hv.1, M.rd_apply, run_n, stringValue_str (n := k) hv, intValue_int hu, substr, hs, hj, this]
  · intro h
    have hs : ¬ sizeT i ≤ txt.length := by
      unfold IsInt32 at hi
      unfold sizeT
      omega
    simp [callPrim, bNth, ret, checkArgs, argV, arg, toVariant, hv.1, M.rd_apply, run_n, stringValue_str (n := k) hv, intValue_int hu, substr, hs, M.lift_apply]

example [World] (st : St) : Returns (callPrim (run 1) .last [strArg 0 c!"ab c"] 0) st fun v st' => IsStr v c!"c" ∧ Extends st st' :=
  (C57_last 0 (txt := c!"ab c") 0 st (strArg_holds 0 _) (by decide)).1 'c' c!"ab " rfl

/-- C12: `(search needle txt)` is the position of the first occurrence, -1 if there is none.  (The length of the text has 32 bits.) -/
theorem C12_search {k : Nat} (hk : 2 ≤ k) {p q : Ptr} {needle txt : Str} (sid : Nat) (st : St)
    (hp : Holds p (IsStr · needle)) (hq : Holds q (IsStr · txt)) (hl : IsInt32 txt.length) :
    Returns (callPrim (run k) .search [p, q] sid) st fun v st' => Extends st st' ∧
      ∃ r : Int, IsInt v r ∧ ((∃ i : Nat, r = i ∧ FirstAt needle txt i) ∨ (r = -1 ∧ ∀ i, ¬ OccursAt needle txt i)) := by
  obtain ⟨k, rfl⟩ : ∃ m, k = m + 2 := ⟨k - 2, by omega⟩
  obtain ⟨i, v, rfl, hv⟩ := hp
  obtain ⟨j, w, rfl, hw⟩ := hq
  have hf : findFrom txt needle 0 = findSub needle txt := by
    simp only [findFrom, Nat.zero_le, if_true, List.drop_zero]
    cases findSub needle txt <;> simp
  have hmv : mkVariant (.mk i (.var v)) = .ok v := rfl
  cases h : findSub needle txt with
  | some x =>
    refine returns_int x ?_ fun _ _ he ho => ⟨he, _, ho, Or.inl ⟨x, rfl, findSub_some h⟩⟩
    have hx : wrap32 (x : Int) = x := wrap32_id (by
      have := ((occursAt_iff _ _ _).1 (findSub_some h).1).1
      unfold IsInt32 at *
      omega)
    simp [hx, callPrim, ret, bSearch, checkOptionalArgs, argMk, argV, arg, run_n, M.rd_apply, M.lift_apply, mkVariant, toVariant,
      varStr_str hv, varStr_str hw, optSize, hw.1, searchStr, hf, h]
  | none =>
    refine returns_int (-1) ?_ fun _ _ he ho => ⟨he, _, ho, Or.inr ⟨rfl, findSub_none h⟩⟩
    simp [callPrim, ret, bSearch, checkOptionalArgs, argMk, argV, arg, run_n, M.rd_apply, M.lift_apply, mkVariant, toVariant,
      varStr_str hv, varStr_str hw, optSize, hw.1, searchStr, hf, h]

/-- C12: `(search needle txt pos)` with `0 <= pos` is the position of the first occurrence that starts at `pos` or
later, -1 if there is none.  (The length of the text has 32 bits.) -/
theorem C12_search_from {k : Nat} (hk : 2 ≤ k) {p q r : Ptr} {needle txt : Str} {pos : Int} (sid : Nat) (st : St)
    (hp : Holds p (IsStr · needle)) (hq : Holds q (IsStr · txt)) (hr : Holds r (IsInt · pos)) (h0 : 0 ≤ pos)
    (h32 : IsInt32 pos) (hl : IsInt32 txt.length) :
    Returns (callPrim (run k) .search [p, q, r] sid) st fun v st' => Extends st st' ∧
      ∃ res : Int, IsInt v res ∧
        ((∃ i : Nat, res = i ∧ pos ≤ i ∧ OccursAt needle txt i ∧ ∀ j : Nat, pos ≤ j → j < i → ¬ OccursAt needle txt j) ∨
          (res = -1 ∧ ∀ i : Nat, pos ≤ i → ¬ OccursAt needle txt i)) := by
  obtain ⟨k, rfl⟩ : ∃ m, k = m + 2 := ⟨k - 2, by omega⟩
  obtain ⟨i, v, rfl, hv⟩ := hp
  obtain ⟨j, w, rfl, hw⟩ := hq
  obtain ⟨l, u, rfl, hu⟩ := hr
  obtain ⟨x, rfl⟩ : ∃ x : Nat, pos = x := ⟨pos.toNat, by omega⟩
  have hx : (x : Int) ≤ 2147483647 := h32.2
  have hsz : sizeT (x : Int) = x := by unfold sizeT; omega
  have hne : x ≠ 18446744073709551615 := by omega
  have hocc : ∀ i, x ≤ txt.length → (OccursAt needle (txt.drop x) i ↔ OccursAt needle txt (i + x)) := by
    intro i hx
    rw [occursAt_iff, occursAt_iff, List.drop_drop, List.length_drop, Nat.add_comm x i]
    constructor
    · rintro ⟨a, b⟩; exact ⟨by omega, b⟩
    · rintro ⟨a, b⟩; exact ⟨by omega, b⟩
  have heval : ∀ res, findFrom txt needle x = res →
      callPrim (run (k + 2)) .search [.mk i (.var v), .mk j (.var w), .mk l (.var u)] sid st =
        (ret (mkInt (match res with | some y => (y : Int) | none => -1))) st := by
    intro res hres
    have hy : ∀ y, findFrom txt needle x = some y → wrap32 (y : Int) = y := by
      intro y h
      unfold findFrom at h
      split at h
      · cases h2 : findSub needle (txt.drop x) with
        | none => rw [h2] at h; simp at h
        | some z =>
          rw [h2] at h
          simp at h
          subst h
          have := ((occursAt_iff _ _ _).1 (findSub_some h2).1).1
          refine wrap32_id ?_
          rw [List.length_drop] at this
          unfold IsInt32 at *
          omega
      · cases h
    cases res with
    | some y => simp [hy y hres, callPrim, ret, bSearch, checkOptionalArgs, argMk, argV, arg, run_n, M.rd_apply, M.lift_apply, mkVariant,
      toVariant, varStr_str hv, varStr_str hw, optSize, hw.1, searchStr, toInt_int hu, hsz, hne, hres]
    | none => simp [callPrim, ret, bSearch, checkOptionalArgs, argMk, argV, arg, run_n, M.rd_apply, M.lift_apply, mkVariant,
      toVariant, varStr_str hv, varStr_str hw, optSize, hw.1, searchStr, toInt_int hu, hsz, hne, hres]
  cases h : findFrom txt needle x with
  | some y =>
    refine returns_int y (heval _ h) fun _ _ he ho => ⟨he, _, ho, Or.inl ⟨y, rfl, ?_⟩⟩
    unfold findFrom at h
    split at h
    · rename_i hl
      cases h2 : findSub needle (txt.drop x) with
      | none => rw [h2] at h; simp at h
      | some z =>
        rw [h2] at h
        simp at h
        subst h
        obtain ⟨h3, h4⟩ := findSub_some h2
        refine ⟨by omega, (hocc z hl).1 h3, fun j' h5 h6 h7 => ?_⟩
        obtain ⟨j2, rfl⟩ : ∃ m, j' = m + x := ⟨j' - x, by omega⟩
        exact h4 j2 (by omega) ((hocc j2 hl).2 h7)
    · simp at h
  | none =>
    refine returns_int (-1) (heval _ h) fun _ _ he ho => ⟨he, _, ho, Or.inr ⟨rfl, ?_⟩⟩
    intro i' h1 h2
    have hl : x ≤ txt.length := by have := ((occursAt_iff _ _ _).1 h2).1; omega
    simp only [findFrom, hl, if_true, Option.map_eq_none_iff] at h
    obtain ⟨j2, rfl⟩ : ∃ m, i' = m + x := ⟨i' - x, by omega⟩
    exact findSub_none h j2 ((hocc j2 hl).2 h2)

example [World] (st : St) : Returns (callPrim (run 2) .search [strArg 0 c!"b", strArg 2 c!"abcb", intArg 4 2] 0) st
    fun v _ => IsInt v 3 := ⟨_, _, rfl, isInt_mk _ _ _ _⟩

/-- C12: `(search needle txt pos len)` with `0 <= pos` and `0 <= len` searches for the first `len` characters of the needle.  (The needle has so
many characters.) -/
theorem C12_search_len {k : Nat} (hk : 2 ≤ k) {p q r t : Ptr} {needle txt : Str} {pos : Int} {len : Nat} (sid : Nat) (st : St)
    (hp : Holds p (IsStr · needle)) (hq : Holds q (IsStr · txt)) (hr : Holds r (IsInt · pos)) (ht : Holds t (IsInt · (len : Int))) (h0 : 0 ≤ pos)
    (h32 : IsInt32 pos) (hlen : IsInt32 len) (hn : len ≤ needle.length) :
    ∃ p' : Ptr, Holds p' (IsStr · (needle.take len)) ∧
      callPrim (run k) .search [p, q, r, t] sid st = callPrim (run k) .search [p', q, r] sid st := by
  obtain ⟨k, rfl⟩ : ∃ m, k = m + 2 := ⟨k - 2, by omega⟩
  refine ⟨strArg 0 (needle.take len), strArg_holds 0 _, ?_⟩
  obtain ⟨i, v, rfl, hv⟩ := hp
  obtain ⟨j, w, rfl, hw⟩ := hq
  obtain ⟨l, u, rfl, hu⟩ := hr
  obtain ⟨m, y, rfl, hy⟩ := ht
  obtain ⟨i', v', he, hv'⟩ := strArg_holds 0 (needle.take len)
  rw [he]
  have e1 : sizeT pos ≠ 18446744073709551615 := by unfold sizeT IsInt32 at *; omega
  have e2 : sizeT (len : Int) = len := by unfold sizeT IsInt32 at *; omega
  have e3 : len ≠ 18446744073709551615 := by unfold IsInt32 at *; omega
  have e4 : len ≤ needle.length + 1 := by omega
  have e5 : (needle ++ [Char.ofNat 0]).take len = needle.take len := List.take_append_of_le_length hn
  simp [callPrim, ret, bSearch, checkOptionalArgs, argMk, argV, arg, run_n, M.rd_apply, M.lift_apply, mkVariant, toVariant, varStr_str hv, varStr_str hv',
    varStr_str hw, optSize, hw.1, searchStr, toInt_int hu, toInt_int hy, e1, e2, e3, e4, e5, indexOfLen]

example [World] (st : St) : Returns (callPrim (run 2) .search [strArg 0 c!"bx", strArg 2 c!"abcb", intArg 4 2, intArg 6 1] 0) st
    fun v _ => IsInt v 3 := ⟨_, _, rfl, isInt_mk _ _ _ _⟩

/-- What `(slice txt pos len)` addresses: `len` characters (fewer at the end of the text, all of them if `len` is
negative) from offset `pos` on. -/
def Slice (txt : Str) (pos len : Int) (out : Str) : Prop :=
  ∃ a b, txt = a ++ out ++ b ∧ a.length = pos ∧ (len < 0 → b = []) ∧
    (0 ≤ len → out.length = len ∨ (out.length < len ∧ b = []))

/-- C12: `(slice txt pos len)` is the addressed part of the text; an offset outside of the text raises
`std::out_of_range`.  (A text of 2^63 or more characters does not exist.) -/
theorem C12_slice {k : Nat} (hk : 2 ≤ k) {p q r : Ptr} {txt : Str} {pos len : Int} (sid : Nat) (st : St)
    (hp : Holds p (IsStr · txt)) (hq : Holds q (IsInt · pos)) (hr : Holds r (IsInt · len))
    (hl : txt.length < 9223372036854775808) (h32 : IsInt32 pos) :
    (0 ≤ pos ∧ pos ≤ txt.length → Returns (callPrim (run k) .slice [p, q, r] sid) st fun v st' => Extends st st' ∧
      ∃ out, IsStr v out ∧ Slice txt pos len out) ∧
    (pos < 0 ∨ txt.length < pos → callPrim (run k) .slice [p, q, r] sid st = .fail (.exn .outOfRange) st) := by
  obtain ⟨k, rfl⟩ : ∃ m, k = m + 2 := ⟨k - 2, by omega⟩
  obtain ⟨i, v, rfl, hv⟩ := hp
  obtain ⟨j, w, rfl, hw⟩ := hq
  obtain ⟨l, u, rfl, hu⟩ := hr
  have heval : callPrim (run (k + 2)) .slice [.mk i (.var v), .mk j (.var w), .mk l (.var u)] sid st =
      (ret (if 0 ≤ len then do mkStr (← M.lift (substr txt (sizeT pos) len.toNat))
        else do mkStr (← M.lift (substrFrom txt (sizeT pos))))) st := by
    simp [callPrim, ret, bSlice, checkArgs, argMk, arg, run_n, M.rd_apply, M.lift_apply, mkVariant, varStr_str hv,
      toInt_int hw, toInt_int hu]
  obtain ⟨h1, h2⟩ := h32
  constructor
  · rintro ⟨h3, h4⟩
    obtain ⟨x, rfl⟩ : ∃ x : Nat, pos = x := ⟨pos.toNat, by omega⟩
    have hsz : sizeT (x : Int) = x := by unfold sizeT; omega
    have hx : x ≤ txt.length := by omega
    by_cases hlen : 0 ≤ len
    · refine returns_str ((txt.drop x).take len.toNat) (by rw [heval]; simp [ret, hlen, hsz, substr, hx]) fun _ _ he ho => ⟨he, _, ho,
        txt.take x, (txt.drop x).drop len.toNat, ?_, ?_, ?_, ?_⟩
      · rw [List.append_assoc, List.take_append_drop, List.take_append_drop]
      · simp [hx]
      · omega
      · intro _
        simp
        omega
    · refine returns_str (txt.drop x) (by rw [heval]; simp [ret, hlen, hsz, substrFrom, hx]) fun _ _ he ho => ⟨he, _, ho,
        txt.take x, [], ?_, ?_, ?_, ?_⟩
      · simp
      · simp [hx]
      · simp
      · omega
  · intro h3
    have hsz : ¬ sizeT pos ≤ txt.length := by unfold sizeT; omega
    rw [heval]
    by_cases hlen : 0 ≤ len
    · simp [ret, hlen, substr, hsz]
    · simp [ret, hlen, substrFrom, hsz]

example [World] (st : St) : Returns (callPrim (run 2) .slice [strArg 0 c!"abcd", intArg 2 1, intArg 4 2] 0) st
    fun v _ => IsStr v c!"bc" := ⟨_, _, rfl, isStr_mk _ _ _ _⟩
example : Slice c!"abcd" 1 2 c!"bc" := ⟨c!"a", c!"d", rfl, rfl, by decide, by decide⟩

/-! ## C13 format -/

/-- C13: `(format text a0 a1 ...)` replaces the placeholders `{0}`, `{1}`, ... by the display strings of the arguments
(`ptrStr` is `ToString()`), if neither the literal
parts nor the arguments contain curly brackets, every placeholder occurs once and every placeholder has an argument
(up to five; the text `##<NULL>##` cannot be used as an argument). -/
theorem C13_format {k : Nat} (hk : 3 ≤ k) {p : Ptr} {ps : List Ptr} {pieces : List Piece} {args : List Str}
    (sid : Nat) (st : St) (hp : Holds p (IsStr · (sources pieces))) (hn : args.length ≤ 5)
    (hps : ps.length = args.length) (ha : ∀ (i : Nat) (q : Ptr) (a : Str), ps[i]? = some q → args[i]? = some a →
      ptrStr st k q = .ok a)
    (hlit : ∀ s, Piece.lit s ∈ pieces → BraceFree s) (harg : ∀ a ∈ args, BraceFree a ∧ a ≠ c!"##<NULL>##")
    (hh : ∀ i ∈ holes pieces, i < args.length) (hd : (holes pieces).Nodup) :
    Returns (callPrim (run k) .format (p :: ps) sid) st fun v st' => Extends st st' ∧ IsStr v (fill args pieces) := by
  obtain ⟨k, rfl⟩ : ∃ m, k = m + 3 := ⟨k - 3, by omega⟩
  obtain ⟨i, v, rfl, hv⟩ := hp
  have hstrs : ∀ (ps : List Ptr) (args : List Str), ps.length = args.length →
      (∀ (i : Nat) (q : Ptr) (a : Str), ps[i]? = some q → args[i]? = some a → ptrStr st (k + 3) q = .ok a) →
      argStrs st (k + 3) ps = .ok args := by
    intro ps
    induction ps with
    | nil => intro args h _; cases args with | nil => rfl | cons _ _ => simp at h
    | cons q ps ih =>
      intro args h1 h2
      cases args with
      | nil => simp at h1
      | cons a args =>
        have hw := h2 0 q a rfl rfl
        have := ih args (by simpa using h1) fun i q a hq ha => h2 (i + 1) q a (by simpa using hq) (by simpa using ha)
        simp [argStrs, hw, this]
  have h0 : argStrs st (k + 3) (.mk i (.var v) :: ps) = .ok (sources pieces :: args) := by
    simp [argStrs, ptrStr_var, varStr_str hv, hstrs ps args hps ha]
  have hf := format_pieces hlit harg (fun i hi => ⟨hh i hi, by have := hh i hi; omega⟩) hd
  refine ⟨⟨.string, .mk st.next (.str (fill args pieces)), .none, none⟩, { st with next := st.next + 1 }, ?_,
    extends_next _ _ (Nat.le_succ _), isStr_mk _ _ _ _⟩
  have hlen : 1 ≤ (Ptr.mk i (Obj.var v) :: ps).length ∧ (Ptr.mk i (Obj.var v) :: ps).length ≤ 6 := by simp; omega
  simp only [callPrim, ret, bFormat, checkOptionalArgs_ok hlen, run_n, M.bind_apply, M.pure_apply, M.rd_apply, h0]
  match args, hn with
  | [], _ => simp [argOr] at hf; simp [hf]
  | [a], _ => simp [argOr] at hf; simp [hf]
  | [a, b], _ => simp [argOr] at hf; simp [hf]
  | [a, b, c], _ => simp [argOr] at hf; simp [hf]
  | [a, b, c, d], _ => simp [argOr] at hf; simp [hf]
  | [a, b, c, d, e], _ => simp [argOr] at hf; simp [hf]

example : fill [c!"x", c!"yy"] [.lit c!"a ", .hole 1, .lit c!" b", .hole 0] = c!"a yy bx" := by decide
example : sources [.lit c!"a ", .hole 1, .lit c!" b", .hole 0] = c!"a {1} b{0}" := by decide

example [World] (st : St) : Returns (callPrim (run 3) .format [strArg 0 c!"a {1} b{0}", strArg 2 c!"x", intArg 4 7] 0) st
    fun v _ => IsStr v c!"a 7 bx" := by
  obtain ⟨v, st', h, _, h2⟩ := C13_format (pieces := [.lit c!"a ", .hole 1, .lit c!" b", .hole 0]) (args := [c!"x", c!"7"])
    (ps := [strArg 2 c!"x", intArg 4 7]) (Nat.le_refl 3) 0 st (strArg_holds 0 c!"a {1} b{0}") (by decide) rfl
    (by intro i q a h1 h2
        match i, h1, h2 with
        | 0, h1, h2 => simp at h1 h2; subst h1 h2; rfl
        | 1, h1, h2 => simp at h1 h2; subst h1 h2; rfl
        | n + 2, h1, _ => simp at h1)
    (by simp [BraceFree]) (by simp [BraceFree]) (by simp [holes]) (by simp [holes])
  exact ⟨v, st', h, h2⟩

/-- C13, negative part: only the first of two equal placeholders is replaced. -/
theorem C13_format_repeated_wrong : format c!"{0} {0}" c!"x" = .ok c!"x {0}" := by decide

/-- C13, negative part: an argument that contains a placeholder is substituted again. -/
theorem C13_format_nested_wrong : format c!"{0} {1}" c!"{1}" c!"x" = .ok c!"x {1}" := by decide

/-! ## C14 numbers as text -/

/-- C14: `(parse-integer txt)` is the integer `i` exactly if the text consists of white space followed by an optionally signed
digit sequence denoting `i`, a 32-bit number; for every other text the result is undefined. -/
theorem C14_parse_integer {k : Nat} (hk : 2 ≤ k) {p : Ptr} {txt : Str} (sid : Nat) (st : St) (hp : Holds p (IsStr · txt)) :
    Returns (callPrim (run k) .parseInteger [p] sid) st fun v st' => Extends st st' ∧
      (IsUndef v ∨ ∃ i, IsInt v i) ∧ ∀ i, IsInt v i ↔
        ∃ ws num, txt = ws ++ num ∧ (∀ c ∈ ws, White c) ∧ Numeral num i ∧ IsInt32 i := by
  obtain ⟨k, rfl⟩ : ∃ m, k = m + 2 := ⟨k - 2, by omega⟩
  obtain ⟨j, w, rfl, hw⟩ := hp
  have hiff := parseInt_iff txt
  cases h : stoi txt with
  | error f =>
    refine ⟨undefinedV, st, ?_, Extends.refl _, Or.inl rfl, fun i => ⟨fun hi => ?_, fun hi => ?_⟩⟩
    · have hf : ∃ e, f = .exn e := by
        unfold stoi at h
        split at h
        · simp at h; exact ⟨_, h.symm⟩
        · split at h
          · simp at h
          · simp at h; exact ⟨_, h.symm⟩
      obtain ⟨e, rfl⟩ := hf
      simp [callPrim, ret, bParseInteger, checkArgs, argMk, arg, run_n, M.rd_apply, mkVariant, varStr_str hw, parseIntText,
        h, catchAny]
    · simp [IsInt, undefinedV, Variant.ofType] at hi
    · obtain ⟨m, hm, _⟩ := (hiff i).2 hi
      rw [h] at hm; simp at hm
  | ok r =>
    obtain ⟨x, m⟩ := r
    by_cases hm : m < txt.length
    · refine ⟨undefinedV, st, ?_, Extends.refl _, Or.inl rfl, fun i => ⟨fun hi => ?_, fun hi => ?_⟩⟩
      · simp [callPrim, ret, bParseInteger, checkArgs, argMk, arg, run_n, M.rd_apply, mkVariant, varStr_str hw, parseIntText,
          h, catchAny, hm, throwBase]
      · simp [IsInt, undefinedV, Variant.ofType] at hi
      · obtain ⟨m', hm', hm''⟩ := (hiff i).2 hi
        rw [h] at hm'; simp at hm'; omega
    · refine returns_int x ?_ fun v' _ he ho => ⟨he, Or.inr ⟨x, ho⟩, fun i => ⟨fun hi => ?_, fun hi => ?_⟩⟩
      · simp [callPrim, ret, bParseInteger, checkArgs, argMk, arg, run_n, M.rd_apply, mkVariant, varStr_str hw, parseIntText,
          h, catchAny, hm]
      · have : i = x := by
          obtain ⟨_, y, hy⟩ := hi
          obtain ⟨_, z, hz⟩ := ho
          rw [hy] at hz
          simp at hz
          exact hz.2
        subst this
        exact (hiff i).1 ⟨m, h, hm⟩
      · obtain ⟨m', hm', hm''⟩ := (hiff i).2 hi
        rw [h] at hm'; simp at hm'
        rw [← hm'.1]; exact ho

/-- C14: `(parse-integer (str n))` is `n` for every 32-bit integer. -/
theorem C14_roundtrip {k : Nat} (hk : 3 ≤ k) {p : Ptr} {i : Int} (h32 : IsInt32 i) (sid : Nat) (st : St)
    (hp : Holds p (IsInt · i)) :
    Returns (callPrim (run k) .str [p] sid) st fun v st' => Extends st st' ∧ IsStr v (intStr i) ∧
      ∀ q st2, Holds q (· = v) → Returns (callPrim (run k) .parseInteger [q] sid) st2 fun r st3 =>
        Extends st2 st3 ∧ IsInt r i := by
  obtain ⟨k, rfl⟩ : ∃ m, k = m + 3 := ⟨k - 3, by omega⟩
  obtain ⟨j, w, rfl, hw⟩ := hp
  refine returns_str (intStr i) ?_ fun v st' he ho => ⟨he, ho, ?_⟩
  · have hnn : w.type ≠ .native := by rw [hw.1]; simp
    simp [callPrim, ret, bStr, checkArgs, arg, run_n, M.rd_apply, ptrStr_var, varStr_int hw, hnn]
  · rintro q st2 ⟨x, u, rfl, rfl⟩
    obtain ⟨r, st3, h1, h2, -, h4⟩ := C14_parse_integer (k := k + 3) (by omega) (txt := intStr i) sid st2
      ⟨x, _, rfl, ho⟩
    exact ⟨r, st3, h1, h2, (h4 i).2 ⟨[], intStr i, by simp, by simp, numeral_intStr i, h32⟩⟩

example : Numeral c!"-012" (-12) := ⟨c!"012", by simp, by simp [Digit], Or.inr (Or.inr ⟨rfl, rfl⟩)⟩
example [World] (st : St) : Returns (callPrim (run 2) .parseInteger [strArg 0 c!" -012"] 0) st fun v _ => IsInt v (-12) := by
  obtain ⟨v, st', h, _, _, h3⟩ := C14_parse_integer (Nat.le_refl 2) 0 st (strArg_holds 0 c!" -012")
  exact ⟨v, st', h, (h3 (-12)).2 ⟨c!" ", c!"-012", rfl, by simp [White], ⟨c!"012", by simp, by simp [Digit],
    Or.inr (Or.inr ⟨rfl, rfl⟩)⟩, by decide⟩⟩

end Fuel
