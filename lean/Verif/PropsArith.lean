import Verif.SpecOps
import Verif.PropsText
/-!
# Properties of arithmetic, concatenation, ordering and equality (C15 - C19)

`callPrim (run k) b args sid` is the call of builtin function `b` with evaluated arguments `args` from scope `sid`
with step budget `k`.
-/

set_option linter.unusedSectionVars false
set_option linter.unusedSimpArgs false

namespace Fuel

open Spec

variable [World]

/-! ## C15 integer arithmetic -/

theorem mkVariant_var (i : Nat) (v : Variant) : mkVariant (.mk i (.var v)) = .ok v := rfl
theorem toVariant_var (i : Nat) (v : Variant) : toVariant (.mk i (.var v)) = .ok v := rfl

/-- An arithmetic function on two integers. -/
theorem arith_int {n : Nat} {op : ArithOp} {v w : Variant} {x y : Int} (hv : IsInt v x) (hw : IsInt w y) (st : St) :
    arith n op v w st = (do let c ← M.lift (op.int x y); mkInt c) st := by
  simp [arith, hv.1, hw.1, M.rd_apply, toInt_int hv, toInt_int hw]

theorem arithFold_two (n : Nat) (op : ArithOp) (i j : Nat) (v w : Variant) (st : St) :
    arithFold n op [.mk i (.var v), .mk j (.var w)] st = ret (arith n op v w) st := by
  simp [arithFold, arithLoop, mkVariant_var, ret]
  cases arith n op v w st <;> rfl

theorem tdiv_tmod_truncated (x y : Int) (hy : y ≠ 0) : Truncated x y (x.tdiv y) (x.tmod y) := by
  refine ⟨?_, ?_, ?_, ?_⟩
  · have := Int.tmod_add_tdiv_mul x y; omega
  · rw [Int.natAbs_tmod]; exact Nat.mod_lt _ (by omega)
  · intro h; exact Int.tmod_nonneg y h
  · intro h
    have h1 : (-x).tmod y = -(x.tmod y) := Int.neg_tmod ..
    have h2 : 0 ≤ (-x).tmod y := Int.tmod_nonneg y (by omega)
    omega

theorem truncated_unique {x y q r q' r' : Int} (h : Truncated x y q r) (h' : Truncated x y q' r') : q = q' ∧ r = r' := by
  obtain ⟨h1, h2, h3, h4⟩ := h
  obtain ⟨h1', h2', h3', h4'⟩ := h'
  have hr : (r - r').natAbs < y.natAbs := by
    by_cases hx : 0 ≤ x
    · have := h3 hx; have := h3' hx; omega
    · have := h4 (by omega); have := h4' (by omega); omega
  have hd : (q' - q) * y = r - r' := by rw [Int.sub_mul]; omega
  have hz : q' - q = 0 := by
    by_cases hz : q' - q = 0
    · exact hz
    · exfalso
      have h5 : ((q' - q) * y).natAbs = (q' - q).natAbs * y.natAbs := Int.natAbs_mul _ _
      have h6 : 1 ≤ (q' - q).natAbs := by omega
      have h7 := Nat.mul_le_mul_right y.natAbs h6
      rw [hd] at h5
      omega
  rw [hz] at hd
  omega

section C15
variable {k : Nat} {p q : Ptr} {x y : Int} (sid : Nat) (st : St) (hp : Holds p (IsInt · x)) (hq : Holds q (IsInt · y))
include hp hq

/-- C15: `(+ x y)` on integers is the exact sum if it fits into 32 bits; otherwise the program has undefined behaviour
(signed overflow), so no result is promised. -/
theorem C15_add :
    (IsInt32 (x + y) → Returns (callPrim (run k) .add [p, q] sid) st fun v st' => IsInt v (x + y) ∧ Extends st st') ∧
    (¬ IsInt32 (x + y) → callPrim (run k) .add [p, q] sid st = .fail (.ub .overflow) st) := by
  obtain ⟨i, v, rfl, hv⟩ := hp
  obtain ⟨j, w, rfl, hw⟩ := hq
  constructor
  · intro h
    refine returns_int (x + y) ?_ fun _ _ he hi => ⟨hi, he⟩
    simp [callPrim, arithFold_two, ret, arith_int hv hw, ArithOp.int, chk32, h]
  · intro h
    simp [callPrim, arithFold_two, ret, arith_int hv hw, ArithOp.int, chk32, h]

/-- C15: `(- x y)` on integers. -/
theorem C15_sub :
    (IsInt32 (x - y) → Returns (callPrim (run k) .sub [p, q] sid) st fun v st' => IsInt v (x - y) ∧ Extends st st') ∧
    (¬ IsInt32 (x - y) → callPrim (run k) .sub [p, q] sid st = .fail (.ub .overflow) st) := by
  obtain ⟨i, v, rfl, hv⟩ := hp
  obtain ⟨j, w, rfl, hw⟩ := hq
  constructor
  · intro h
    refine returns_int (x - y) ?_ fun _ _ he hi => ⟨hi, he⟩
    simp [callPrim, bSub, arithFold_two, ret, arith_int hv hw, ArithOp.int, chk32, h]
  · intro h
    simp [callPrim, bSub, arithFold_two, ret, arith_int hv hw, ArithOp.int, chk32, h]

/-- C15: `(* x y)` on integers. -/
theorem C15_mul :
    (IsInt32 (x * y) → Returns (callPrim (run k) .mul [p, q] sid) st fun v st' => IsInt v (x * y) ∧ Extends st st') ∧
    (¬ IsInt32 (x * y) → callPrim (run k) .mul [p, q] sid st = .fail (.ub .overflow) st) := by
  obtain ⟨i, v, rfl, hv⟩ := hp
  obtain ⟨j, w, rfl, hw⟩ := hq
  constructor
  · intro h
    refine returns_int (x * y) ?_ fun _ _ he hi => ⟨hi, he⟩
    simp [callPrim, arithFold_two, ret, arith_int hv hw, ArithOp.int, chk32, h]
  · intro h
    simp [callPrim, arithFold_two, ret, arith_int hv hw, ArithOp.int, chk32, h]

/-- C15: `(/ x y)` on integers is the quotient rounded towards zero; division by zero and the quotient that does not
fit (smallest integer by -1) are undefined behaviour. -/
theorem C15_div :
    (∀ d r, Truncated x y d r → IsInt32 d →
      Returns (callPrim (run k) .div [p, q] sid) st fun v st' => IsInt v d ∧ Extends st st') ∧
    (∀ d r, Truncated x y d r → ¬ IsInt32 d → callPrim (run k) .div [p, q] sid st = .fail (.ub .overflow) st) ∧
    (y = 0 → callPrim (run k) .div [p, q] sid st = .fail (.ub .divZero) st) := by
  obtain ⟨i, v, rfl, hv⟩ := hp
  obtain ⟨j, w, rfl, hw⟩ := hq
  have key : ∀ d r, Truncated x y d r → y ≠ 0 ∧ x.tdiv y = d := by
    intro d r h
    have hy : y ≠ 0 := by rintro rfl; have := h.2.1; simp at this
    exact ⟨hy, (truncated_unique (tdiv_tmod_truncated x y hy) h).1⟩
  refine ⟨?_, ?_, ?_⟩
  · intro d r h hd
    obtain ⟨hy, rfl⟩ := key d r h
    refine returns_int _ ?_ fun _ _ he hi => ⟨hi, he⟩
    simp [callPrim, arithFold_two, ret, arith_int hv hw, ArithOp.int, chk32, hd, hy]
  · intro d r h hd
    obtain ⟨hy, rfl⟩ := key d r h
    simp [callPrim, arithFold_two, ret, arith_int hv hw, ArithOp.int, chk32, hd, hy]
  · rintro rfl
    simp [callPrim, arithFold_two, ret, arith_int hv hw, ArithOp.int, R.ub]

/-- C15: `(% x y)` on integers is the remainder of the division that rounds towards zero. -/
theorem C15_mod :
    (∀ d r, Truncated x y d r → IsInt32 d →
      Returns (callPrim (run k) .mod [p, q] sid) st fun v st' => IsInt v r ∧ Extends st st') ∧
    (∀ d r, Truncated x y d r → ¬ IsInt32 d → callPrim (run k) .mod [p, q] sid st = .fail (.ub .overflow) st) ∧
    (y = 0 → callPrim (run k) .mod [p, q] sid st = .fail (.ub .divZero) st) := by
  obtain ⟨i, v, rfl, hv⟩ := hp
  obtain ⟨j, w, rfl, hw⟩ := hq
  have key : ∀ d r, Truncated x y d r → y ≠ 0 ∧ x.tdiv y = d ∧ x.tmod y = r := by
    intro d r h
    have hy : y ≠ 0 := by rintro rfl; have := h.2.1; simp at this
    exact ⟨hy, truncated_unique (tdiv_tmod_truncated x y hy) h⟩
  refine ⟨?_, ?_, ?_⟩
  · intro d r h hd
    obtain ⟨hy, rfl, rfl⟩ := key d r h
    refine returns_int _ ?_ fun _ _ he hi => ⟨hi, he⟩
    simp [callPrim, arithFold_two, ret, arith_int hv hw, ArithOp.int, chk32, hd, hy]
  · intro d r h hd
    obtain ⟨hy, rfl, rfl⟩ := key d r h
    simp [callPrim, arithFold_two, ret, arith_int hv hw, ArithOp.int, chk32, hd, hy, R.ub]
  · rintro rfl
    simp [callPrim, arithFold_two, ret, arith_int hv hw, ArithOp.int, R.ub]
end C15

/-- C15: for all integers there is a truncated quotient unless the divisor is zero, and it is unique; so the cases of
`C15_div` and `C15_mod` are complete and determine the result. -/
theorem C15_quotient_exists (x y : Int) (hy : y ≠ 0) :
    ∃ q r, Truncated x y q r ∧ ∀ q' r', Truncated x y q' r' → q' = q ∧ r' = r :=
  ⟨_, _, tdiv_tmod_truncated x y hy, fun _ _ h => truncated_unique h (tdiv_tmod_truncated x y hy)⟩

example : Holds (intArg 0 (-7)) (IsInt · (-7)) ∧ Holds (intArg 2 2) (IsInt · 2) ∧ IsInt32 (-7 + 2) ∧
    Truncated (-7) 2 (-3) (-1) ∧ IsInt32 (-3) :=
  ⟨intArg_holds _ _, intArg_holds _ _, by decide, by simp [Truncated], by decide⟩
example : ¬ IsInt32 (2147483647 + 1) := by decide

/-! ## C16 any number of arguments -/

/-- The builtin functions of the operators. -/
def ArithOp.builtin : ArithOp → Builtin
  | .add => .add | .sub => .sub | .mul => .mul | .div => .div | .mod => .mod

/-- The value `w` as an evaluated argument. -/
def boxed (w : Variant) : Ptr := .mk 0 (.var w)

theorem arithLoop_fold (n : Nat) (op : ArithOp) (acc : Variant) (ps : List Ptr) (vs : List Variant)
    (h : ps.map mkVariant = vs.map .ok) : arithLoop n op acc ps = vs.foldlM (arith n op) acc := by
  induction ps generalizing acc vs with
  | nil =>
    cases vs with
    | nil => rfl
    | cons => simp at h
  | cons p ps ih =>
    cases vs with
    | nil => simp at h
    | cons v vs =>
      simp at h
      funext st
      simp only [arithLoop, h.1, List.foldlM_cons, M.bind_apply, M.lift_ok]
      cases arith n op acc v st with
      | ok a s => exact congrFun (ih a vs h.2) s
      | fail f s => rfl

theorem callPrim_arith (k : Nat) (op : ArithOp) (sid : Nat) (a b : Variant) :
    callPrim (run k) op.builtin [boxed a, boxed b] sid = ret (arith k op a b) := by
  funext st
  cases op <;> simp only [ArithOp.builtin, callPrim, run_n, boxed, bSub, arithFold_two]

/-- C16: `(op a1 a2 ... an)` with at least two arguments is `((a1 op a2) op a3) ...`: the result and the effects are
those of applying the function to the first two values, then to that result and the next value, and so on. -/
theorem C16_left_fold (k : Nat) (op : ArithOp) (sid : Nat) {p : Ptr} {ps : List Ptr} {v : Variant} {vs : List Variant}
    (hp : Holds p (· = v)) (hps : Each (fun p v => Holds p (· = v)) ps vs) (hne : ps ≠ []) :
    callPrim (run k) op.builtin (p :: ps) sid = (do
      let r ← vs.foldlM (fun acc w => do derefV (← callPrim (run k) op.builtin [boxed acc, boxed w] sid)) v
      pure (some r)) := by
  have hm : ∀ {ps : List Ptr} {vs : List Variant}, Each (fun p v => Holds p (· = v)) ps vs →
      ps.map mkVariant = vs.map .ok := by
    intro ps vs h
    induction h with
    | nil => rfl
    | cons h1 h2 ih => obtain ⟨i, v, rfl, rfl⟩ := h1; simp [mkVariant_var, ih]
  obtain ⟨i, v, rfl, rfl⟩ := hp
  have hb : (fun acc w => (do derefV (← callPrim (run k) op.builtin [boxed acc, boxed w] sid) : M Variant)) = arith k op := by
    funext acc w st
    rw [callPrim_arith]
    simp [ret]
    cases arith k op acc w st <;> rfl
  rw [hb, ← arithLoop_fold k op v ps vs (hm hps)]
  have h1 : arithFold k op (.mk i (.var v) :: ps) = (do let r ← arithLoop k op v ps; pure (some r)) := by
    funext st; simp [arithFold, mkVariant_var]
  rw [← h1]
  cases op <;> simp only [ArithOp.builtin, callPrim, run_n]
  obtain ⟨q, qs, rfl⟩ := List.exists_cons_of_ne_nil hne
  simp [bSub]

/-- C16: one argument is returned unchanged, except by subtraction. -/
theorem C16_single (k : Nat) {op : ArithOp} (hop : op ≠ .sub) (sid : Nat) {p : Ptr} {v : Variant} (hp : Holds p (· = v))
    (st : St) : callPrim (run k) op.builtin [p] sid st = .ok (some v) st := by
  obtain ⟨i, v, rfl, rfl⟩ := hp
  cases op <;> first | exact absurd rfl hop | simp [ArithOp.builtin, callPrim, arithFold, arithLoop, mkVariant_var]

/-- C16: subtraction with one argument negates it. -/
theorem C16_negate (k : Nat) (sid : Nat) (st : St) {p : Ptr} {x : Int} (hp : Holds p (IsInt · x)) (hx : IsInt32 (-x)) :
    Returns (callPrim (run k) .sub [p] sid) st fun v st' => IsInt v (-x) ∧ Extends st st' := by
  obtain ⟨i, v, rfl, hv⟩ := hp
  refine returns_int (-x) ?_ fun _ _ he hi => ⟨hi, he⟩
  simp [callPrim, bSub, mkVariant_var, hv.1, M.rd_apply, intValue_int hv, chk32, hx, ret]

/-- C16: the same for floating-point numbers. -/
theorem C16_negate_double (k : Nat) (sid : Nat) (st : St) {p : Ptr} {x : Dbl} (hp : Holds p (IsDbl · x)) :
    Returns (callPrim (run k) .sub [p] sid) st fun v st' => IsDbl v (World.dNeg x) ∧ Extends st st' := by
  obtain ⟨i, v, rfl, hv⟩ := hp
  refine returns_dbl _ ?_ fun _ _ he hi => ⟨hi, he⟩
  simp [callPrim, bSub, mkVariant_var, hv.1, M.rd_apply, doubleValue_dbl hv, ret]

/-- C16: without arguments there is no result (a null pointer), which makes the caller fail. -/
theorem C16_no_argument_wrong (k : Nat) (op : ArithOp) (sid : Nat) (st : St) :
    callPrim (run k) op.builtin [] sid st = .ok none st := by
  cases op <;> rfl

example : Each (fun p v => Holds p (· = v)) [intArg 0 5, strArg 2 c!"x"]
    [⟨.int, .mk 1 (.int 5), .none, none⟩, ⟨.string, .mk 3 (.str c!"x"), .none, none⟩] :=
  .cons ⟨_, _, rfl, rfl⟩ (.cons ⟨_, _, rfl, rfl⟩ .nil)

/-! ## C17 concatenation -/

theorem stringValue_sym {st : St} {n : Nat} {v : Variant} {s : Str} (h : IsSym v s) : v.stringValue st (n + 1) = .ok s := by
  obtain ⟨h1, i, h2⟩ := h
  simp [Variant.stringValue, h2, ptrStr]

theorem stringValue_shows {st : St} {n : Nat} {v : Variant} {s : Str} (h : Shows v s) : v.stringValue st (n + 1) = .ok s := by
  rcases h with h | h | ⟨i, h, rfl⟩ | ⟨d, ⟨_, i, h⟩, rfl⟩
  · exact stringValue_str h
  · exact stringValue_sym h
  · exact stringValue_int h
  · simp [Variant.stringValue, h, ptrStr]

theorem arith_string {n : Nat} {v w : Variant} {s t : Str} (hv : Shows v s) (hw : Shows w t)
    (h : v.type = .string ∨ w.type = .string) (st : St) : arith (n + 1) .add v w st = mkStr (s ++ t) st := by
  rw [arith, if_pos ⟨rfl, h⟩]
  simp [M.rd_apply, stringValue_shows hv, stringValue_shows hw]

/-- C17: `+` with a string as one operand and a string, symbol or number as the other one puts their texts together. -/
theorem C17_concat {k : Nat} (hk : 1 ≤ k) {p q : Ptr} {s t : Str} (sid : Nat) (st : St)
    (h : (Holds p (IsStr · s) ∧ Holds q (Shows · t)) ∨ (Holds p (Shows · s) ∧ Holds q (IsStr · t))) :
    Returns (callPrim (run k) .add [p, q] sid) st fun v st' => IsStr v (s ++ t) ∧ Extends st st' := by
  obtain ⟨k, rfl⟩ : ∃ m, k = m + 1 := ⟨k - 1, by omega⟩
  refine returns_str (s ++ t) ?_ fun _ _ he hi => ⟨hi, he⟩
  rcases h with ⟨⟨i, v, rfl, hv⟩, ⟨j, w, rfl, hw⟩⟩ | ⟨⟨i, v, rfl, hv⟩, ⟨j, w, rfl, hw⟩⟩
  · simp [callPrim, arithFold_two, ret, run_n, arith_string (.inl hv) hw (.inl hv.1)]
  · simp [callPrim, arithFold_two, ret, run_n, arith_string hv (.inl hw) (.inr hw.1)]

theorem arithLoop_strings {n : Nat} {v : Variant} {s : Str} (hv : IsStr v s) {ps : List Ptr} {ts : List Str}
    (h : Each (fun p t => Holds p (Shows · t)) ps ts) (st : St) :
    ∃ w st', arithLoop (n + 1) .add v ps st = .ok w st' ∧ IsStr w (s ++ ts.flatten) ∧ Extends st st' := by
  induction h generalizing v s st with
  | nil => exact ⟨v, st, rfl, by simpa using hv, Extends.refl _⟩
  | @cons a t l m hp h ih =>
    obtain ⟨i, w, rfl, hw⟩ := hp
    obtain ⟨u, st', h1, h2, h3⟩ := ih (isStr_mk st.next (s ++ t) .none none) { st with next := st.next + 1 }
    refine ⟨u, st', ?_, by simpa using h2, (extends_next _ _ (Nat.le_succ _)).trans h3⟩
    simp only [arithLoop, mkVariant_var, M.bind_apply, M.lift_ok, arith_string (.inl hv) hw (.inl hv.1), mkStr_apply]
    exact h1

/-- C17: `(string a b ...)`, which is the same function as `+`, puts all texts together if the first argument is a
string. -/
theorem C17_string {k : Nat} (hk : 1 ≤ k) {p : Ptr} {s : Str} {ps : List Ptr} {ts : List Str} (sid : Nat) (st : St)
    (hp : Holds p (IsStr · s)) (h : Each (fun p t => Holds p (Shows · t)) ps ts) :
    Returns (callPrim (run k) .add (p :: ps) sid) st fun v st' => IsStr v (s ++ ts.flatten) ∧ Extends st st' := by
  obtain ⟨k, rfl⟩ : ∃ m, k = m + 1 := ⟨k - 1, by omega⟩
  obtain ⟨i, v, rfl, hv⟩ := hp
  obtain ⟨w, st', h1, h2, h3⟩ := arithLoop_strings (n := k) hv h st
  exact ⟨w, st', by simp [callPrim, arithFold, mkVariant_var, run_n, h1], h2, h3⟩

/-- C17: next to a string, `nil` stands for the text `null`. -/
theorem C17_nil {k : Nat} (hk : 1 ≤ k) {p q : Ptr} {s : Str} (sid : Nat) (st : St) (hp : Holds p (IsStr · s)) (hq : Holds q fun v => v.type = .nil ∧ v.value = .null) :
    (Returns (callPrim (run k) .add [p, q] sid) st fun v st' => IsStr v (s ++ c!"null") ∧ Extends st st') ∧
    Returns (callPrim (run k) .add [q, p] sid) st fun v st' => IsStr v (c!"null" ++ s) ∧ Extends st st' := by
  obtain ⟨k, rfl⟩ : ∃ m, k = m + 1 := ⟨k - 1, by omega⟩
  obtain ⟨i, v, rfl, hv⟩ := hp
  obtain ⟨j, w, rfl, hw, hw'⟩ := hq
  have e : w.stringValue st (k + 1) = .ok c!"null" := by simp [Variant.stringValue, hw']
  constructor
  · refine returns_str (s ++ c!"null") ?_ fun _ _ he hi => ⟨hi, he⟩
    simp [callPrim, arithFold_two, ret, run_n, arith, hv.1, M.rd_apply, stringValue_str hv, e]
  · refine returns_str (c!"null" ++ s) ?_ fun _ _ he hi => ⟨hi, he⟩
    simp [callPrim, arithFold_two, ret, run_n, arith, hv.1, M.rd_apply, stringValue_str hv, e]

example : Holds (.mk 0 (.var ⟨.nil, .null, .none, none⟩)) fun v => v.type = .nil ∧ v.value = .null := ⟨0, _, rfl, rfl, rfl⟩

/-- C17, negative part: `(string 1 2)` is the number 3. -/
theorem C17_string_of_numbers_wrong (k : Nat) (sid : Nat) (st : St) :
    Returns (callPrim (run k) .add [intArg 0 1, intArg 2 2] sid) st fun v _ => IsInt v 3 := by
  obtain ⟨v, st', h1, h2, _⟩ := (C15_add (k := k) sid st (intArg_holds 0 1) (intArg_holds 2 2)).1 (by decide)
  exact ⟨v, st', h1, h2⟩

/-- C17, negative part: next to a string a boolean is shown as `true` although its text is `#t` everywhere else. -/
theorem C17_bool_wrong (k : Nat) (sid : Nat) (st : St) (b : Bool) (s : Str) (i : Nat) :
    let p : Ptr := .mk i (.var ⟨.bool, .mk (i + 1) (.bool b), .none, none⟩)
    Returns (callPrim (run (k + 3)) .add [strArg 0 s, p] sid) st (fun v _ => IsStr v (s ++ if b then c!"true" else c!"false")) ∧
    Returns (callPrim (run (k + 3)) .str [p] sid) st (fun v _ => IsStr v (if b then c!"#t" else c!"#f")) := by
  constructor
  · refine returns_str _ ?_ fun _ _ he hi => hi
    simp [callPrim, strArg, arithFold_two, ret, arith, run_n, M.rd_apply, Variant.stringValue, ptrStr]
  · refine returns_str _ ?_ fun _ _ he hi => hi
    simp [callPrim, ret, bStr, checkArgs, arg, run_n, M.rd_apply, ptrStr, varStr]

example : Each (fun p t => Holds p (Shows · t)) [intArg 0 (-12), strArg 2 c!"x"] [c!"-12", c!"x"] :=
  .cons ⟨_, _, rfl, .inr (.inr (.inl ⟨-12, isInt_mk _ _ _ _, rfl⟩))⟩ (.cons ⟨_, _, rfl, .inl (isStr_mk _ _ _ _)⟩ .nil)

/-! ## C18 ordering -/

theorem strLt_iff (s t : Str) : strLt s t = true ↔ LexLt s t := by
  induction s generalizing t with
  | nil =>
    cases t with
    | nil => simp [strLt]; intro h; cases h
    | cons b t => simp [strLt]; exact .nil
  | cons a s ih =>
    cases t with
    | nil => simp [strLt]; intro h; cases h
    | cons b t =>
      simp only [strLt]
      split
      · simp; exact .head ‹_›
      · split
        · simp
          intro h
          cases h <;> omega
        · have hab : a = b := Char.toNat_inj.1 (by omega)
          subst hab
          rw [ih t]
          constructor
          · exact .tail
          · intro h
            cases h with
            | head h => omega
            | tail h => exact h

/-- C18: the lexicographic order is a strict total order. -/
theorem C18_lex_irrefl (s : Str) : ¬ LexLt s s := by
  intro h
  induction s with
  | nil => cases h
  | cons a s ih => cases h with
    | head h => omega
    | tail h => exact ih h

theorem C18_lex_trans {s t u : Str} (h : LexLt s t) (g : LexLt t u) : LexLt s u := by
  induction h generalizing u with
  | nil => cases g <;> exact .nil
  | head h => cases g with
    | head g => exact .head (by omega)
    | tail g => exact .head h
  | tail h ih => cases g with
    | head g => exact .head g
    | tail g => exact .tail (ih g)

theorem C18_lex_total (s t : Str) : LexLt s t ∨ s = t ∨ LexLt t s := by
  induction s generalizing t with
  | nil => cases t with
    | nil => simp
    | cons => exact .inl .nil
  | cons a s ih => cases t with
    | nil => exact .inr (.inr .nil)
    | cons b t =>
      rcases Nat.lt_trichotomy a.toNat b.toNat with h | h | h
      · exact .inl (.head h)
      · have hab : a = b := Char.toNat_inj.1 h
        subst hab
        rcases ih t with h | h | h
        · exact .inl (.tail h)
        · exact .inr (.inl (by rw [h]))
        · exact .inr (.inr (.tail h))
      · exact .inr (.inr (.head h))

theorem cStr_noZero {s : Str} (h : NoZero s) : cStr s = s := by
  rw [cStr]
  induction s with
  | nil => rfl
  | cons c s ih =>
    have h1 : c ≠ Char.ofNat 0 := fun e => h (by simp [e])
    have h2 : NoZero s := fun e => h (by simp [e])
    rw [List.takeWhile_cons_of_pos (by simpa using h1), ih h2]

theorem bCmp_two (op : CmpOp) (n i j sid : Nat) (v w : Variant) (st : St) :
    bCmp op n [.mk i (.var v), .mk j (.var w)] sid st = (do mkBool (← M.rd fun st => op.run st n v w)) st := by
  simp [bCmp, checkArgs, argV, arg, toVariant_var]

/-- C18: `(< x y)`, `(> x y)`, `(<= x y)`, `(>= x y)` on integers. -/
theorem C18_int {k : Nat} {p q : Ptr} {x y : Int} (sid : Nat) (st : St) (hp : Holds p (IsInt · x)) (hq : Holds q (IsInt · y)) :
    Returns (callPrim (run k) .lt [p, q] sid) st (fun v st' => IsBool v (decide (x < y)) ∧ Extends st st') ∧
    Returns (callPrim (run k) .gt [p, q] sid) st (fun v st' => IsBool v (decide (y < x)) ∧ Extends st st') ∧
    Returns (callPrim (run k) .le [p, q] sid) st (fun v st' => IsBool v (!decide (y < x)) ∧ Extends st st') ∧
    Returns (callPrim (run k) .ge [p, q] sid) st (fun v st' => IsBool v (!decide (x < y)) ∧ Extends st st') := by
  obtain ⟨i, v, rfl, hv⟩ := hp
  obtain ⟨j, w, rfl, hw⟩ := hq
  have h1 : (!decide (y < x)) = decide (x ≤ y) := by rw [← decide_not]; congr 1; simp
  have h2 : (!decide (x < y)) = decide (y ≤ x) := by rw [← decide_not]; congr 1; simp
  rw [h1, h2]
  refine ⟨?_, ?_, ?_, ?_⟩ <;>
  · refine returns_bool _ ?_ fun _ _ he hi => ⟨hi, he⟩
    simp [callPrim, ret, bCmp_two, M.rd_apply, CmpOp.run, vLt, vLe, hv.1, hw.1, toInt_int hv, toInt_int hw]

open Classical in
/-- C18: the same for strings without zero bytes, with the lexicographic order. -/
theorem C18_string {k : Nat} (hk : 2 ≤ k) {p q : Ptr} {s t : Str} (sid : Nat) (st : St) (hp : Holds p (IsStr · s))
    (hq : Holds q (IsStr · t)) (hs : NoZero s) (ht : NoZero t) :
    Returns (callPrim (run k) .lt [p, q] sid) st (fun v st' => IsBool v (decide (LexLt s t)) ∧ Extends st st') ∧
    Returns (callPrim (run k) .gt [p, q] sid) st (fun v st' => IsBool v (decide (LexLt t s)) ∧ Extends st st') ∧
    Returns (callPrim (run k) .le [p, q] sid) st (fun v st' => IsBool v (!decide (LexLt t s)) ∧ Extends st st') ∧
    Returns (callPrim (run k) .ge [p, q] sid) st (fun v st' => IsBool v (!decide (LexLt s t)) ∧ Extends st st') := by
  obtain ⟨k, rfl⟩ : ∃ m, k = m + 2 := ⟨k - 2, by omega⟩
  obtain ⟨i, v, rfl, hv⟩ := hp
  obtain ⟨j, w, rfl, hw⟩ := hq
  have hlt : ∀ s t, NoZero s → NoZero t → decide (compareOrdinal s t < 0) = decide (LexLt s t) := by
    intro s t hs ht
    rw [compareOrdinal, cStr_noZero hs, cStr_noZero ht]
    by_cases h : LexLt s t
    · simp [(strLt_iff s t).2 h, h]
    · have : strLt s t = false := by rw [← Bool.not_eq_true, strLt_iff]; exact h
      rw [this]
      simp [h]
      split <;> simp
  have hle : ∀ s t, NoZero s → NoZero t → decide (compareOrdinal s t ≤ 0) = !decide (LexLt t s) := by
    intro s t hs ht
    rw [compareOrdinal, cStr_noZero hs, cStr_noZero ht]
    by_cases h : LexLt s t
    · have h' : ¬ LexLt t s := fun g => C18_lex_irrefl s (C18_lex_trans h g)
      simp [(strLt_iff s t).2 h, h']
    · have e : strLt s t = false := by rw [← Bool.not_eq_true, strLt_iff]; exact h
      by_cases h' : LexLt t s
      · simp [e, (strLt_iff t s).2 h', h']
      · have e' : strLt t s = false := by rw [← Bool.not_eq_true, strLt_iff]; exact h'
        simp [e, e', h']
  refine ⟨?_, ?_, ?_, ?_⟩
  · refine returns_bool _ ?_ fun _ _ he hi => ⟨hi, he⟩
    simp [callPrim, ret, bCmp_two, M.rd_apply, CmpOp.run, vLt, hv.1, hw.1, varStr_str hv, varStr_str hw, run_n, hlt s t hs ht]
  · refine returns_bool _ ?_ fun _ _ he hi => ⟨hi, he⟩
    simp [callPrim, ret, bCmp_two, M.rd_apply, CmpOp.run, vLt, hv.1, hw.1, varStr_str hv, varStr_str hw, run_n, hlt t s ht hs]
  · refine returns_bool _ ?_ fun _ _ he hi => ⟨hi, he⟩
    simp [callPrim, ret, bCmp_two, M.rd_apply, CmpOp.run, vLe, hv.1, hw.1, varStr_str hv, varStr_str hw, run_n, hle s t hs ht]
  · refine returns_bool _ ?_ fun _ _ he hi => ⟨hi, he⟩
    simp [callPrim, ret, bCmp_two, M.rd_apply, CmpOp.run, vLe, hv.1, hw.1, varStr_str hv, varStr_str hw, run_n, hle t s ht hs]

/-- C18: for all values, `(> a b)` is `(< b a)` and `(>= a b)` is `(<= b a)`, including errors. -/
theorem C18_swap (k : Nat) (sid : Nat) {p q : Ptr} {v w : Variant} (hp : Holds p (· = v)) (hq : Holds q (· = w)) (st : St) :
    callPrim (run k) .gt [p, q] sid st = callPrim (run k) .lt [q, p] sid st ∧
    callPrim (run k) .ge [p, q] sid st = callPrim (run k) .le [q, p] sid st := by
  obtain ⟨i, v, rfl, rfl⟩ := hp
  obtain ⟨j, w, rfl, rfl⟩ := hq
  constructor <;> simp [callPrim, ret, bCmp_two, CmpOp.run]

example : NoZero c!"abc" ∧ NoZero c!"abd" ∧ LexLt c!"abc" c!"abd" :=
  ⟨by simp [NoZero], by simp [NoZero], .tail (.tail (.head (by decide)))⟩

/-! ## C19 equality -/

theorem eq_two {k : Nat} {p q : Ptr} {v w : Variant} (sid : Nat) (st : St) {b : Bool} (hp : Holds p (· = v))
    (hq : Holds q (· = w)) (h : equalOp st k v w = .ok b) :
    Returns (callPrim (run k) .eq [p, q] sid) st fun v st' => IsBool v b ∧ Extends st st' := by
  obtain ⟨i, v, rfl, rfl⟩ := hp
  obtain ⟨j, w, rfl, rfl⟩ := hq
  refine returns_bool b ?_ fun _ _ he hi => ⟨hi, he⟩
  simp [callPrim, ret, bCmp_two, M.rd_apply, CmpOp.run, run_n, h]

theorem Spec.Holds.val {p : Ptr} {P : Variant → Prop} (h : Holds p P) : ∃ v, Holds p (· = v) ∧ P v := by
  obtain ⟨i, v, rfl, hv⟩ := h
  exact ⟨v, ⟨i, v, rfl, rfl⟩, hv⟩

/-- C19: `(== a b)` on integers. -/
theorem C19_int {k : Nat} {p q : Ptr} {x y : Int} (sid : Nat) (st : St) (hp : Holds p (IsInt · x)) (hq : Holds q (IsInt · y)) :
    Returns (callPrim (run k) .eq [p, q] sid) st fun v st' => IsBool v (decide (x = y)) ∧ Extends st st' := by
  obtain ⟨v, hp, hv⟩ := hp.val
  obtain ⟨w, hq, hw⟩ := hq.val
  exact eq_two sid st hp hq (by simp [equalOp, hv.1, hw.1, toInt_int hv, toInt_int hw])

/-- C19: `(== a b)` on strings. -/
theorem C19_string {k : Nat} (hk : 2 ≤ k) {p q : Ptr} {x y : Str} (sid : Nat) (st : St) (hp : Holds p (IsStr · x))
    (hq : Holds q (IsStr · y)) :
    Returns (callPrim (run k) .eq [p, q] sid) st fun v st' => IsBool v (decide (x = y)) ∧ Extends st st' := by
  obtain ⟨k, rfl⟩ : ∃ m, k = m + 2 := ⟨k - 2, by omega⟩
  obtain ⟨v, hp, hv⟩ := hp.val
  obtain ⟨w, hq, hw⟩ := hq.val
  exact eq_two sid st hp hq (by simp [equalOp, hv.1, hw.1, varStr_str hv, varStr_str hw]; exact Bool.beq_eq_decide_eq x y)

/-- C19: `(== a b)` on symbols. -/
theorem C19_symbol {k : Nat} (hk : 2 ≤ k) {p q : Ptr} {x y : Str} (sid : Nat) (st : St) (hp : Holds p (IsSym · x))
    (hq : Holds q (IsSym · y)) :
    Returns (callPrim (run k) .eq [p, q] sid) st fun v st' => IsBool v (decide (x = y)) ∧ Extends st st' := by
  obtain ⟨k, rfl⟩ : ∃ m, k = m + 2 := ⟨k - 2, by omega⟩
  obtain ⟨v, hp, hv⟩ := hp.val
  obtain ⟨w, hq, hw⟩ := hq.val
  exact eq_two sid st hp hq (by simp [equalOp, hv.1, hw.1, varStr_sym hv, varStr_sym hw]; exact Bool.beq_eq_decide_eq x y)

/-- C19: `(== a b)` on booleans. -/
theorem C19_bool {k : Nat} {p q : Ptr} {x y : Bool} (sid : Nat) (st : St) (hp : Holds p (IsBool · x))
    (hq : Holds q (IsBool · y)) :
    Returns (callPrim (run k) .eq [p, q] sid) st fun v st' => IsBool v (decide (x = y)) ∧ Extends st st' := by
  obtain ⟨v, hp, hv⟩ := hp.val
  obtain ⟨w, hq, hw⟩ := hq.val
  exact eq_two sid st hp hq (by simp [equalOp, hv.1, hw.1, boolValue_bool hv, boolValue_bool hw]; rfl)

/-- C19: NIL equals NIL. -/
theorem C19_nil {k : Nat} {p q : Ptr} (sid : Nat) (st : St) (hp : Holds p IsNil) (hq : Holds q IsNil) :
    Returns (callPrim (run k) .eq [p, q] sid) st fun v st' => IsBool v true ∧ Extends st st' := by
  obtain ⟨v, hp, hv⟩ := hp.val
  obtain ⟨w, hq, hw⟩ := hq.val
  rw [IsNil] at hv hw
  exact eq_two sid st hp hq (by simp [equalOp, hv, hw])

theorem samePtrs_symm (a b : List Ptr) : samePtrs a b = samePtrs b a := by
  induction a generalizing b with
  | nil => cases b <;> rfl
  | cons p a ih =>
    cases b with
    | nil => rfl
    | cons q b =>
      rw [samePtrs, samePtrs, ih b]
      congr 1
      cases p <;> cases q <;> simp [Ptr.same, Bool.beq_comm]

theorem sameVars_symm (a b : List (Str × Ptr)) : sameVars a b = sameVars b a := by
  induction a generalizing b with
  | nil => cases b <;> rfl
  | cons p a ih =>
    cases b with
    | nil => rfl
    | cons q b =>
      rw [sameVars, sameVars, ih b]
      congr 2
      · exact Bool.beq_comm
      · cases p.2 <;> cases q.2 <;> simp [Ptr.same, Bool.beq_comm]

theorem ptr_same_symm (p q : Ptr) : p.same q = q.same p := by
  cases p <;> cases q <;> simp [Ptr.same, Bool.beq_comm]

/-- Comparing objects does not depend on the order. -/
theorem ptrEq_symm (hd : ∀ a b, World.dEq a b = World.dEq b a) (st : St) (p q : Ptr) : ptrEq st p q = ptrEq st q p := by
  match p, q with
  | .null, .null => rfl
  | .null, .mk _ o => cases o <;> simp [ptrEq]
  | .mk _ o, .null => cases o <;> simp [ptrEq]
  | .mk i o, .mk j o' =>
    match o, o' with
    | .var ⟨t, v, u, k⟩, .var ⟨t', w, u', k'⟩ =>
      simp only [ptrEq]
      exact ptrEq_symm hd st v w
    | .bool _, o' | .int _, o' | .dbl _, o' | .str _, o' | .list, o' | .dict, o' | .fn _, o' | .lval _ _, o' | .scope _, o'
    | .macroRt _ _, o' | .macroCt _ _, o' | .undef, o' =>
      cases o' <;> simp [ptrEq, Bool.beq_comm, hd, eq_comm, samePtrs_symm, sameVars_symm]
    | .var ⟨t, v, u, k⟩, .bool _ | .var ⟨t, v, u, k⟩, .int _ | .var ⟨t, v, u, k⟩, .dbl _ | .var ⟨t, v, u, k⟩, .str _
    | .var ⟨t, v, u, k⟩, .list | .var ⟨t, v, u, k⟩, .dict | .var ⟨t, v, u, k⟩, .fn _ | .var ⟨t, v, u, k⟩, .lval _ _
    | .var ⟨t, v, u, k⟩, .scope _ | .var ⟨t, v, u, k⟩, .macroRt _ _ | .var ⟨t, v, u, k⟩, .macroCt _ _
    | .var ⟨t, v, u, k⟩, .undef => simp [ptrEq]
  termination_by sizeOf p

theorem seqEqual_symm (hd : ∀ a b, World.dEq a b = World.dEq b a) (st : St) (a b : List Ptr) :
    seqEqual st a b = seqEqual st b a := by
  induction a generalizing b with
  | nil => cases b <;> rfl
  | cons p a ih =>
    cases b with
    | nil => rfl
    | cons q b =>
      simp only [seqEqual]
      by_cases h : a.length = b.length
      · simp [h, ptrEq_symm hd st p q, ih b]
      · simp [h, Ne.symm h]

/-- Two computations with a symmetric combination. -/
theorem bind2_symm {α : Type} {a b : R α} {f g : α → α → R Bool} {x : Bool}
    (h : (do let u ← a; let v ← b; f u v) = .ok x) (hf : ∀ u v, f u v = g v u) :
    (do let v ← b; let u ← a; g v u) = .ok x := by
  cases a with
  | error e => cases h
  | ok u => cases b with
    | error e => cases h
    | ok v => simp at h ⊢; rw [← hf]; exact h

theorem equalOp_symm (hd : ∀ a b, World.dEq a b = World.dEq b a) (hn : ∀ a b, World.dNear a b = World.dNear b a)
    {st : St} {n : Nat} {v w : Variant} {b : Bool} (h : equalOp st n v w = .ok b) : equalOp st n w v = .ok b := by
  rw [equalOp] at h ⊢
  by_cases h1 : v.type = .native ∧ w.type = .native
  · rw [if_pos h1] at h; rw [if_pos h1.symm, ptr_same_symm]; exact h
  rw [if_neg h1] at h; rw [if_neg (fun g => h1 g.symm)]
  by_cases h2 : v.type = .symbol ∨ w.type = .symbol
  · rw [if_pos h2] at h; rw [if_pos h2.symm]
    by_cases h3 : v.type = .symbol ∧ w.type = .symbol
    · rw [if_pos h3] at h; rw [if_pos h3.symm]
      exact bind2_symm h fun u v => by rw [Bool.beq_comm]
    · rw [if_neg h3] at h; rw [if_neg (fun g => h3 g.symm)]; exact h
  rw [if_neg h2] at h; rw [if_neg (fun g => h2 g.symm)]
  by_cases h3 : v.type = .bool ∧ w.type = .bool
  · rw [if_pos h3] at h; rw [if_pos h3.symm]
    exact bind2_symm h fun u v => by rw [Bool.beq_comm]
  rw [if_neg h3] at h; rw [if_neg (fun g => h3 g.symm)]
  by_cases h4 : v.type = .nil ∨ w.type = .nil
  · rw [if_pos h4] at h; rw [if_pos h4.symm, ← h]; simp [and_comm]
  rw [if_neg h4] at h; rw [if_neg (fun g => h4 g.symm)]
  by_cases h5 : v.type = .list ∧ w.type = .list
  · rw [if_pos h5] at h; rw [if_pos h5.symm]
    exact bind2_symm h fun u v => seqEqual_symm hd st u v
  rw [if_neg h5] at h; rw [if_neg (fun g => h5 g.symm)]
  by_cases h6 : v.type = .undefined ∨ w.type = .undefined
  · rw [if_pos h6] at h; rw [if_pos h6.symm, ← h]; simp [and_comm]
  rw [if_neg h6] at h; rw [if_neg (fun g => h6 g.symm)]
  by_cases h7 : v.type = .string ∨ w.type = .string
  · rw [if_pos h7] at h; rw [if_pos h7.symm]
    exact bind2_symm h fun u v => by rw [Bool.beq_comm]
  rw [if_neg h7] at h; rw [if_neg (fun g => h7 g.symm)]
  by_cases h8 : v.type = .double ∨ w.type = .double
  · rw [if_pos h8] at h; rw [if_pos h8.symm]
    exact bind2_symm h fun u v => by rw [hn]
  rw [if_neg h8] at h; rw [if_neg (fun g => h8 g.symm)]
  by_cases h9 : v.type = .int ∨ w.type = .int
  · rw [if_pos h9] at h; rw [if_pos h9.symm]
    exact bind2_symm h fun u v => by simp only [eq_comm]
  rw [if_neg h9] at h
  exfalso
  rw [opExn] at h
  cases hf : format c!"no {0} operator for types {1} and {2}" c!"==" v.type.charStr w.type.charStr with
  | error e => rw [hf] at h; cases h
  | ok m => rw [hf] at h; cases h

/-- C19: `==` is symmetric for all values for which it is defined, if the floating-point comparisons are symmetric. -/
theorem C19_symmetric (hd : ∀ a b, World.dEq a b = World.dEq b a) (hn : ∀ a b, World.dNear a b = World.dNear b a)
    {k : Nat} {p q : Ptr} {v w : Variant} {b : Bool} (sid : Nat) (st : St) (hp : Holds p (· = v)) (hq : Holds q (· = w))
    (h : Returns (callPrim (run k) .eq [p, q] sid) st fun r _ => IsBool r b) :
    Returns (callPrim (run k) .eq [q, p] sid) st fun r st' => IsBool r b ∧ Extends st st' := by
  obtain ⟨i, v, rfl, rfl⟩ := hp
  obtain ⟨j, w, rfl, rfl⟩ := hq
  obtain ⟨r, st', h1, h2⟩ := h
  refine eq_two sid st ⟨_, _, rfl, rfl⟩ ⟨_, _, rfl, rfl⟩ ?_
  apply equalOp_symm hd hn
  simp only [callPrim, ret, M.bind_apply, bCmp_two, M.rd_apply, CmpOp.run, run_n] at h1
  cases he : equalOp st k v w with
  | error e => rw [he] at h1; cases h1
  | ok c =>
    rw [he] at h1
    simp at h1
    obtain ⟨rfl, _⟩ := h1
    obtain ⟨_, _, h3⟩ := h2
    simp at h3
    rw [h3.2]

/-- C19: `!=` is the negation of `==`: it returns the opposite boolean if `==` returns one, and fails in the same way
otherwise. -/
theorem C19_not_equal {k : Nat} {p q : Ptr} {v w : Variant} (sid : Nat) (st : St) (hp : Holds p (· = v))
    (hq : Holds q (· = w)) :
    (∃ b, (Returns (callPrim (run k) .eq [p, q] sid) st fun r st' => IsBool r b ∧ Extends st st') ∧
      (Returns (callPrim (run k) .ne [p, q] sid) st fun r st' => IsBool r (!b) ∧ Extends st st')) ∨
    (∃ f, callPrim (run k) .eq [p, q] sid st = .fail f st ∧ callPrim (run k) .ne [p, q] sid st = .fail f st) := by
  obtain ⟨i, v, rfl, rfl⟩ := hp
  obtain ⟨j, w, rfl, rfl⟩ := hq
  cases he : equalOp st k v w with
  | error e =>
    refine .inr ⟨e, ?_, ?_⟩ <;> simp [callPrim, ret, bCmp_two, M.rd_apply, CmpOp.run, run_n, he]
  | ok b =>
    refine .inl ⟨b, eq_two sid st ⟨_, _, rfl, rfl⟩ ⟨_, _, rfl, rfl⟩ he, ?_⟩
    refine returns_bool (!b) ?_ fun _ _ he hi => ⟨hi, he⟩
    simp [callPrim, ret, bCmp_two, M.rd_apply, CmpOp.run, run_n, he]

theorem holds_inj {p : Ptr} {P Q : Variant → Prop} (h : Holds p P) (g : Holds p Q) : ∃ v, P v ∧ Q v := by
  obtain ⟨i, v, rfl, hv⟩ := h
  obtain ⟨j, w, e, hw⟩ := g
  simp at e
  exact ⟨v, hv, by rw [e.2]; exact hw⟩

open Classical in
theorem ptrEq_atoms (st : St) {p q : Ptr} (hp : PlainAtom p) (hq : PlainAtom q) :
    ptrEq st p q = .ok (decide (SameAtom p q)) := by
  rcases hp with ⟨x, i, ⟨t, v, u, k⟩, rfl, hv, a, ha⟩ | ⟨x, i, ⟨t, v, u, k⟩, rfl, hv, a, ha⟩ | ⟨x, i, ⟨t, v, u, k⟩, rfl, hv, a, ha⟩ <;>
  rcases hq with ⟨y, j, ⟨t', w, u', k'⟩, rfl, hw, b, hb⟩ | ⟨y, j, ⟨t', w, u', k'⟩, rfl, hw, b, hb⟩ | ⟨y, j, ⟨t', w, u', k'⟩, rfl, hw, b, hb⟩ <;>
  simp only at hv ha hw hb <;> subst hv ha hw hb <;>
  simp only [ptrEq, Except.ok.injEq] <;> symm
  case inl.inl => 
    refine (decide_eq_decide.2 ⟨?_, ?_⟩)
    · rintro (⟨z, ⟨_, _, e, _, _, h⟩, ⟨_, _, e', _, _, h'⟩⟩ | ⟨z, ⟨_, _, e, h, _⟩, _⟩ | ⟨z, ⟨_, _, e, h, _⟩, _⟩)
      · cases e; cases e'; simp at h h'; rw [h.2, h'.2]
      · cases e; cases h
      · cases e; cases h
    · rintro rfl; exact .inl ⟨_, ⟨_, _, rfl, rfl, _, rfl⟩, ⟨_, _, rfl, rfl, _, rfl⟩⟩
  case inr.inl.inr.inl =>
    rw [Bool.beq_eq_decide_eq]
    refine (decide_eq_decide.2 ⟨?_, ?_⟩)
    · rintro (⟨z, ⟨_, _, e, h, _⟩, _⟩ | ⟨z, ⟨_, _, e, _, _, h⟩, ⟨_, _, e', _, _, h'⟩⟩ | ⟨z, ⟨_, _, e, h, _⟩, _⟩)
      · cases e; cases h
      · cases e; cases e'; simp at h h'; rw [h.2, h'.2]
      · cases e; cases h
    · rintro rfl; exact .inr (.inl ⟨_, ⟨_, _, rfl, rfl, _, rfl⟩, ⟨_, _, rfl, rfl, _, rfl⟩⟩)
  case inr.inr.inr.inr =>
    rw [Bool.beq_eq_decide_eq]
    refine (decide_eq_decide.2 ⟨?_, ?_⟩)
    · rintro (⟨z, ⟨_, _, e, h, _⟩, _⟩ | ⟨z, ⟨_, _, e, h, _⟩, _⟩ | ⟨z, ⟨_, _, e, _, _, h⟩, ⟨_, _, e', _, _, h'⟩⟩)
      · cases e; cases h
      · cases e; cases h
      · cases e; cases e'; simp at h h'; rw [h.2, h'.2]
    · rintro rfl; exact .inr (.inr ⟨_, ⟨_, _, rfl, rfl, _, rfl⟩, ⟨_, _, rfl, rfl, _, rfl⟩⟩)
  all_goals
    refine decide_eq_false ?_
    rintro (⟨z, ⟨_, _, e, h, _⟩, ⟨_, _, e', h', _⟩⟩ | ⟨z, ⟨_, _, e, h, _⟩, ⟨_, _, e', h', _⟩⟩ |
      ⟨z, ⟨_, _, e, h, _⟩, ⟨_, _, e', h', _⟩⟩) <;> cases e <;> cases e' <;> cases h <;> cases h'

open Classical in
theorem seqEqual_atoms (st : St) {a b : List Ptr} (ha : ∀ p ∈ a, PlainAtom p) (hb : ∀ p ∈ b, PlainAtom p) :
    seqEqual st a b = .ok (decide (Each SameAtom a b)) := by
  induction a generalizing b with
  | nil =>
    cases b with
    | nil => simp [seqEqual]; exact .nil
    | cons q b => simp [seqEqual]; intro h; cases h
  | cons p a ih =>
    cases b with
    | nil => simp [seqEqual]; intro h; cases h
    | cons q b =>
      have hc : Each SameAtom (p :: a) (q :: b) ↔ SameAtom p q ∧ Each SameAtom a b :=
        ⟨fun h => by cases h with | cons h1 h2 => exact ⟨h1, h2⟩, fun h => .cons h.1 h.2⟩
      have hlen : ∀ {a b : List Ptr}, Each SameAtom a b → a.length = b.length := by
        intro a b h
        induction h with
        | nil => rfl
        | cons _ _ ih => simp [ih]
      simp only [seqEqual, hc]
      by_cases hl : a.length = b.length
      · rw [ptrEq_atoms st (ha p (by simp)) (hb q (by simp)), ih (fun p hp => ha p (by simp [hp])) (fun p hp => hb p (by simp [hp]))]
        by_cases h : SameAtom p q <;> simp [hl, h]
      · have : ¬ Each SameAtom a b := fun h => hl (hlen h)
        simp [hl, this]

open Classical in
/-- C19: two lists of integers, strings and booleans are equal exactly if they have the same length and pairwise the
same elements. -/
theorem C19_lists {k : Nat} {p q : Ptr} {a b : List Ptr} (sid : Nat) (st : St) (hp : Holds p (IsList st · a))
    (hq : Holds q (IsList st · b)) (ha : ∀ p ∈ a, PlainAtom p) (hb : ∀ p ∈ b, PlainAtom p) :
    Returns (callPrim (run k) .eq [p, q] sid) st fun v st' => IsBool v (decide (Each SameAtom a b)) ∧ Extends st st' := by
  obtain ⟨v, hp, hv⟩ := hp.val
  obtain ⟨w, hq, hw⟩ := hq.val
  refine eq_two sid st hp hq ?_
  have h1 := listValue_list (n := k) (.inl hv)
  have h2 := listValue_list (n := k) (.inl hw)
  obtain ⟨i, hv, _⟩ := hv
  obtain ⟨j, hw, _⟩ := hw
  simp [equalOp, hv.1, hw.1, h1, h2, seqEqual_atoms st ha hb]

/-- C19, negative part: lists nested in lists are compared by the identity of their elements.  The lists `((1))` and
`((1))` created independently are different. -/
theorem C19_nested_wrong (k sid : Nat) : ∃ (st : St) (p q a b : Ptr), Holds p (IsList st · [a]) ∧ Holds q (IsList st · [b]) ∧
    Holds a (IsList st · [intArg 10 1]) ∧ Holds b (IsList st · [intArg 20 1]) ∧
    Returns (callPrim (run k) .eq [p, q] sid) st fun v _ => IsBool v false := by
  let lv (i : Nat) : Ptr := .mk i (.var ⟨.list, .mk (i + 1) .list, .none, none⟩)
  let st : St := { next := 100, lists := fun i => if i = 1 then [lv 30] else if i = 4 then [lv 40] else if i = 31 then [intArg 10 1]
    else if i = 41 then [intArg 20 1] else [] }
  refine ⟨st, lv 0, lv 3, lv 30, lv 40, ⟨_, _, rfl, _, ⟨rfl, rfl⟩, rfl⟩, ⟨_, _, rfl, _, ⟨rfl, rfl⟩, rfl⟩,
    ⟨_, _, rfl, _, ⟨rfl, rfl⟩, rfl⟩, ⟨_, _, rfl, _, ⟨rfl, rfl⟩, rfl⟩, ?_⟩
  obtain ⟨v, st', h1, h2, _⟩ := eq_two (k := k) (b := false) sid st (p := lv 0) (q := lv 3) ⟨_, _, rfl, rfl⟩ ⟨_, _, rfl, rfl⟩ rfl
  exact ⟨v, st', h1, h2⟩

/-- C19, negative part: as elements of lists a symbol and a string with the same text are equal, although they are
different by themselves. -/
theorem C19_symbol_in_list_wrong (k sid : Nat) (s : Str) : ∃ (st : St) (p q a b : Ptr), Holds p (IsList st · [a]) ∧
    Holds q (IsList st · [b]) ∧ Holds a (IsSym · s) ∧ Holds b (IsStr · s) ∧
    (Returns (callPrim (run k) .eq [p, q] sid) st fun v _ => IsBool v true) ∧
    (Returns (callPrim (run k) .eq [a, b] sid) st fun v _ => IsBool v false) := by
  let lv (i : Nat) : Ptr := .mk i (.var ⟨.list, .mk (i + 1) .list, .none, none⟩)
  let sv : Ptr := .mk 10 (.var ⟨.symbol, .mk 11 (.str s), .none, none⟩)
  let st : St := { next := 100, lists := fun i => if i = 1 then [sv] else if i = 4 then [strArg 20 s] else [] }
  refine ⟨st, lv 0, lv 3, sv, strArg 20 s, ⟨_, _, rfl, _, ⟨rfl, rfl⟩, rfl⟩, ⟨_, _, rfl, _, ⟨rfl, rfl⟩, rfl⟩,
    ⟨_, _, rfl, rfl, _, rfl⟩, strArg_holds _ _, ?_, ?_⟩
  · obtain ⟨v, st', h1, h2, _⟩ := eq_two (k := k) (b := true) sid st (p := lv 0) (q := lv 3) ⟨_, _, rfl, rfl⟩ ⟨_, _, rfl, rfl⟩
      (by simp [equalOp, Variant.listValue, toEnumerable, st, seqEqual, sv, strArg, ptrEq])
    exact ⟨v, st', h1, h2⟩
  · obtain ⟨v, st', h1, h2, _⟩ := eq_two (k := k) (b := false) sid st (p := sv) (q := strArg 20 s) ⟨_, _, rfl, rfl⟩ ⟨_, _, rfl, rfl⟩
      (by simp [equalOp])
    exact ⟨v, st', h1, h2⟩

example : PlainAtom (intArg 0 4) ∧ PlainAtom (strArg 2 c!"x") ∧ SameAtom (intArg 0 4) (intArg 7 4) :=
  ⟨.inl ⟨_, intArg_holds _ _⟩, .inr (.inl ⟨_, strArg_holds _ _⟩), .inl ⟨4, intArg_holds _ _, intArg_holds _ _⟩⟩
example : (∀ a b, @World.dEq demoWorld a b = @World.dEq demoWorld b a) ∧
    (∀ a b, @World.dNear demoWorld a b = @World.dNear demoWorld b a) :=
  ⟨fun _ _ => Bool.beq_comm, fun _ _ => Bool.beq_comm⟩

end Fuel
