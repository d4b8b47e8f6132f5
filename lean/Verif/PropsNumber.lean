import Verif.SpecNumber
import Verif.PropsConv
import Verif.PropsList
import Verif.PropsDbg
import Verif.PropsRun
/-!
# Values used as numbers (C80)
-/

set_option linter.unusedSectionVars false
set_option linter.unusedSimpArgs false

namespace Fuel
open Spec

section
variable [World]

theorem cStr_append {a b : Str} (h : Char.ofNat 0 ∉ a) : cStr (a ++ b) = a ++ cStr b := by
  unfold cStr
  induction a with
  | nil => rfl
  | cons c a ih =>
    have hc : c ≠ Char.ofNat 0 := fun e => h (e ▸ List.mem_cons_self)
    rw [List.cons_append, List.takeWhile_cons_of_pos (by simpa using hc), ih (fun hm => h (List.mem_cons_of_mem _ hm))]
    rfl

theorem head_cStr {r : Str} {c : Char} (h : (cStr r).head? = some c) : r.head? = some c := by
  cases r with
  | nil => simp [cStr] at h
  | cons d r =>
    unfold cStr at h
    by_cases hd : d = Char.ofNat 0
    · subst hd
      simp at h
    · rw [List.takeWhile_cons_of_pos (by simpa using hd)] at h
      exact h

theorem atoi_number {s : Str} {i : Int} (h : StartsWithNumber s i) (h32 : IsInt32 i) : atoi s = .ok i := by
  obtain ⟨ws, num, rest, rfl, h1, h2, h3⟩ := h
  have hc : cStr (ws ++ num ++ rest) = ws ++ num ++ cStr rest := by
    refine cStr_append fun hm => ?_
    rcases List.mem_append.1 hm with hm | hm
    · exact white_no_nul h1 hm
    · exact numeral_no_nul h2 hm
  simp only [atoi, hc, strtol_numeral (rest := cStr rest) h1 h2 (fun c hc => h3 c (head_cStr hc)), h32, if_true]

theorem atoi_none {s : Str} (h : ∀ i, ¬ StartsWithNumber s i) : atoi s = .ok 0 := by
  cases hs : strtol (cStr s) with
  | none => simp [atoi, hs]
  | some r =>
    obtain ⟨i, k⟩ := r
    obtain ⟨ws, num, rest, h1, h2, h3, h4, h5⟩ := strtol_some hs
    have hd : s = cStr s ++ s.dropWhile (· != Char.ofNat 0) := List.takeWhile_append_dropWhile.symm
    refine absurd ⟨ws, num, rest ++ s.dropWhile (· != Char.ofNat 0), by rw [← List.append_assoc, ← h1]; exact hd, h2, h3, fun c hc => ?_⟩ (h i)
    cases rest with
    | nil =>
      have := List.head?_dropWhile_not (· != Char.ofNat 0) s
      rw [show (s.dropWhile (· != Char.ofNat 0)).head? = some c from hc] at this
      simp at this
      subst this
      simp [Digit]
    | cons d t => exact h4 c hc

theorem toInt_number {st : St} {n : Nat} {v : Variant} {i : Int} (h : CountsAs v i) : v.toInt st (n + 1) = .ok i := by
  cases h with
  | int h => exact toInt_int h
  | bool h => simp [Variant.toInt, h.1, boolValue_bool h]
  | text h h1 h2 => simp [Variant.toInt, h.1, stringValue_str h, atoi_number h1 h2]
  | noNumber h h1 => simp [Variant.toInt, h.1, stringValue_str h, atoi_none h1]
  | float h h1 h2 => simp [Variant.toInt, h.1, doubleValue_dbl h, dblToInt, h1, h2]

/-- C80: positions and lengths of `slice`: every value that stands for a number has the same effect as this number. -/
theorem C80_slice {k : Nat} (hk : 1 ≤ k) {p q r q' r' : Ptr} {pos len : Int} (sid : Nat) (st : St) (hq : Holds q (CountsAs · pos)) (hr : Holds r (CountsAs · len))
    (hq' : Holds q' (IsInt · pos)) (hr' : Holds r' (IsInt · len)) : callPrim (run k) .slice [p, q, r] sid st = callPrim (run k) .slice [p, q', r'] sid st := by
  obtain ⟨k, rfl⟩ : ∃ m, k = m + 1 := ⟨k - 1, by omega⟩
  obtain ⟨i1, v1, rfl, h1⟩ := hq
  obtain ⟨i2, v2, rfl, h2⟩ := hr
  obtain ⟨i3, v3, rfl, h3⟩ := hq'
  obtain ⟨i4, v4, rfl, h4⟩ := hr'
  simp [callPrim, ret, bSlice, checkArgs, argMk, arg, run_n, M.bind_apply, M.rd_apply, M.lift_apply, mkVariant, toInt_number h1, toInt_number h2, toInt_int h3, toInt_int h4]

theorem optPos_number {args : List Ptr} {n j i : Nat} {v : Variant} {x : Int} (h : args[j]? = some (.mk i (.var v))) (hv : CountsAs v x) (st : St) :
    optPos (n + 1) args j st = .ok x st := by
  obtain ⟨hlt, hg⟩ := List.getElem?_eq_some_iff.1 h
  simp [optPos, hlt, argV, arg, hg, toVariant_var, M.rd_apply, toInt_number hv]

theorem optSize_number {args : List Ptr} {n j i : Nat} {v : Variant} {x : Int} (h : args[j]? = some (.mk i (.var v))) (hv : CountsAs v x) (st : St) :
    optSize (n + 1) args j st = .ok (sizeT x) st := by
  obtain ⟨hlt, hg⟩ := List.getElem?_eq_some_iff.1 h
  simp [optSize, hlt, argMk, arg, hg, mkVariant, M.rd_apply, toInt_number hv]

/-- C80: the position argument of `push` and of `pop`. -/
theorem C80_push_pop {k : Nat} (hk : 1 ≤ k) {e p q q' : Ptr} {pos : Int} (sid : Nat) (st : St) (hq : Holds q (CountsAs · pos)) (hq' : Holds q' (IsInt · pos)) :
    callPrim (run k) .push [e, p, q] sid st = callPrim (run k) .push [e, p, q'] sid st ∧
    callPrim (run k) .pop [p, q] sid st = callPrim (run k) .pop [p, q'] sid st := by
  obtain ⟨k, rfl⟩ : ∃ m, k = m + 1 := ⟨k - 1, by omega⟩
  obtain ⟨i1, v1, rfl, h1⟩ := hq
  obtain ⟨i2, v2, rfl, h2⟩ := hq'
  have e1 : optPos (k + 1) [e, p, .mk i1 (.var v1)] 2 = optPos (k + 1) [e, p, .mk i2 (.var v2)] 2 := by
    funext st
    rw [optPos_number rfl h1, optPos_number rfl (.int h2)]
  have e2 : optPos (k + 1) [p, .mk i1 (.var v1)] 1 = optPos (k + 1) [p, .mk i2 (.var v2)] 1 := by
    funext st
    rw [optPos_number rfl h1, optPos_number rfl (.int h2)]
  constructor
  · simp [callPrim, ret, bPush, checkOptionalArgs, argV, arg, run_n, e1]
  · simp [callPrim, ret, bPop, checkOptionalArgs, argV, arg, run_n, e2]

/-- C80: the start and the length of `search`. -/
theorem C80_search {k : Nat} (hk : 1 ≤ k) {a b q r q' r' : Ptr} {pos len : Int} (sid : Nat) (st : St) (hq : Holds q (CountsAs · pos)) (hr : Holds r (CountsAs · len))
    (hq' : Holds q' (IsInt · pos)) (hr' : Holds r' (IsInt · len)) :
    callPrim (run k) .search [a, b, q] sid st = callPrim (run k) .search [a, b, q'] sid st ∧
    callPrim (run k) .search [a, b, q, r] sid st = callPrim (run k) .search [a, b, q', r'] sid st := by
  obtain ⟨k, rfl⟩ : ∃ m, k = m + 1 := ⟨k - 1, by omega⟩
  obtain ⟨i1, v1, rfl, h1⟩ := hq
  obtain ⟨i2, v2, rfl, h2⟩ := hr
  obtain ⟨i3, v3, rfl, h3⟩ := hq'
  obtain ⟨i4, v4, rfl, h4⟩ := hr'
  have e1 : optSize (k + 1) [a, b, .mk i1 (.var v1)] 2 = optSize (k + 1) [a, b, .mk i3 (.var v3)] 2 := by
    funext st
    rw [optSize_number rfl h1, optSize_number rfl (.int h3)]
  have e2 : optSize (k + 1) [a, b, .mk i1 (.var v1), .mk i2 (.var v2)] 2 = optSize (k + 1) [a, b, .mk i3 (.var v3), .mk i4 (.var v4)] 2 := by
    funext st
    rw [optSize_number rfl h1, optSize_number rfl (.int h3)]
  have e3 : optSize (k + 1) [a, b, .mk i1 (.var v1), .mk i2 (.var v2)] 3 = optSize (k + 1) [a, b, .mk i3 (.var v3), .mk i4 (.var v4)] 3 := by
    funext st
    rw [optSize_number rfl h2, optSize_number rfl (.int h4)]
  have e4 : optSize (k + 1) [a, b, .mk i1 (.var v1)] 3 = optSize (k + 1) [a, b, .mk i3 (.var v3)] 3 := by
    simp [optSize]
  constructor
  · simp [callPrim, ret, bSearch, checkOptionalArgs, argMk, argV, arg, run_n, e1, e4]
  · simp [callPrim, ret, bSearch, checkOptionalArgs, argMk, argV, arg, run_n, e2, e3]

/-- C80: arithmetic with an integer and a boolean, or (except for `+`, which concatenates) a text: the other operand counts as the number for which it stands. -/
theorem C80_arith {k : Nat} (hk : 1 ≤ k) {p q q' : Ptr} {x y : Int} (op : ArithOp) (sid : Nat) (st : St) (hp : Holds p (IsInt · x))
    (hq : Holds q (fun v => CountsAs v y ∧ (∀ d, ¬ IsDbl v d) ∧ (op = .add → ∀ s, ¬ IsStr v s))) (hq' : Holds q' (IsInt · y)) :
    callPrim (run k) op.builtin [p, q] sid st = callPrim (run k) op.builtin [p, q'] sid st ∧
    callPrim (run k) op.builtin [q, p] sid st = callPrim (run k) op.builtin [q', p] sid st := by
  obtain ⟨k, rfl⟩ : ∃ m, k = m + 1 := ⟨k - 1, by omega⟩
  obtain ⟨i1, v1, rfl, h1⟩ := hp
  obtain ⟨i2, v2, rfl, h2, h3, h4⟩ := hq
  obtain ⟨i3, v3, rfl, h5⟩ := hq'
  have ht : v2.type ≠ .double ∧ (op = .add → v2.type ≠ .string) := by
    cases h2 with
    | int h => simp [h.1]
    | bool h => simp [h.1]
    | text h => exact ⟨by simp [h.1], fun e => absurd h (h4 e _)⟩
    | noNumber h => exact ⟨by simp [h.1], fun e => absurd h (h4 e _)⟩
    | float h => exact absurd h (h3 _)
  have hc : ¬ (op = .add ∧ v2.type = .string) := fun h => ht.2 h.1 h.2
  have e1 : arith (k + 1) op v1 v2 = arith (k + 1) op v1 v3 := by
    funext st
    simp [arith, h1.1, h5.1, ht.1, hc, M.bind_apply, M.rd_apply, toInt_int h1, toInt_number h2, toInt_int h5]
  have e2 : arith (k + 1) op v2 v1 = arith (k + 1) op v3 v1 := by
    funext st
    simp [arith, h1.1, h5.1, ht.1, hc, M.bind_apply, M.rd_apply, toInt_int h1, toInt_number h2, toInt_int h5]
  constructor
  · cases op <;> simp only [ArithOp.builtin, callPrim, run_n, bSub, arithFold_two, ret, e1]
  · cases op <;> simp only [ArithOp.builtin, callPrim, run_n, bSub, arithFold_two, ret, e2]

/-- C80: comparisons of an integer with a boolean or a text: `<`, `>`, `<=` and `>=` compare with the number for which the other operand stands; so do
`==` and `!=` for booleans. -/
theorem C80_compare {k : Nat} (hk : 1 ≤ k) {p q q' : Ptr} {x y : Int} (op : CmpOp) {b : Builtin} (hb : (op, b) ∈ [(CmpOp.lt, Builtin.lt), (.gt, .gt), (.le, .le), (.ge, .ge), (.eq, .eq), (.ne, .ne)])
    (sid : Nat) (st : St) (hp : Holds p (IsInt · x)) (hq : Holds q (fun v => CountsAs v y ∧ (∀ d, ¬ IsDbl v d) ∧ (op = .eq ∨ op = .ne → ∀ s, ¬ IsStr v s)))
    (hq' : Holds q' (IsInt · y)) :
    callPrim (run k) b [p, q] sid st = callPrim (run k) b [p, q'] sid st ∧ callPrim (run k) b [q, p] sid st = callPrim (run k) b [q', p] sid st := by
  obtain ⟨k, rfl⟩ : ∃ m, k = m + 1 := ⟨k - 1, by omega⟩
  obtain ⟨i1, v1, rfl, h1⟩ := hp
  obtain ⟨i2, v2, rfl, h2, h3, h4⟩ := hq
  obtain ⟨i3, v3, rfl, h5⟩ := hq'
  have ht : (v2.type = .int ∨ v2.type = .bool ∨ v2.type = .string) ∧ (op = .eq ∨ op = .ne → v2.type ≠ .string) := by
    cases h2 with
    | int h => simp [h.1]
    | bool h => simp [h.1]
    | text h => exact ⟨by simp [h.1], fun e => absurd h (h4 e _)⟩
    | noNumber h => exact ⟨by simp [h.1], fun e => absurd h (h4 e _)⟩
    | float h => exact absurd h (h3 _)
  have e1 (st : St) : op.run st (k + 1) v1 v2 = op.run st (k + 1) v1 v3 := by
    cases op <;> rcases ht.1 with h | h | h <;>
      simp [CmpOp.run, vLt, vLe, equalOp, h, h1.1, h5.1, toInt_int h1, toInt_number h2, toInt_int h5] <;> exact absurd h (ht.2 (by simp))
  have e2 (st : St) : op.run st (k + 1) v2 v1 = op.run st (k + 1) v3 v1 := by
    cases op <;> rcases ht.1 with h | h | h <;>
      simp [CmpOp.run, vLt, vLe, equalOp, h, h1.1, h5.1, toInt_int h1, toInt_number h2, toInt_int h5] <;> exact absurd h (ht.2 (by simp))
  simp only [List.mem_cons, Prod.mk.injEq, List.not_mem_nil, or_false] at hb
  rcases hb with ⟨rfl, rfl⟩ | ⟨rfl, rfl⟩ | ⟨rfl, rfl⟩ | ⟨rfl, rfl⟩ | ⟨rfl, rfl⟩ | ⟨rfl, rfl⟩ <;>
    exact ⟨by simp only [callPrim, run_n, ret, M.bind_apply, bCmp_two, M.rd_apply, e1], by simp only [callPrim, run_n, ret, M.bind_apply, bCmp_two, M.rd_apply, e2]⟩

/-- C50: `clear` with a text that does not start with a number clears no breakpoint: it writes the warning and changes nothing. -/
theorem C50_command_text (k top : Nat) (fromMain : Bool) (d : DS) {s : Str} (ht : Tight s) (hne : s ≠ []) (hs : ∀ i, ¬ StartsWithNumber s i)
    (hl : IsInt32 d.dbg.bps.length) (st : St) :
    dbgCommand (run k) top fromMain (c!"clear " ++ s) d st = .ok (d, .again) { st with out := st.out ++ c!"Warning: no breakpoint cleared\n" } := by
  obtain ⟨l, ok, h1, h2, h3⟩ := clear_effect (no := 0) (by decide) (by decide) hl
  have hok : ok = false := by
    cases ok with
    | false => rfl
    | true => have := h3.1 rfl; omega
  subst hok
  have hc : dcmd (c!"clear " ++ s) = .clear := dcmd_clear (' ' :: s)
  have ht : trim (' ' :: s) = s := by
    have := trim_of_decomp (a := c!" ") (b := []) (o := s) (by decide) (by simp) ht
    simpa using this
  have hsub : substrFrom (c!"clear " ++ s) 5 = .ok (' ' :: s) := by simp [substrFrom]
  have hne : s.isEmpty = false := by cases s with | nil => exact absurd rfl hne | cons => rfl
  have hkeep : ∀ {m l l' : _}, Effect (.clear m) l l' → m = 0 → l = l' := by
    intro m l l' h hm
    cases h with
    | removed h => omega
    | kept => rfl
  obtain rfl := hkeep h2 rfl
  simp only [dbgCommand, M.bind_apply, M.get_apply, hc, clearCommand, M.lift_apply, hsub, ht, hne, Bool.false_eq_true, if_false, atoi_none hs, h1]
  simp [writeLine, write]

end

/-! ## The hypotheses are met -/

/-- `(slice "abcd" #t "2 characters")` is `(slice "abcd" 1 2)`. -/
example [World] (st : St) : callPrim (run 2) .slice [strArg 0 c!"abcd", .mk 2 (.var ⟨.bool, .mk 3 (.bool true), .none, none⟩), strArg 4 c!"2 characters"] 0 st =
    callPrim (run 2) .slice [strArg 0 c!"abcd", intArg 2 1, intArg 4 2] 0 st :=
  C80_slice (pos := 1) (len := 2) (by decide) 0 st ⟨_, _, rfl, .bool (b := true) ⟨rfl, _, rfl⟩⟩
    ⟨_, _, rfl, .text (isStr_mk _ _ _ _) ⟨[], c!"2", c!" characters", rfl, by simp, ⟨c!"2", by simp, by simp [Digit], .inl ⟨rfl, by decide⟩⟩, by simp [Digit]⟩ (by decide)⟩
    (intArg_holds _ _) (intArg_holds _ _)

theorem no_number {s : Str} (h : strtol s = none) : ∀ i, ¬ StartsWithNumber s i := by
  rintro i ⟨ws, num, rest, rfl, h1, h2, h3⟩
  rw [strtol_numeral h1 h2 h3] at h
  simp at h

/-- `(- 5 "x")` is `(- 5 0)`, `(+ 5 #t)` is `(+ 5 1)`, `(== 1 #t)` is `(== 1 1)`. -/
example [World] (st : St) : callPrim (run 2) .sub [intArg 0 5, strArg 2 c!"x"] 0 st = callPrim (run 2) .sub [intArg 0 5, intArg 2 0] 0 st :=
  (C80_arith (by decide) (y := 0) .sub 0 st (intArg_holds _ _) ⟨_, _, rfl, .noNumber (isStr_mk _ _ _ _) (no_number rfl), by simp [IsDbl], by simp⟩ (intArg_holds _ _)).1
example [World] (st : St) : callPrim (run 2) .eq [intArg 0 1, .mk 2 (.var ⟨.bool, .mk 3 (.bool true), .none, none⟩)] 0 st =
    callPrim (run 2) .eq [intArg 0 1, intArg 2 1] 0 st :=
  (C80_compare (by decide) (y := 1) .eq (b := .eq) (by simp) 0 st (intArg_holds _ _) ⟨_, _, rfl, .bool (b := true) ⟨rfl, _, rfl⟩, by simp [IsDbl], by simp [IsStr]⟩ (intArg_holds _ _)).1

section
attribute [local instance] demoWorld
example : demoScripts [c!"(println (slice \"abcd\" #t \"2 characters\") (+ 5 #t) (- 5 \"x\") (== 1 #t) (< \" 4b\" 5) (search \"b\" \"abab\" \"2\"))"] =
    c!"bc 6 5 #t #t 3\n" := by decide +kernel
end

end Fuel
