import Verif.SpecForms
import Verif.DemoEval
/-!
# Properties of the special forms: C35, C36, C37, C38, C40
-/

set_option linter.unusedSectionVars false
set_option linter.unusedSimpArgs false

namespace Fuel

open Spec

section
variable [World]

/-! ## C35 if -/

theorem monoSeq_m {α : Type} {F : Nat → M α} (h : ∀ k k', RecLe (run k) (run k') → Mono (F k) (F k')) (st : St) : MonoSeq fun k => F k st :=
  monoSeq_of (fun k k' hk => h k k' (run_le hk)) st

/-- C35: `(if c a b)` evaluates `c` and then exactly one of `a` and `b`; its outcome is the outcome of this branch. -/
theorem C35_if {st st0 st1 : St} {sid : Nat} {ast c a b : Ptr} {v : Variant} {t : Bool} (ha : Acyclic st)
    (h : IsSpecial st sid ast .if_ [c, a, b] st0) (hc : Evals c sid st0 (.ok (some v) st1)) (hv : IsBool v t) (o : Out (Option Variant)) :
    Evals ast sid st o ↔ Evals (if t then a else b) sid st1 o := by
  rw [evals_special ha h]
  obtain ⟨K, hc⟩ := hc.stable
  refine lim_iff (monoSeq_prim _ _ _ _) (monoSeq_eval _ _ _) K 0 fun k hk => ?_
  simp [callPrim, bIf, bIf.go, hc k hk, derefV, M.rd_apply, boolValue_bool hv]

/-- C35: `(if c a)` with a true condition: the outcome is that of `a`. -/
theorem C35_if_then {st st0 st1 : St} {sid : Nat} {ast c a : Ptr} {v : Variant} (ha : Acyclic st)
    (h : IsSpecial st sid ast .if_ [c, a] st0) (hc : Evals c sid st0 (.ok (some v) st1)) (hv : IsBool v true) (o : Out (Option Variant)) :
    Evals ast sid st o ↔ Evals a sid st1 o := by
  rw [evals_special ha h]
  obtain ⟨K, hc⟩ := hc.stable
  refine lim_iff (monoSeq_prim _ _ _ _) (monoSeq_eval _ _ _) K 0 fun k hk => ?_
  simp [callPrim, bIf, bIf.go, hc k hk, derefV, M.rd_apply, boolValue_bool hv]

/-- C35: `(if c a)` with a false condition evaluates nothing else; the result is a null pointer. -/
theorem C35_if_no_else {st st0 st1 : St} {sid : Nat} {ast c a : Ptr} {v : Variant} (ha : Acyclic st)
    (h : IsSpecial st sid ast .if_ [c, a] st0) (hc : Evals c sid st0 (.ok (some v) st1)) (hv : IsBool v false) :
    Evals ast sid st (.ok none st1) := by
  rw [evals_special ha h]
  obtain ⟨K, hc⟩ := hc.stable
  refine lim_of (ends_ok _ _) (K + 1) ?_
  have hn : (run (K + 1)).eval .null sid st1 = .ok none st1 := by simp [run_eval, evalStep]
  simp [callPrim, bIf, bIf.go, hc _ (Nat.le_succ K), derefV, M.rd_apply, boolValue_bool hv, hn]

/-- C35: if the condition fails, the `if` fails in the same way and evaluates no branch. -/
theorem C35_condition_fails {st st0 st1 : St} {sid : Nat} {ast c a b : Ptr} {f : Fail} (ha : Acyclic st)
    (h : IsSpecial st sid ast .if_ [c, a, b] st0) (hc : Evals c sid st0 (.fail f st1)) : Evals ast sid st (.fail f st1) := by
  rw [evals_special ha h]
  obtain ⟨K, hc'⟩ := hc.stable
  refine lim_of hc.1 K ?_
  simp [callPrim, bIf, bIf.go, hc' _ (Nat.le_refl K)]

/-- C35: a condition that is no boolean makes the `if` fail, and neither branch is evaluated: the state is the one after the
evaluation of the condition. -/
theorem C35_not_bool {st st0 st1 : St} {sid : Nat} {ast c a b : Ptr} {v : Variant} (ha : Acyclic st)
    (h : IsSpecial st sid ast .if_ [c, a, b] st0) (hc : Evals c sid st0 (.ok (some v) st1)) (hv : v.type ≠ .bool) {o : Out (Option Variant)}
    (ho : Evals ast sid st o) : ∃ f, o = .fail f st1 := by
  rw [evals_special ha h] at ho
  obtain ⟨K, hc⟩ := hc.stable
  obtain ⟨K', ho⟩ := ho.stable (monoSeq_prim _ _ _ _)
  have := ho (max K K') (by omega)
  simp only [callPrim, bIf, bIf.go, M.bind_apply, hc (max K K') (by omega), derefV, M.pure_apply, M.rd_apply, Variant.boolValue, ne_eq, hv, not_false_eq_true,
    if_true] at this
  have hx : ∀ n, ∃ f, (castExn st1 n v c!"bool" : R Bool) = .error f := by
    intro n
    simp only [castExn]
    cases v.stringValue st1 n with
    | error e => exact ⟨e, rfl⟩
    | ok s =>
      simp only [bind_ok_R]
      cases format c!"Invalid cast for {2}, value={1} {0}" c!"no" s c!"bool" with
      | error e => exact ⟨e, rfl⟩
      | ok m => exact ⟨_, rfl⟩
  obtain ⟨f, hf⟩ := hx (run (max K K')).n
  rw [hf] at this
  exact ⟨f, this.symm⟩

theorem format_cast {s n : Str} (hs : BraceFree s) (hs' : s ≠ c!"##<NULL>##") (hn : BraceFree n) (hn' : n ≠ c!"##<NULL>##") :
    format c!"Invalid cast for {2}, value={1} {0}" c!"no" s n = .ok (c!"Invalid cast for " ++ n ++ c!", value=" ++ s ++ c!" no") := by
  have := format_pieces (args := [c!"no", s, n])
    (ps := [.lit c!"Invalid cast for ", .hole 2, .lit c!", value=", .hole 1, .lit c!" ", .hole 0])
    (by simp [BraceFree]) (by simp [nullString, BraceFree] at *; exact ⟨⟨hs, hs'⟩, hn, hn'⟩) (by simp [holes]) (by simp [holes])
  simpa [argOr, sources, Piece.source, fill, nullString] using this

/-- C35: a condition that is a string or a number raises an exception that shows its value (for a string without curly brackets). -/
theorem C35_not_bool_raises {st st0 st1 : St} {sid : Nat} {ast c a b : Ptr} {v : Variant} {s : Str} (ha : Acyclic st)
    (h : IsSpecial st sid ast .if_ [c, a, b] st0) (hc : Evals c sid st0 (.ok (some v) st1))
    (hv : IsStr v s ∨ ∃ x, IsInt v x ∧ s = intStr x) (hs : BraceFree s) (hs' : s ≠ c!"##<NULL>##") :
    Evals ast sid st (.fail (exnAt (c!"Invalid cast for bool, value=" ++ s ++ c!" no") c!"???" v.tok) st1) := by
  rw [evals_special ha h]
  obtain ⟨K, hc⟩ := hc.stable
  refine lim_of (by cases v.tok <;> exact ends_exn _ _) (K + 1) ?_
  have ht : v.type ≠ .bool := by
    rcases hv with hv | ⟨x, hv, _⟩ <;> simp [hv.1]
  have hx : v.stringValue st1 (K + 1) = .ok s := by
    rcases hv with ⟨_, i, hv⟩ | ⟨x, ⟨_, i, hv⟩, rfl⟩ <;> simp [Variant.stringValue, hv, ptrStr]
  have hf := format_cast hs hs' (n := c!"bool") (by simp [BraceFree]) (by decide)
  have hb : v.boolValue st1 (K + 1) = .error (exnNoScope (c!"Invalid cast for bool, value=" ++ s ++ c!" no") v.tok) := by
    simp only [Variant.boolValue, ne_eq, ht, not_false_eq_true, if_true, castExn, hx, bind_ok_R, hf]
    rfl
  simp only [callPrim, bIf, bIf.go, M.bind_apply, hc (K + 1) (by omega), derefV, M.pure_apply, M.rd_apply, run_n, hb]
  cases v.tok <;> rfl

/-! ## C36 and / or -/

theorem boolLoop_and {s : Nat} {l : List Ptr} {st st' : St} {b : Bool} (h : AndRun s l st b st') :
    ∃ K, ∀ k, K ≤ k → boolLoop (run k) true s true l st = .ok b st' := by
  induction h with
  | all => exact ⟨0, fun _ _ => rfl⟩
  | stop h hv =>
    obtain ⟨K, h⟩ := h.stable
    exact ⟨K, fun k hk => by simp [boolLoop, h k hk, derefV, M.rd_apply, boolValue_bool hv]⟩
  | next h hv _ ih =>
    obtain ⟨K, h⟩ := h.stable
    obtain ⟨K', ih⟩ := ih
    exact ⟨max K K', fun k hk => by simp [boolLoop, h k (by omega), derefV, M.rd_apply, boolValue_bool hv, ih k (by omega)]⟩

theorem boolValue_ok {st : St} {n : Nat} {v : Variant} {b : Bool} (h : v.boolValue st n = .ok b) : IsBool v b := by
  unfold Variant.boolValue at h
  split at h
  · simp only [castExn] at h
    cases hs : v.stringValue st n with
    | error e => rw [hs] at h; simp at h
    | ok s =>
      rw [hs] at h
      simp only [bind_ok_R] at h
      cases hf : format c!"Invalid cast for {2}, value={1} {0}" c!"no" s c!"bool" with
      | error e => rw [hf] at h; simp at h
      | ok m => rw [hf] at h; simp at h
  · rename_i ht
    split at h
    · cases h
    · rename_i i b' hv; simp at h; subst h; exact ⟨by simpa using ht, i, hv⟩
    · cases h

theorem boolLoop_and_inv {k s : Nat} {l : List Ptr} {st st' : St} {b : Bool} (h : boolLoop (run k) true s true l st = .ok b st') :
    AndRun s l st b st' := by
  induction l generalizing st with
  | nil => simp [boolLoop] at h; obtain ⟨rfl, rfl⟩ := h; exact .all
  | cons p t ih =>
    simp only [boolLoop, M.bind_apply] at h
    cases he : (run k).eval p s st with
    | fail f s1 => rw [he] at h; simp at h
    | ok v s1 =>
      rw [he] at h
      cases v with
      | none => simp [derefV] at h
      | some v =>
        simp only [derefV, M.pure_apply, M.rd_apply] at h
        cases hb : v.boolValue s1 (run k).n with
        | error e => rw [hb] at h; simp at h
        | ok b' =>
          rw [hb] at h
          have hE : Evals p s st (.ok (some v) s1) := ⟨ends_ok _ _, k, he⟩
          cases b' with
          | false => simp at h; obtain ⟨rfl, rfl⟩ := h; exact .stop hE (boolValue_ok hb)
          | true => simp at h; exact .next hE (boolValue_ok hb) (ih h)

/-- C36: `(and a b ...)` evaluates from left to right and stops at the first false operand; the result is `#t` exactly if all operands
are true. -/
theorem C36_and {st st0 st1 : St} {sid : Nat} {ast : Ptr} {args : List Ptr} {b : Bool} (ha : Acyclic st)
    (h : IsSpecial st sid ast .and args st0) (hr : AndRun sid args st0 b st1) :
    ∃ v st', Evals ast sid st (.ok (some v) st') ∧ IsBool v b ∧ Extends st1 st' := by
  obtain ⟨K, hr⟩ := boolLoop_and hr
  refine ⟨.ofType .bool (.mk st1.next (.bool b)), { st1 with next := st1.next + 1 }, ?_, ⟨rfl, _, rfl⟩, extends_next _ _ (Nat.le_succ _)⟩
  rw [evals_special ha h]
  refine lim_of (ends_ok _ _) K ?_
  simp [callPrim, ret, bBool, hr K (Nat.le_refl K), mkBool, mkAtom, allocObj, Obj.lispType, Variant.ofType]

/-- C36: conversely, if `(and a b ...)` returns, then its operands were evaluated in this way and it returns this boolean. -/
theorem C36_and_inv {st st0 st' : St} {sid : Nat} {ast : Ptr} {args : List Ptr} {r : Option Variant} (ha : Acyclic st)
    (h : IsSpecial st sid ast .and args st0) (he : Evals ast sid st (.ok r st')) :
    ∃ v b st1, r = some v ∧ IsBool v b ∧ AndRun sid args st0 b st1 ∧ Extends st1 st' := by
  rw [evals_special ha h] at he
  obtain ⟨_, k, he⟩ := he
  simp only [callPrim, ret, bBool, M.bind_apply] at he
  cases hb : boolLoop (run k) true sid true args st0 with
  | fail f s => rw [hb] at he; simp at he
  | ok b s =>
    rw [hb] at he
    simp [mkBool, mkAtom, allocObj, M.bind_apply] at he
    obtain ⟨rfl, rfl⟩ := he
    exact ⟨_, b, s, rfl, ⟨rfl, _, rfl⟩, boolLoop_and_inv hb, extends_next _ _ (Nat.le_succ _)⟩

/-- C36: `(or a b ...)` is true if the first operand is true; then all operands are evaluated. -/
theorem C36_or {st st0 st1 st2 : St} {sid : Nat} {ast p : Ptr} {t : List Ptr} {v : Variant} (ha : Acyclic st)
    (h : IsSpecial st sid ast .or (p :: t) st0) (hp : Evals p sid st0 (.ok (some v) st1)) (hv : IsBool v true) (ht : AllBool sid t st1 st2) :
    ∃ w st', Evals ast sid st (.ok (some w) st') ∧ IsBool w true ∧ Extends st2 st' := by
  have hl : ∃ K, ∀ k, K ≤ k → boolLoop (run k) false sid true t st1 = .ok true st2 := by
    clear h hp hv
    induction ht with
    | nil => exact ⟨0, fun _ _ => rfl⟩
    | cons h hv _ ih =>
      obtain ⟨K, h⟩ := h.stable
      obtain ⟨K', ih⟩ := ih
      exact ⟨max K K', fun k hk => by simp [boolLoop, h k (by omega), derefV, M.rd_apply, boolValue_bool hv, ih k (by omega)]⟩
  obtain ⟨K, hr⟩ := hp.stable
  obtain ⟨K', hl⟩ := hl
  refine ⟨.ofType .bool (.mk st2.next (.bool true)), { st2 with next := st2.next + 1 }, ?_, ⟨rfl, _, rfl⟩, extends_next _ _ (Nat.le_succ _)⟩
  rw [evals_special ha h]
  refine lim_of (ends_ok _ _) (max K K') ?_
  simp [callPrim, ret, bBool, boolLoop, hr (max K K') (by omega), derefV, M.rd_apply, boolValue_bool hv, hl (max K K') (by omega), mkBool, mkAtom, allocObj, Obj.lispType, Variant.ofType]

/-- C36: `(or a b ...)` is wrong: if the first operand is false, the result is `#f` whatever the other operands are; they are not
evaluated. -/
theorem C36_or_wrong {st st0 st1 : St} {sid : Nat} {ast p : Ptr} {t : List Ptr} {v : Variant} (ha : Acyclic st)
    (h : IsSpecial st sid ast .or (p :: t) st0) (hp : Evals p sid st0 (.ok (some v) st1)) (hv : IsBool v false) :
    ∃ w st', Evals ast sid st (.ok (some w) st') ∧ IsBool w false ∧ Extends st1 st' := by
  obtain ⟨K, hr⟩ := hp.stable
  refine ⟨.ofType .bool (.mk st1.next (.bool false)), { st1 with next := st1.next + 1 }, ?_, ⟨rfl, _, rfl⟩, extends_next _ _ (Nat.le_succ _)⟩
  rw [evals_special ha h]
  refine lim_of (ends_ok _ _) K ?_
  simp [callPrim, ret, bBool, boolLoop, hr K (Nat.le_refl K), derefV, M.rd_apply, boolValue_bool hv, mkBool, mkAtom, allocObj, Obj.lispType, Variant.ofType]

/-! ## C37 while -/

theorem castExn_fail {α : Type} (st : St) (n : Nat) (v : Variant) (to msg : Str) : ∃ f, (castExn st n v to msg : R α) = .error f := by
  simp only [castExn]
  cases v.stringValue st n with
  | error e => exact ⟨e, rfl⟩
  | ok s =>
    simp only [bind_ok_R]
    cases format c!"Invalid cast for {2}, value={1} {0}" msg s to with
    | error e => exact ⟨e, rfl⟩
    | ok m => exact ⟨_, rfl⟩

theorem bind_ub_R {α β : Type} (u : UB) (f : α → R β) : (R.ub u >>= f) = R.ub u := rfl

theorem toBool_truthy {st : St} {n : Nat} {v : Variant} {b : Bool} (h : Truthy v b) : v.toBool st n = .ok b := by
  cases h with
  | bool h => simp [Variant.toBool, h.1, boolValue_bool h]
  | int h => simp [Variant.toBool, h.1, intValue_int h]
  | dbl h => simp [Variant.toBool, h.1, doubleValue_dbl h]

theorem toBool_ok {st : St} {n : Nat} {v : Variant} {b : Bool} (h : v.toBool st n = .ok b) : Truthy v b := by
  unfold Variant.toBool at h
  split at h
  · exact .bool (boolValue_ok h)
  · rename_i ht
    simp only [Variant.intValue, ht] at h
    cases hv : v.value with
    | null => simp [hv, bind_ub_R, R.ub] at h
    | mk i o =>
      cases o with
      | int x =>
        have h : (.ok (decide (x ≠ 0)) : R Bool) = .ok b := by simpa [hv] using h
        cases h
        exact Truthy.int (v := v) (x := x) ⟨ht, i, hv⟩
      | _ => simp [hv, bind_ub_R, R.ub] at h
  · rename_i ht
    simp only [Variant.doubleValue, ht] at h
    cases hv : v.value with
    | null => simp [hv, bind_ub_R, R.ub] at h
    | mk i o =>
      cases o with
      | dbl x => simp [hv] at h; subst h; exact .dbl ⟨ht, i, hv⟩
      | _ => simp [hv, bind_ub_R, R.ub] at h
  · simp only [convExn] at h
    cases hs : v.typeString with
    | error e => rw [hs] at h; simp at h
    | ok t =>
      rw [hs] at h
      simp only [bind_ok_R] at h
      cases hf : format c!"can not convert {0} to {1}" t c!"bool" with
      | error e => rw [hf] at h; simp at h
      | ok m =>
        rw [hf] at h
        obtain ⟨f, hc⟩ := castExn_fail (α := Bool) st n v c!"bool" m
        simp [hc] at h

/-- One evaluation of the condition and the rest of the loop. -/
def whileFrom (k : Nat) (c b : Ptr) (s : Nat) (r : Option Variant) : M (Option Variant) := do
  let cond ← (run k).eval c s
  (run k).whileL c b s cond r

theorem monoSeq_whileFrom (c b : Ptr) (s : Nat) (r : Option Variant) (st : St) : MonoSeq fun k => whileFrom k c b s r st :=
  monoSeq_of (fun _ _ h => by have := run_le h; unfold whileFrom; mono) st

theorem whileFrom_run {c b : Ptr} {s : Nat} {r : Option Variant} {st : St} {o : Out (Option Variant)} (h : WhileRun c b s r st o) :
    Lim (fun k => whileFrom k c b s r st) o := by
  induction h with
  | stop h hv =>
    obtain ⟨K, h⟩ := h.stable
    refine lim_of (ends_ok _ _) (K + 1) ?_
    simp [whileFrom, h (K + 1) (by omega), run_whileL, whileStep, derefV, M.rd_apply, toBool_truthy hv]
  | @again r st v st1 r' st2 o h hv hb hr _ ih =>
    obtain ⟨K, h⟩ := h.stable
    obtain ⟨K', hb⟩ := hb.stable
    refine (lim_iff (monoSeq_whileFrom _ _ _ _ _) (monoSeq_whileFrom _ _ _ _ _) (max K K') 1 fun k hk => ?_).mpr ih
    simp [whileFrom, h (k + 1) (by omega), run_whileL, whileStep, derefV, M.rd_apply, toBool_truthy hv, hb k (by omega), hr]
  | ret h hv hb hr =>
    obtain ⟨K, h⟩ := h.stable
    obtain ⟨K', hb⟩ := hb.stable
    refine lim_of (ends_ok _ _) (max K K' + 1) ?_
    simp [whileFrom, h (max K K' + 1) (by omega), run_whileL, whileStep, derefV, M.rd_apply, toBool_truthy hv, hb (max K K') (by omega), hr]
  | condFails h =>
    obtain ⟨K, h'⟩ := h.stable
    refine lim_of h.1 K ?_
    simp [whileFrom, h' K (by omega)]
  | bodyFails h hv hb =>
    obtain ⟨K, h⟩ := h.stable
    obtain ⟨K', hb'⟩ := hb.stable
    refine lim_of hb.1 (max K K' + 1) ?_
    simp [whileFrom, h (max K K' + 1) (by omega), run_whileL, whileStep, derefV, M.rd_apply, toBool_truthy hv, hb' (max K K') (by omega)]

theorem whileL_inv {k : Nat} {c b : Ptr} {s : Nat} {r : Option Variant} {st st1 : St} {v r' : Option Variant} {st' : St}
    (hv : Evals c s st (.ok v st1)) (h : (run k).whileL c b s v r st1 = .ok r' st') : WhileRun c b s r st (.ok r' st') := by
  induction k generalizing st st1 v r with
  | zero => simp [run] at h
  | succ k ih =>
    simp only [run_whileL, whileStep, M.bind_apply] at h
    cases v with
    | none => simp [derefV] at h
    | some v =>
      simp only [derefV, M.pure_apply, M.rd_apply] at h
      cases ht : v.toBool st1 (run k).n with
      | error e => rw [ht] at h; simp at h
      | ok t =>
        rw [ht] at h
        cases t with
        | false => simp at h; obtain ⟨rfl, rfl⟩ := h; exact .stop hv (toBool_ok ht)
        | true =>
          simp only [if_true, M.bind_apply] at h
          cases hb : (run k).eval b s st1 with
          | fail f s2 => rw [hb] at h; simp at h
          | ok rb s2 =>
            rw [hb] at h
            have hB : Evals b s st1 (.ok rb s2) := ⟨ends_ok _ _, k, hb⟩
            simp only [M.get_apply] at h
            cases hr : (s2.scopes s).isInReturn with
            | true => rw [hr] at h; simp at h; obtain ⟨rfl, rfl⟩ := h; exact .ret hv (toBool_ok ht) hB hr
            | false =>
              rw [hr] at h
              simp only [M.bind_apply, Bool.false_eq_true, if_false] at h
              cases hc : (run k).eval c s s2 with
              | fail f s3 => rw [hc] at h; simp at h
              | ok v2 s3 =>
                rw [hc] at h
                exact .again hv (toBool_ok ht) hB hr (ih ⟨ends_ok _ _, k, hc⟩ h)

/-- C37: the outcome of `(while c b)` is that of the iteration: evaluate `c`; as long as it is true evaluate `b` and then `c` again.
The result is the value of the last evaluation of `b`, and undefined if there was none. -/
theorem C37_while {st st0 : St} {sid : Nat} {ast c b : Ptr} {o : Out (Option Variant)} (ha : Acyclic st)
    (h : IsSpecial st sid ast .while_ [c, b] st0) (hr : WhileRun c b sid (some undefinedV) st0 o) : Evals ast sid st o := by
  rw [evals_special ha h]
  refine (lim_iff (monoSeq_prim _ _ _ _) (monoSeq_whileFrom _ _ _ _ _) 0 0 fun k hk => ?_).mpr (whileFrom_run hr)
  simp [callPrim, bWhile, checkArgs, arg, whileFrom]

/-- C37: conversely, if `(while c b)` returns, then it ran in exactly this way. -/
theorem C37_while_inv {st st0 st' : St} {sid : Nat} {ast c b : Ptr} {r : Option Variant} (ha : Acyclic st)
    (h : IsSpecial st sid ast .while_ [c, b] st0) (he : Evals ast sid st (.ok r st')) :
    WhileRun c b sid (some undefinedV) st0 (.ok r st') := by
  rw [evals_special ha h] at he
  obtain ⟨_, k, he⟩ := he
  simp [callPrim, bWhile, checkArgs, arg, M.bind_apply] at he
  cases hc : (run k).eval c sid st0 with
  | fail f s => rw [hc] at he; simp at he
  | ok v s => rw [hc] at he; exact whileL_inv ⟨ends_ok _ _, k, hc⟩ he

/-! ## C38 do -/

theorem monoSeq_doLoop (s : Nat) (r : Option Variant) (l : List Ptr) (st : St) : MonoSeq fun k => doLoop (run k) s r l st :=
  monoSeq_of (fun _ _ h => by have := run_le h; infer_instance) st

theorem throwTok_exnAt {α : Type} (msg : Str) (t : Option Token) (s : Nat) (st : St) :
    (throwTok msg t s : M α) st = .fail (exnAt msg (st.scopes s).module t) st := by
  cases t <;> rfl

theorem doLoop_run {s : Nat} {r : Option Variant} {l : List Ptr} {st : St} {o : Out (Option Variant)} (h : DoRun s r l st o) :
    Lim (fun k => doLoop (run k) s r l st) o := by
  induction h with
  | done => exact lim_of (ends_ok _ _) 0 rfl
  | next h hr _ ih =>
    obtain ⟨K, h⟩ := h.stable
    refine (lim_iff (monoSeq_doLoop _ _ _ _) (monoSeq_doLoop _ _ _ _) K 0 fun k hk => ?_).mpr ih
    simp [doLoop, h k hk, hr]
  | ret h hr =>
    obtain ⟨K, h⟩ := h.stable
    refine lim_of (ends_ok _ _) K ?_
    simp [doLoop, h K (Nat.le_refl _), hr]
  | fails h =>
    obtain ⟨K, h'⟩ := h.stable
    refine lim_of h.1 K ?_
    simp [doLoop, h' K (Nat.le_refl _)]
  | @bad r i v t st =>
    refine lim_of ?_ 0 ?_
    · cases v.tok <;> exact ends_exn _ _
    · simp [doLoop, throwTok_exnAt]; rfl

theorem doLoop_inv {k s : Nat} {r : Option Variant} {l : List Ptr} {st : St} {o : Out (Option Variant)} (hl : ∀ p ∈ l, IsCode p)
    (ho : Ends o) (h : doLoop (run k) s r l st = o) : DoRun s r l st o := by
  induction l generalizing st r with
  | nil => simp [doLoop] at h; subst h; exact .done
  | cons p t ih =>
    obtain ⟨i, rfl | ⟨v, rfl⟩⟩ := hl p (by simp)
    · simp only [doLoop, M.bind_apply] at h
      cases he : (run k).eval (.mk i .list) s st with
      | fail f s1 => rw [he] at h; simp only at h; subst h; exact .fails ⟨ho, k, he⟩
      | ok v s1 =>
        rw [he] at h
        have hE : Evals (.mk i .list) s st (.ok v s1) := ⟨ends_ok _ _, k, he⟩
        simp only [M.get_apply] at h
        cases hr : (s1.scopes s).isInReturn with
        | true => rw [hr] at h; simp at h; subst h; exact .ret hE hr
        | false => rw [hr] at h; simp at h; exact .next hE hr (ih (fun q hq => hl q (by simp [hq])) h)
    · simp [doLoop, throwTok_exnAt] at h; subst h; exact .bad

/-- C38: the outcome of `(do s1 s2 ...)`: the statements are executed in order, each in the state its predecessor left; the result is that
of the last one; a `return` or a failure ends the block at once. -/
theorem C38_do {st st0 : St} {sid : Nat} {ast : Ptr} {args : List Ptr} {o : Out (Option Variant)} (ha : Acyclic st)
    (h : IsSpecial st sid ast .do_ args st0) (hl : ∀ p ∈ args, IsCode p) :
    Evals ast sid st o ↔ DoRun sid (some undefinedV) args st0 o := by
  rw [evals_special ha h]
  constructor
  · rintro ⟨ho, k, hk⟩
    exact doLoop_inv hl ho hk
  · intro hr; exact doLoop_run hr

/-! ## C40 quote -/

theorem Spec.CopyOf.elem {st st' : St} {p q : Ptr} (h : CopyOf st st' p q) : IsElem q := by
  cases h with
  | value => exact ⟨_, .value⟩
  | @list i j _ => exact ⟨.ofType .list (.mk j .list), .list ⟨rfl, rfl⟩⟩
  | @int i j x => exact ⟨.ofType .int (.mk j (.int x)), .int ⟨rfl, _, rfl⟩⟩
  | @dbl i j x => exact ⟨.ofType .double (.mk j (.dbl x)), .dbl ⟨rfl, _, rfl⟩⟩
  | @str i j x => exact ⟨.ofType .string (.mk j (.str x)), .str ⟨rfl, _, rfl⟩⟩
  | @bool i j x => exact ⟨.ofType .bool (.mk j (.bool x)), .bool ⟨rfl, _, rfl⟩⟩

/-- C40: `(quote x)` evaluates nothing: it returns a copy of `x`, writes nothing and changes no existing data. -/
theorem C40_quote {st st0 : St} {sid : Nat} {ast x : Ptr} (ha : Acyclic st) (h : IsSpecial st sid ast .quote [x] st0) (hx : IsElem x) :
    ∃ v c st', Evals ast sid st (.ok (some v) st') ∧ CopyOf st0 st' x c ∧ Denotes c v ∧ Extends st0 st' := by
  obtain ⟨c, s', h1, h2, h3⟩ := copyObj_elem hx st0
  obtain ⟨v, h4, h5⟩ := mkVariant_elem h3.elem
  refine ⟨v, c, s', ?_, h3, h5, h2⟩
  rw [evals_special ha h]
  refine lim_of (ends_ok _ _) 0 ?_
  simp [callPrim, ret, bQuote, checkArgs, arg, h1, h4]

end

/-! ## Examples: reachable states that meet the hypotheses -/

section
attribute [local instance] demoWorld

/-- `(if (< 1 2) 3 4)` -/
example : ∃ (st st0 st1 : St) (sid : Nat) (ast c a b : Ptr) (v : Variant), Reachable st ∧ IsSpecial st sid ast .if_ [c, a, b] st0 ∧
    Evals c sid st0 (.ok (some v) st1) ∧ IsBool v true := by
  obtain ⟨st, sid, ast, h1, _, h⟩ := demo_of (setup := []) (code := c!"(if (< 1 2) 3 4)") (P := fun st sid ast =>
    match specialB st sid ast .if_ with
    | some ([c, _, _], st0) => match evalB c sid st0 with
      | some (v, _) => decide (boolB v = some true)
      | none => false
    | _ => false) (by decide +kernel)
  split at h
  · rename_i c a b st0 hs
    split at h
    · rename_i v st1 he
      exact ⟨st, st0, st1, sid, ast, c, a, b, v, h1, specialB_ok hs, evalB_ok he, boolB_ok (of_decide_eq_true h)⟩
    · cases h
  · cases h

/-- `(if (< 2 1) 3)`: no third argument. -/
example : ∃ (st st0 st1 : St) (sid : Nat) (ast c a : Ptr) (v : Variant), Reachable st ∧ IsSpecial st sid ast .if_ [c, a] st0 ∧
    Evals c sid st0 (.ok (some v) st1) ∧ IsBool v false := by
  obtain ⟨st, sid, ast, h1, _, h⟩ := demo_of (setup := []) (code := c!"(if (< 2 1) 3)") (P := fun st sid ast =>
    match specialB st sid ast .if_ with
    | some ([c, _], st0) => match evalB c sid st0 with
      | some (v, _) => decide (boolB v = some false)
      | none => false
    | _ => false) (by decide +kernel)
  split at h
  · rename_i c a st0 hs
    split at h
    · rename_i v st1 he
      exact ⟨st, st0, st1, sid, ast, c, a, v, h1, specialB_ok hs, evalB_ok he, boolB_ok (of_decide_eq_true h)⟩
    · cases h
  · cases h

/-- `(if (+ 1 2) 3 4)`: the condition is a number. -/
example : ∃ (st st0 st1 : St) (sid : Nat) (ast c a b : Ptr) (v : Variant), Reachable st ∧ IsSpecial st sid ast .if_ [c, a, b] st0 ∧
    Evals c sid st0 (.ok (some v) st1) ∧ v.type ≠ .bool := by
  obtain ⟨st, sid, ast, h1, _, h⟩ := demo_of (setup := []) (code := c!"(if (+ 1 2) 3 4)") (P := fun st sid ast =>
    match specialB st sid ast .if_ with
    | some ([c, _, _], st0) => match evalB c sid st0 with
      | some (v, _) => decide (v.type ≠ .bool)
      | none => false
    | _ => false) (by decide +kernel)
  split at h
  · rename_i c a b st0 hs
    split at h
    · rename_i v st1 he
      exact ⟨st, st0, st1, sid, ast, c, a, b, v, h1, specialB_ok hs, evalB_ok he, of_decide_eq_true h⟩
    · cases h
  · cases h

/-- `(if (first 1) 3 4)`: the condition fails. -/
example : ∃ (st st0 st1 : St) (sid : Nat) (ast c a b : Ptr) (f : Fail), Reachable st ∧ IsSpecial st sid ast .if_ [c, a, b] st0 ∧
    Evals c sid st0 (.fail f st1) := by
  obtain ⟨st, sid, ast, h1, _, h⟩ := demo_of (setup := []) (code := c!"(if (first 1) 3 4)") (P := fun st sid ast =>
    match specialB st sid ast .if_ with
    | some ([c, _, _], st0) => match (run 60).eval c sid st0 with
      | .fail f _ => decide (f ≠ .fuel)
      | _ => false
    | _ => false) (by decide +kernel)
  split at h
  · rename_i c a b st0 hs
    split at h
    · rename_i f st1 he
      exact ⟨st, st0, st1, sid, ast, c, a, b, f, h1, specialB_ok hs, fun s hs => by cases hs; exact absurd h (by decide), 60, he⟩
    · cases h
  · cases h

/-- `(and #t (< 2 1) (first 1))`: the last operand, which would fail, is not evaluated. -/
example : ∃ (st st0 st1 : St) (sid : Nat) (ast a b c : Ptr), Reachable st ∧ IsSpecial st sid ast .and [a, b, c] st0 ∧
    AndRun sid [a, b, c] st0 false st1 := by
  obtain ⟨st, sid, ast, h1, _, h⟩ := demo_of (setup := []) (code := c!"(and #t (< 2 1) (first 1))") (P := fun st sid ast =>
    match specialB st sid ast .and with
    | some ([a, b, _], st0) => match evalB a sid st0 with
      | some (v, st1) => match evalB b sid st1 with
        | some (w, _) => decide (boolB v = some true ∧ boolB w = some false)
        | none => false
      | none => false
    | _ => false) (by decide +kernel)
  split at h
  · rename_i a b c st0 hs
    split at h
    · rename_i v st1 he
      split at h
      · rename_i w st2 he2
        have h := of_decide_eq_true h
        exact ⟨st, st0, st2, sid, ast, a, b, c, h1, specialB_ok hs, .next (evalB_ok he) (boolB_ok h.1) (.stop (evalB_ok he2) (boolB_ok h.2))⟩
      · cases h
    · cases h
  · cases h

/-- `(or (< 2 1) #t)`: by `C36_or_wrong` the result is `#f`. -/
example : ∃ (st st0 st1 : St) (sid : Nat) (ast a b : Ptr) (v : Variant), Reachable st ∧ IsSpecial st sid ast .or [a, b] st0 ∧
    Evals a sid st0 (.ok (some v) st1) ∧ IsBool v false := by
  obtain ⟨st, sid, ast, h1, _, h⟩ := demo_of (setup := []) (code := c!"(or (< 2 1) #t)") (P := fun st sid ast =>
    match specialB st sid ast .or with
    | some ([c, _], st0) => match evalB c sid st0 with
      | some (v, _) => decide (boolB v = some false)
      | none => false
    | _ => false) (by decide +kernel)
  split at h
  · rename_i c a st0 hs
    split at h
    · rename_i v st1 he
      exact ⟨st, st0, st1, sid, ast, c, a, v, h1, specialB_ok hs, evalB_ok he, boolB_ok (of_decide_eq_true h)⟩
    · cases h
  · cases h

/-- A loop that runs three times. -/
example : ∃ (st st0 st1 : St) (sid : Nat) (ast c b : Ptr) (v : Variant), Reachable st ∧ IsSpecial st sid ast .while_ [c, b] st0 ∧
    WhileRun c b sid (some undefinedV) st0 (.ok (some v) st1) ∧ IsInt v 3 := by
  obtain ⟨st, sid, ast, h1, _, h⟩ := demo_of (setup := [c!"(def n 0)"]) (code := c!"(while (< n 3) (setf n (+ n 1)))") (P := fun st sid ast =>
    match specialB st sid ast .while_ with
    | some ([_, _], _) => match evalB ast sid st with
      | some (v, _) => decide (intB v = some 3)
      | none => false
    | _ => false) (by decide +kernel)
  split at h
  · rename_i c b st0 hs
    split at h
    · rename_i v st1 he
      exact ⟨st, st0, st1, sid, ast, c, b, v, h1, specialB_ok hs, C37_while_inv h1.links.old (specialB_ok hs) (evalB_ok he), intB_ok (of_decide_eq_true h)⟩
    · cases h
  · cases h

/-- A block with two statements. -/
example : ∃ (st st0 : St) (sid : Nat) (ast a b : Ptr), Reachable st ∧ IsSpecial st sid ast .do_ [a, b] st0 ∧ (∀ p ∈ [a, b], IsCode p) := by
  obtain ⟨st, sid, ast, h1, _, h⟩ := demo_of (setup := []) (code := c!"(do (println 1) (println 2))") (P := fun st sid ast =>
    match specialB st sid ast .do_ with
    | some ([.mk _ .list, .mk _ .list], _) => true
    | _ => false) (by decide +kernel)
  split at h
  · rename_i i j st0 hs
    exact ⟨st, st0, sid, ast, _, _, h1, specialB_ok hs, by simp [IsCode]⟩
  · cases h

/-- `(quote (a b))` -/
example : ∃ (st st0 : St) (sid : Nat) (ast a : Ptr), Reachable st ∧ IsSpecial st sid ast .quote [a] st0 ∧ IsElem a := by
  obtain ⟨st, sid, ast, h1, _, h⟩ := demo_of (setup := []) (code := c!"(quote (a b))") (P := fun st sid ast =>
    match specialB st sid ast .quote with
    | some ([.mk _ .list], _) => true
    | _ => false) (by decide +kernel)
  split at h
  · rename_i i st0 hs
    exact ⟨st, st0, sid, ast, _, h1, specialB_ok hs, .ofType .list (.mk i .list), .list ⟨rfl, rfl⟩⟩
  · cases h

end

end Fuel
