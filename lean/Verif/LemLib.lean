import Verif.SpecLib
import Verif.PropsProg
/-!
# Lemmas about calls of functions with local variables
-/

set_option linter.unusedSectionVars false
set_option linter.unusedSimpArgs false

namespace Fuel

open Spec Spec.Core

variable [World]

/-- Variables given by a list. -/
def locals : List (Str × Val) → Str → Option Val
  | [], _ => none
  | (n, v) :: l, m => if m = n then some v else locals l m

/-- A variable is set. -/
def put (n : Str) (v : Val) : List (Str × Val) → List (Str × Val)
  | [] => [(n, v)]
  | (m, w) :: l => if n = m then (m, v) :: l else (m, w) :: put n v l

theorem locals_put (n : Str) (v : Val) (l : List (Str × Val)) : locals (put n v l) = fun m => if m = n then some v else locals l m := by
  funext m
  induction l with
  | nil => rfl
  | cons a l ih =>
    obtain ⟨k, w⟩ := a
    simp only [put]
    by_cases h : n = k
    · subst h
      simp only [if_pos, locals]
      split <;> rfl
    · simp only [if_neg h, locals, ih]
      by_cases h1 : m = k
      · have : m ≠ n := fun e => h (e.symm.trans h1)
        simp [h1, this, Ne.symm h]
      · simp [h1]

/-- During a call of a function that was defined in frame `g`: `R0` is the configuration before the call; the frame of the call has these variables. -/
structure In (g : Nat) (R0 R : Conf) (l : List (Str × Val)) : Prop where
  count : R0.count < R.count
  low : ∀ i, i < R0.count → R.frames i = R0.frames i
  here : R.frames R0.count = ⟨locals l, some g, false⟩
  out : R.out = R0.out
  macros : R.macros = R0.macros
  modules : R.modules = R0.modules
  lib : R.lib = R0.lib
  input : R.input = R0.input

theorem In.enter (g : Nat) (R0 : Conf) {ps : List Str} {vs : List Val} {l : List (Str × Val)} (h : paramVal ps vs = locals l) : In g R0 (R0.enter ps vs g) l :=
  ⟨Nat.lt_succ_self _, fun i hi => by simp [Conf.enter, Conf.withFrame, Nat.ne_of_lt hi], by simp [Conf.enter, Conf.withFrame, h], rfl, rfl, rfl, rfl, rfl⟩

theorem In.set {g : Nat} {R0 R : Conf} {l : List (Str × Val)} (h : In g R0 R l) (n : Str) (v : Val) : In g R0 (R.set R0.count n v) (put n v l) :=
  ⟨h.count, fun i hi => by simp [Conf.set, Conf.withFrame, Nat.ne_of_lt hi, h.low i hi], by simp [Conf.set, Conf.withFrame, h.here, locals_put], h.out, h.macros, h.modules, h.lib, h.input⟩

theorem In.ret {g : Nat} {R0 R : Conf} {l : List (Str × Val)} (h : In g R0 R l) : (R.frames R0.count).ret = false := by rw [h.here]

theorem In.kept {g : Nat} {R0 R : Conf} {l : List (Str × Val)} (h : In g R0 R l) : Kept R0 R := ⟨Nat.le_of_lt h.count, h.low, h.out, h.macros, h.modules, h.lib, h.input⟩

theorem In.kept_mark {g : Nat} {R0 R : Conf} {l : List (Str × Val)} (h : In g R0 R l) : Kept R0 (R.mark R0.count) :=
  ⟨Nat.le_of_lt h.count, fun i hi => by simp [Conf.mark, Conf.withFrame, Nat.ne_of_lt hi, h.low i hi], h.out, h.macros, h.modules, h.lib, h.input⟩

theorem mark_ret (R : Conf) (f : Nat) : ((R.mark f).frames f).ret = true := by simp [Conf.mark, Conf.withFrame]

theorem In.head {g : Nat} {R0 R : Conf} {l : List (Str × Val)} (h : In g R0 R l) {names : List Str} (hS : Standard R0 names) {n : Str} (hn : n ∈ names) (hl : locals l n = none)
    (hh : n ∉ hidden) : Head R R0.count n (.prim n) :=
  ⟨by rw [h.macros]; exact hS.macros n hn, .globally hh (by rw [h.here]; exact hl) (by rw [h.low 0 hS.count]; exact hS.vars n hn)⟩

theorem In.var {g : Nat} {R0 R : Conf} {l : List (Str × Val)} (h : In g R0 R l) {n : Str} {v : Val} (hl : locals l n = some v) (hh : n ∉ hidden) : Value R R0.count n v :=
  .locally hh (by rw [h.here]; exact hl)

theorem In.innermost {g : Nat} {R0 R : Conf} {l : List (Str × Val)} (h : In g R0 R l) {n : Str} {v : Val} (hl : locals l n = some v) : Innermost R n R0.count R0.count :=
  .here (v := v) (by rw [h.here]; exact hl)

/-- `(+ n 1)` -/
theorem In.incr {g : Nat} {R0 R : Conf} {l : List (Str × Val)} (h : In g R0 R l) {names : List Str} (hS : Standard R0 names) {n : Str} {i : Nat} (hn : c!"+" ∈ names)
    (h1 : locals l n = some (.int i)) (h2 : locals l c!"+" = none) (hh : n ∉ hidden) (hi : IsInt32 (i + 1 : Nat)) :
    Exec R0.count (ap c!"+" [.sym n, .int 1]) R (.int (i + 1 : Nat)) R := by
  have f1 : Folds (· + ·) (i : Int) [1] ((i + 1 : Nat) : Int) := by
    have : (i : Int) + 1 = (i + 1 : Nat) := by omega
    exact .cons (by rw [this]; exact hi) (by rw [this]; exact .nil)
  exact .call .list (h.head hS hn h2 (by decide)) (.name (h.var h1 hh) (.other (by simp) .int .nil)) (.fn (.add (l := [1]) (by simp) f1))

/-- `(setf n x)` -/
theorem In.assign {g : Nat} {R0 R : Conf} {l : List (Str × Val)} (h : In g R0 R l) {names : List Str} (hS : Standard R0 names) {n : Str} {v w : Val} {x : Sexp} (hn : c!"setf" ∈ names)
    (h1 : locals l n = some w) (h2 : locals l c!"setf" = none) (hh : n ∉ hidden) (he : n ≠ []) (hx : Exec R0.count x R v R) :
    Exec R0.count (ap c!"setf" [.sym n, x]) R v (R.set R0.count n v) :=
  .setf .list (h.head hS hn h2 (by decide)) hh he hx (h.innermost h1)

/-- `(return x)` for a variable. -/
theorem In.return_var {g : Nat} {R0 R : Conf} {l : List (Str × Val)} (h : In g R0 R l) {names : List Str} (hS : Standard R0 names) {n : Str} {v : Val} (hn : c!"return" ∈ names)
    (h1 : locals l n = some v) (h2 : locals l c!"return" = none) (hh : n ∉ hidden) : Exec R0.count (ap c!"return" [.sym n]) R v (R.mark R0.count) :=
  .call .list (h.head hS hn h2 (by decide)) (.name (h.var h1 hh) .nil) .return_

theorem elements_len {w : Val} {l : List Val} (h : Elements w l) (hz : IsInt32 l.length) : Fn c!"len" [w] (.int l.length) := by
  cases h with
  | list => exact .len .list hz
  | @str s => simpa using Fn.lenStr (s := s) (by simpa using hz)

theorem elements_nth {w : Val} {l : List Val} (h : Elements w l) {i : Nat} {x : Val} (hi : IsInt32 i) (hx : l[i]? = some x) : Fn c!"nth" [.int i, w] x := by
  cases h with
  | list => exact .nth hi hx
  | @str s =>
    rw [List.getElem?_map, Option.map_eq_some_iff] at hx
    obtain ⟨c, h1, rfl⟩ := hx
    exact .nthStr hi h1

theorem params_one (p : Str) (v : Val) : paramVal [p] [v] = locals [(p, v)] := by funext n; simp [paramVal, locals]

theorem params_two (p q : Str) (v w : Val) : paramVal [p, q] [v, w] = locals [(p, v), (q, w)] := by funext n; simp [paramVal, locals]

end Fuel
