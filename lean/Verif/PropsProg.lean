import Verif.PropsCore
/-!
# Programs: the source text of a recursive function and of a loop, for all arguments
-/

set_option linter.unusedSectionVars false
set_option linter.unusedSimpArgs false

namespace Fuel

open Spec Spec.Core

/-! ## The programs -/

namespace Spec.Core

/-- The factorial. -/
def factorial : Nat → Nat
  | 0 => 1
  | n + 1 => (n + 1) * factorial n

/-- `(if (< n 2) 1 (* n (fact (- n 1))))` -/
def factBody : Sexp :=
  .list [.sym c!"if", .list [.sym c!"<", .sym c!"n", .int 2], .int 1,
    .list [.sym c!"*", .sym c!"n", .list [.sym c!"fact", .list [.sym c!"-", .sym c!"n", .int 1]]]]

/-- `(defn fact (n) (if (< n 2) 1 (* n (fact (- n 1))))) (println (fact m))` -/
def factProgram (m : Nat) : List Sexp :=
  [.list [.sym c!"defn", .sym c!"fact", .list [.sym c!"n"], factBody], .list [.sym c!"println", .list [.sym c!"fact", .int m]]]

/-- The sum of the numbers from 1 to n. -/
def sumTo : Nat → Nat
  | 0 => 0
  | n + 1 => sumTo n + (n + 1)

/-- `(def i 0) (def s 0) (while (< i m) (do (setf i (+ i 1)) (setf s (+ s i)))) (println s)` -/
def sumProgram (m : Nat) : List Sexp :=
  [.list [.sym c!"def", .sym c!"i", .int 0], .list [.sym c!"def", .sym c!"s", .int 0],
   .list [.sym c!"while", .list [.sym c!"<", .sym c!"i", .int m],
    .list [.sym c!"do", .list [.sym c!"setf", .sym c!"i", .list [.sym c!"+", .sym c!"i", .int 1]],
      .list [.sym c!"setf", .sym c!"s", .list [.sym c!"+", .sym c!"s", .sym c!"i"]]]],
   .list [.sym c!"println", .sym c!"s"]]

end Spec.Core

section
variable [World]

/-! ## Factorial -/

/-- The names that the function uses have their meaning. -/
structure FactLib (R : Conf) : Prop where
  count : 0 < R.count
  if_ : (R.frames 0).vars c!"if" = some (.prim c!"if")
  lt : (R.frames 0).vars c!"<" = some (.prim c!"<")
  mul : (R.frames 0).vars c!"*" = some (.prim c!"*")
  sub : (R.frames 0).vars c!"-" = some (.prim c!"-")
  fact : (R.frames 0).vars c!"fact" = some (.clo [c!"n"] factBody 0)
  macros : R.macros = Conf.start.macros

theorem factorial_pos (n : Nat) : 1 ≤ factorial n := by
  induction n with
  | zero => exact Nat.le_refl _
  | succ n ih => exact Nat.le_trans ih (Nat.le_mul_of_pos_left _ (Nat.succ_pos n))

theorem factorial_le (n : Nat) : factorial n ≤ factorial (n + 1) := Nat.le_mul_of_pos_left _ (Nat.succ_pos n)

theorem le_factorial (n : Nat) : n ≤ factorial n := by
  cases n with
  | zero => exact Nat.zero_le _
  | succ n => exact Nat.le_mul_of_pos_right _ (factorial_pos n)

/-- What a call of the function sees. -/
structure FactFrame (R S : Conf) (m : Int) : Prop where
  n : Value S R.count c!"n" (.int m)
  if_ : Head S R.count c!"if" (.prim c!"if")
  lt : Head S R.count c!"<" (.prim c!"<")
  mul : Head S R.count c!"*" (.prim c!"*")
  sub : Head S R.count c!"-" (.prim c!"-")
  fact : Head S R.count c!"fact" (.clo [c!"n"] factBody 0)

theorem factFrame {R : Conf} (h : FactLib R) (m : Int) : FactFrame R (R.enter [c!"n"] [.int m] 0) m := by
  have h0 : (0 : Nat) ≠ R.count := Nat.ne_of_lt h.count
  constructor
  · exact .locally (by decide) (by simp [Conf.enter, Conf.withFrame, paramVal])
  all_goals
    refine ⟨congrFun h.macros _, ?_⟩
    refine .globally (by decide) (by simp [Conf.enter, Conf.withFrame, paramVal]) ?_
    simp only [Conf.enter, Conf.withFrame, if_neg h0]
  · exact h.if_
  · exact h.lt
  · exact h.mul
  · exact h.sub
  · exact h.fact

theorem fact_apply (m : Nat) : ∀ {f : Nat} {R : Conf}, FactLib R → IsInt32 (factorial m : Nat) →
    ∃ R', Apply f (.clo [c!"n"] factBody 0) [.int (m : Nat)] R (.int (factorial m : Nat)) R' ∧ R'.out = R.out ∧ R.count ≤ R'.count ∧
      (∀ i, i < R.count → R'.frames i = R.frames i) := by
  induction m with
  | zero =>
    intro f R hL _
    have hF := factFrame hL (0 : Nat)
    refine ⟨_, .clo (by decide) (by decide) (.if_ (t := true) .list hF.if_ (.call .list hF.lt (.name hF.n (.other (by simp) .int .nil)) (.fn .lt)) .int), rfl, Nat.le_succ _, fun i hi => ?_⟩
    simp [Conf.enter, Conf.withFrame, Nat.ne_of_lt hi]
  | succ m ih =>
    intro f R hL hi
    have hF := factFrame hL (m + 1 : Nat)
    have hE : ∀ i, i < R.count → (R.enter [c!"n"] [.int (m + 1 : Nat)] 0).frames i = R.frames i := fun i hi => by
      simp [Conf.enter, Conf.withFrame, Nat.ne_of_lt hi]
    have hc : Exec R.count (.list [.sym c!"<", .sym c!"n", .int 2]) (R.enter [c!"n"] [.int (m + 1 : Nat)] 0) (.bool (decide (((m + 1 : Nat) : Int) < 2)))
        (R.enter [c!"n"] [.int (m + 1 : Nat)] 0) := .call .list hF.lt (.name hF.n (.other (by simp) .int .nil)) (.fn .lt)
    by_cases hm : m = 0
    · subst hm
      exact ⟨_, .clo (by decide) (by decide) (.if_ (t := true) .list hF.if_ hc .int), rfl, Nat.le_succ _, hE⟩
    · rw [decide_eq_false (by omega)] at hc
      have hm1 : IsInt32 (factorial m : Nat) := by
        have := factorial_le m
        unfold IsInt32 at *
        omega
      have hL' : FactLib (R.enter [c!"n"] [.int (m + 1 : Nat)] 0) := by
        have h0 := hE 0 hL.count
        exact ⟨Nat.succ_pos _, by rw [h0]; exact hL.if_, by rw [h0]; exact hL.lt, by rw [h0]; exact hL.mul, by rw [h0]; exact hL.sub, by rw [h0]; exact hL.fact, hL.macros⟩
      have h12 := le_factorial (m + 1)
      have hs : Exec R.count (.list [.sym c!"-", .sym c!"n", .int 1]) (R.enter [c!"n"] [.int (m + 1 : Nat)] 0) (.int (m : Nat)) (R.enter [c!"n"] [.int (m + 1 : Nat)] 0) := by
        have hfold : Folds (· - ·) ((m + 1 : Nat) : Int) [1] (m : Nat) := by
          have : ((m + 1 : Nat) : Int) - 1 = (m : Nat) := by omega
          refine .cons ?_ ?_
          · rw [this]; unfold IsInt32 at *; omega
          · rw [this]; exact .nil
        exact .call .list hF.sub (.name hF.n (.other (by simp) .int .nil)) (.fn (.sub (l := []) (by simp) hfold))
      obtain ⟨R', h1, h2, h3, h4⟩ := ih (f := R.count) hL' hm1
      have hr : Exec R.count (.list [.sym c!"fact", .list [.sym c!"-", .sym c!"n", .int 1]]) (R.enter [c!"n"] [.int (m + 1 : Nat)] 0) (.int (factorial m : Nat)) R' :=
        .call .list hF.fact (.other (by simp) hs .nil) h1
      have hv : ((m + 1 : Nat) : Int) * (factorial m : Nat) = (factorial (m + 1) : Nat) := by simp [factorial]
      have hx : Exec R.count (.list [.sym c!"*", .sym c!"n", .list [.sym c!"fact", .list [.sym c!"-", .sym c!"n", .int 1]]]) (R.enter [c!"n"] [.int (m + 1 : Nat)] 0)
          (.int (factorial (m + 1) : Nat)) R' := by
        refine .call .list hF.mul (.name hF.n (.other (by simp) hr .nil)) (.fn (.mul (l := [(factorial m : Nat)]) (by simp) (.cons ?_ ?_)))
        · rw [hv]; exact hi
        · rw [hv]; exact .nil
      refine ⟨R', .clo (by decide) (by decide) (.if_ (t := false) .list hF.if_ hc hx), h2, Nat.le_trans (Nat.le_succ _) h3, fun i hi => ?_⟩
      rw [h4 i (Nat.lt_succ_of_lt hi), hE i hi]

theorem start_vars {n : Str} {b : Builtin} {s : Bool} (hn : (n, b, s) ∈ coreTable) : (Conf.start.frames 0).vars n = some (.prim n) := if_pos (core_names _ hn)

theorem intStr_shown (i : Int) : joined [intStr i] = intStr i := by
  cases h : intStr i <;> simp [joined, List.dropWhile, List.intercalate]

theorem factProgram_wf {m : Nat} (hm : IsInt32 m) : Sexp.WFs (factProgram m) := by
  simp [factProgram, factBody, Sexp.WF, Sexp.WFs, SymbolName, Spec.Plain, White, NumberLike, dropSign, Digit, reserved, hm]
  decide

theorem sumProgram_wf {m : Nat} (hm : IsInt32 m) : Sexp.WFs (sumProgram m) := by
  simp [sumProgram, Sexp.WF, Sexp.WFs, SymbolName, Spec.Plain, White, NumberLike, dropSign, Digit, reserved, hm]
  decide

/-- C56: the source text of the recursive factorial function, called with any number whose factorial has 32 bits, prints the factorial. -/
theorem C56_factorial (m : Nat) (hm : IsInt32 (factorial m : Nat)) {text : Str} (hw : Written (factProgram m) text) {st : St} (hr : Reachable st) (module : Str) :
    ∃ w st', Runs text module st (.ok (some w) st') ∧ st'.out = st.out ++ (intStr (factorial m : Nat) ++ c!"\n") := by
  let R := Conf.start.set 0 c!"fact" (.clo [c!"n"] factBody 0)
  have hset : ∀ n, n ≠ c!"fact" → (R.frames 0).vars n = (Conf.start.frames 0).vars n := fun n hn => by
    simp only [R, Conf.set, Conf.withFrame, if_pos trivial, if_neg hn]
  have hL : FactLib R := by
    refine ⟨Nat.one_pos, ?_, ?_, ?_, ?_, ?_, rfl⟩
    · rw [hset _ (by decide)]; exact start_vars (b := .if_) (s := true) (by decide)
    · rw [hset _ (by decide)]; exact start_vars (b := .lt) (s := false) (by decide)
    · rw [hset _ (by decide)]; exact start_vars (b := .mul) (s := false) (by decide)
    · rw [hset _ (by decide)]; exact start_vars (b := .sub) (s := false) (by decide)
    · simp [R, Conf.set, Conf.withFrame]
  obtain ⟨R', h1, h2, h3, h4⟩ := fact_apply m (f := 0) hL hm
  have e1 : Exec 0 (.list [.sym c!"defn", .sym c!"fact", .list [.sym c!"n"], factBody]) Conf.start (.clo [c!"n"] factBody 0) R :=
    .defn (ps := [c!"n"]) .list (value_start 0 (b := .defn) (s := true) (by decide) (by decide)) (by decide) (start_vars (b := .fn) (s := true) (by decide))
      (start_vars (b := .def_) (s := true) (by decide))
  have e2 : Exec 0 (.list [.sym c!"fact", .int m]) R (.int (factorial m : Nat)) R' :=
    .call .list ⟨rfl, .locally (by decide) hL.fact⟩ (.other (by simp) .int .nil) h1
  have hp := Prints.println (ShownAll.cons (Shown.int (i := (factorial m : Nat))) .nil)
  rw [intStr_shown] at hp
  have e3 : Exec 0 (.list [.sym c!"println", .list [.sym c!"fact", .int m]]) R (.str (intStr (factorial m : Nat))) (R'.write (intStr (factorial m : Nat) ++ c!"\n")) :=
    .call .list ⟨rfl, .locally (by decide) (by rw [hset _ (by decide)]; exact start_vars (b := .println) (s := false) (by decide))⟩ (.other (by simp) e2 .nil) (.prints hp)
  have hret : ((R'.write (intStr (factorial m : Nat) ++ c!"\n")).frames 0).ret = false := by
    show (R'.frames 0).ret = false
    rw [h4 0 Nat.one_pos]
    rfl
  have hm32 : IsInt32 (m : Nat) := by
    have := le_factorial m
    unfold IsInt32 at *
    omega
  obtain ⟨w, st', μ, g1, g2, g3⟩ := C55_core (xs := factProgram m)
    (factProgram_wf hm32) hw
    (by simp [factProgram, factBody, Sexp.Heads, Sexp.HeadsAll, Sexp.text, hidden]) hr module
    (.next ⟨_, _, .list⟩ e1 rfl (.next ⟨_, _, .list⟩ e3 hret .done))
  refine ⟨w, st', g1, ?_⟩
  rw [g3]
  show st.out ++ (R'.out ++ _) = _
  rw [h2]
  rfl

/-! ## A loop -/

/-- The program is at the head of its loop. -/
structure SumAt (R : Conf) (i t : Nat) : Prop where
  lt : (R.frames 0).vars c!"<" = some (.prim c!"<")
  add : (R.frames 0).vars c!"+" = some (.prim c!"+")
  do_ : (R.frames 0).vars c!"do" = some (.prim c!"do")
  setf : (R.frames 0).vars c!"setf" = some (.prim c!"setf")
  println : (R.frames 0).vars c!"println" = some (.prim c!"println")
  while_ : (R.frames 0).vars c!"while" = some (.prim c!"while")
  i : (R.frames 0).vars c!"i" = some (.int i)
  s : (R.frames 0).vars c!"s" = some (.int t)
  ret : (R.frames 0).ret = false
  out : R.out = []
  macros : R.macros = Conf.start.macros

theorem set_other {R : Conf} {n m : Str} {v : Val} (h : m ≠ n) : ((R.set 0 n v).frames 0).vars m = (R.frames 0).vars m := by
  simp only [Conf.set, Conf.withFrame, if_pos trivial, if_neg h]

theorem set_same {R : Conf} {n : Str} {v : Val} : ((R.set 0 n v).frames 0).vars n = some v := by
  simp [Conf.set, Conf.withFrame]

theorem SumAt.set_i {R : Conf} {i t : Nat} (h : SumAt R i t) (j : Nat) : SumAt (R.set 0 c!"i" (.int j)) j t := by
  constructor <;> first | exact set_same | (rw [set_other (by decide)]; first | exact h.lt | exact h.add | exact h.do_ | exact h.setf | exact h.println | exact h.while_ | exact h.s) | skip
  · exact h.ret
  · exact h.out
  · exact h.macros

theorem SumAt.set_s {R : Conf} {i t : Nat} (h : SumAt R i t) (j : Nat) : SumAt (R.set 0 c!"s" (.int j)) i j := by
  constructor <;> first | exact set_same | (rw [set_other (by decide)]; first | exact h.lt | exact h.add | exact h.do_ | exact h.setf | exact h.println | exact h.while_ | exact h.i) | skip
  · exact h.ret
  · exact h.out
  · exact h.macros

theorem le_sumTo (n : Nat) : n ≤ sumTo n := by cases n <;> simp only [sumTo] <;> omega

theorem sumTo_mono {n m : Nat} (h : n ≤ m) : sumTo n ≤ sumTo m := by
  induction h with
  | refl => exact Nat.le_refl _
  | step _ ih => simp only [sumTo]; omega

/-- `(do (setf i (+ i 1)) (setf s (+ s i)))` -/
def sumBody : Sexp :=
  .list [.sym c!"do", .list [.sym c!"setf", .sym c!"i", .list [.sym c!"+", .sym c!"i", .int 1]],
      .list [.sym c!"setf", .sym c!"s", .list [.sym c!"+", .sym c!"s", .sym c!"i"]]]

theorem sum_step {R : Conf} {i t : Nat} (h : SumAt R i t) (hi : IsInt32 (i + 1 : Nat)) (ht : IsInt32 (t + (i + 1) : Nat)) :
    ∃ v R', Exec 0 sumBody R v R' ∧ SumAt R' (i + 1) (t + (i + 1)) := by
  have g1 := h.set_i (i + 1)
  have g2 := g1.set_s (t + (i + 1))
  have hh {n : Str} {v : Val} {R : Conf} {i t : Nat} (hs : SumAt R i t) (hn : n ∉ hidden) (hx : (R.frames 0).vars n = some v) : Head R 0 n v :=
    ⟨congrFun hs.macros _, .locally hn hx⟩
  have hv {n : Str} {v : Val} {R : Conf} (hn : n ∉ hidden) (hx : (R.frames 0).vars n = some v) : Value R 0 n v := .locally hn hx
  have f1 : Folds (· + ·) (i : Int) [1] ((i + 1 : Nat) : Int) := by
    have : (i : Int) + 1 = (i + 1 : Nat) := by omega
    exact .cons (by rw [this]; exact hi) (by rw [this]; exact .nil)
  have f2 : Folds (· + ·) (t : Int) [((i + 1 : Nat) : Int)] ((t + (i + 1) : Nat) : Int) := by
    have : (t : Int) + (i + 1 : Nat) = (t + (i + 1) : Nat) := by omega
    exact .cons (by rw [this]; exact ht) (by rw [this]; exact .nil)
  have e1 : Exec 0 (.list [.sym c!"+", .sym c!"i", .int 1]) R (.int (i + 1 : Nat)) R :=
    .call .list (hh h (by decide) h.add) (.name (hv (by decide) h.i) (.other (by simp) .int .nil)) (.fn (.add (l := [1]) (by simp) f1))
  have e2 : Exec 0 (.list [.sym c!"+", .sym c!"s", .sym c!"i"]) (R.set 0 c!"i" (.int (i + 1 : Nat))) (.int (t + (i + 1) : Nat)) (R.set 0 c!"i" (.int (i + 1 : Nat))) :=
    .call .list (hh g1 (by decide) g1.add) (.name (hv (by decide) g1.s) (.name (hv (by decide) g1.i) .nil)) (.fn (.add (l := [((i + 1 : Nat) : Int)]) (by simp) f2))
  exact ⟨_, _, .block .list (hh h (by decide) h.do_) (by simp)
    (.next ⟨_, _, .list⟩ (.setf .list (hh h (by decide) h.setf) (by decide) (by simp) e1 (.here h.i)) g1.ret
      (.next ⟨_, _, .list⟩ (.setf .list (hh g1 (by decide) g1.setf) (by decide) (by simp) e2 (.here g1.s)) g2.ret .done)), g2⟩

theorem sum_loop {m : Nat} (hm : IsInt32 (sumTo m : Nat)) (k : Nat) : ∀ {R : Conf} {i : Nat} {r : Val}, SumAt R i (sumTo i) → i + k = m →
    ∃ v R', Loop 0 (.list [.sym c!"<", .sym c!"i", .int m]) sumBody r R v R' ∧ SumAt R' m (sumTo m) := by
  have hc : ∀ {R : Conf} {i : Nat}, SumAt R i (sumTo i) → Exec 0 (.list [.sym c!"<", .sym c!"i", .int m]) R (.bool (decide ((i : Int) < (m : Int)))) R :=
    fun h => .call .list ⟨congrFun h.macros _, .locally (by decide) h.lt⟩ (.name (.locally (by decide) h.i) (.other (by simp) .int .nil)) (.fn .lt)
  induction k with
  | zero =>
    intro R i r h hi
    obtain rfl : i = m := hi
    exact ⟨_, _, .stop (hc h) (by simp [truth]), h⟩
  | succ k ih =>
    intro R i r h hi
    have h1 : sumTo (i + 1) ≤ sumTo m := sumTo_mono (by omega)
    have h2 := le_sumTo (i + 1)
    obtain ⟨v, R1, e1, g1⟩ := sum_step h (by unfold IsInt32 at *; omega) (by simp only [sumTo] at h1; unfold IsInt32 at *; omega)
    obtain ⟨v2, R2, e2, g2⟩ := ih (r := v) g1 (by omega)
    refine ⟨v2, R2, .again (hc h) ?_ e1 g1.ret e2, g2⟩
    simp [truth]
    omega

/-- C56: the source text of a loop that adds the numbers from 1 to any number prints their sum, if it has 32 bits. -/
theorem C56_sum (m : Nat) (hm : IsInt32 (sumTo m : Nat)) {text : Str} (hw : Written (sumProgram m) text) {st : St} (hr : Reachable st) (module : Str) :
    ∃ w st', Runs text module st (.ok (some w) st') ∧ st'.out = st.out ++ (intStr (sumTo m : Nat) ++ c!"\n") := by
  let R := (Conf.start.set 0 c!"i" (.int 0)).set 0 c!"s" (.int 0)
  have hset : ∀ n, n ≠ c!"i" → n ≠ c!"s" → (R.frames 0).vars n = (Conf.start.frames 0).vars n := fun n hn hs => by
    rw [set_other hs, set_other hn]
  have h0 : SumAt R 0 (sumTo 0) := by
    refine ⟨?_, ?_, ?_, ?_, ?_, ?_, ?_, ?_, rfl, rfl, rfl⟩
    · rw [hset _ (by decide) (by decide)]; exact start_vars (b := .lt) (s := false) (by decide)
    · rw [hset _ (by decide) (by decide)]; exact start_vars (b := .add) (s := false) (by decide)
    · rw [hset _ (by decide) (by decide)]; exact start_vars (b := .do_) (s := true) (by decide)
    · rw [hset _ (by decide) (by decide)]; exact start_vars (b := .setf) (s := true) (by decide)
    · rw [hset _ (by decide) (by decide)]; exact start_vars (b := .println) (s := false) (by decide)
    · rw [hset _ (by decide) (by decide)]; exact start_vars (b := .while_) (s := true) (by decide)
    · rw [set_other (by decide)]; exact set_same
    · exact set_same
  obtain ⟨v, R1, e3, g⟩ := sum_loop hm m (r := .undef) h0 (Nat.zero_add m)
  have e1 : Exec 0 (.list [.sym c!"def", .sym c!"i", .int 0]) Conf.start (.int 0) (Conf.start.set 0 c!"i" (.int 0)) :=
    .def_ .list (value_start 0 (b := .def_) (s := true) (by decide) (by decide)) (by decide) .int
  have e2 : Exec 0 (.list [.sym c!"def", .sym c!"s", .int 0]) (Conf.start.set 0 c!"i" (.int 0)) (.int 0) R :=
    .def_ .list ⟨rfl, .locally (by decide) (by rw [set_other (by decide)]; exact start_vars (b := .def_) (s := true) (by decide))⟩ (by decide) .int
  have hp := Prints.println (ShownAll.cons (Shown.int (i := (sumTo m : Nat))) .nil)
  rw [intStr_shown] at hp
  have e4 : Exec 0 (.list [.sym c!"println", .sym c!"s"]) R1 (.str (intStr (sumTo m : Nat))) (R1.write (intStr (sumTo m : Nat) ++ c!"\n")) :=
    .call .list ⟨congrFun g.macros _, .locally (by decide) g.println⟩ (.name (.locally (by decide) g.s) .nil) (.prints hp)
  have hm32 : IsInt32 (m : Nat) := by
    have := le_sumTo m
    unfold IsInt32 at *
    omega
  obtain ⟨w, st', μ, g1, g2, g3⟩ := C55_core (xs := sumProgram m)
    (sumProgram_wf hm32) hw
    (by simp [sumProgram, Sexp.Heads, Sexp.HeadsAll, Sexp.text, hidden]) hr module
    (.next ⟨_, _, .list⟩ e1 rfl (.next ⟨_, _, .list⟩ e2 rfl (.next ⟨_, _, .list⟩ (.while_ .list ⟨rfl, .locally (by decide) h0.while_⟩ e3) g.ret
      (.next ⟨_, _, .list⟩ e4 g.ret .done))))
  refine ⟨w, st', g1, ?_⟩
  rw [g3]
  show st.out ++ (R1.out ++ _) = _
  rw [g.out]
  rfl

end

/-! ## The hypotheses are met -/

section
attribute [local instance] demoWorld

/-- `(fact 12)` in the notation that `Sexp.source` writes: 479001600 is printed. -/
example : ∃ w st', Runs (Sexp.sources (factProgram 12)) c!"demo" ({} : St) (.ok (some w) st') ∧ st'.out = c!"479001600\n" := by
  obtain ⟨w, st', h1, h2⟩ := C56_factorial 12 (by decide) (written_sources (factProgram_wf (by decide))) (st := {})
    (.init rfl (fun _ => rfl) (fun _ => rfl) (fun _ => rfl) (fun _ => rfl)) c!"demo"
  exact ⟨w, st', h1, h2.trans (by decide +kernel)⟩

example : Sexp.sources (factProgram 12) = c!"(defn fact (n) (if (< n 2) 1 (* n (fact (- n 1))))) (println (fact 12))" := by decide +kernel

/-- The loop to 1000: 500500 is printed. -/
example : ∃ w st', Runs (Sexp.sources (sumProgram 1000)) c!"demo" ({} : St) (.ok (some w) st') ∧ st'.out = c!"500500\n" := by
  obtain ⟨w, st', h1, h2⟩ := C56_sum 1000 (by decide +kernel) (written_sources (sumProgram_wf (by decide))) (st := {})
    (.init rfl (fun _ => rfl) (fun _ => rfl) (fun _ => rfl) (fun _ => rfl)) c!"demo"
  exact ⟨w, st', h1, h2.trans (by decide +kernel)⟩

end

end Fuel
