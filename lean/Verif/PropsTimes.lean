import Verif.SpecTimes
import Verif.PropsLib
import Verif.PropsMacro
/-!
# The macros of the standard library (C79)
-/

set_option linter.unusedSectionVars false
set_option linter.unusedSimpArgs false

namespace Fuel
open Spec Spec.Core

section
variable [World]

/-! ## Other variables keep their meaning -/

theorem set_vars_ne {R : Conf} {g : Nat} {c n : Str} {x : Val} (h : n ≠ c) (i : Nat) : ((R.set g c x).frames i).vars n = (R.frames i).vars n := by
  by_cases hi : i = g
  · subst hi
    simp [Conf.set, Conf.withFrame, h]
  · simp [Conf.set, Conf.withFrame, hi]

theorem set_parent {R : Conf} {g : Nat} {c : Str} {x : Val} (i : Nat) : ((R.set g c x).frames i).parent = (R.frames i).parent := by
  by_cases hi : i = g
  · subst hi
    simp [Conf.set, Conf.withFrame]
  · simp [Conf.set, Conf.withFrame, hi]

theorem set_ret {R : Conf} {g : Nat} {c : Str} {x : Val} (i : Nat) : ((R.set g c x).frames i).ret = (R.frames i).ret := by
  by_cases hi : i = g
  · subst hi
    simp [Conf.set, Conf.withFrame]
  · simp [Conf.set, Conf.withFrame, hi]

theorem innermost_set {R : Conf} {g : Nat} {c n : Str} {x : Val} (h : n ≠ c) {f k : Nat} (hi : Innermost R n f k) : Innermost (R.set g c x) n f k := by
  induction hi with
  | here h1 => exact .here (by rw [set_vars_ne h]; exact h1)
  | up h1 h2 _ ih => exact .up (by rw [set_vars_ne h]; exact h1) (by rw [set_parent]; exact h2) ih

theorem innermost_unset {R : Conf} {g : Nat} {c n : Str} {x : Val} (h : n ≠ c) {f k : Nat} (hi : Innermost (R.set g c x) n f k) : Innermost R n f k := by
  induction hi with
  | here h1 => rw [set_vars_ne h] at h1; exact .here h1
  | up h1 h2 _ ih => rw [set_vars_ne h] at h1; rw [set_parent] at h2; exact .up h1 h2 ih

theorem value_set {R : Conf} {g : Nat} {c n : Str} {x : Val} (h : n ≠ c) {f : Nat} {v : Val} (hv : Value R f n v) : Value (R.set g c x) f n v := by
  cases hv with
  | locally h1 h2 => exact .locally h1 (by rw [set_vars_ne h]; exact h2)
  | globally h1 h2 h3 => exact .globally h1 (by rw [set_vars_ne h]; exact h2) (by rw [set_vars_ne h]; exact h3)
  | outer h1 h2 h3 h4 h5 => exact .outer h1 (by rw [set_vars_ne h]; exact h2) (by rw [set_vars_ne h]; exact h3) (innermost_set h h4) (by rw [set_vars_ne h]; exact h5)
  | module h1 h2 h3 h4 h5 h6 =>
    exact .module h1 (by rw [set_vars_ne h]; exact h2) (fun k hk => h3 k (innermost_unset h hk)) h4 (fun y hy => by rw [set_vars_ne h]; exact h5 y hy)
      (by rw [set_vars_ne h]; exact h6)

theorem innermost_frames {R R' : Conf} (h : R'.frames = R.frames) {n : Str} {f k : Nat} (hi : Innermost R n f k) : Innermost R' n f k := by
  induction hi with
  | here h1 => exact .here (by rw [h]; exact h1)
  | up h1 h2 _ ih => exact .up (by rw [h]; exact h1) (by rw [h]; exact h2) ih

theorem value_frames {R R' : Conf} (h : R'.frames = R.frames) (hm : R'.modules = R.modules) {n : Str} {f : Nat} {v : Val} (hv : Value R f n v) : Value R' f n v := by
  cases hv with
  | locally h1 h2 => exact .locally h1 (by rw [h]; exact h2)
  | globally h1 h2 h3 => exact .globally h1 (by rw [h]; exact h2) (by rw [h]; exact h3)
  | outer h1 h2 h3 h4 h5 => exact .outer h1 (by rw [h]; exact h2) (by rw [h]; exact h3) (innermost_frames h h4) (by rw [h]; exact h5)
  | module h1 h2 h3 h4 h5 h6 =>
    exact .module h1 (by rw [h]; exact h2) (fun k hk => h3 k (innermost_frames h.symm hk)) (hm.trans h4) (fun y hy => by rw [h]; exact h5 y hy) (by rw [h]; exact h6)

theorem head_write {R : Conf} {f : Nat} {n : Str} {v : Val} (h : Head R f n v) (t : Str) : Head (R.write t) f n v := ⟨h.1, value_frames (R := R) (R' := R.write t) rfl rfl h.2⟩

theorem usual_write {names : List Str} {R : Conf} {f : Nat} (h : Usual names R f) (t : Str) : Usual names (R.write t) f :=
  ⟨fun n hn => head_write (h.heads n hn) t, h.macros⟩

theorem usual_set {names : List Str} {R : Conf} {f : Nat} (h : Usual names R f) {g : Nat} {c : Str} (hc : c ∉ names) (x : Val) : Usual names (R.set g c x) f :=
  ⟨fun n hn => ⟨(h.heads n hn).1, value_set (by rintro rfl; exact hc hn) (h.heads n hn).2⟩, h.macros⟩

/-! ## `dotimes` -/

mutual
theorem quoted_unique : ∀ {x : Sexp} {v w : Val}, Quoted x v → Quoted x w → v = w
  | _, _, _, .int, .int => rfl
  | _, _, _, .str, .str => rfl
  | _, _, _, .sym, .sym => rfl
  | _, _, _, .bool, .bool => rfl
  | _, _, _, .float h1, .float h2 => by rw [h1] at h2; cases h2; rfl
  | _, _, _, .pre h1, .pre h2 => by rw [quoted_unique h1 h2]
  | _, _, _, .list h1, .list h2 => by rw [quoteds_unique h1 h2]
theorem quoteds_unique : ∀ {l : List Sexp} {v w : List Val}, Quoteds l v → Quoteds l w → v = w
  | _, _, _, .nil, .nil => rfl
  | _, _, _, .cons h1 h2, .cons h3 h4 => by rw [quoted_unique h1 h3, quoteds_unique h2 h4]
end

mutual
theorem subst_none {p : Str} {a : Sexp} : ∀ {x : Sexp}, ¬ Uses p x → subst p a x = x
  | .sym n, h => if_neg h
  | .pre k x, h => by rw [subst, subst_none (fun hx => h (.inr hx))]
  | .list l, h => by rw [subst, substs_none h]
  | .int _, _ => rfl
  | .str _, _ => rfl
  | .bool _, _ => rfl
  | .float _, _ => rfl
  | .nil, _ => rfl
theorem substs_none {p : Str} {a : Sexp} : ∀ {l : List Sexp}, ¬ UsesAny p l → substs p a l = l
  | [], _ => rfl
  | x :: l, h => by rw [substs, subst_none (fun hx => h (.inl hx)), substs_none (fun hx => h (.inr hx))]
end

theorem quoted_info {c : Str} {n : Sexp} {q : Val} (hq : Quoted n q) : Quoted (.list [.sym c, n]) (.list [.sym c, q]) := .list (.cons .sym (.cons hq .nil))

theorem exec_counter {R : Conf} {f : Nat} (hS : Usual dotimesNames R f) {c : Str} {n : Sexp} {q : Val} (hq : Quoted n q) :
    Exec f (counterCode (.list [.sym c, n])) R (.sym c) R :=
  .call .list (hS.heads _ (by decide)) (.other (by simp) (.quote .pre (hS.heads _ (by decide)) (quoted_info hq)) .nil) (.fn (.first (by simp)))

theorem limit_eval {R : Conf} {f : Nat} {n : Sexp} {q : Val} (hq : Quoted n q) {k : Int} (hl : Limit R f n k) : Apply f (.prim c!"eval") [q] R (.int k) R := by
  cases hl with
  | int => cases hq; exact .eval (.other (by simp) trivial)
  | var h => cases hq; exact .eval (.name h)
  | call h1 h2 h3 h4 =>
    cases hq with
    | list hs =>
      cases hs with
      | cons a b =>
        cases a
        obtain rfl := quoteds_unique h2 b
        exact .evalCall (.name h1) h3 h4

theorem exec_cond {R : Conf} {f : Nat} (hS : Usual dotimesNames R f) {c : Str} (hc : c ∉ hidden) {n : Sexp} {q : Val} (hq : Quoted n q) {k i : Int} (hl : Limit R f n k)
    (hi : (R.frames f).vars c = some (.int i)) : Exec f (dotimesCond (.list [.sym c, n])) R (.bool (decide (i < k))) R := by
  have hN : Exec f (ap c!"nth" [.int 1, .pre .quote (.list [.sym c, n])]) R q R :=
    .call .list (hS.heads _ (by decide)) (.other (by simp) .int (.other (by simp) (.quote .pre (hS.heads _ (by decide)) (quoted_info hq)) .nil))
      (.fn (.nth (i := 1) (by decide) rfl))
  have hL : Exec f (ap c!"eval" [ap c!"nth" [.int 1, .pre .quote (.list [.sym c, n])]]) R (.int k) R :=
    .call .list (hS.heads _ (by decide)) (.other (by simp [ap]) hN .nil) (limit_eval hq hl)
  have hA : Exec f (ap c!"list" [.sym c!"<", counterCode (.list [.sym c, n]), ap c!"eval" [ap c!"nth" [.int 1, .pre .quote (.list [.sym c, n])]]]) R
      (.list [.prim c!"<", .sym c, .int k]) R :=
    .call .list (hS.heads _ (by decide)) (.name (hS.heads c!"<" (by decide)).2 (.other (by simp [counterCode, ap]) (exec_counter hS hq) (.other (by simp [ap]) hL .nil))) (.fn .list)
  exact .call .list (hS.heads _ (by decide)) (.other (by simp [ap]) hA .nil)
    (.evalCall (.fn trivial hS.macros) (.cons (.name (.locally hc hi)) (.cons (.other (by simp) trivial) .nil)) (.fn .lt))

theorem exec_incr {R : Conf} {f : Nat} (hS : Usual dotimesNames R f) {c : Str} (hc : c ∉ hidden) (h0 : c ≠ []) {n : Sexp} {q : Val} (hq : Quoted n q) {i : Int}
    (hi : (R.frames f).vars c = some (.int i)) (hz : IsInt32 (i + 1)) : Exec f (dotimesIncr (.list [.sym c, n])) R (.int (i + 1)) (R.set f c (.int (i + 1))) := by
  have hA : Exec f (ap c!"list" [.sym c!"+", counterCode (.list [.sym c, n]), .int 1]) R (.list [.prim c!"+", .sym c, .int 1]) R :=
    .call .list (hS.heads _ (by decide)) (.name (hS.heads c!"+" (by decide)).2 (.other (by simp [counterCode, ap]) (exec_counter hS hq) (.other (by simp) .int .nil))) (.fn .list)
  have hE : Exec f (ap c!"eval" [ap c!"list" [.sym c!"+", counterCode (.list [.sym c, n]), .int 1]]) R (.int (i + 1)) R :=
    .call .list (hS.heads _ (by decide)) (.other (by simp [ap]) hA .nil)
      (.evalCall (.fn trivial hS.macros) (.cons (.name (.locally hc hi)) (.cons (.other (by simp) trivial) .nil)) (.fn (.add (a := i) (l := [1]) (by simp) (.cons hz .nil))))
  exact .setfAt .list (hS.heads _ (by decide)) .list (hS.heads _ (by decide)) ⟨_, _, .list⟩ (exec_counter hS hq) .sym hc h0 hE (.here hi)

theorem repeats_loop {f : Nat} {c : Str} (hc : c ∉ hidden) (h0 : c ≠ []) (hn : c ∉ dotimesNames) {n s : Sexp} {q : Val} (hq : Quoted n q) (hs : ∃ h args, Form s h args)
    {R R' : Conf} (h : Repeats f c n s R R') : (R.frames f).ret = false → Usual dotimesNames R f → ∀ r,
      ∃ v, Loop f (dotimesCond (.list [.sym c, n])) (ap c!"do" [ap c!"eval" [.pre .quote s], dotimesIncr (.list [.sym c, n])]) r R v R' ∧
        (R'.frames f).ret = false ∧ Usual dotimesNames R' f ∧ ∃ i, (R'.frames f).vars c = some (.int i) := by
  induction h with
  | @done R i k h1 h2 h3 =>
    intro hr hS r
    have := exec_cond hS hc hq h2 h1
    rw [decide_eq_false (by omega)] at this
    exact ⟨r, .stop this rfl, hr, hS, i, h1⟩
  | @step R i k v R1 j R2 h1 h2 h3 h4 h5 h6 h7 h8 _ ih =>
    intro hr hS r
    have hcond := exec_cond hS hc hq h2 h1
    rw [decide_eq_true h3] at hcond
    have hr2 : ((R1.set f c (.int (j + 1))).frames f).ret = false := by rw [set_ret]; exact h5
    obtain ⟨w, g1, g2⟩ := ih hr2 (usual_set h6 hn _) (.int (j + 1))
    refine ⟨w, .again hcond rfl ?_ hr2 g1, g2⟩
    exact .block .list (hS.heads _ (by decide)) (by simp)
      (.next ⟨_, _, .list⟩ (.evalCode .list (hS.heads _ (by decide)) .pre (hS.heads _ (by decide)) hs h4) h5
        (.next ⟨_, _, .list⟩ (exec_incr h6 hc h0 hq h7 h8) hr2 .done))

theorem uses_dotimes {x : Sexp} {s : Sexp} (hx : ¬ Uses c!"statements" x) :
    instantiate dotimesParams [x, s] dotimesBody = dotimesCode x s := by
  have hsub := subst_none (a := s) hx
  simp [dotimesParams, instantiate, dotimesBody, dotimesCode, counterCode, dotimesCond, dotimesIncr, ap, substs, subst, hsub]

/-- C79: the macro `dotimes` of the standard library: `(dotimes (c n) s)` executes the statement `s` while the new variable `c`, which starts with 0
and is increased after every execution, is less than `n`, which is evaluated before every execution.  Afterwards the variable does not exist any more. -/
theorem C79_dotimes {f : Nat} {R R' : Conf} {c : Str} {n s : Sexp} {q : Val} (hm : R.macros c!"dotimes" = some (dotimesParams, dotimesBody))
    (hM : MacroCall R f dotimesParams [.list [.sym c, n], s] dotimesBody) (hu : c ≠ c!"statements" ∧ ¬ Uses c!"statements" n)
    (hS : Usual dotimesNames R f) (hr : (R.frames f).ret = false) (hc : c ∉ hidden) (h0 : c ≠ []) (hn : c ∉ dotimesNames) (hq : Quoted n q)
    (hs : ∃ h args, Form s h args) (h : Repeats f c n s (R.set f c (.int 0)) R') :
    Exec f (ap c!"dotimes" [.list [.sym c, n], s]) R (.bool true) (R'.unset f c) := by
  refine .macro_ .list hm hM ?_
  rw [uses_dotimes (by simpa [Uses, UsesAny] using hu)]
  have hr1 : ((R.set f c (.int 0)).frames f).ret = false := by rw [set_ret]; exact hr
  obtain ⟨v, g1, g2, g3, i, g4⟩ := repeats_loop hc h0 hn hq hs h hr1 (usual_set hS hn _) .undef
  have hD : Exec f (ap c!"delvar" [counterCode (.list [.sym c, n])]) R' (.bool true) (R'.unset f c) := by
    have := Apply.delvar (f := f) (R := R') (Named.sym (s := c)) hc
    rw [g4] at this
    exact .call .list (g3.heads _ (by decide)) (.other (by simp [counterCode, ap]) (exec_counter g3 hq) .nil) this
  have hU : ((R'.unset f c).frames f).ret = false := by simpa [Conf.unset, Conf.withFrame] using g2
  exact .block .list (hS.heads _ (by decide)) (by simp)
    (.next ⟨_, _, .list⟩ (.defAt .list (hS.heads _ (by decide)) ⟨_, _, .list⟩ (exec_counter hS hq) .sym hc .int) hr1
      (.next ⟨_, _, .list⟩ (.while_ .list ((usual_set hS hn _).heads _ (by decide)) g1) g2 (.next ⟨_, _, .list⟩ hD hU .done)))

theorem counts_repeats {f : Nat} {c : Str} {s : Sexp} {k : Int} (hk : IsInt32 k) {i : Int} {R R' : Conf} (h : Counts f c s k i R R') (h0 : 0 ≤ i) :
    Repeats f c (.int k) s (R.set f c (.int i)) R' := by
  have self (R : Conf) (i : Int) : ((R.set f c (.int i)).frames f).vars c = some (.int i) := by simp [Conf.set, Conf.withFrame]
  induction h with
  | done => exact .done (self _ _) .int (Int.le_refl _)
  | step h1 h2 h3 h4 h5 _ ih => exact .step (self _ _) .int h1 h2 h3 h4 h5 ⟨by omega, by have := hk.2; omega⟩ (ih (by omega))

/-- C79: `(dotimes (c k) s)` with a number `k` executes `s` exactly `k` times, with 0, 1, ..., `k - 1` as values of the variable `c`, if the statement
does not change this variable. -/
theorem C79_dotimes_counts {f : Nat} {R R' : Conf} {c : Str} {s : Sexp} {k : Int} (hm : R.macros c!"dotimes" = some (dotimesParams, dotimesBody))
    (hM : MacroCall R f dotimesParams [.list [.sym c, .int k], s] dotimesBody) (hu : c ≠ c!"statements")
    (hS : Usual dotimesNames R f) (hr : (R.frames f).ret = false) (hc : c ∉ hidden) (h0 : c ≠ []) (hn : c ∉ dotimesNames) (hk : IsInt32 k)
    (hs : ∃ h args, Form s h args) (h : Counts f c s k 0 R R') :
    Exec f (ap c!"dotimes" [.list [.sym c, .int k], s]) R (.bool true) (R'.unset f c) :=
  C79_dotimes hm hM ⟨hu, by simp [Uses]⟩ hS hr hc h0 hn .int hs (counts_repeats hk h (Int.le_refl _))

/-- C79: the macro `setq` of the standard library: `(setq n x)` does the same as `(setf n x)`. -/
theorem C79_setq {f : Nat} {R R' : Conf} {x : Sexp} {n : Str} {v : Val} (hm : R.macros c!"setq" = some (setqParams, setqBody))
    (hM : MacroCall R f setqParams [.sym n, x] setqBody) (hn : n ≠ c!"value") (h : Exec f (ap c!"setf" [.sym n, x]) R v R') :
    Exec f (ap c!"setq" [.sym n, x]) R v R' := by
  refine .macro_ .list hm hM ?_
  simpa [setqParams, setqBody, instantiate, substs, subst, hn, ap] using h

/-! ## A script -/

/-- `(dotimes (c k) (println c))` -/
def timesCall (c : Str) (k : Nat) : Sexp := ap c!"dotimes" [.list [.sym c, .int k], ap c!"println" [.sym c]]

/-- The definition of `dotimes` and the call. -/
def timesScript (c : Str) (k : Nat) : List Sexp :=
  [ap c!"define-macro-eval" [.sym c!"dotimes", .list (dotimesParams.map .sym), .list dotimesBody], timesCall c k]

theorem counts_println {c : Str} (hc : c ∉ hidden) (hn : c ∉ dotimesNames) (hp : c ≠ c!"println") {k : Nat} :
    ∀ (m i : Nat) {R : Conf}, i + m = k → Usual dotimesNames R 0 → Head R 0 c!"println" (.prim c!"println") → (R.frames 0).ret = false →
      ∃ R', Counts 0 c (ap c!"println" [.sym c]) k i R R' ∧ R'.out = R.out ++ ((List.range' i m).map fun (j : Nat) => intStr j ++ c!"\n").flatten ∧
        (R'.frames 0).ret = false := by
  intro m
  induction m with
  | zero =>
    intro i R hi hS hP hr
    obtain rfl : i = k := by omega
    exact ⟨_, .done, by simp [Conf.set, Conf.withFrame], by rw [set_ret]; exact hr⟩
  | succ m ih =>
    intro i R hi hS hP hr
    have hP1 : Head (R.set 0 c (.int i)) 0 c!"println" (.prim c!"println") := ⟨hP.1, value_set hp.symm hP.2⟩
    have hS1 := usual_set (g := 0) hS hn (.int i)
    have hr1 : ((R.set 0 c (.int i)).frames 0).ret = false := by rw [set_ret]; exact hr
    have hpr := Prints.println (ShownAll.cons (Shown.int (q := false) (i := i)) .nil)
    rw [joined_one] at hpr
    have hE : Exec 0 (ap c!"println" [.sym c]) (R.set 0 c (.int i)) (.str (intStr i)) ((R.set 0 c (.int i)).write (intStr i ++ c!"\n")) :=
      .call .list hP1 (.name (.locally hc set_same) .nil) (.prints hpr)
    obtain ⟨R', h1, h2, h3⟩ := ih (i + 1) (R := (R.set 0 c (.int i)).write (intStr i ++ c!"\n")) (by omega) (usual_write hS1 _) (head_write hP1 _) hr1
    refine ⟨R', .step (by omega) hE hr1 (usual_write hS1 _) set_same h1, ?_, h3⟩
    rw [h2, List.range'_succ]
    simp [Conf.write, Conf.set, Conf.withFrame]

set_option maxRecDepth 20000 in
theorem expand_name : c!"define-macro-expand" ∈ defaultTable.map Entry.name := by decide +kernel

/-- C79: a script that contains the library definition of `dotimes` and calls `(dotimes (c k) (println c))`, in any layout and with any comments,
writes the numbers from 0 to `k - 1`, each in a line of its own. -/
theorem C79_dotimes_script {c : Str} (hc : c ∉ hidden) (hsy : SymbolName c) (hd : c ∉ defaultTable.map Entry.name) (hu : c ≠ c!"statements") {k : Nat} (hk : IsInt32 k)
    {text : Str} (hw : Written (timesScript c k) text) {st : St} (hr : Reachable st) (module : Str) :
    ∃ w st', Runs text module st (.ok (some w) st') ∧ IsBool w true ∧ st'.out = st.out ++ ((List.range k).map fun (j : Nat) => intStr j ++ c!"\n").flatten := by
  have hcore : ∀ n ∈ coreNames, n ∈ defaultTable.map Entry.name := fun n hn => by
    obtain ⟨t, ht, rfl⟩ := List.mem_map.1 hn
    exact core_names t ht
  have hsub : ∀ n ∈ dotimesNames, n ∈ coreNames ∧ n ∉ hidden := by decide
  have hn : c ∉ dotimesNames := fun h => hd (hcore _ (hsub c h).1)
  have hp : c ≠ c!"println" := fun h => hd (hcore _ (by rw [h]; decide))
  have h0 : c ≠ [] := hsy.1
  let R := Conf.start.defMacro c!"dotimes" dotimesParams dotimesBody
  have hdef : R.macros c!"dotimes" = some (dotimesParams, dotimesBody) := by simp [R, Conf.defMacro]
  have hmac : ∀ n, n ≠ c!"dotimes" → R.macros n = none := fun n h => if_neg h
  have hhead : ∀ n ∈ coreNames, n ∉ hidden → n ≠ c!"dotimes" → Head R 0 n (.prim n) := fun n h1 h2 h3 =>
    ⟨hmac n h3, .locally h2 (if_pos (hcore n h1))⟩
  have hS : Usual dotimesNames R 0 := ⟨fun n h => hhead n (hsub n h).1 (hsub n h).2 (by rintro rfl; revert h; decide), fun t => hmac _ (by simp)⟩
  have hP : Head R 0 c!"println" (.prim c!"println") := hhead _ (by decide) (by decide) (by decide)
  obtain ⟨R', h1, h2, h3⟩ := counts_println hc hn hp (k := k) k 0 (R := R) (by omega) hS hP rfl
  have hvar : (R.frames 0).vars c = none := if_neg hd
  have hM : MacroCall R 0 dotimesParams [.list [.sym c, .int k], ap c!"println" [.sym c]] dotimesBody := by
    refine ⟨Nat.le_refl 2, by simp [dotimesParams, dotimesBody, dotimesCode, counterCode, dotimesCond, dotimesIncr, ap, Cleans, Clean, Prefix.word],
      by simp [dotimesBody, dotimesCode, counterCode, dotimesCond, dotimesIncr, ap, Cleans, Clean, UsesAny, Uses, Prefix.word], ?_⟩
    refine ⟨⟨⟨hc, by simp [Sexp.text, hvar]⟩, trivial, trivial, trivial⟩, ⟨⟨by simp [Sexp.text, hidden], fun v hv => ?_⟩, trivial, trivial, trivial⟩, trivial⟩
    have : (R.frames 0).vars c!"println" = some (.prim c!"println") := start_vars (b := .println) (s := false) (by decide)
    have hv' : (R.frames 0).vars c!"println" = some v := hv
    rw [this] at hv'
    cases hv'
    exact show c!"println" ≠ c!"define-macro-expand" by decide
  have hE := C79_dotimes_counts (R := R) hdef hM hu hS rfl hc h0 hn hk ⟨_, _, .list⟩ h1
  have hret : ((R'.unset 0 c).frames 0).ret = false := by simpa [Conf.unset, Conf.withFrame] using h3
  have hwf : Sexp.WFs (timesScript c k) := by
    have w1 : Sexp.WF (ap c!"define-macro-eval" [.sym c!"dotimes", .list (dotimesParams.map .sym), .list dotimesBody]) := by
      simp [dotimesParams, dotimesBody, dotimesCode, counterCode, dotimesCond, dotimesIncr, ap, Sexp.WF, Sexp.WFs, Sexp.Quotable, SymbolName, Spec.Plain, White, NumberLike, dropSign, Digit,
        reserved, IsInt32]
      rintro _ _ _ rfl rfl rfl h
      rcases h with h | h <;> simp at h
    have w2 : SymbolName c!"println" ∧ SymbolName c!"dotimes" := by
      simp [SymbolName, Spec.Plain, White, NumberLike, dropSign, Digit, reserved]
    exact ⟨w1, ⟨w2.2, ⟨hsy, hk, trivial⟩, ⟨w2.1, hsy, trivial⟩, trivial⟩, trivial⟩
  have hh : Sexp.HeadsAll (fun n => n ∉ hidden ∧ n ≠ c!"define-macro-expand") (timesScript c k) := by
    have w1 : Sexp.Heads (fun n => n ∉ hidden ∧ n ≠ c!"define-macro-expand") (ap c!"define-macro-eval" [.sym c!"dotimes", .list (dotimesParams.map .sym), .list dotimesBody]) := by
      simp [dotimesParams, dotimesBody, dotimesCode, counterCode, dotimesCond, dotimesIncr, ap, Sexp.Heads, Sexp.HeadsAll, Sexp.text, hidden, Prefix.word]
    exact ⟨w1, ⟨by simp [Sexp.text, hidden], trivial, ⟨⟨hc, fun h => hd ((show c = c!"define-macro-expand" from h) ▸ expand_name)⟩, trivial, trivial, trivial⟩, ⟨by simp [Sexp.text, hidden], trivial, trivial, trivial⟩, trivial⟩, trivial⟩
  obtain ⟨w, st', μ, g1, g2, g3⟩ := C55_core hwf hw hh hr module
    (.macro_ .list (value_start 0 (b := .defineMacroEval) (s := true) (by decide) (by decide)) (by simp) (by decide) rfl (.next ⟨_, _, .list⟩ hE hret .done))
  refine ⟨w, st', g1, isVal_bool_inv g2, ?_⟩
  rw [g3]
  show st.out ++ R'.out = _
  rw [h2, ← List.range_eq_range']
  rfl

end

/-! ## The hypotheses are met -/

section
attribute [local instance] demoWorld

example : ∃ w st', Runs (Sexp.sources (timesScript c!"n" 3)) c!"demo" ({} : St) (.ok (some w) st') ∧ IsBool w true ∧ st'.out = c!"0\n1\n2\n" := by
  have hsy : SymbolName c!"n" := by simp [SymbolName, Spec.Plain, White, NumberLike, dropSign, Digit, reserved]
  have hwf : Sexp.WFs (timesScript c!"n" 3) := by
    simp [timesScript, timesCall, dotimesParams, dotimesBody, dotimesCode, counterCode, dotimesCond, dotimesIncr, ap, Sexp.WF, Sexp.WFs, Sexp.Quotable, SymbolName, Spec.Plain, White, NumberLike,
      dropSign, Digit, reserved, IsInt32]
    rintro _ _ _ rfl rfl rfl h
    rcases h with h | h <;> simp at h
  obtain ⟨w, st', h1, h2, h3⟩ := C79_dotimes_script (k := 3) (by decide) hsy (by decide +kernel) (by decide) (by decide) (written_sources hwf) (st := {})
    (.init rfl (fun _ => rfl) (fun _ => rfl) (fun _ => rfl) (fun _ => rfl)) c!"demo"
  exact ⟨w, st', h1, h2, h3⟩

/-- The text of the definition. -/
def dotimesText : Str := Sexp.source (ap c!"define-macro-eval" [.sym c!"dotimes", .list (dotimesParams.map .sym), .list dotimesBody])

example : dotimesText = c!"(define-macro-eval dotimes (counterinfo statements) (do (def (first 'counterinfo) 0) (while (eval (list < (first 'counterinfo) (eval (nth 1 'counterinfo)))) (do (eval 'statements) (setf (rval (first 'counterinfo)) (eval (list + (first 'counterinfo) 1))))) (delvar (first 'counterinfo))))" := by
  decide +kernel

/-- The limit can be a variable, the loops can be nested and inside of functions; the variable does not exist afterwards. -/
example : demoScripts [dotimesText ++ c!"(defn f (n) (dotimes (i n) (dotimes (j 2) (println i j)))) (f 2) (println i)"] = c!"0 0\n0 1\n1 0\n1 1\ni\n" := by
  decide +kernel

/-- The message of the exception with which a script ends. -/
def demoMessage (code : Str) : Str :=
  match demoFail code with
  | some (.exn (.lisp _ m _ _ _ _)) => m
  | _ => []

/-- C79: if the variable exists already in the current scope (also as the parameter of the function), the expansion of the macro fails, because it
takes the list `(i 3)` for a call of `i`. -/
theorem C79_existing_wrong : demoMessage (dotimesText ++ c!"(defn f (i) (dotimes (i 3) (println i))) (f 5)") = c!"Invalid cast for function, value=5 not found" := by decide +kernel

end

end Fuel
