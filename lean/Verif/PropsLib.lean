import Verif.LemLib
/-!
# The functions of the standard library (Library/fuellib.fuel)
-/

set_option linter.unusedSectionVars false
set_option linter.unusedSimpArgs false

namespace Fuel

open Spec Spec.Core

section
variable [World]

/-! ## second, length, strlen -/

/-- C75: `second` gives the second element of a list or a string. -/
theorem C75_second {g f : Nat} {R : Conf} (hS : Standard R [c!"first", c!"cdr"]) {w x y : Val} {l : List Val} (hw : Elements w (x :: y :: l)) :
    ∃ R', Apply f (.clo [c!"l"] secondBody g) [w] R y R' ∧ Kept R R' := by
  have hI := In.enter g R (params_one c!"l" w)
  have hr : ∃ u, Fn c!"cdr" [w] u ∧ Fn c!"first" [u] y := by
    generalize hl : x :: y :: l = l' at hw
    cases hw with
    | list => subst hl; exact ⟨_, .rest (by simp), .first (by simp)⟩
    | @str s =>
      match s with
      | [] => simp at hl
      | [_] => simp at hl
      | a :: b :: s =>
        simp at hl
        obtain ⟨rfl, rfl, rfl⟩ := hl
        exact ⟨_, .restStr (by simp), .firstStr (by simp)⟩
  obtain ⟨u, h1, h2⟩ := hr
  exact ⟨_, .clo (by decide) (by decide) (.call .list (hI.head hS (by decide) rfl (by decide))
    (.other (by simp [ap]) (.call .list (hI.head hS (by decide) rfl (by decide)) (.name (hI.var rfl (by decide)) .nil) (.fn h1)) .nil) (.fn h2)), hI.kept⟩

/-- C75: `length` and `strlen` give the number of elements of a list and of characters of a string. -/
theorem C75_length {g f : Nat} {R : Conf} (hS : Standard R [c!"len"]) {w : Val} {l : List Val} (hw : Elements w l) (hz : IsInt32 l.length) :
    (∃ R', Apply f (.clo [c!"l"] lengthBody g) [w] R (.int l.length) R' ∧ Kept R R') ∧
    (∃ R', Apply f (.clo [c!"s"] strlenBody g) [w] R (.int l.length) R' ∧ Kept R R') := by
  have h1 := In.enter g R (params_one c!"l" w)
  have h2 := In.enter g R (params_one c!"s" w)
  exact ⟨⟨_, .clo (by decide) (by decide) (.call .list (h1.head hS (by decide) rfl (by decide)) (.name (h1.var rfl (by decide)) .nil) (.fn (elements_len hw hz))), h1.kept⟩,
    ⟨_, .clo (by decide) (by decide) (.call .list (h2.head hS (by decide) rfl (by decide)) (.name (h2.var rfl (by decide)) .nil) (.fn (elements_len hw hz))), h2.kept⟩⟩

/-! ## find -/

/-- The variables of `find` in its loop. -/
def findVars (key w : Val) (i : Nat) : List (Str × Val) := [(c!"key", key), (c!"_list", w), (c!"i", .int i)]

theorem libfind_cond {g : Nat} {R0 R : Conf} {key w : Val} {l : List Val} {i : Nat} (hS : Standard R0 findNames) (h : In g R0 R (findVars key w i)) (hw : Elements w l)
    (hz : IsInt32 l.length) : Exec R0.count findCond R (.bool (decide ((i : Int) < (l.length : Nat)))) R :=
  .call .list (h.head hS (by decide) rfl (by decide)) (.name (h.var rfl (by decide))
    (.other (by simp [ap]) (.call .list (h.head hS (by decide) rfl (by decide)) (.name (h.var rfl (by decide)) .nil) (.fn (elements_len hw hz))) .nil)) (.fn .lt)

theorem libfind_eq {g : Nat} {R0 R : Conf} {key w x : Val} {l : List Val} {i : Nat} {b : Bool} (hS : Standard R0 findNames) (h : In g R0 R (findVars key w i)) (hw : Elements w l)
    (hi : IsInt32 i) (hx : l[i]? = some x) (ha : Alike key x b) :
    Exec R0.count (ap c!"==" [.sym c!"key", ap c!"nth" [.sym c!"i", .sym c!"_list"]]) R (.bool b) R :=
  .call .list (h.head hS (by decide) rfl (by decide)) (.name (h.var rfl (by decide))
    (.other (by simp [ap]) (.call .list (h.head hS (by decide) rfl (by decide)) (.name (h.var rfl (by decide)) (.name (h.var rfl (by decide)) .nil))
      (.fn (elements_nth hw hi hx))) .nil)) (.fn (.eq (by simp) ha))

/-- One step of the loop over an element that is not equal. -/
theorem libfind_next {g : Nat} {R0 R : Conf} {key w x : Val} {l : List Val} {i : Nat} (hS : Standard R0 findNames) (h : In g R0 R (findVars key w i)) (hw : Elements w l)
    (hz : IsInt32 l.length) (hx : l[i]? = some x) (ha : Alike key x false) :
    ∃ R', Exec R0.count findStep R (.int (i + 1 : Nat)) R' ∧ In g R0 R' (findVars key w (i + 1)) := by
  have hlt : i < l.length := (List.getElem?_eq_some_iff.1 hx).1
  have hs : In g R0 (R.set R0.count c!"i" (.int (i + 1 : Nat))) (findVars key w (i + 1)) := h.set c!"i" (.int (i + 1 : Nat))
  have hi : IsInt32 (i : Nat) := by unfold IsInt32 at *; omega
  refine ⟨_, .block .list (h.head hS (by decide) rfl (by decide)) (by simp)
    (.skip .list (h.head hS (by decide) rfl (by decide)) (libfind_eq hS h hw hi hx ha) h.ret
      (.next ⟨_, _, .list⟩ (h.assign hS (by decide) (w := .int i) rfl rfl (by decide) (by simp) (h.incr hS (by decide) rfl rfl (by decide) (by unfold IsInt32 at *; omega))) hs.ret .done)), hs⟩

theorem libfind_none {g : Nat} {R0 : Conf} {key w : Val} {l : List Val} (hS : Standard R0 findNames) (hw : Elements w l) (hz : IsInt32 l.length) (t : List Val) :
    ∀ {R : Conf} {i : Nat} {r : Val}, In g R0 R (findVars key w i) → l.drop i = t → (∀ x ∈ t, Alike key x false) →
    ∃ v R', Loop R0.count findCond findStep r R v R' ∧ In g R0 R' (findVars key w (i + t.length)) := by
  induction t with
  | nil =>
    intro R i r h hd _
    have : l.length ≤ i := List.drop_eq_nil_iff.1 hd
    exact ⟨_, _, .stop (libfind_cond hS h hw hz) (by simp [truth]; omega), h⟩
  | cons x t ih =>
    intro R i r h hd ha
    have hx : l[i]? = some x := by rw [← List.head?_drop, hd]; rfl
    have hlt : i < l.length := (List.getElem?_eq_some_iff.1 hx).1
    obtain ⟨R1, e1, h1⟩ := libfind_next hS h hw hz hx (ha x (by simp))
    obtain ⟨v, R2, e2, h2⟩ := ih (r := .int (i + 1 : Nat)) h1 (by rw [← List.drop_drop, hd]; rfl) (fun y hy => ha y (by simp [hy]))
    refine ⟨v, R2, .again (libfind_cond hS h hw hz) (by simp [truth]; omega) e1 h1.ret e2, ?_⟩
    have : i + 1 + t.length = i + (x :: t).length := by simp; omega
    rw [this] at h2
    exact h2

theorem libfind_some {g : Nat} {R0 : Conf} {key w : Val} {l : List Val} (hS : Standard R0 findNames) (hw : Elements w l) (hz : IsInt32 l.length) {x : Val} {u : List Val}
    (hk : Alike key x true) (t : List Val) : ∀ {R : Conf} {i : Nat} {r : Val}, In g R0 R (findVars key w i) → l.drop i = t ++ x :: u → (∀ y ∈ t, Alike key y false) →
    ∃ R1, Loop R0.count findCond findStep r R (.int (i + t.length : Nat)) (R1.mark R0.count) ∧ In g R0 R1 (findVars key w (i + t.length)) := by
  induction t with
  | nil =>
    intro R i r h hd _
    have hx : l[i]? = some x := by rw [← List.head?_drop, hd]; rfl
    have hlt : i < l.length := (List.getElem?_eq_some_iff.1 hx).1
    have hi : IsInt32 (i : Nat) := by unfold IsInt32 at *; omega
    refine ⟨R, .ret (libfind_cond hS h hw hz) (by simp [truth]; omega) ?_ (mark_ret _ _), h⟩
    exact .block .list (h.head hS (by decide) rfl (by decide)) (by simp)
      (.ret ⟨_, _, .list⟩ (.ifThen .list (h.head hS (by decide) rfl (by decide)) (libfind_eq hS h hw hi hx hk) (h.return_var hS (by decide) rfl rfl (by decide))) (mark_ret _ _))
  | cons y t ih =>
    intro R i r h hd ha
    have hx : l[i]? = some y := by rw [← List.head?_drop, hd]; rfl
    have hlt : i < l.length := (List.getElem?_eq_some_iff.1 hx).1
    obtain ⟨R1, e1, h1⟩ := libfind_next hS h hw hz hx (ha y (by simp))
    obtain ⟨R2, e2, h2⟩ := ih (r := .int (i + 1 : Nat)) h1 (by rw [← List.drop_drop, hd]; rfl) (fun z hz => ha z (by simp [hz]))
    have : i + 1 + t.length = i + (y :: t).length := by simp; omega
    rw [this] at h2 e2
    exact ⟨R2, .again (libfind_cond hS h hw hz) (by simp [truth]; omega) e1 h1.ret e2, h2⟩

/-- C75: `find` gives the position of the first element of a list, or character of a string, that is equal to the key, and -1 if there is none;
nothing else changes. -/
theorem C75_find {g f : Nat} {R : Conf} (hS : Standard R findNames) {key w : Val} {l : List Val} (hw : Elements w l) (hz : IsInt32 l.length) {i : Int}
    (hp : Position key l i) : ∃ R', Apply f (.clo [c!"key", c!"_list"] findBody g) [key, w] R (.int i) R' ∧ Kept R R' := by
  have hI := In.enter g R (params_two c!"key" c!"_list" key w)
  have h0 : In g R ((R.enter [c!"key", c!"_list"] [key, w] g).set R.count c!"i" (.int 0)) (findVars key w 0) := hI.set c!"i" (.int 0)
  have ed : Exec R.count (ap c!"def" [.sym c!"i", .int 0]) (R.enter [c!"key", c!"_list"] [key, w] g) (.int 0) _ :=
    .def_ .list (hI.head hS (by decide) rfl (by decide)) (by decide) .int
  cases hp with
  | none ha =>
    obtain ⟨v, R1, e1, h1⟩ := libfind_none hS hw hz l (r := .undef) h0 rfl ha
    exact ⟨_, .clo (by decide) (by decide) (.block .list (hI.head hS (by decide) rfl (by decide)) (by simp)
      (.next ⟨_, _, .list⟩ ed h0.ret (.next ⟨_, _, .list⟩ (.while_ .list (h0.head hS (by decide) rfl (by decide)) e1) h1.ret
        (.ret ⟨_, _, .list⟩ (.call .list (h1.head hS (by decide) rfl (by decide)) (.other (by simp) .int .nil) .return_) (mark_ret _ _))))), h1.kept_mark⟩
  | @at_ t x u ha hk =>
    obtain ⟨R1, e1, h1⟩ := libfind_some hS hw hz hk t (r := .undef) h0 rfl ha
    rw [Nat.zero_add] at e1
    exact ⟨_, .clo (by decide) (by decide) (.block .list (hI.head hS (by decide) rfl (by decide)) (by simp)
      (.next ⟨_, _, .list⟩ ed h0.ret (.ret ⟨_, _, .list⟩ (.while_ .list (h0.head hS (by decide) rfl (by decide)) e1) (mark_ret _ _)))), h1.kept_mark⟩

/-! ## arg-list-expression -/

/-- The variables in the loop. -/
def argListVars (n i : Nat) : List (Str × Val) := [(c!"argcount", .int n), (c!"result", .list (paramSyms i)), (c!"i", .int i)]

theorem argList_step {g : Nat} {R0 R : Conf} {n i : Nat} (hS : Standard R0 argListNames) (h : In g R0 R (argListVars n i)) (hi : IsInt32 (i + 1 : Nat)) :
    ∃ v R', Exec R0.count argListStep R v R' ∧ In g R0 R' (argListVars n (i + 1)) := by
  have h1 : In g R0 (R.set R0.count c!"result" (.list (paramSyms (i + 1)))) [(c!"argcount", .int n), (c!"result", .list (paramSyms (i + 1))), (c!"i", .int i)] := h.set _ _
  have h2 : In g R0 ((R.set R0.count c!"result" (.list (paramSyms (i + 1)))).set R0.count c!"i" (.int (i + 1 : Nat))) (argListVars n (i + 1)) := h1.set c!"i" (.int (i + 1 : Nat))
  have e1 : Exec R0.count (ap c!"string" [.sym c!"i"]) R (.int i) R :=
    .call .list (h.head hS (by decide) rfl (by decide)) (.name (h.var rfl (by decide)) .nil) (.fn (.add (l := []) (by simp) .nil))
  have e2 : Exec R0.count (ap c!"+" [.str c!"p", ap c!"string" [.sym c!"i"]]) R (.str (c!"p" ++ [intStr i].flatten)) R :=
    .call .list (h.head hS (by decide) rfl (by decide)) (.other (by simp) .str (.other (by simp [ap]) e1 .nil)) (.fn (.concat (by simp) (.cons .int .nil)))
  have e3 : Exec R0.count (ap c!"list" [ap c!"sym" [ap c!"+" [.str c!"p", ap c!"string" [.sym c!"i"]]]]) R (.list [.sym (c!"p" ++ [intStr i].flatten)]) R :=
    .call .list (h.head hS (by decide) rfl (by decide)) (.other (by simp [ap]) (.call .list (h.head hS (by decide) rfl (by decide)) (.other (by simp [ap]) e2 .nil) (.fn (.sym .str))) .nil)
      (.fn .list)
  have e4 : Exec R0.count (ap c!"append" [.sym c!"result", ap c!"list" [ap c!"sym" [ap c!"+" [.str c!"p", ap c!"string" [.sym c!"i"]]]]]) R (.list (paramSyms (i + 1))) R := by
    have := Exec.call (e := ap c!"append" [.sym c!"result", ap c!"list" [ap c!"sym" [ap c!"+" [.str c!"p", ap c!"string" [.sym c!"i"]]]]]) .list
      (h.head hS (by decide) rfl (by decide)) (.name (h.var (n := c!"result") rfl (by decide)) (.other (by simp [ap]) e3 .nil)) (.fn (.append (.cons .list (.cons .list .nil))))
    simpa [paramSyms, List.range_succ] using this
  exact ⟨_, _, .block .list (h.head hS (by decide) rfl (by decide)) (by simp)
    (.next ⟨_, _, .list⟩ (h.assign hS (by decide) (w := .list (paramSyms i)) rfl rfl (by decide) (by simp) e4) h1.ret
      (.next ⟨_, _, .list⟩ (h1.assign hS (by decide) (w := .int i) rfl rfl (by decide) (by simp) (h1.incr hS (by decide) rfl rfl (by decide) hi)) h2.ret .done)), h2⟩

theorem argList_loop {g : Nat} {R0 : Conf} {n : Nat} (hS : Standard R0 argListNames) (hn : IsInt32 n) (k : Nat) : ∀ {R : Conf} {i : Nat} {r : Val}, In g R0 R (argListVars n i) → i + k = n →
    ∃ v R', Loop R0.count (ap c!"<" [.sym c!"i", .sym c!"argcount"]) argListStep r R v R' ∧ In g R0 R' (argListVars n n) := by
  have hc : ∀ {R : Conf} {i : Nat}, In g R0 R (argListVars n i) →
      Exec R0.count (ap c!"<" [.sym c!"i", .sym c!"argcount"]) R (.bool (decide ((i : Int) < (n : Int)))) R :=
    fun h => .call .list (h.head hS (by decide) rfl (by decide)) (.name (h.var rfl (by decide)) (.name (h.var rfl (by decide)) .nil)) (.fn .lt)
  induction k with
  | zero =>
    intro R i r h hi
    obtain rfl : i = n := hi
    exact ⟨_, _, .stop (hc h) (by simp [truth]), h⟩
  | succ k ih =>
    intro R i r h hi
    obtain ⟨v, R1, e1, h1⟩ := argList_step hS h (by unfold IsInt32 at *; omega)
    obtain ⟨v2, R2, e2, h2⟩ := ih (r := v) h1 (by omega)
    exact ⟨v2, R2, .again (hc h) (by simp [truth]; omega) e1 h1.ret e2, h2⟩

/-- C75: `arg-list-expression` gives the list of the symbols p0, p1, ..., as many as requested. -/
theorem C75_arg_list {g f : Nat} {R : Conf} (hS : Standard R argListNames) (n : Nat) (hn : IsInt32 n) :
    ∃ R', Apply f (.clo [c!"argcount"] argListBody g) [.int n] R (.list (paramSyms n)) R' ∧ Kept R R' := by
  have hI := In.enter g R (params_one c!"argcount" (.int n))
  have h1 := hI.set c!"result" (.list [])
  have h2 : In g R (((R.enter [c!"argcount"] [.int n] g).set R.count c!"result" (.list [])).set R.count c!"i" (.int 0)) (argListVars n 0) := h1.set c!"i" (.int 0)
  obtain ⟨v, R1, e1, h3⟩ := argList_loop hS hn n (r := .undef) h2 (Nat.zero_add n)
  exact ⟨_, .clo (by decide) (by decide) (.block .list (hI.head hS (by decide) rfl (by decide)) (by simp)
    (.next ⟨_, _, .list⟩ (.def_ .list (hI.head hS (by decide) rfl (by decide)) (by decide) (.call .list (hI.head hS (by decide) rfl (by decide)) .nil (.fn .list))) h1.ret
      (.next ⟨_, _, .list⟩ (.def_ .list (h1.head hS (by decide) rfl (by decide)) (by decide) .int) h2.ret
        (.next ⟨_, _, .list⟩ (.while_ .list (h2.head hS (by decide) rfl (by decide)) e1) h3.ret
          (.ret ⟨_, _, .list⟩ (h3.return_var hS (by decide) rfl rfl (by decide)) (mark_ret _ _)))))), h3.kept_mark⟩

/-! ## foreach -/

theorem standard_frame {R S : Conf} {names : List Str} (h : Standard R names) (hc : 0 < S.count) (hf : S.frames 0 = R.frames 0) (hm : S.macros = R.macros) : Standard S names :=
  ⟨hc, fun n hn => by rw [hf]; exact h.vars n hn, fun n hn => by rw [hm]; exact h.macros n hn⟩

/-- The frame has these variables; the function was defined in frame `g`. -/
def Locally (g : Nat) (R : Conf) (F : Nat) (l : List (Str × Val)) : Prop := R.frames F = ⟨locals l, some g, false⟩

theorem Locally.head {g : Nat} {R : Conf} {F : Nat} {l : List (Str × Val)} (h : Locally g R F l) {names : List Str} (hS : Standard R names) {n : Str} (hn : n ∈ names) (hl : locals l n = none)
    (hh : n ∉ hidden) : Head R F n (.prim n) :=
  ⟨hS.macros n hn, .globally hh (by rw [h]; exact hl) (hS.vars n hn)⟩

theorem Locally.var {g : Nat} {R : Conf} {F : Nat} {l : List (Str × Val)} (h : Locally g R F l) {n : Str} {v : Val} (hl : locals l n = some v) (hh : n ∉ hidden) : Value R F n v :=
  .locally hh (by rw [h]; exact hl)

theorem Locally.set {g : Nat} {R : Conf} {F : Nat} {l : List (Str × Val)} (h : Locally g R F l) (n : Str) (v : Val) : Locally g (R.set F n v) F (put n v l) := by
  unfold Locally at *
  simp [Conf.set, Conf.withFrame, h, locals_put]

/-- The variables of `foreach` in its loop. -/
def foreachVars (c w : Val) (len i : Nat) : List (Str × Val) := [(c!"container", c), (c!"fcn", w), (c!"__i", .int i), (c!"max", .int len)]

theorem standard_set {R : Conf} {names : List Str} (h : Standard R names) {F : Nat} (hF : F ≠ 0) (n : Str) (v : Val) : Standard (R.set F n v) names :=
  standard_frame h h.count (by simp [Conf.set, Conf.withFrame, hF.symm]) rfl

theorem foreach_loop {g F : Nat} (hF : F ≠ 0) {c w : Val} {l : List Val} (hc : Elements c l) (hz : IsInt32 l.length) {i : Nat} {t : List Val} {R R' : Conf} (he : CallsEach F w i t R R') :
    ∀ {r : Val}, Standard R foreachNames → Locally g R F (foreachVars c w l.length i) → l.drop i = t →
    ∃ v, Loop F (ap c!"<" [.sym c!"__i", .sym c!"max"]) foreachStep r R v R' ∧ (R'.frames F).ret = false := by
  have hcond : ∀ {R : Conf} {i : Nat}, Standard R foreachNames → Locally g R F (foreachVars c w l.length i) →
      Exec F (ap c!"<" [.sym c!"__i", .sym c!"max"]) R (.bool (decide ((i : Int) < (l.length : Nat)))) R :=
    fun hS h => .call .list (h.head hS (by decide) rfl (by decide)) (.name (h.var rfl (by decide)) (.name (h.var rfl (by decide)) .nil)) (.fn .lt)
  induction he with
  | nil =>
    intro r hS h hd
    have := List.drop_eq_nil_iff.1 hd
    exact ⟨r, .stop (hcond hS h) (by simp [truth]; omega), by rw [h]⟩
  | @cons i x t R v R1 R2 hn ha hf hS1 _ ih =>
    intro r hS h hd
    have hx : l[i]? = some x := by rw [← List.head?_drop, hd]; rfl
    have hlt : i < l.length := (List.getElem?_eq_some_iff.1 hx).1
    have h1 : Locally g R1 F (foreachVars c w l.length i) := hf.trans h
    have h2 : Locally g (R1.set F c!"__i" (.int (i + 1 : Nat))) F (foreachVars c w l.length (i + 1)) := h1.set c!"__i" (.int (i + 1 : Nat))
    have hS2 : Standard (R1.set F c!"__i" (.int (i + 1 : Nat))) foreachNames := standard_set hS1 hF _ _
    obtain ⟨u, e2, hr⟩ := ih (r := .int (i + 1 : Nat)) hS2 h2 (by rw [← List.drop_drop, hd]; rfl)
    have f1 : Folds (· + ·) (i : Int) [1] ((i + 1 : Nat) : Int) := by
      have : (i : Int) + 1 = (i + 1 : Nat) := by omega
      exact .cons (by rw [this]; unfold IsInt32 at *; omega) (by rw [this]; exact .nil)
    have e1 : Exec F (ap c!"apply" [.sym c!"fcn", ap c!"list" [ap c!"nth" [.sym c!"__i", .sym c!"container"]]]) R v R1 :=
      .call .list (h.head hS (by decide) rfl (by decide)) (.name (h.var rfl (by decide)) (.other (by simp [ap])
        (.call .list (h.head hS (by decide) rfl (by decide)) (.other (by simp [ap]) (.call .list (h.head hS (by decide) rfl (by decide))
          (.name (h.var rfl (by decide)) (.name (h.var rfl (by decide)) .nil)) (.fn (elements_nth hc (by unfold IsInt32 at *; omega) hx))) .nil) (.fn .list)) .nil))
        (.apply (by simpa using hn) ha)
    refine ⟨u, .again (hcond hS h) (by simp [truth]; omega) (.block .list (h.head hS (by decide) rfl (by decide)) (by simp)
      (.next ⟨_, _, .list⟩ e1 (by rw [h1]) (.next ⟨_, _, .list⟩ (.setf .list (h1.head hS1 (by decide) rfl (by decide)) (by decide) (by simp)
        (.call .list (h1.head hS1 (by decide) rfl (by decide)) (.name (h1.var rfl (by decide)) (.other (by simp) .int .nil)) (.fn (.add (l := [1]) (by simp) f1)))
          (.here (v := .int i) (by rw [h1]; rfl))) (by rw [h2]) .done))) (by rw [h2]) e2, hr⟩

/-- C75: `foreach` calls the function once for every element of a list, or character of a string, from left to right. -/
theorem C75_foreach {g f : Nat} {R R' : Conf} (hS : Standard R foreachNames) {c w : Val} {l : List Val} (hc : Elements c l) (hz : IsInt32 l.length)
    (he : CallsEach R.count w 0 l (foreachStart g R c w l.length) R') :
    ∃ v, Apply f (.clo [c!"container", c!"fcn"] foreachBody g) [c, w] R v R' := by
  have h0 : Locally g (R.enter [c!"container", c!"fcn"] [c, w] g) R.count [(c!"container", c), (c!"fcn", w)] := (In.enter g R (params_two c!"container" c!"fcn" c w)).here
  have hF : R.count ≠ 0 := Nat.ne_of_gt hS.count
  have hS0 : Standard (R.enter [c!"container", c!"fcn"] [c, w] g) foreachNames :=
    standard_frame hS (Nat.succ_pos _) ((In.enter g R (params_two c!"container" c!"fcn" c w)).low 0 hS.count) rfl
  have h1 := h0.set c!"__i" (.int 0)
  have hS1 := standard_set hS0 hF c!"__i" (.int 0)
  have h2 : Locally g (foreachStart g R c w l.length) R.count (foreachVars c w l.length 0) := h1.set c!"max" (.int l.length)
  have hS2 := standard_set hS1 hF c!"max" (.int l.length)
  obtain ⟨v, e, hr⟩ := foreach_loop hF hc hz he (r := .undef) hS2 h2 rfl
  exact ⟨v, .clo (by decide) (by decide) (.block .list (h0.head hS0 (by decide) rfl (by decide)) (by simp)
    (.next ⟨_, _, .list⟩ (.def_ .list (h0.head hS0 (by decide) rfl (by decide)) (by decide) .int) (by rw [h1])
      (.next ⟨_, _, .list⟩ (.def_ .list (h1.head hS1 (by decide) rfl (by decide)) (by decide)
        (.call .list (h1.head hS1 (by decide) rfl (by decide)) (.name (h1.var rfl (by decide)) .nil) (.fn (elements_len hc hz)))) (by show ((foreachStart g R c w l.length).frames R.count).ret = false; rw [h2])
        (.next ⟨_, _, .list⟩ (.while_ .list (h2.head hS2 (by decide) rfl (by decide)) e) hr .done))))⟩

/-! ## Scripts -/

theorem joined_one (t : Str) : joined [t] = t := by
  cases t <;> simp [joined, List.dropWhile, List.intercalate]

theorem kept_ret {R R' : Conf} (h : Kept R R') (hc : 0 < R.count) : (R'.frames 0).ret = (R.frames 0).ret := by rw [h.frames 0 hc]

/-- The names of the built-in functions of the core language. -/
def coreNames : List Str := coreTable.map Prod.fst

theorem coreNames_hidden : ∀ n ∈ coreNames, n ∉ hidden := by decide

theorem standard_start : Standard Conf.start coreNames := by
  refine ⟨Nat.one_pos, fun n hn => ?_, fun n _ => rfl⟩
  obtain ⟨t, ht, rfl⟩ := List.mem_map.1 hn
  exact if_pos (core_names t ht)

theorem standard_defn {R : Conf} (h : Standard R coreNames) {n : Str} (hn : n ∉ coreNames) (v : Val) : Standard (R.set 0 n v) coreNames :=
  ⟨h.count, fun m hm => by
    have : m ≠ n := fun e => hn (e ▸ hm)
    rw [set_other this]
    exact h.vars m hm, h.macros⟩

theorem standard_sub {R : Conf} {a b : List Str} (h : Standard R a) (hs : ∀ n ∈ b, n ∈ a) : Standard R b :=
  ⟨h.count, fun n hn => h.vars n (hs n hn), fun n hn => h.macros n (hs n hn)⟩

theorem quoted_operands {R : Conf} (hS : Standard R coreNames) {xs : List Sexp} {vs : List Val} (h : Each Quoted xs vs) : Operands 0 R (xs.map (.pre .quote)) R vs R := by
  induction h with
  | nil => exact .nil
  | cons h _ ih => exact .other (by simp) (.quote .pre ⟨hS.macros _ (by decide), .locally (by decide) (hS.vars _ (by decide))⟩ h) ih

theorem wfs_map_quote {xs : List Sexp} (h : Sexp.WFs xs) (hq : ∀ x ∈ xs, x.Quotable) : Sexp.WFs (xs.map (.pre .quote)) := by
  induction xs with
  | nil => trivial
  | cons x l ih => exact ⟨⟨h.1, hq x (by simp)⟩, ih h.2 (fun y hy => hq y (by simp [hy]))⟩

theorem heads_map_quote {P : Str → Prop} (hP : P c!"quote") {xs : List Sexp} (h : Sexp.HeadsAll P xs) : Sexp.HeadsAll P (xs.map (.pre .quote)) := by
  induction xs with
  | nil => trivial
  | cons x l ih => exact ⟨⟨hP, h.1⟩, ih h.2⟩

theorem lib_script {name : Str} {ps : List Str} {body : Sexp} {args : List Sexp} (hn : name ∉ coreNames) (hh : name ∉ hidden) {vs : List Val} (hq : Each Quoted args vs) {v : Val} {t : Str}
    (hA : ∀ R, Standard R coreNames → ∃ R', Apply 0 (.clo ps body 0) vs R v R' ∧ Kept R R') (ht : Shown false v t)
    (hwf : Sexp.WFs (libScript name ps body args)) {text : Str} (hw : Written (libScript name ps body args) text)
    (hheads : Sexp.HeadsAll (fun n => n ∉ hidden ∧ n ≠ c!"define-macro-expand") (libScript name ps body args)) {st : St} (hr : Reachable st) (module : Str) :
    ∃ w st', Runs text module st (.ok (some w) st') ∧ st'.out = st.out ++ (t ++ c!"\n") := by
  have hS := standard_defn standard_start hn (.clo ps body 0)
  obtain ⟨R', h1, h2⟩ := hA _ hS
  have hm : name ∉ coreNames := hn
  have e1 : Exec 0 (defnCode name ps body) Conf.start (.clo ps body 0) (Conf.start.set 0 name (.clo ps body 0)) :=
    .defn .list (value_start 0 (b := .defn) (s := true) (by decide) (by decide)) hh (start_vars (b := .fn) (s := true) (by decide)) (start_vars (b := .def_) (s := true) (by decide))
  have e2 : Exec 0 (ap name (args.map (.pre .quote))) (Conf.start.set 0 name (.clo ps body 0)) v R' :=
    .call .list ⟨rfl, .locally hh set_same⟩ (quoted_operands hS hq) h1
  have hp := Prints.println (ShownAll.cons ht .nil)
  rw [joined_one] at hp
  have e3 : Exec 0 (ap c!"println" [ap name (args.map (.pre .quote))]) (Conf.start.set 0 name (.clo ps body 0)) (.str t) (R'.write (t ++ c!"\n")) :=
    .call .list ⟨rfl, .locally (by decide) (hS.vars _ (by decide))⟩ (.other (by simp [ap]) e2 .nil) (.prints hp)
  have hret : ((R'.write (t ++ c!"\n")).frames 0).ret = false := kept_ret h2 hS.count
  obtain ⟨w, st', μ, g1, g2, g3⟩ := C55_core hwf hw hheads hr module (.next ⟨_, _, .list⟩ e1 rfl (.next ⟨_, _, .list⟩ e3 hret .done))
  refine ⟨w, st', g1, ?_⟩
  rw [g3]
  show st.out ++ (R'.out ++ _) = _
  rw [h2.out]
  rfl

/-- C75: a script that contains the library definition of `find` and prints `(find 'key 'data)`, in any layout and with any comments, prints the
position of the key in the data. -/
theorem C75_find_script {x y : Sexp} {key w : Val} (hx : Data x key) (hy : Data y w) {l : List Val} (hl : Elements w l) (hz : IsInt32 l.length) {i : Int} (hp : Position key l i)
    {text : Str} (hw : Written (libScript c!"find" [c!"key", c!"_list"] findBody [x, y]) text) {st : St} (hr : Reachable st) (module : Str) :
    ∃ w st', Runs text module st (.ok (some w) st') ∧ st'.out = st.out ++ (intStr i ++ c!"\n") := by
  refine lib_script (by decide) (by decide) (.cons hx.quoted (.cons hy.quoted .nil)) (fun R hS => C75_find (standard_sub hS (by decide)) hl hz hp) .int ?_ hw ?_ hr module
  · have h1 : Sexp.WF (defnCode c!"find" [c!"key", c!"_list"] findBody) := by
      simp [defnCode, findBody, findCond, findStep, ap, Sexp.WF, Sexp.WFs, SymbolName, Spec.Plain, White, NumberLike, dropSign, Digit, reserved]
      refine ⟨by decide, ⟨?_, by decide⟩, by decide⟩
      rintro _ _ _ rfl rfl rfl h
      rcases h with h | h <;> simp at h
    have h2 : SymbolName c!"println" ∧ SymbolName c!"find" := by
      simp [SymbolName, Spec.Plain, White, NumberLike, dropSign, Digit, reserved]
    exact ⟨h1, ⟨h2.1, ⟨h2.2, wfs_map_quote ⟨hx.wf, hy.wf, trivial⟩ (by simpa using ⟨hx.quotable, hy.quotable⟩)⟩, trivial⟩, trivial⟩
  · have h1 : Sexp.Heads (fun n => n ∉ hidden ∧ n ≠ c!"define-macro-expand") (defnCode c!"find" [c!"key", c!"_list"] findBody) := by
      simp [defnCode, findBody, findCond, findStep, ap, Sexp.Heads, Sexp.HeadsAll, Sexp.text, hidden]
    exact ⟨h1, ⟨by simp [Sexp.text, hidden], trivial, ⟨by simp [Sexp.text, hidden], trivial, heads_map_quote (by simp [hidden]) ⟨hx.heads, hy.heads, trivial⟩⟩, trivial⟩, trivial⟩

theorem callsEach_println {F : Nat} (hF : F ≠ 0) {l : List Val} {ts : List Str} (h : Each (fun x t => NotList x ∧ Shown false x t) l ts) :
    ∀ {i : Nat} {R : Conf}, Standard R foreachNames → ∃ R', CallsEach F (.prim c!"println") i l R R' ∧ R'.out = R.out ++ (ts.map (· ++ c!"\n")).flatten ∧
      (∀ j, j ≠ F → R'.frames j = R.frames j) := by
  induction h with
  | nil => exact fun {i R} _ => ⟨R, .nil, by simp, fun _ _ => rfl⟩
  | @cons x t l ts h _ ih =>
    intro i R hS
    have hp := Prints.println (ShownAll.cons h.2 .nil)
    rw [joined_one] at hp
    have hS1 : Standard (R.write (t ++ c!"\n")) foreachNames := ⟨hS.count, hS.vars, hS.macros⟩
    obtain ⟨R', h1, h2, h3⟩ := ih (i := i + 1) (standard_set hS1 hF c!"__i" (.int (i + 1 : Nat)))
    refine ⟨R', .cons h.1 (.prints hp) rfl hS1 h1, ?_, fun j hj => ?_⟩
    · rw [h2]
      show (R.out ++ _) ++ _ = _
      simp
    · rw [h3 j hj]
      simp [Conf.set, Conf.withFrame, hj, Conf.write]

/-- C75: a script that contains the library definition of `foreach` and calls `(foreach 'data println)`, in any layout and with any comments, writes
every element of the data in a line of its own, in order. -/
theorem C75_foreach_script {y : Sexp} {w : Val} (hy : Data y w) {l : List Val} (hl : Elements w l) (hz : IsInt32 l.length) {ts : List Str}
    (ht : Each (fun x t => NotList x ∧ Shown false x t) l ts) {text : Str}
    (hw : Written [defnCode c!"foreach" [c!"container", c!"fcn"] foreachBody, ap c!"foreach" [.pre .quote y, .sym c!"println"]] text) {st : St} (hr : Reachable st) (module : Str) :
    ∃ w st', Runs text module st (.ok (some w) st') ∧ st'.out = st.out ++ (ts.map (· ++ c!"\n")).flatten := by
  have hS := standard_defn standard_start (n := c!"foreach") (by decide) (.clo [c!"container", c!"fcn"] foreachBody 0)
  let R := Conf.start.set 0 c!"foreach" (.clo [c!"container", c!"fcn"] foreachBody 0)
  have hSf : Standard R foreachNames := standard_sub hS (by decide)
  have hS0 : Standard (R.enter [c!"container", c!"fcn"] [w, .prim c!"println"] 0) foreachNames :=
    standard_frame hSf (Nat.succ_pos _) ((In.enter 0 R (params_two c!"container" c!"fcn" w (.prim c!"println"))).low 0 hSf.count) rfl
  have hS2 : Standard (foreachStart 0 R w (.prim c!"println") l.length) foreachNames := standard_set (standard_set hS0 (F := R.count) (by decide) _ _) (F := R.count) (by decide) _ _
  obtain ⟨R', h1, h2, h3⟩ := callsEach_println (F := R.count) (by decide) ht (i := 0) hS2
  obtain ⟨v, hA⟩ := C75_foreach (f := 0) hSf hl hz h1
  have e1 : Exec 0 (defnCode c!"foreach" [c!"container", c!"fcn"] foreachBody) Conf.start (.clo [c!"container", c!"fcn"] foreachBody 0) R :=
    .defn .list (value_start 0 (b := .defn) (s := true) (by decide) (by decide)) (by decide) (start_vars (b := .fn) (s := true) (by decide)) (start_vars (b := .def_) (s := true) (by decide))
  have e2 : Exec 0 (ap c!"foreach" [.pre .quote y, .sym c!"println"]) R v R' :=
    .call .list ⟨rfl, .locally (by decide) set_same⟩ (.other (by simp) (.quote .pre ⟨rfl, .locally (by decide) (hS.vars _ (by decide))⟩ hy.quoted)
      (.name (.locally (by decide) (hS.vars _ (by decide))) .nil)) hA
  have hret : (R'.frames 0).ret = false := by rw [h3 0 (by decide)]; rfl
  have hwf : Sexp.WFs [defnCode c!"foreach" [c!"container", c!"fcn"] foreachBody, ap c!"foreach" [.pre .quote y, .sym c!"println"]] := by
    have h1 : Sexp.WF (defnCode c!"foreach" [c!"container", c!"fcn"] foreachBody) := by
      simp [defnCode, foreachBody, foreachStep, ap, Sexp.WF, Sexp.WFs, SymbolName, Spec.Plain, White, NumberLike, dropSign, Digit, reserved]
      refine ⟨by decide, ⟨?_, by decide⟩⟩
      rintro _ _ _ rfl rfl rfl h
      rcases h with h | h <;> simp at h
    have h2 : SymbolName c!"println" ∧ SymbolName c!"foreach" := by
      simp [SymbolName, Spec.Plain, White, NumberLike, dropSign, Digit, reserved]
    exact ⟨h1, ⟨h2.2, ⟨hy.wf, hy.quotable⟩, h2.1, trivial⟩, trivial⟩
  have hheads : Sexp.HeadsAll (fun n => n ∉ hidden ∧ n ≠ c!"define-macro-expand")
      [defnCode c!"foreach" [c!"container", c!"fcn"] foreachBody, ap c!"foreach" [.pre .quote y, .sym c!"println"]] := by
    have h1 : Sexp.Heads (fun n => n ∉ hidden ∧ n ≠ c!"define-macro-expand") (defnCode c!"foreach" [c!"container", c!"fcn"] foreachBody) := by
      simp [defnCode, foreachBody, foreachStep, ap, Sexp.Heads, Sexp.HeadsAll, Sexp.text, hidden]
    exact ⟨h1, ⟨by simp [Sexp.text, hidden], trivial, ⟨by simp [Prefix.word, hidden], hy.heads⟩, trivial, trivial⟩, trivial⟩
  obtain ⟨w, st', μ, g1, g2, g3⟩ := C55_core hwf hw hheads hr module (.next ⟨_, _, .list⟩ e1 rfl (.next ⟨_, _, .list⟩ e2 hret .done))
  refine ⟨w, st', g1, ?_⟩
  rw [g3, h2]
  rfl

end

/-! ## The hypotheses are met -/

section
attribute [local instance] demoWorld

theorem data_list : Data (.list [.int 3, .sym c!"a", .str c!"x"]) (.list [.int 3, .sym c!"a", .str c!"x"]) :=
  ⟨.list (.cons .int (.cons .sym (.cons .str .nil))), by simp [Sexp.WF, Sexp.WFs, SymbolName, Spec.Plain, White, NumberLike, dropSign, Digit, reserved, IsInt32], trivial,
    by simp [Sexp.Heads, Sexp.HeadsAll, Sexp.text, hidden]; decide⟩

theorem data_sym : Data (.sym c!"a") (.sym c!"a") :=
  ⟨.sym, by simp [Sexp.WF, SymbolName, Spec.Plain, White, NumberLike, dropSign, Digit, reserved], trivial, trivial⟩

/-- `(find 'a '(3 a "x"))` prints 1. -/
example : ∃ w st', Runs (Sexp.sources (libScript c!"find" [c!"key", c!"_list"] findBody [.sym c!"a", .list [.int 3, .sym c!"a", .str c!"x"]])) c!"demo" ({} : St) (.ok (some w) st') ∧
    st'.out = c!"1\n" := by
  have hp : Position (.sym c!"a") [.int 3, .sym c!"a", .str c!"x"] 1 :=
    .at_ (l := [.int 3]) (by simpa using Alike.symLeft (s := c!"a") (by simp)) (.sym (a := c!"a") (b := c!"a"))
  have hwf : Sexp.WFs (libScript c!"find" [c!"key", c!"_list"] findBody [.sym c!"a", .list [.int 3, .sym c!"a", .str c!"x"]]) := by
    simp [libScript, defnCode, findBody, findCond, findStep, ap, Sexp.WF, Sexp.WFs, Sexp.Quotable, SymbolName, Spec.Plain, White, NumberLike, dropSign, Digit, reserved]
    refine ⟨⟨by decide, ⟨?_, by decide⟩, by decide⟩, by decide⟩
    rintro _ _ _ rfl rfl rfl h
    rcases h with h | h <;> simp at h
  obtain ⟨w, st', h1, h2⟩ := C75_find_script data_sym data_list .list (by decide) hp (written_sources hwf) (st := {})
    (.init rfl (fun _ => rfl) (fun _ => rfl) (fun _ => rfl) (fun _ => rfl)) c!"demo"
  exact ⟨w, st', h1, h2.trans (by decide +kernel)⟩

/-- `(foreach '(3 a "x") println)` prints three lines. -/
example : Each (fun x t => NotList x ∧ Shown false x t) [.int 3, .sym c!"a", .str c!"x"] [c!"3", c!"a", c!"x"] :=
  .cons ⟨trivial, .int⟩ (.cons ⟨trivial, .sym⟩ (.cons ⟨trivial, .str⟩ .nil))

/-- `(second "abc")` and `(arg-list-expression 3)`. -/
example : Elements (.str c!"abc") [.str c!"a", .str c!"b", .str c!"c"] ∧ paramSyms 3 = [.sym c!"p0", .sym c!"p1", .sym c!"p2"] := ⟨.str (s := c!"abc"), rfl⟩

example : Standard Conf.start findNames ∧ Standard Conf.start argListNames ∧ Standard Conf.start foreachNames :=
  ⟨standard_sub standard_start (by decide), standard_sub standard_start (by decide), standard_sub standard_start (by decide)⟩

end

end Fuel
