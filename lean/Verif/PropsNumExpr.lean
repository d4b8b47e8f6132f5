import Verif.SpecNumExpr
import Verif.PropsCore
/-!
# C82: arithmetic expressions over integers and floating-point numbers
-/

set_option linter.unusedSectionVars false
set_option linter.unusedSimpArgs false

namespace Fuel

open Spec Spec.Core

section
variable [World]

theorem numExpr_not_sym (e : NumExpr) (n : Str) : e.code ≠ .sym n := by cases e <;> simp [NumExpr.code]

theorem numOp_ints {o : NumOp} {x y z : Int} (h : o.Ints x y z) (hz : IsInt32 z) : Fn o.name [.int x, .int y] (.int z) := by
  cases o with
  | add => cases h; exact .add (l := [y]) (by simp [NumOp.name]) (.cons hz .nil)
  | sub => cases h; exact .sub (l := []) (by simp [NumOp.name]) (.cons hz .nil)
  | mul => cases h; exact .mul (l := [y]) (by simp [NumOp.name]) (.cons hz .nil)
  | div => obtain ⟨r, h⟩ := h; exact .div (by simp [NumOp.name]) h hz

theorem numOp_dbls (o : NumOp) {a b : Val} {x y : Dbl} (h : Nums a b x y) : Fn o.name [a, b] (.dbl (o.dbl x y)) := by
  cases o with
  | add => exact .addNum (by simp [NumOp.name]) (.dbls h (.nil .dbl))
  | sub => exact .subNum (by simp [NumOp.name]) (.dbls h (.nil .dbl))
  | mul => exact .mulNum (by simp [NumOp.name]) (.dbls h (.nil .dbl))
  | div => exact .divDbl (by simp [NumOp.name]) h

theorem numOp_start (o : NumOp) : Head Conf.start 0 o.name (.prim o.name) := by
  cases o with
  | add => exact value_start 0 (b := .add) (s := false) (by decide) (by decide)
  | sub => exact value_start 0 (b := .sub) (s := false) (by decide) (by decide)
  | mul => exact value_start 0 (b := .mul) (s := false) (by decide) (by decide)
  | div => exact value_start 0 (b := .div) (s := false) (by decide) (by decide)

theorem numExpr_exec {e : NumExpr} {v : Val} (h : e.Is v) : Exec 0 e.code Conf.start v Conf.start := by
  have op : ∀ {o : NumOp} {a b : NumExpr} {x y z : Val}, Exec 0 a.code Conf.start x Conf.start → Exec 0 b.code Conf.start y Conf.start → Fn o.name [x, y] z →
      Exec 0 (NumExpr.op o a b).code Conf.start z Conf.start := fun {o a b _ _ _} ha hb hf =>
    .call .list (numOp_start o) (operands_two (numExpr_not_sym a) (numExpr_not_sym b) ha hb) (.fn hf)
  induction h with
  | int => exact .int
  | float h => exact .float h.value
  | ints _ _ ho hz iha ihb => exact op iha ihb (numOp_ints ho hz)
  | floats _ _ iha ihb => exact op iha ihb (numOp_dbls _ ⟨.dbl, .dbl, .inl ⟨_, rfl⟩⟩)
  | left _ _ iha ihb => exact op iha ihb (numOp_dbls _ ⟨.dbl, .int, .inl ⟨_, rfl⟩⟩)
  | right _ _ iha ihb => exact op iha ihb (numOp_dbls _ ⟨.int, .dbl, .inr ⟨_, rfl⟩⟩)

theorem numExpr_wf {e : NumExpr} {v : Val} (h : e.Is v) : e.code.WF := by
  have op : ∀ {o : NumOp} {a b : NumExpr}, a.code.WF → b.code.WF → (NumExpr.op o a b).code.WF := fun {o a b} ha hb =>
    ⟨by cases o <;> simp [Sexp.WF, NumOp.name, SymbolName, Spec.Plain, White, NumberLike, dropSign, Digit, reserved], ha, hb, trivial⟩
  induction h with
  | int h => exact h
  | float h => exact ⟨_, h⟩
  | ints _ _ _ _ iha ihb => exact op iha ihb
  | floats _ _ iha ihb => exact op iha ihb
  | left _ _ iha ihb => exact op iha ihb
  | right _ _ iha ihb => exact op iha ihb

theorem numExpr_heads (e : NumExpr) : e.code.Heads (fun n => n ∉ hidden ∧ n ≠ c!"define-macro-expand") := by
  induction e with
  | int i => trivial
  | float t => trivial
  | op o a b iha ihb => exact ⟨by cases o <;> simp [Sexp.text, NumOp.name, hidden], trivial, iha, ihb, trivial⟩

/-- C82: the program `(println e)`, where `e` is an expression over integers, floating-point numbers, `+`, `-`, `*` and `/`, of any depth, in any
layout and with any comments, writes the text of the value of the expression and a newline.  The value: operations on two integers give integers
(all intermediate results have 32 bits, no division by zero), all other operations are operations on floating-point numbers, integers are converted. -/
theorem C82_numbers {e : NumExpr} {v : Val} (he : e.Is v) {t : Str} (ht : NumText v t) {text : Str} (hw : Written [.list [.sym c!"println", e.code]] text) {st : St}
    (hr : Reachable st) (module : Str) : ∃ w st', Runs text module st (.ok (some w) st') ∧ IsStr w (t) ∧ st'.out = st.out ++ (t ++ c!"\n") := by
  have hj : joined [t] = t := by cases t <;> simp [joined, List.dropWhile, List.intercalate]
  have hs : Shown false v t := by cases ht with | int => exact .int | dbl => exact .dbl
  have hE : Exec 0 (.list [.sym c!"println", e.code]) Conf.start (.str (t)) (Conf.start.write (t ++ c!"\n")) := by
    have := Prints.println (ShownAll.cons hs .nil)
    rw [hj] at this
    exact .call .list (value_start 0 (b := .println) (s := false) (by decide) (by decide)) (.other (numExpr_not_sym e) (numExpr_exec he) .nil) (.prints this)
  obtain ⟨w, st', μ, h1, h2, h3⟩ := C55_core (xs := [.list [.sym c!"println", e.code]])
    ⟨⟨by simp [Sexp.WF, SymbolName, Spec.Plain, White, NumberLike, dropSign, Digit, reserved], numExpr_wf he, trivial⟩, trivial⟩ hw
    ⟨⟨by simp [Sexp.text, hidden], trivial, numExpr_heads e, trivial⟩, trivial⟩ hr module (.next ⟨_, _, .list⟩ hE rfl .done)
  exact ⟨w, st', h1, isVal_str_inv h2, by simpa [Conf.start, Conf.write] using h3⟩

end

/-! ## The hypotheses are met -/

theorem floatWord_one_half [World] {d : Dbl} (h : World.dStod c!"1.5" = some d) : FloatWord c!"1.5" d :=
  floatWord_of (i := 1) (n := 1) (by decide) ⟨[], c!"1.5", rfl, .inl rfl, Unsigned.decimal (m := c!"1" ++ '.' :: c!"5") (.point (by simp [Digit]) (by simp [Digit]) (by simp)) .none⟩ (by decide) (by decide) (by simp [IsInt32]) h

/-- For C06: an s-expression with a floating-point number. -/
example [World] {d : Dbl} (h : World.dStod c!"1.5" = some d) : (Sexp.list [.sym c!"f", .float c!"1.5"]).WF :=
  ⟨by simp [Sexp.WF, SymbolName, Spec.Plain, White, NumberLike, dropSign, Digit, reserved], ⟨d, floatWord_one_half h⟩, trivial⟩

/-- `(println (* 1.5 (+ 2 3)))` prints 1.5 times 5. -/
example [World] {d : Dbl} (h : World.dStod c!"1.5" = some d) : ∃ w st',
    Runs c!"(println (* 1.5 (+ 2 3)))" c!"demo" ({} : St) (.ok (some w) st') ∧ st'.out = World.dToStr (World.dMul d (World.dOfInt 5)) ++ c!"\n" := by
  have he : NumExpr.Is (.op .mul (.float c!"1.5") (.op .add (.int 2) (.int 3))) (.dbl (World.dMul d (World.dOfInt 5))) :=
    .left (.float (floatWord_one_half h)) (.ints (.int (by simp [IsInt32])) (.int (by simp [IsInt32])) rfl (by simp [IsInt32]))
  obtain ⟨w, st', h1, -, h2⟩ := C82_numbers he .dbl (written_sources (by
    refine ⟨⟨?_, numExpr_wf he, trivial⟩, trivial⟩
    simp [Sexp.WF, SymbolName, Spec.Plain, White, NumberLike, dropSign, Digit, reserved])) (st := {})
    (.init rfl (fun _ => rfl) (fun _ => rfl) (fun _ => rfl) (fun _ => rfl)) c!"demo"
  exact ⟨w, st', h1, h2⟩

end Fuel
