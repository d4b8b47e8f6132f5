import Verif.PropsCore
import Verif.PropsError
/-!
# `format` in programs (C13)
-/

set_option linter.unusedSectionVars false
set_option linter.unusedSimpArgs false
set_option linter.unusedVariables false

namespace Fuel.Spec.Core

/-- A number or a text in the source of a program. -/
inductive FmtArg where
  | int (i : Int)
  | str (s : Str)

/-- Its expression. -/
def FmtArg.code : FmtArg → Sexp
  | .int i => .int i
  | .str s => .str s

/-- Its text. -/
def FmtArg.text : FmtArg → Str
  | .int i => intStr i
  | .str s => s

/-- Numbers have 32 bits, texts have no curly brackets. -/
def FmtArg.Ok : FmtArg → Prop
  | .int i => IsInt32 i
  | .str s => BraceFree s ∧ s ≠ c!"##<NULL>##"

/-- The call `(format "..." a b ...)`. -/
def formatCall (pieces : List Slot) (args : List FmtArg) : Sexp := .list (.sym c!"format" :: .str (slotSources pieces) :: args.map FmtArg.code)

end Fuel.Spec.Core

namespace Fuel

open Spec Spec.Core

section
variable [World]

/-- The value of a literal. -/
def FmtArg.val : FmtArg → Val
  | .int i => .int i
  | .str s => .str s

theorem fmtArg_exec (f : Nat) (R0 R : Conf) : ∀ l : List FmtArg, Operands f R0 (l.map FmtArg.code) R (l.map FmtArg.val) R
  | [] => .nil
  | .int _ :: l => .other (by simp [FmtArg.code]) .int (fmtArg_exec f R0 R l)
  | .str _ :: l => .other (by simp [FmtArg.code]) .str (fmtArg_exec f R0 R l)

theorem fmtArg_shown : ∀ l : List FmtArg, ShownAll false (l.map FmtArg.val) (l.map FmtArg.text)
  | [] => .nil
  | .int _ :: l => .cons .int (fmtArg_shown l)
  | .str _ :: l => .cons .str (fmtArg_shown l)

theorem fmtArg_ok {l : List FmtArg} (h : ∀ a ∈ l, a.Ok) : ∀ t ∈ l.map FmtArg.text, BraceFree t ∧ t ≠ c!"##<NULL>##" := by
  intro t ht
  obtain ⟨a, ha, rfl⟩ := List.mem_map.1 ht
  have := h a ha
  cases a with
  | int i => exact intStr_text i
  | str s => exact this

theorem fmtArg_wf {l : List FmtArg} (h : ∀ a ∈ l, a.Ok) : Sexp.WFs (l.map FmtArg.code) := by
  induction l with
  | nil => trivial
  | cons a l ih =>
    refine ⟨?_, ih fun b hb => h b (by simp [hb])⟩
    have := h a (by simp)
    cases a with
    | int i => exact this
    | str s => trivial

theorem fmtArg_heads (P : Str → Prop) : ∀ l : List FmtArg, Sexp.HeadsAll P (l.map FmtArg.code)
  | [] => trivial
  | .int _ :: l => ⟨trivial, fmtArg_heads P l⟩
  | .str _ :: l => ⟨trivial, fmtArg_heads P l⟩

/-- C13: the program `(println (format "..." a b ...))`, with at most five numbers and texts, writes the format text with the arguments for the
placeholders, filled up to the width of the placeholder. -/
theorem C13_program {pieces : List Slot} {args : List FmtArg} (hp : ∀ p ∈ pieces, SlotOk p) (hd : (slotNums pieces).Nodup)
    (hi : ∀ i ∈ slotNums pieces, i < args.length) (hn : args.length ≤ 5) (ha : ∀ a ∈ args, a.Ok) {text : Str}
    (hw : Written [.list [.sym c!"println", formatCall pieces args]] text) {st : St} (hr : Reachable st) (module : Str) :
    ∃ w st', Runs text module st (.ok (some w) st') ∧ IsStr w (slotFill (args.map FmtArg.text) pieces) ∧
      st'.out = st.out ++ (slotFill (args.map FmtArg.text) pieces ++ c!"\n") := by
  generalize ho : slotFill (args.map FmtArg.text) pieces = o
  have hF : Exec 0 (formatCall pieces args) Conf.start (.str o) Conf.start := by
    have := Fn.format (fmtArg_shown args) (by simpa using hn) hp hd (by simpa using hi) (fmtArg_ok ha)
    rw [ho] at this
    exact .call .list (value_start 0 (b := .format) (s := false) (by decide) (by decide)) (.other (by simp) .str (fmtArg_exec 0 _ _ args)) (.fn this)
  have hj : joined [o] = o := by cases o <;> simp [joined, List.dropWhile, List.intercalate]
  have hE : Exec 0 (.list [.sym c!"println", formatCall pieces args]) Conf.start (.str o) (Conf.start.write (o ++ c!"\n")) := by
    have := Prints.println (ShownAll.cons (Shown.str (s := o)) .nil)
    rw [hj] at this
    exact .call .list (value_start 0 (b := .println) (s := false) (by decide) (by decide)) (.other (by simp [formatCall]) hF .nil) (.prints this)
  obtain ⟨w, st', μ, h1, h2, h3⟩ := C55_core (xs := [.list [.sym c!"println", formatCall pieces args]])
    ⟨⟨by simp [Sexp.WF, SymbolName, Spec.Plain, White, NumberLike, dropSign, Digit, reserved],
      ⟨by simp [Sexp.WF, SymbolName, Spec.Plain, White, NumberLike, dropSign, Digit, reserved], trivial, fmtArg_wf ha⟩, trivial⟩, trivial⟩ hw
    ⟨⟨by simp [Sexp.text, hidden], trivial, ⟨by simp [Sexp.text, hidden], trivial, trivial, fmtArg_heads _ args⟩, trivial⟩, trivial⟩ hr module
    (.next ⟨_, _, .list⟩ hE rfl .done)
  exact ⟨w, st', h1, isVal_str_inv h2, by simpa [Conf.start, Conf.write] using h3⟩

/-- C13: a program that starts with `(format "..." a b ...)` stops with an exception and writes nothing, if a placeholder with a number below 5
has no argument. -/
theorem C13_program_missing {pieces : List Slot} {args : List FmtArg} {rest : List Sexp} (hp : ∀ p ∈ pieces, SlotOk p) (hd : (slotNums pieces).Nodup)
    (hi : ∀ i ∈ slotNums pieces, i < 10) (hn : args.length ≤ 5) (ha : ∀ a ∈ args, a.Ok) {i : Nat} (hm : i ∈ slotNums pieces) (h1 : args.length ≤ i) (h5 : i < 5)
    (hx : Sexp.WFs rest) (hh : Sexp.HeadsAll (fun n => n ∉ hidden ∧ n ≠ c!"define-macro-expand") rest) {text : Str}
    (hw : Written (formatCall pieces args :: rest) text) {st : St} (hr : Reachable st) (module : Str) :
    ∃ e st', Runs text module st (.fail (.exn e) st') ∧ e.isLisp = true ∧ e.msg = c!"Not enough items for format string: " ++ slotSources pieces ∧
      st'.out = st.out := by
  have hF : Fails 0 (formatCall pieces args) Conf.start (c!"Not enough items for format string: " ++ slotSources pieces) Conf.start.out :=
    .call .list (value_start 0 (b := .format) (s := false) (by decide) (by decide)) (.other (by simp) .str (fmtArg_exec 0 _ _ args))
      (.fn (.format (fmtArg_shown args) (by simpa using hn) hp hd hi (fmtArg_ok ha) hm (by simpa using h1) h5))
  obtain ⟨e, st', g1, g2, g3, g4⟩ := C78_error (xs := formatCall pieces args :: rest)
    ⟨⟨by simp [Sexp.WF, SymbolName, Spec.Plain, White, NumberLike, dropSign, Digit, reserved], trivial, fmtArg_wf ha⟩, hx⟩ hw
    ⟨⟨by simp [Sexp.text, hidden], trivial, trivial, fmtArg_heads _ args⟩, hh⟩ hr module (.here hF)
  exact ⟨e, st', g1, g2, g3, by simpa [Conf.start] using g4⟩

end

/-! ## The hypotheses are met -/

section
attribute [local instance] demoWorld

/-- `(println (format "{1,4}|{0}|" "x" 7))` -/
example : ∃ w st', Runs (Sexp.sources [.list [.sym c!"println", formatCall [.wide 1 c!"4" 4, .lit c!"|", .hole 0, .lit c!"|"] [.str c!"x", .int 7]]]) c!"demo" ({} : St)
    (.ok (some w) st') ∧ st'.out = c!"   7|x|\n" := by
  have ha : ∀ a ∈ [FmtArg.str c!"x", .int 7], a.Ok := by simp [FmtArg.Ok, BraceFree, IsInt32]
  have hp : ∀ p ∈ [Slot.wide 1 c!"4" 4, .lit c!"|", .hole 0, .lit c!"|"], SlotOk p := by
    have : Numeral c!"4" 4 := ⟨c!"4", by simp, by simp [Digit], Or.inl ⟨rfl, rfl⟩⟩
    simp [SlotOk, BraceFree, IsInt32, this]
  obtain ⟨w, st', h1, -, h2⟩ := C13_program hp (by decide) (by decide) (by decide) ha (written_sources
    ⟨⟨by simp [Sexp.WF, SymbolName, Spec.Plain, White, NumberLike, dropSign, Digit, reserved],
      ⟨by simp [Sexp.WF, SymbolName, Spec.Plain, White, NumberLike, dropSign, Digit, reserved], trivial, fmtArg_wf ha⟩, trivial⟩, trivial⟩) (st := {})
    (.init rfl (fun _ => rfl) (fun _ => rfl) (fun _ => rfl) (fun _ => rfl)) c!"demo"
  exact ⟨w, st', h1, by rw [h2]; decide⟩

example : Sexp.sources [.list [.sym c!"println", formatCall [.wide 1 c!"4" 4, .lit c!"|", .hole 0, .lit c!"|"] [.str c!"x", .int 7]]] =
    c!"(println (format \"{1,4}|{0}|\" \"x\" 7))" := by decide +kernel

/-- `(format "{0}{2}" 1 2)` -/
example : ∃ e st', Runs (Sexp.sources [formatCall [.hole 0, .hole 2] [.int 1, .int 2]]) c!"demo" ({} : St) (.fail (.exn e) st') ∧
    e.msg = c!"Not enough items for format string: {0}{2}" ∧ st'.out = [] := by
  have ha : ∀ a ∈ [FmtArg.int 1, .int 2], a.Ok := by simp [FmtArg.Ok, IsInt32]
  obtain ⟨e, st', h1, -, h2, h3⟩ := C13_program_missing (pieces := [.hole 0, .hole 2]) (rest := []) (by simp [SlotOk]) (by decide) (by decide) (by decide) ha (i := 2)
    (by decide) (by decide) (by decide) trivial trivial (written_sources
    ⟨⟨by simp [Sexp.WF, SymbolName, Spec.Plain, White, NumberLike, dropSign, Digit, reserved], trivial, fmtArg_wf ha⟩, trivial⟩) (st := {})
    (.init rfl (fun _ => rfl) (fun _ => rfl) (fun _ => rfl) (fun _ => rfl)) c!"demo"
  exact ⟨e, st', h1, h2, h3⟩

end

end Fuel
