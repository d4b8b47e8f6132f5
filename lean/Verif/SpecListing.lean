import Verif.SpecDbg
import Verif.SpecFormat
/-!
# Specifications for the listings and the `break` command of the debugger
-/

namespace Fuel.Spec

variable [World]

/-- The text occurs in the other one. -/
def Occurs (needle txt : Str) : Prop := ∃ a b, txt = a ++ needle ++ b

/-- The text can be the last column of a listing: it is not the text for a missing argument and it has none of the remaining
placeholders of the format text. -/
def LastColumn (l : Str) : Prop := l ≠ c!"##<NULL>##" ∧ ¬ Occurs c!"{3," l ∧ ¬ Occurs c!"{4}" l ∧ ¬ Occurs c!"{4," l

/-- The line of a breakpoint in the list of breakpoints. -/
def bpLine (no : Nat) (b : Bp) : Str :=
  c!"#" ++ pad (-3) (natStr no) ++ c!" line=" ++ pad (-5) (natStr b.line) ++ c!" module=" ++ pad (-25) b.module ++
    c!" condition=" ++ b.cond ++ c!"\n"

/-- The list of breakpoints, numbered from `no`. -/
def bpLines : Nat → List Bp → Str
  | _, [] => []
  | no, b :: t => bpLine no b ++ bpLines (no + 1) t

/-- Line number `no` of a script, whose text is `l`, in a listing: the number, `B` for a line with a breakpoint, an arrow for
the current line, the text. -/
def CodeLine (bps : List Bp) (module : Str) (current : Option Int) (no : Nat) (l out : Str) : Prop :=
  ∃ mark arrow, out = pad 3 (natStr no) ++ c!" " ++ mark ++ c!" " ++ arrow ++ c!" " ++ l ++ c!"\n" ∧
    ((mark = c!"B " ∧ ∃ b ∈ bps, Matches b no module) ∨ (mark = c!"  " ∧ ∀ b ∈ bps, ¬ Matches b no module)) ∧
    ((arrow = c!"-->" ∧ current = some (no : Int)) ∨ (arrow = c!"   " ∧ current ≠ some (no : Int)))

/-- The listing of the lines of a script, numbered from `no`. -/
inductive Listing (bps : List Bp) (module : Str) (current : Option Int) : Nat → List Str → Str → Prop
  | nil {no} : Listing bps module current no [] []
  | cons {no l ls out outs} : CodeLine bps module current no l out → Listing bps module current (no + 1) ls outs →
      Listing bps module current no (l :: ls) (out ++ outs)

/-- The text that the debugger shows: the file of the module; without a module the lines entered so far; and if this text is
empty the script given on the command line. -/
inductive Source (st : St) (entered given : Str) : Str → Str → Prop
  | file {module t} : module ≠ [] → ¬ (∃ r, module = c!"<evalstr>:" ++ r) → st.files.lookup module = some t → t ≠ [] → Source st entered given module t
  | missing {module} : module ≠ [] → ¬ (∃ r, module = c!"<evalstr>:" ++ r) → st.files.lookup module = none ∨ st.files.lookup module = some [] →
      Source st entered given module given
  | entered : entered ≠ [] → Source st entered given [] entered
  | given : entered = [] → Source st entered given [] given

/-- The text after the name of the `break` command: a line number, optionally with a module and with a condition. -/
inductive BreakText (current : Str) : Str → Nat → Str → Str → Prop
  | line {num : Str} {no : Nat} : Numeral num (no : Int) → BreakText current num no current []
  | cond {num : Str} {no : Nat} {c} : Numeral num (no : Int) → Tight c → c ≠ [] → BreakText current (num ++ c!" " ++ c) no current c
  | module {num : Str} {no : Nat} {m} : Numeral num (no : Int) → ' ' ∉ m → Tight m → m.head? ≠ some '"' → BreakText current (m ++ c!":" ++ num) no m []
  | moduleCond {num : Str} {no : Nat} {m c} : Numeral num (no : Int) → ' ' ∉ m → Tight m → m.head? ≠ some '"' → Tight c → c ≠ [] →
      BreakText current (m ++ c!":" ++ num ++ c!" " ++ c) no m c
  | quoted {num : Str} {no : Nat} {m} : Numeral num (no : Int) → '"' ∉ m → BreakText current (c!"\"" ++ m ++ c!"\":" ++ num) no m []
  | quotedCond {num : Str} {no : Nat} {m c} : Numeral num (no : Int) → '"' ∉ m → Tight c → c ≠ [] →
      BreakText current (c!"\"" ++ m ++ c!"\":" ++ num ++ c!" " ++ c) no m c

end Fuel.Spec
