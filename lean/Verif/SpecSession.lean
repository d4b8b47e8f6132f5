import Verif.SpecShell
/-!
# Specification of a session with the debugger (`fuel -d FILE`)

The debugger stops the program before its first step and asks for commands.  The user asks questions about the debugger, lets the
program run, or leaves.  When the program has ended, it is started again from the beginning, with everything defined anew.
-/

namespace Fuel.Spec.Core

variable [World]

/-- The debugger shows where the program stops before its first step.  The whole program is a `do` form that the interpreter writes around
the text of the user, so its position lies before the text. -/
def stopLine (module : Str) : Str := c!"--> do line=1 start=-3 stop=-1 module=" ++ module ++ c!" token=do\n"

/-- What happens at a stop: the lines of the input, whether the program runs on, the lines that are left, and what is written.  The command
`restart` lets the program run on as `run` does. -/
inductive Dialog : List Str → Bool → List Str → Str → Prop
  | eof : Dialog [] false [] prompt
  | quit {l ls c} : Typed l c → c ∈ [c!"", c!"exit", c!"quit", c!"q"] → Dialog (l :: ls) false ls prompt
  | run {l ls c} : Typed l c → c ∈ [c!"run", c!"r", c!"restart"] → Dialog (l :: ls) true ls prompt
  | info {l ls c t b rest out} : Typed l c → Info c t → Dialog ls b rest out → Dialog (l :: ls) b rest (prompt ++ t ++ out)

/-- A session for the program `xs`: the lines of the input, the lines that are left at the end, and what is written.  The program itself
reads the lines after the command that lets it run. -/
inductive DebugSession (xs : List Sexp) (module : Str) : List Str → List Str → Str → Prop
  | leave {i i' t} : Dialog i false i' t → DebugSession xs module i i' (stopLine module ++ t)
  | run {i ls t v R i' out} : Dialog i true ls t → Seq 0 (some .undef) xs { Conf.start with input := ls } v R → DebugSession xs module R.input i' out →
      DebugSession xs module i i' (stopLine module ++ t ++ R.out ++ c!"restart program\n" ++ out)

end Fuel.Spec.Core
