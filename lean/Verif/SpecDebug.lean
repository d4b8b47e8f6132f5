import Verif.SpecListing
/-!
# Specifications for running a program under the debugger
-/

namespace Fuel.Spec

variable [World]

/-- The line that `(break)` writes if no debugger is attached. -/
def breakWarning : Str := c!"Warning: can not break, because no debugger support availabe!\n"

/-- `Shown p d`: the output `d` of the debugged run contains the output `p` of the program in order, with text of the debugger in
between; only the warning of `(break)` is missing. -/
inductive Shown : Str → Str → Prop
  | start : Shown [] []
  | program {p d} (w : Str) : Shown p d → Shown (p ++ w) (d ++ w)
  | debugger {p d} (w : Str) : Shown p d → Shown p (d ++ w)
  | noWarning {p d} : Shown p d → Shown (p ++ breakWarning) d

/-- Commands of the debugger that do not evaluate code and have no arguments. -/
def plainCommands : List Str := [c!"", c!"exit", c!"quit", c!"q", c!"help", c!"h", c!"about", c!"funcs", c!"macros", c!"builtins", c!"modules",
  c!"stack", c!"k", c!"code", c!"c", c!"list", c!"t", c!"up", c!"u", c!"down", c!"d", c!"step", c!"s", c!"over", c!"v", c!"out", c!"o", c!"run", c!"r",
  c!"locals", c!"l", c!"globals", c!"g", c!"restart", c!"version", c!"ver"]

/-- A line typed by the user at the prompt of the debugger that evaluates no code: one of the commands without arguments, the removal
of a breakpoint, or a breakpoint without condition. -/
inductive Passive (line : Str) : Prop
  | plain : trim line ∈ plainCommands → Passive line
  | clear {num : Str} {no : Int} : trim line = c!"clear " ++ num → Numeral num no → Passive line
  | brk {name text : Str} : trim line = name ++ c!" " ++ text → name = c!"b" ∨ name = c!"break" →
      (∀ current, ∃ no module, no < 2147483648 ∧ BreakText current text no module []) → Passive line

/-- No breakpoint has a condition. -/
def NoCondition (d : Dbg) : Prop := ∀ b ∈ d.bps, b.cond = []

/-- The states agree in everything but the output, the input that has been read, and the debugger. -/
structure SameProgram (s s' : St) : Prop where
  next : s'.next = s.next
  lists : s'.lists = s.lists
  dicts : s'.dicts = s.dicts
  clos : s'.clos = s.clos
  scopes : s'.scopes = s.scopes
  files : s'.files = s.files
  clock : s'.clock = s.clock
  libPath : s'.libPath = s.libPath

/-- Nothing stops the program: the debugger is in run mode and has no breakpoints. -/
def RunsFree (d : Dbg) : Prop := d.stop = false ∧ d.bps = []

end Fuel.Spec
