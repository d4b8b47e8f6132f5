import Verif.SpecCore
import Verif.SpecError
import Verif.SpecDoc
/-!
# Specification of the interactive shell

What a user of `fuel -i` sees: after each prompt the shell reads a line of the standard input.  The line is a question about the shell
itself, a command to leave it, or code that is executed in the global scope of the shell, whose result is shown.  What the lines define
stays defined.
-/

namespace Fuel.Spec.Core

variable [World]

/-- The prompt. -/
def prompt : Str := c!"FUEL(isp)-DBG> "

/-- Name and version. -/
def banner : Str := c!"\nFUEL(isp) v0.99.6 (for C++) from 16.12.2023, (C) by Michael Neuroth\n\n"

/-- What the shell writes first. -/
def greeting : Str := banner ++ c!"Type \"help\" for informations.\n\n"

/-- The answer to `help`. -/
def manual : Str := c!"
help for interactive loop:

  (h)elp                       : show this help
  version                      : show of this interpreter
  about                        : show informations about this interpreter
  (c)ode                       : show the program code
  stac(k)                      : show the current call stack
  (u)p                         : go one step up in call stack
  (d)own                       : go one step down in call stack
  (r)un                        : execute the program
  (s)tep                       : step into function
  o(v)er                       : step over function
  (o)ut                        : step out of function
  (b)reak [module:]line [cond] : set a breakpoint in line no with condition cond
  clear [no]                   : clears a breakpoint with number no or clears all
  lis(t)                       : shows all breakpoints
  restart                      : restart program
  (l)ocals                     : show all local variables of current scope
  (g)lobals                    : show all global variables
  modules                      : show all available modules
  builtins                     : show all builtin functions
  funcs                        : show all available functions
  macros                       : show all available macros
  doc [function]               : show documentation for all or only given function(s)
  searchdoc name               : show documentation for function(s) containing name
  exit                         : exit the interactive loop

"

/-- The command in a line: the line without the white space at both ends. -/
def Typed (line cmd : Str) : Prop := ∃ a b, line = a ++ cmd ++ b ∧ (∀ c ∈ a, White c) ∧ (∀ c ∈ b, White c) ∧ Tight cmd

/-- Questions about the shell and their answers. -/
inductive Info : Str → Str → Prop
  | help {c} : c ∈ [c!"help", c!"h"] → Info c manual
  | about : Info c!"about" (banner ++ c!"FUEL(isp) is a fast usable embeddable lisp interpreter\n\n")
  | version {c} : c ∈ [c!"version", c!"ver"] → Info c banner

/-- The expressions are executed; the result is shown as this text. -/
inductive Answer (R : Conf) : List Sexp → Conf → Str → Prop
  | value {xs v R' t} : Exec 0 (.list (.sym c!"do" :: xs)) R v R' → Shown false v t → Answer R xs R' t
  | function {e h n ps body} : Head R 0 c!"do" (.prim c!"do") → Form e h [.sym n, .list (ps.map .sym), body] → Head R 0 h (.prim c!"defn") → n ∉ hidden →
      (R.frames 0).vars c!"fn" = some (.prim c!"fn") → (R.frames 0).vars c!"def" = some (.prim c!"def") →
      Answer R [e] (R.set 0 n (.clo ps body 0)) (c!"function " ++ syntaxText n ps)

/-- The next line is code: it does not begin with a letter. -/
structure CodeLine (R : Conf) (ls : List Str) (xs : List Sexp) : Prop where
  line : ∃ l text, R.input = l :: ls ∧ Typed l text ∧ (∃ c r, text = c :: r ∧ c.isAlpha = false) ∧ Written xs text
  wf : Sexp.WFs xs
  literal : Literal R 0 (.list (.sym c!"do" :: xs))

/-- The line was read after the prompt. -/
def Conf.asked (R : Conf) (ls : List Str) : Conf := { R.write prompt with input := ls }

/-- One line of a session, with the configurations before and after it. -/
inductive Turn : Conf → Conf → Prop
  | info {R l ls c t} : R.input = l :: ls → Typed l c → Info c t → Turn R ((R.asked ls).write t)
  | code {R ls xs R' t} : CodeLine R ls xs → Answer (R.asked ls) xs R' t → Sound t → Turn R (R'.write (c!"result=" ++ t ++ c!"\n"))

/-- Some lines of a session. -/
inductive Turns : Conf → Conf → Prop
  | nil {R} : Turns R R
  | cons {R R1 R'} : Turn R R1 → Turns R1 R' → Turns R R'

/-- The session ends: there are no more lines, or the line is empty or asks for the end. -/
inductive Leaves : Conf → Conf → Prop
  | eof {R} : R.input = [] → Leaves R (R.write prompt)
  | quit {R l ls c} : R.input = l :: ls → Typed l c → c ∈ [c!"", c!"exit", c!"quit", c!"q"] → Leaves R (R.asked ls)

/-- A whole session. -/
def ShellSession (R R' : Conf) : Prop := ∃ R1, Turns R R1 ∧ Leaves R1 R'

/-- The next line is code that makes an error with this message; `t` is the text written until then. -/
def Mistake (R : Conf) (msg t : Str) : Prop := ∃ ls xs, CodeLine R ls xs ∧ Fails 0 (.list (.sym c!"do" :: xs)) (R.asked ls) msg t

end Fuel.Spec.Core
