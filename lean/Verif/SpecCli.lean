import Verif.Cli
/-!
# Specifications for the command line
-/

namespace Fuel.Spec

variable [World]

/-- The argument is an option. -/
def IsOption (a : Str) : Prop := a.head? = some '-'

instance (a : Str) : Decidable (IsOption a) := by unfold IsOption; infer_instance

/-- The script files: the arguments that are no options, in their order. -/
def files (args : List Str) : List Str := args.filter fun a => decide (¬ IsOption a)

/-- The options that can be combined, without the library path. -/
def flags (hasDebugger : Bool) : List Str :=
  [c!"-m", c!"--doc", c!"--html", c!"--macro-expand", c!"-x", c!"-t", c!"-e"] ++ if hasDebugger then [c!"-i", c!"-d"] else []

/-- No argument gives a library path. -/
def NoLib (args : List Str) : Prop := ∀ a ∈ args, ¬ c!"-l=" <+: a

/-- The arguments give no library path, or one, in the last argument. -/
inductive LibLast (args : List Str) : Option Str → Prop
  | none : NoLib args → LibLast args none
  | last {a path} : args = a ++ [c!"-l=" ++ path] → NoLib a → LibLast args (some path)

/-- The script text: given with `-e`, or the call that shows the documentation, or empty. -/
def scriptText (args : List Str) : Str :=
  if c!"-e" ∈ args then (files args).headD []
  else if c!"--html" ∈ args then c!"(htmldoc)"
  else if c!"--doc" ∈ args then c!"(doc)"
  else []

/-- What the arguments ask for. -/
def plan (hasDebugger : Bool) (args : List Str) (lib : Option Str) : Plan where
  measure := decide (c!"-m" ∈ args)
  trace := decide (c!"-t" ∈ args ∨ c!"--doc" ∈ args ∨ c!"--html" ∈ args)
  expand := decide (c!"--macro-expand" ∈ args)
  lengthy := decide (c!"-x" ∈ args)
  interactive := hasDebugger && decide (c!"-i" ∈ args)
  debug := hasDebugger && decide (c!"-d" ∈ args)
  loadFiles := decide (¬ (c!"--doc" ∈ args ∨ c!"--html" ∈ args ∨ c!"-e" ∈ args))
  script := scriptText args
  files := files args
  libPath := lib

/-- How often the argument is understood as an option. -/
def known (hasDebugger : Bool) (lib : Option Str) (a : Str) : Nat :=
  (if a ∈ flags hasDebugger then 1 else 0) + (match lib with | some p => if a = c!"-l=" ++ p then 1 else 0 | none => 0)

/-- `rest` are the options of `args` that are unknown or given more than once, without their first occurrence if they
are known. -/
structure Unknown (hasDebugger : Bool) (lib : Option Str) (args rest : List Str) : Prop where
  order : rest.Sublist args
  count : ∀ a, rest.count a = if IsOption a then args.count a - known hasDebugger lib a else 0

end Fuel.Spec
