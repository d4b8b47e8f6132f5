import Verif.SpecListing
import Verif.SpecDisplay
import Verif.SpecConv
/-!
# Specification of what the debugger shows of a stopped program
-/

namespace Fuel.Spec

variable [World]

/-- The calls that are active in a scope, the main program first. -/
inductive CallStack (st : St) : Nat → List Nat → Prop
  | main {s} : (st.scopes s).prev = none → CallStack st s [s]
  | call {s p l} : (st.scopes s).prev = some p → CallStack st p l → CallStack st s (l ++ [s])

/-- The number of the line that is evaluated in the scope.  (If nothing was evaluated yet, it is the greatest number of 64 bits.) -/
def lineText (sc : Scope) : Str :=
  match sc.curTok with
  | some t => intStr t.line
  | none => c!"18446744073709551615"

/-- The line for a call: an arrow at the selected one, its number, the name of the function, the line and the module. -/
def stackLine (selected no : Nat) (sc : Scope) : Str :=
  (if selected = no then c!"-->" else c!"   ") ++ pad 5 (natStr no) ++ c!" name=" ++ pad (-35) sc.name ++ c!" lineno=" ++ pad (-4) (lineText sc) ++
    c!" module=" ++ sc.module ++ c!"\n"

/-- The lines for calls, numbered from `no`. -/
def stackLines (selected : Nat) : Nat → List Scope → Str
  | _, [] => []
  | no, sc :: t => stackLine selected no sc ++ stackLines selected (no + 1) t

/-- The text can be a column of a listing. -/
def Column (t : Str) : Prop := BraceFree t ∧ t ≠ c!"##<NULL>##"

/-- Entries of the interpreter itself have names that start with three number signs. -/
def Own (n : Str) : Prop := ∃ r, n = c!"###" ++ r

/-- The text of a value in a listing: strings are put into quotation marks. -/
inductive Inspected (st : St) : Variant → Str → Prop
  | text {v s} : IsStr v s → Inspected st v (c!"\"" ++ s ++ c!"\"")
  | value {v t} : (∀ s, ¬ IsStr v s) → Displays st v t → Inspected st v t

/-- The line of a variable. -/
def entryLine (name shown type extra : Str) : Str :=
  pad 20 name ++ c!" --> " ++ pad (-40) shown ++ c!" : " ++ type ++ c!" " ++ extra ++ c!"\n"

/-- The lines for the variables that are selected, in their order; `extra` is the text at the end of a line. -/
inductive Table (st : St) (sel : Variant → Prop) (extra : Variant → Str → Prop) : List (Str × Ptr) → Str → Prop
  | nil : Table st sel extra [] []
  | own {n p l out} : Own n → Table st sel extra l out → Table st sel extra ((n, p) :: l) out
  | other {n i v l out} : ¬ Own n → ¬ sel v → (v.type = .function → ∃ f, IsFn v f) → Table st sel extra l out → Table st sel extra ((n, .mk i (.var v)) :: l) out
  | entry {n i v l out shown no type e} : ¬ Own n → sel v → Inspected st v shown → HasType v no type → extra v e → Column n → Column shown → Column e →
      Table st sel extra l out → Table st sel extra ((n, .mk i (.var v)) :: l) (entryLine n shown type e ++ out)

/-- A variable of the program: everything but a built-in function. -/
def OfProgram (v : Variant) : Prop := ∀ f, IsFn v f → f.builtin = false

/-- A built-in function. -/
def IsBuiltin (v : Variant) : Prop := ∃ f, IsFn v f ∧ f.builtin = true

/-- A function. -/
def IsFunction (v : Variant) : Prop := ∃ f, IsFn v f

/-- Nothing at the end of the line. -/
def NoExtra (_ : Variant) (t : Str) : Prop := t = []

/-- The module in which a function was defined.  The name of the module of a text that is evaluated has the text after it, which is not shown. -/
inductive ModuleName : Str → Str → Prop
  | plain {m} : ¬ (∃ r, m = c!"<evalstr>:" ++ r) → ModuleName m m
  | evalstr {m code} : ':' ∉ m → ModuleName (c!"<evalstr>:" ++ m ++ c!":" ++ code) m

/-- The module at the end of the line. -/
def InModule (v : Variant) (t : Str) : Prop := ∃ f m, IsFn v f ∧ ModuleName f.moduleName m ∧ t = c!" : module=" ++ m

/-- The functions of the modules, one module after the other. -/
inductive ModuleTables (st : St) : List (Str × Ptr) → Str → Prop
  | nil : ModuleTables st [] []
  | cons {n i m l out outs} : Table st IsFunction InModule (st.scopes m).vars out → ModuleTables st l outs → ModuleTables st ((n, .mk i (.scope m)) :: l) (out ++ outs)

/-- The entries of the table of macros or of modules in scope `g`. -/
inductive MetaTable (st : St) (g : Nat) (key : Str) : List (Str × Ptr) → Prop
  | none : (st.scopes g).vars.lookup key = none → MetaTable st g key []
  | some {i m} : (st.scopes g).vars.lookup key = some (.mk i (.scope m)) → MetaTable st g key (st.scopes m).vars

/-- One line for each name. -/
def nameLines (l : List (Str × Ptr)) : Str := (l.map fun e => e.1 ++ c!"\n").flatten

/-- The lines of the help for the built-in functions. -/
inductive HelpTable : List (Str × Ptr) → Str → Prop
  | nil : HelpTable [] []
  | own {n p l out} : Own n → HelpTable l out → HelpTable ((n, p) :: l) out
  | other {n i v l out} : ¬ Own n → ¬ IsBuiltin v → (v.type = .function → ∃ f, IsFn v f) → HelpTable l out → HelpTable ((n, .mk i (.var v)) :: l) out
  | plain {n i v l out f} : ¬ Own n → IsFn v f → f.builtin = true → Column n → Column f.signature → f.doc = [] → HelpTable l out →
      HelpTable ((n, .mk i (.var v)) :: l) (pad 20 n ++ c!" --> " ++ f.signature ++ c!"\n" ++ out)
  | doc {n i v l out f} : ¬ Own n → IsFn v f → f.builtin = true → Column n → Column f.signature → f.doc ≠ [] → Column f.doc → HelpTable l out →
      HelpTable ((n, .mk i (.var v)) :: l) (pad 20 n ++ c!" --> " ++ f.signature ++ c!"\n" ++ (pad 20 c!" " ++ c!"     " ++ f.doc ++ c!"\n") ++ out)

end Fuel.Spec
