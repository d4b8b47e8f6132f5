import Verif.SpecTrace
import Verif.SpecSave
/-!
# Specification of `import`, `eval`, `evalstr` and `rval`
-/

namespace Fuel.Spec

variable [World]

/-! ## Modules -/

/-- The name with `/` for every backslash. -/
def slashes (name : Str) : Str := name.map fun c => if c = '\\' then '/' else c

/-- The file name with the extension of modules, which is added unless it is there. -/
def withExtension (name : Str) : Str := if c!".fuel" <:+ name then name else name ++ c!".fuel"

/-- The files that can contain the module, in the order in which they are tried. -/
def moduleFiles (libPath : Str) (name : Str) : List Str :=
  [name, withExtension (libPath ++ c!"/" ++ name), withExtension (c!"./Library/" ++ name), withExtension (c!"./lib/fuel/" ++ name)] ++
    World.fuelPath.toList.map fun path => withExtension (path ++ c!"/" ++ name)

/-- The first file of the list that exists is `file`, and its content is `text`. -/
def FirstFile (st : St) (l : List Str) (file text : Str) : Prop :=
  ∃ a b, l = a ++ file :: b ∧ (∀ f ∈ a, st.files.lookup f = none) ∧ st.files.lookup file = some text

/-- None of the files exists; the last one that was tried is `file`. -/
def NoFile (st : St) (l : List Str) (file : Str) : Prop := (∀ f ∈ l, st.files.lookup f = none) ∧ l.getLast? = some file

/-- The state in which the evaluation of a module starts that is imported from scope `s`: it has a new scope `st.next` with the same global scope. -/
def importing (st : St) (s : Nat) (file : Str) : St :=
  { st with next := st.next + 1, scopes := fset (fset st.scopes s { st.scopes s with next := some st.next }) st.next { name := c!"import " ++ file, global := (st.scopes s).global, module := if file = [] then (st.scopes (st.scopes s).global).module else file, prev := some s } }

/-- The table of the imported modules of scope `s` is the scope `m`. -/
def ModuleTable (st : St) (s m : Nat) : Prop := ∃ i, binding st (st.scopes s).global c!"###modules###" = some (.mk i (.scope m))

/-- The state `st'` is `st` after the module with scope `imp`, imported from scope `s`, has been entered into the table `m`: the entry is a copy
of the scope of the module. -/
structure ModuleEntered (st st' : St) (s imp m : Nat) (file : Str) : Prop where
  entry : ∃ i c, st.next ≤ c ∧ binding st' m file = some (.mk i (.scope c)) ∧ st'.scopes c = st.scopes imp
  others : ∀ n, n ≠ file → binding st' m n = binding st m n
  scopes : ∀ i, i < st.next → i ≠ m → i ≠ imp → i ≠ s → st'.scopes i = st.scopes i
  back : ∀ n, (s ≠ m → binding st' s n = binding st s n) ∧ (imp ≠ m → binding st' imp n = binding st imp n)
  links : ∀ i, i < st.next → (st'.scopes i).global = (st.scopes i).global ∧ (st'.scopes i).closure = (st.scopes i).closure
  stack : (st'.scopes s).next = none ∧ (s ≠ imp → (st'.scopes imp).prev = none)
  rest : st.next ≤ st'.next ∧ st' = { st with next := st'.next, scopes := st'.scopes }

/-- What `(import name ...)` does in scope `s`; `v` is the result of the module before. -/
inductive Imports (s : Nat) : Option Variant → List Str → St → Out (Option Variant) → Prop
  | done {v st} : Imports s v [] st (.ok v st)
  | missing {v name names file w st o} : NoFile st (moduleFiles st.libPath (slashes name)) file →
      (Insertable (slashes name) → Insertable file → w = c!"WARNING: Library " ++ slashes name ++ c!" not found! Tried path " ++ file) →
      Imports s v names (withLine st w) o → Imports s v (name :: names) st o
  | unformattable {v name names file e st} : NoFile st (moduleFiles st.libPath (slashes name)) file → ¬ (Insertable (slashes name) ∧ Insertable file) →
      Imports s v (name :: names) st (.fail e st)
  | empty {v name names file st o} : FirstFile st (moduleFiles st.libPath (slashes name)) file [] → Imports s v names st o → Imports s v (name :: names) st o
  | found {v name names file text v' m st st1 st2 o} : FirstFile st (moduleFiles st.libPath (slashes name)) file text → text ≠ [] →
      RunsIn text file st.next (importing st s file) (.ok v' st1) → ModuleTable st1 s m → ModuleEntered st1 st2 s st.next m file →
      Imports s v' names st2 o → Imports s v (name :: names) st o
  | failed {v name names file text e st st1} : FirstFile st (moduleFiles st.libPath (slashes name)) file text → text ≠ [] →
      RunsIn text file st.next (importing st s file) (.fail e st1) → Imports s v (name :: names) st (.fail e st1)
  | noTable {v name names file text v' st st1} : FirstFile st (moduleFiles st.libPath (slashes name)) file text → text ≠ [] →
      RunsIn text file st.next (importing st s file) (.ok v' st1) → (∀ m, ¬ ModuleTable st1 s m) → Imports s v (name :: names) st (.fail (.ub .nullDeref) st1)

/-! ## Evaluation of values and texts -/

/-- The state in which the text given to `evalstr` is evaluated. -/
def inEvalStr (st : St) (s : Nat) : St := { st with scopes := fset st.scopes s { st.scopes s with isInEval := true } }

/-- The name of the module for the text given to `evalstr`. -/
def evalStrModule (st : St) (s : Nat) (text : Str) : Str := c!"<evalstr>:" ++ (st.scopes s).module ++ c!":" ++ text

/-- The outcome with a changed scope `s` if it is a value. -/
def thenSet (s : Nat) (f : Scope → Scope) : Out (Option Variant) → Out (Option Variant)
  | .ok v st => .ok v { st with scopes := fset st.scopes s (f (st.scopes s)) }
  | o => o

/-- The state in which places are not asked for. -/
def noPlaces (st : St) (s : Nat) : St := { st with scopes := fset st.scopes s { st.scopes s with needsLValue := false } }

/-- The state with a new list. -/
def withList (st : St) (l : List Ptr) : St := { st with next := st.next + 1, lists := fset st.lists st.next l }

end Fuel.Spec
