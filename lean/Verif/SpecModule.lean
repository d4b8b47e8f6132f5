import Verif.SpecImport
import Verif.SpecCore
/-!
# Specification of programs that import modules
-/

namespace Fuel.Spec.Core

variable [World]

/-- The program `xs` is in the file that is found if the module is imported. -/
def InLibrary (st : St) (name file : Str) (xs : List Sexp) : Prop :=
  ∃ text, FirstFile st (moduleFiles st.libPath (slashes name)) file text ∧ text ≠ [] ∧ Written xs text ∧ Sexp.WFs xs

/-- The files contain the modules. -/
def Provides (st : St) (lib : Str → Option (Str × List Sexp)) : Prop := ∀ name file xs, lib name = some (file, xs) → InLibrary st name file xs

/-- The configuration in which a program starts that can import the modules and read the lines. -/
def Conf.startWith (lib : Str → Option (Str × List Sexp)) (ls : List Str) : Conf := { Conf.start with input := ls, lib := lib }

end Fuel.Spec.Core
