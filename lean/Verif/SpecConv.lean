import Verif.SpecEval
/-!
# Specification of types, conversions and files
-/

namespace Fuel.Spec

/-- The value belongs to the type with this number and this name (see `(doc "type")` and `(doc "typestr")`). -/
inductive HasType : Variant → Int → Str → Prop
  | undefined {v} : IsUndef v → HasType v 0 c!"Undefined"
  | nil {v} : IsNil v → HasType v 1 c!"Nil"
  | bool {v b} : IsBool v b → HasType v 2 c!"Bool"
  | int {v x} : IsInt v x → HasType v 3 c!"Int"
  | double {v d} : IsDbl v d → HasType v 4 c!"Double"
  | string {v s} : IsStr v s → HasType v 5 c!"String"
  | list {v i} : IsListAt v i → HasType v 6 c!"List"
  | function {v f} : IsFn v f → HasType v 7 c!"Function"
  | symbol {v s} : IsSym v s → HasType v 8 c!"Symbol"
  | dict {v i} : IsDictAt v i → HasType v 9 c!"NativeDictionary"

/-- What is stored in the file with this name, if it exists. -/
def content (st : St) (name : Str) : Option Str := st.files.lookup name

/-- `st'` is `st` after the file `name` has got the content `text`: no other file, and nothing else that existed in `st`, is changed. -/
structure FileWritten (st st' : St) (name text : Str) : Prop where
  written : content st' name = some text
  others : ∀ n, n ≠ name → content st' n = content st n
  rest : Extends st { st' with files := st.files }

/-- `st'` is `st` after the variable `name` of scope `s` has been removed: no other variable of any scope, and nothing else that existed in
`st`, is changed. -/
structure Removed (st st' : St) (s : Nat) (name : Str) : Prop where
  removed : binding st' s name = none
  others : ∀ n, n ≠ name → binding st' s n = binding st s n
  scope : { st'.scopes s with vars := [] } = { st.scopes s with vars := [] }
  rest : Extends st { st' with scopes := fset st'.scopes s (st.scopes s) }

end Fuel.Spec
