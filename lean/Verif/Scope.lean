import Verif.VariantOps
import Verif.Parser
/-!
# Model of Scope.cpp and of the lookup functions of Environment.cpp
-/

namespace Fuel

variable [World]

/-- Environment.cpp 81. -/
def macrosKey : Str := c!"###macros###"
/-- Environment.cpp 82. -/
def modulesKey : Str := c!"###modules###"
/-- Environment.cpp 66. -/
def tracebufferKey : Str := c!"###tracebuffer###"
/-- Environment.cpp 67. -/
def traceonKey : Str := c!"###traceon###"
/-- Environment.cpp 68. -/
def argsMetaKey : Str := c!"###args###"
/-- Environment.cpp 69. -/
def additionalArgsKey : Str := c!"_additionalArgs"

/-- `LispException(msg, scope)` (Exception.cpp 31-48).  The stack dump stored in the exception is not modelled. -/
def scopeExn (sc : Scope) (msg : Str) : Fail :=
  match sc.curTok with
  | none => .exn (.lisp true msg (-1) (-1) (-1) sc.module)
  | some t => .exn (.lisp true msg t.line t.start t.stop sc.module)

/-- `throw LispException(msg, scope)`. -/
def throwScope {α : Type} (msg : Str) (sid : Nat) : M α := fun s => .fail (scopeExn (s.scopes sid) msg) s

/-- `throw LispException(msg, token, scope->ModuleName, ...)` (Exception.cpp 52-60); the token may be null. -/
def throwTok {α : Type} (msg : Str) (t : Option Token) (sid : Nat) : M α := fun s =>
  .fail (match t with
    | none => .exn (.lisp true msg (-1) (-1) (-1) (s.scopes sid).module)
    | some t => tokExn msg t (s.scopes sid).module) s

/-- Scope.cpp 54-67 `IsInClosureChain`: the closure scope that holds the name, and the value.
The first argument is a budget for the length of the chain. -/
def closureFind (st : St) (name : Str) : Nat → Nat → R (Option (Nat × Ptr))
  | 0, _ => .error .fuel
  | k + 1, sid => match (st.scopes sid).closure with
    | none => .ok none
    | some c => match mapFind name (st.scopes c).vars with
      | some p => .ok (some (c, p))
      | none => closureFind st name k c

/-- The loop over the imported modules (Environment.cpp 2032-2041). -/
def moduleSearch (st : St) (name : Str) : List (Str × Ptr) → R (Option Ptr)
  | [] => .ok none
  | (_, .mk _ (.scope m)) :: t => match mapFind name (st.scopes m).vars with
    | some p => .ok (some p)
    | none => moduleSearch st name t
  | _ => R.ub .nullDeref

/-- Environment.cpp 2024-2057 `FindFunctionInModules`, `IsInModules`, `GetFunctionInModules` (called with the global scope).  If the global scope has no entry for the
modules, C++ creates a null entry; the model marks this case. -/
def findInModules (st : St) (gid : Nat) (name : Str) : R (Option Ptr) :=
  match mapFind modulesKey (st.scopes (st.scopes gid).global).vars with
  | none => .error .unmodelled
  | some .null => .ok none
  | some (.mk _ (.scope m)) => moduleSearch st name (st.scopes m).vars
  | some _ => R.ub .nullDeref

/-- Scope.cpp 81-135 `ResolveInScopes`. -/
def resolve (st : St) (n : Nat) (sid : Nat) (elem : Ptr) : R Ptr := do
  let name ← ptrStr st n elem
  match mapFind name (st.scopes sid).vars with
  | some p => .ok p
  | none => match mapFind name (st.scopes (st.scopes sid).global).vars with
    | some p => .ok p
    | none => do
      match (← closureFind st name (sid + 1) sid) with
      | some (_, p) => .ok p
      | none => match (← findInModules st (st.scopes sid).global name) with
        | some p => .ok p
        | none => .ok elem

/-- `(*scope)[name] = value`. -/
def setVar (sid : Nat) (name : Str) (v : Ptr) : M Unit :=
  modScope sid fun sc => { sc with vars := mapSet name v sc.vars }

/-- Scope.cpp 137-156 `SetInScopes`. -/
def setInScopes (sid : Nat) (name : Str) (v : Ptr) : M Unit := do
  let sc ← M.get fun s => s.scopes sid
  let fail : M Unit := throwScope (c!"Symbol " ++ name ++ c!" not found") sid
  if name.isEmpty then fail
  else if (mapFind name sc.vars).isSome then setVar sid name v
  else
    match (← M.rd fun st => closureFind st name (sid + 1) sid) with
    | some (c, _) => setVar c name v
    | none =>
      let g ← M.get fun s => s.scopes sc.global
      if (mapFind name g.vars).isSome then setVar sc.global name v else fail

/-- Scope.cpp 158-174 `GetPreviousToken`. -/
def previousToken (toks : List Token) (t : Option Token) : Option Token :=
  match t with
  | none => none
  | some t => go none toks t
where
  /-- the loop -/
  go (prev : Option Token) : List Token → Token → Option Token
    | [], _ => none
    | x :: xs, t => if x.eq t then prev else go (some x) xs t

/-- Scope.h 197-201 `PushNextScope`. -/
def pushNext (sid next : Nat) : M Unit := do
  modScope sid fun sc => { sc with next := some next }
  modScope next fun sc => { sc with prev := some sid }

/-- Scope.h 203-207 `PopNextScope`. -/
def popNext (sid : Nat) : M Unit := do
  match (← M.get fun s => (s.scopes sid).next) with
  | none => ub .nullDeref
  | some nx =>
    modScope nx fun sc => { sc with prev := none }
    modScope sid fun sc => { sc with next := none }

/-- Scope.cpp 32-53: constructor with a global scope and a module name. -/
def mkScope (st : St) (name : Str) (global : Nat) (module : Str) : Scope :=
  { name := name, global := global,
    module := if module.isEmpty then (st.scopes global).module else module }

/-- Scope.cpp 176-186 `GetCallStackSize`. -/
def callStackSize (st : St) : Nat → Nat → R Nat
  | 0, _ => .error .fuel
  | k + 1, sid => match (st.scopes sid).prev with
    | none => .ok 1
    | some p => do .ok ((← callStackSize st k p) + 1)

/-- `std::to_string(size_t)` of a line number; `(size_t)-1` without token (Scope.h 123-129). -/
def lineNoStr (t : Option Token) : Str :=
  match t with
  | none => c!"18446744073709551615"
  | some t => intStr t.line

/-- Scope.cpp 196-211 `DumpStackToString(currentLevel)`: the loop, from scope `sid` at level `i`. -/
def dumpStack (st : St) (level : Int) : Nat → Nat → Nat → R Str
  | 0, _, _ => .error .fuel
  | k + 1, sid, i => do
    let sc := st.scopes sid
    let item := if level = i then c!"-->" else c!"   "
    let line ← format c!"{0,3}{1,5} name={2,-35} lineno={3,-4} module={4}\n" item (intStr i) sc.name
      (lineNoStr sc.curTok) sc.module
    match sc.prev with
    | none => .ok line
    | some p => do
      let outer ← dumpStack st level k p (i - 1)
      .ok (outer ++ line)

/-- The macro scope of a scope: `scope->find(Macros)` and `GetLispScopeRef`; `none` if there is no entry. -/
def macroScope (st : St) (sid : Nat) : R (Option Nat) :=
  match mapFind macrosKey (st.scopes sid).vars with
  | none => .ok none
  | some (.mk _ (.scope m)) => .ok (some m)
  | some _ => R.ub .nullDeref

/-- Environment.cpp 2059-2080, 2138-2147 `IsMacro` and `GetMacro`. -/
def getMacro (st : St) (n : Nat) (f : Ptr) (sid : Nat) : R (Option Ptr) := do
  match (← macroScope st sid) with
  | none => .ok none
  | some m => do
    let name ← ptrStr st n f
    .ok (mapFind name (st.scopes m).vars)

/-- Environment.cpp 2088-2101 `GetExpression` (an object is never a variant and a list at once). -/
def getExpression (st : St) (p : Ptr) : R (List Ptr) :=
  match p with
  | .null => R.ub .nullDeref
  | .mk id .list => .ok (st.lists id)
  | p => .ok [p]

/-- Environment.cpp 144-152 `CheckForFunction` followed by `FunctionValue()`. -/
def checkForFunction (n : Nat) (fname : Str) (p : Ptr) (sid : Nat) : M FnW := do
  let v ← M.lift (toVariant p)
  if v.type ≠ .function then throwScope (c!"No function in " ++ fname) sid
  else M.rd fun st => v.functionValue st n

/-- Environment.cpp 2103-2124 `CheckForList`. -/
def checkForList (n : Nat) (fname : Str) (p : Ptr) (sid : Nat) : M (List Ptr) := do
  match p with
  | .mk id .list => M.get fun s => s.lists id
  | p =>
    let v ← M.lift (toVariant p)
    if v.type = .native then
      match v.value with
      | .null => ub .nullDeref
      | .mk id .list => M.get fun s => s.lists id
      | _ => notList v
    else if v.isList then M.rd fun st => v.listValue st n
    else notList v
where
  /-- the error -/
  notList (v : Variant) : M (List Ptr) := do
    let toks ← M.get fun s => (s.scopes sid).tokens
    throwTok (c!"No list in " ++ fname) (previousToken toks v.tok) sid

/-- Environment.cpp 154-160 `CheckArgs`. -/
def checkArgs (name : Str) (count : Nat) (args : List Ptr) (sid : Nat) : M Unit :=
  if args.length = count then pure () else do
    let m ← M.lift (format c!"Bad argument count in {0}, has {1} expected {2}" name
      (natStr args.length) (natStr count))
    throwScope m sid

/-- Environment.cpp 162-168 `CheckOptionalArgs`. -/
def checkOptionalArgs (name : Str) (lo hi : Nat) (args : List Ptr) (sid : Nat) : M Unit :=
  if lo ≤ args.length ∧ args.length ≤ hi then pure () else do
    let m ← M.lift (format c!"Bad argument count in {0}, has {1} expected between {2} and {3}" name
      (natStr args.length) (natStr lo) (natStr hi))
    throwScope m sid

/-- `args[i]`. -/
def arg (args : List Ptr) (i : Nat) : M Ptr :=
  match args[i]? with
  | some p => pure p
  | none => ub .index

/-- `args[i]->ToLispVariantRef()`. -/
def argV (args : List Ptr) (i : Nat) : M Variant := do
  let p ← arg args i
  M.lift (toVariant p)

/-- `(LispVariant)args[i]`. -/
def argMk (args : List Ptr) (i : Nat) : M Variant := do
  let p ← arg args i
  M.lift (mkVariant p)

/-- `args[i]->ToString()`. -/
def argStr (n : Nat) (args : List Ptr) (i : Nat) : M Str := do
  let p ← arg args i
  M.rd fun st => ptrStr st n p

end Fuel
