import Verif.Builtins
/-!
# Model of Interpreter.cpp, of the special forms of Environment.cpp and of Lisp.cpp 45-141

The C++ functions call each other recursively without bound.  The model ties the knot with a step budget:
`Rec` holds the recursive entry points, `run 0` fails with `Fail.fuel` everywhere, `run (k+1)` is built from `run k`.
`Fail.fuel` is no behaviour of the program; the theorems about budget independence (C33) state that the
outcome does not depend on the budget once it is large enough.
A result `none` is a null `std::shared_ptr<LispVariant>`.
-/

namespace Fuel

variable [World]

/-- The recursive entry points of the interpreter. -/
structure Rec where
  /-- nesting budget for text functions -/
  n : Nat
  /-- `LispInterpreter::EvalAst(ast, scope)` -/
  eval : Ptr → Nat → M (Option Variant)
  /-- `wrapper.Function(args, scope)` -/
  call : FnW → List Ptr → Nat → M (Option Variant)
  /-- `LispInterpreter::ExpandMacros(ast, scope)` -/
  expand : Ptr → Nat → M Ptr
  /-- `LispInterpreter::ExpandMacros(ast, scope, anyMacroReplaced)`: result and whether the flag was set -/
  expand3 : Ptr → Nat → M (Ptr × Bool)
  /-- `ProcessQuotedSExpression(expr, scope, splicing)`: result and `splicing` -/
  procQ : List Ptr → Nat → M (Ptr × Bool)
  /-- `ReplaceSymbolWithValueInExpression(symbol, value, expr, macroArgsReplace, _)` -/
  subst : Variant → Ptr → Bool → List Ptr → M (List Ptr)
  /-- the loop of `while_form` from the test of the condition on: condition code, body, scope, value of the condition, result so far -/
  whileL : Ptr → Ptr → Nat → Option Variant → Option Variant → M (Option Variant)

/-- Dereference of a `std::shared_ptr<LispVariant>`. -/
def derefV : Option Variant → M Variant
  | some v => pure v
  | none => ub .nullDeref

/-- A result that is not null. -/
def ret (m : M Variant) : M (Option Variant) := do
  let v ← m
  pure (some v)

/-! ## Macros (Interpreter.cpp 215-393) -/

/-- Interpreter.cpp 229-242 `ConvertLispVariantListToListIfNeeded`. -/
def convertList (n : Nat) (p : Ptr) : M Ptr :=
  match p with
  | .null => ub .nullDeref
  | .mk id (.var v) =>
    if v.isList then do
      let l ← M.rd fun st => v.listValue st n
      allocList l
    else pure (.mk id (.var v))
  | p => pure p

/-- Interpreter.cpp 217-227 `ExpandMacros`: repeat while a macro was replaced. -/
def expandLoop (r : Rec) (ast : Ptr) (sid : Nat) : M Ptr := do
  let (q, again) ← r.expand3 ast sid
  if again then r.expand q sid else pure q

/-- Interpreter.cpp 328-363 `ReplaceSymbolWithValueInExpression` on the elements of an expression. -/
def substLoop (r : Rec) (sym : Variant) (value : Ptr) (splice : Bool) : List Ptr → M (List Ptr)
  | [] => pure []
  | e :: t => do
    let hd ← if (← M.rd fun st => sym.symbolCompare st e) then
        match value with
        | .null => ub .nullDeref
        | .mk id .list => if splice then M.get fun s => s.lists id else pure [value]
        | _ => pure [value]
      else if e.isRawList then do
        let l ← M.rd fun st => toListRef st e
        let l' ← r.subst sym value splice l
        let p ← allocList l'
        pure [p]
      else pure [e]
    let tl ← substLoop r sym value splice t
    pure (hd ++ tl)

/-- The loop over the formal arguments in `ReplaceFormalArgumentsInExpression` (Interpreter.cpp 377-391):
`i` is the index of the next actual argument. -/
def replaceFormals (r : Rec) (ast : List Ptr) (sid : Nat) : List Ptr → Nat → List Ptr → M (List Ptr)
  | [], _, expr => pure expr
  | f :: fs, i, expr => do
    let e ← arg ast i
    let value ← match e with
      | .null => ub .nullDeref
      | .mk id .list => do
        let (q, _) ← r.expand3 (.mk id .list) sid
        pure q
      | e => do
        let v ← M.lift (mkVariant e)
        box v
    let fv ← M.lift (toVariant f)
    let expr' ← r.subst fv value false expr
    replaceFormals r ast sid fs (i + 1) expr'

/-- Interpreter.cpp 365-393 `ReplaceFormalArgumentsInExpression`. -/
def replaceArgs (r : Rec) (formals ast expr : List Ptr) (sid : Nat) : M (List Ptr) := do
  let q ← allocObj (.str quoteName)
  let qs ← box (.ofType .symbol q)
  let ra ← allocList (ast.drop 1)
  let rb ← box ⟨.list, ra, .none, none⟩
  let quoted ← allocList [qs, rb]
  let ms ← allocObj (.str c!"quoted-macro-args")
  let expr ← r.subst (.ofType .symbol ms) quoted true expr
  replaceFormals r ast sid formals 1 expr

/-- The loop over the elements in `ExpandMacros` (Interpreter.cpp 291-304). -/
def expandElems (r : Rec) (sid : Nat) : List Ptr → M (List Ptr)
  | [] => pure []
  | e :: t => do
    let q ← r.expand e sid
    match q with
    | .null => expandElems r sid t
    | q => do
      let c ← convertList r.n q
      let tl ← expandElems r sid t
      pure (c :: tl)

/-- Interpreter.cpp 271-306: the part of `ExpandMacros` after the test for `define-macro-expand`. -/
def expandMacroOrElems (r : Rec) (l : List Ptr) (f : Ptr) (sid : Nat) : M (Ptr × Bool) := do
  match (← M.rd fun st => getMacro st r.n f sid) with
  | some .null => ub .nullDeref
  | some (.mk _ (.macroCt fs ex)) => do
    let formals ← M.get fun s => s.lists fs
    let expr ← M.get fun s => s.lists ex
    let code ← replaceArgs r formals l expr sid
    let p ← allocList code
    let v ← derefV (← r.eval p sid)
    let c ← convertList r.n v.value
    let q ← copyObj c
    pure (q, true)
  | _ => do
    let es ← expandElems r sid l
    let q ← allocList es
    pure (q, false)

/-- Interpreter.cpp 244-306 `ExpandMacros` with flag. -/
def expandStep (r : Rec) (ast : Ptr) (sid : Nat) : M (Ptr × Bool) :=
  match ast with
  | .null => pure (.null, false)
  | .mk id (.var v) => pure (.mk id (.var v), false)
  | .mk id .list => do
    match (← M.get fun s => s.lists id) with
    | [] => pure (.mk id .list, false)
    | f :: rest => do
      let name ← M.rd fun st => ptrStr st r.n f
      match (← M.get fun s => mapFind name (s.scopes sid).vars) with
      | some p => do
        let v ← M.lift (toVariant p)
        let fn ← M.rd fun st => v.functionValue st r.n
        if fn.evalInExpand then do
          let _ ← r.call fn rest sid
          pure (.null, false)
        else expandMacroOrElems r (f :: rest) f sid
      | none => expandMacroOrElems r (f :: rest) f sid
  | .mk _ _ => ub .badUnion

/-! ## Evaluation (Interpreter.cpp 30-213) -/

/-- `IsSymbol(elem)` (Interpreter.cpp 395-403). -/
def isSymbolPtr : Ptr → R Bool
  | .null => R.ub .nullDeref
  | .mk _ (.var v) => .ok (decide (v.type = .symbol))
  | .mk _ _ => .ok false

/-- One element of `ResolveArgsInScopes`. -/
def resolveElem (st : St) (n : Nat) (sid : Nat) (e : Ptr) : R Ptr := do
  if (← isSymbolPtr e) then resolve st n sid e else .ok e

/-- The elements after the first of `ResolveArgsInScopes` (not for special forms). -/
def resolveList (st : St) (n : Nat) (sid : Nat) : List Ptr → R (List Ptr)
  | [] => .ok []
  | e :: t => do
    let p ← resolveElem st n sid e
    let r ← resolveList st n sid t
    .ok (p :: r)

/-- `FunctionValue` of the first element in `ResolveArgsInScopes` (Interpreter.cpp 53-67): a Lisp exception is replaced. -/
def headFunction (st : St) (n : Nat) (sid : Nat) (p : Ptr) : R FnW := do
  let v ← toVariant p
  match v.functionValue st n with
  | .ok f => .ok f
  | .error (.exn (.lisp ..)) => do
    let s ← ptrStr st n p
    .error (scopeExn (st.scopes sid) (c!"Function \"" ++ s ++ c!"\" not found"))
  | .error e => .error e

/-- Interpreter.cpp 30-72 `ResolveArgsInScopes(scope, ast, false)`: the function and the resolved arguments. -/
def resolveArgs (st : St) (n : Nat) (sid : Nat) (f : Ptr) (rest : List Ptr) : R (FnW × List Ptr) := do
  let p ← resolveElem st n sid f
  let fn ← headFunction st n sid p
  if fn.special then .ok (fn, rest)
  else do
    let l ← resolveList st n sid rest
    .ok (fn, l)

/-- A splicing result (Interpreter.cpp 176-190): the elements to insert. -/
def spliced (n : Nat) (p : Ptr) : M (Option (List Ptr)) :=
  match p with
  | .null => ub .nullDeref
  | .mk _ (.var v) =>
    if v.unq = .splicing ∧ v.isList = true then do
      let l ← M.rd fun st => v.listValue st n
      pure (some l)
    else pure none
  | _ => pure none

/-- The loop that evaluates the arguments (Interpreter.cpp 164-194).  After a splicing result the loop ends and the
remaining arguments are null pointers. -/
def evalArgs (r : Rec) (special : Bool) (sid : Nat) : List Ptr → M (List Ptr)
  | [] => pure []
  | e :: t => do
    let res ← match e with
      | .null => ub .nullDeref
      | .mk id .list =>
        if special then pure (.mk id .list)
        else do
          let v ← derefV (← r.eval (.mk id .list) sid)
          box v
      | e => pure e
    match (← spliced r.n res) with
    | some l => pure (l ++ t.map fun _ => Ptr.null)
    | none => do
      let tl ← evalArgs r special sid t
      pure (res :: tl)

/-- `scope->CurrentToken = currentToken != null ? currentToken : scope->CurrentToken` (Interpreter.cpp 144-145). -/
def setCurTok (sid : Nat) (t : Option Token) : M Unit :=
  modScope sid fun sc => { sc with curTok := match t with | some x => some x | none => sc.curTok }

/-- The trace output (Interpreter.cpp 156-162). -/
def traceCall (n : Nat) (f : Ptr) (sid : Nat) : M Unit := do
  match (← M.get fun s => (s.scopes (s.scopes sid).global).tracing) with
  | none => ub .uninit
  | some false => pure ()
  | some true => do
    let s ← M.rd fun st => ptrStr st n f
    let t ← M.lift (format c!"--> {0}" s)
    writeLine t

/-- Interpreter.cpp 102-212: evaluation of a list. -/
def evalList (r : Rec) (l : List Ptr) (sid : Nat) : M (Option Variant) :=
  match l with
  | [] => pure (some nilV)
  | f :: rest => do
    match (← M.rd fun st => getMacro st r.n f (st.scopes sid).global) with
    | some .null => ub .nullDeref
    | some (.mk _ (.macroRt fs ex)) => do
      let formals ← M.get fun s => s.lists fs
      let expr ← M.get fun s => s.lists ex
      let code ← replaceArgs r formals (f :: rest) expr sid
      let p ← allocList code
      r.eval p sid
    | some _ => M.lift (throwBase c!"Unexpected macro modus!")
    | none => do
      let fv ← M.lift (toVariant f)
      setCurTok sid fv.tok
      let (fn, as) ← M.rd fun st => resolveArgs st r.n sid f rest
      traceCall r.n f sid
      let vals ← evalArgs r fn.special sid as
      r.call fn vals sid

/-- Interpreter.cpp 74-213 `EvalAst`. -/
def evalStep (r : Rec) (ast : Ptr) (sid : Nat) : M (Option Variant) :=
  match ast with
  | .null => pure none
  | .mk _ (.var v) =>
    if v.type = .symbol then do
      let b ← box v
      let p ← M.rd fun st => resolve st r.n sid b
      let w ← M.lift (mkVariant p)
      pure (some w)
    else if v.type = .list then do
      let l ← M.rd fun st => v.listValue st r.n
      evalList r l sid
    else pure (some v)
  | p => do
    let l ← M.rd fun st => toListRef st p
    evalList r l sid

/-! ## Special forms and functions that call the evaluator (Environment.cpp) -/

/-- Environment.cpp 245-248 `EvalArgIfNeeded`. -/
def evalArgIfNeeded (r : Rec) (p : Ptr) (sid : Nat) : M (Option Variant) :=
  match p with
  | .null => ub .nullDeref
  | .mk id .list => r.eval (.mk id .list) sid
  | p => do
    let v ← M.lift (toVariant p)
    pure (some v)

/-- Environment.cpp 250-263 `def_form_helper`. -/
def bDefHelper (r : Rec) (name : Str) (target : Nat) (args : List Ptr) (sid : Nat) : M Variant := do
  checkArgs name 2 args sid
  let p ← arg args 0
  let sym ← derefV (← evalArgIfNeeded r p sid)
  if sym.type = .symbol ∨ sym.type = .string then do
    let code ← arg args 1
    let v ← derefV (← r.eval code sid)
    let b ← box v
    let s ← M.rd fun st => varStr st r.n sym
    setVar target s b
    pure v
  else throwScope c!"Symbol expected" sid

/-- Environment.cpp 1504-1507 `def_form`. -/
def bDef (r : Rec) (args : List Ptr) (sid : Nat) : M Variant := bDefHelper r c!"def" sid args sid

/-- Environment.cpp 1509-1512 `gdef_form`. -/
def bGdef (r : Rec) (args : List Ptr) (sid : Nat) : M Variant := do
  let g ← M.get fun s => (s.scopes sid).global
  bDefHelper r c!"gdef" g args sid

/-- The setter actions of `First`, `Last` and `Nth` (Environment.cpp 1104-1109, 1134-1140, 1178-1184). -/
def lvalSet (n : Nat) (target : Ptr) (k : LKind) (x : Ptr) : M Unit := do
  let v ← M.lift (toVariant target)
  let l ← M.rd fun st => v.listValue st n
  let i := match k with
    | .first => 0
    | .last => sizeT ((l.length : Int) - 1)
    | .nth i => sizeT i
  if i < l.length then
    match v.value with
    | .mk id .list => setList id (l.set i x)
    | _ => ub .index
  else ub .index

/-- Environment.cpp 1514-1539 `setf_form`. -/
def bSetf (r : Rec) (args : List Ptr) (sid : Nat) : M Variant := do
  checkArgs c!"setf" 2 args sid
  let original ← M.get fun s => (s.scopes sid).needsLValue
  modScope sid fun sc => { sc with needsLValue := true }
  let p ← arg args 0
  let sym ← evalArgIfNeeded r p sid
  modScope sid fun sc => { sc with needsLValue := original }
  let name ← match sym with
    | some v => M.rd fun st => varStr st r.n v
    | none => pure []
  let code ← arg args 1
  let value ← r.eval code sid
  let sym ← derefV sym
  if sym.type = .lvalue then
    match sym.value with
    | .mk _ (.lval target k) => do
      let v ← derefV value
      let b ← box v
      lvalSet r.n target k b
      pure v
    | _ => ub .nullDeref
  else do
    let v ← derefV value
    let b ← box v
    setInScopes sid name b
    pure v

/-- Environment.cpp 1271-1280 `RValue`. -/
def bRval (r : Rec) (args : List Ptr) (sid : Nat) : M (Option Variant) := do
  checkArgs c!"rval" 1 args sid
  let original ← M.get fun s => (s.scopes sid).needsLValue
  modScope sid fun sc => { sc with needsLValue := false }
  let p ← arg args 0
  let v ← evalArgIfNeeded r p sid
  modScope sid fun sc => { sc with needsLValue := original }
  pure v

/-- The loop of `Map`. -/
def mapLoop (r : Rec) (f : FnW) (sid : Nat) : List Ptr → M (List Ptr)
  | [] => pure []
  | e :: t => do
    let c ← copyObj e
    let v ← derefV (← r.call f [c] sid)
    let b ← box v
    let tl ← mapLoop r f sid t
    pure (b :: tl)

/-- Environment.cpp 1003-1020 `Map`. -/
def bMap (r : Rec) (args : List Ptr) (sid : Nat) : M Variant := do
  checkArgs c!"map" 2 args sid
  let p ← arg args 0
  let f ← checkForFunction r.n c!"map" p sid
  let q ← arg args 1
  let l ← checkForList r.n c!"map" q sid
  let res ← mapLoop r f sid l
  mkList res

/-- The loop of `Reduce`. -/
def reduceLoop (r : Rec) (f : FnW) (sid : Nat) : Variant → List Ptr → M Variant
  | acc, [] => pure acc
  | acc, e :: t => do
    let c ← copyObj e
    let a ← box acc
    let v ← derefV (← r.call f [c, a] sid)
    reduceLoop r f sid v t

/-- Environment.cpp 1022-1041 `Reduce`. -/
def bReduce (r : Rec) (args : List Ptr) (sid : Nat) : M Variant := do
  checkArgs c!"reduce" 3 args sid
  let p ← arg args 0
  let f ← checkForFunction r.n c!"reduce" p sid
  let q ← arg args 1
  let l ← checkForList r.n c!"reduce" q sid
  let start ← argV args 2
  reduceLoop r f sid start l

/-- Environment.cpp 1334-1350 `ApplyFcn`. -/
def bApply (r : Rec) (args : List Ptr) (sid : Nat) : M (Option Variant) := do
  checkArgs c!"apply" 2 args sid
  let p ← arg args 0
  let fcn ← r.eval p sid
  let v ← argV args 1
  if v.isList then do
    let l ← M.rd fun st => v.listValue st r.n
    let fv ← derefV fcn
    let f ← M.rd fun st => fv.functionValue st r.n
    r.call f l sid
  else throwScope c!"Expected list as arguments in apply" sid

/-- Environment.cpp 1352-1369 `EvalFcn`. -/
def bEval (r : Rec) (args : List Ptr) (sid : Nat) : M (Option Variant) := do
  checkArgs c!"eval" 1 args sid
  let v ← argV args 0
  if v.isList then do
    let l ← M.rd fun st => v.listValue st r.n
    let p ← allocList l
    r.eval p sid
  else do
    let p ← box v
    r.eval p sid

/-- Lisp.cpp 45-51 `DecorateWithBlock`; the offset is 4. -/
def decorate (code : Str) : Str := c!"(do " ++ code ++ c!"\n)"

/-- Lisp.cpp 126-139: parse, expand macros, evaluate (or return the expanded code). -/
def evalCode (r : Rec) (code : Str) (sid : Nat) (onlyExpand : Bool) : M (Option Variant) := do
  let toks ← M.lift (tokenize (decorate code) 4)
  modScope sid fun sc => { sc with tokens := toks }
  let module ← M.get fun s => (s.scopes sid).module
  let sx ← M.lift (parseTokens module toks)
  let ast ← allocSx sx
  let copy ← copyObj ast
  let ex ← r.expand copy sid
  let ex' ← copyObj ex
  if onlyExpand then do
    let v ← M.lift (mkVariant ex')
    pure (some v)
  else r.eval ex' sid

/-- Lisp.cpp 114-141 `Lisp::Eval` with an existing scope. -/
def lispEval (r : Rec) (code : Str) (sid : Nat) (module : Str) (tracing onlyExpand : Bool) : M (Option Variant) := do
  modScope sid fun sc => { sc with module := module, tracing := some tracing }
  evalCode r code sid onlyExpand

/-- Environment.cpp 1371-1382 `EvalStrFcn`. -/
def bEvalStr (r : Rec) (args : List Ptr) (sid : Nat) : M (Option Variant) := do
  checkArgs c!"evalstr" 1 args sid
  let v ← argV args 0
  let module ← M.get fun s => (s.scopes sid).module
  modScope sid fun sc => { sc with isInEval := true }
  let code ← M.rd fun st => ptrStr st r.n v.value
  let res ← lispEval r code sid (c!"<evalstr>:" ++ module ++ c!":" ++ code) false false
  modScope sid fun sc => { sc with isInEval := false, module := module }
  pure res

/-- Environment.cpp 497-506 `AddFileExtensionIfNeeded`. -/
def addExtension (name : Str) : Str := if endsWith name c!".fuel" then name else name ++ c!".fuel"

/-- The search for the file of a module (Environment.cpp 533-567), on a platform with separator `/`. -/
def findModule (files : List (Str × Str)) (libPath org : Str) : Str :=
  let exist (f : Str) : Bool := (mapFind f files).isSome
  if exist org then org
  else
    let f1 := addExtension (libPath ++ c!"/" ++ org)
    if exist f1 then f1
    else
      let f2 := addExtension (c!"./Library/" ++ org)
      if exist f2 then f2
      else
        let f3 := addExtension (c!"./lib/fuel/" ++ org)
        if exist f3 then f3
        else match World.fuelPath with
          | some path => addExtension (path ++ c!"/" ++ org)
          | none => f3

/-- The part of `Import` that runs between `PushNextScope` and `PopNextScope` (Environment.cpp 592-595): evaluate the module in its
scope `imp` and store a copy of the scope. -/
def importBody (r : Rec) (g : Nat) (file code : Str) (imp : Nat) : M (Option Variant) := do
  let res ← lispEval r code imp file false false
  match (← M.get fun s => mapFind modulesKey (s.scopes g).vars) with
  | some (.mk _ (.scope m)) => do
    let sc' ← M.get fun s => s.scopes imp
    let c ← allocScope sc'
    let o ← allocObj (.scope c)
    setVar m file o
    pure res
  | _ => ub .nullDeref

/-- Import of one module file (Environment.cpp 587-598). -/
def importOne (r : Rec) (sid : Nat) (file code : Str) : M (Option Variant) := do
  let g ← M.get fun s => (s.scopes sid).global
  let sc ← M.get fun s => mkScope s (c!"import " ++ file) g file
  let imp ← allocScope sc
  pushNext sid imp
  let res ← importBody r g file code imp
  popNext sid
  pure res

/-- The loop of `Import` (Environment.cpp 529-600). -/
def importLoop (r : Rec) (sid : Nat) : Option Variant → List Ptr → M (Option Variant)
  | res, [] => pure res
  | res, p :: t => do
    let v ← M.lift (toVariant p)
    let name ← M.rd fun st => v.stringValue st r.n
    let org ← M.lift (replaceAll name c!"\\" c!"/")
    let files ← M.get fun s => s.files
    let lib ← M.get fun s => s.libPath
    let file := findModule files lib org
    let code ← match mapFind file files with
      | some c => pure c
      | none => do
        let w ← M.lift (format c!"WARNING: Library {0} not found! Tried path {1}" org file)
        writeLine w
        pure []
    if code.isEmpty then importLoop r sid res t
    else do
      let res' ← importOne r sid file code
      importLoop r sid res' t

/-- Environment.cpp 526-601 `Import`. -/
def bImport (r : Rec) (args : List Ptr) (sid : Nat) : M (Option Variant) :=
  importLoop r sid (some undefinedV) args

/-- Environment.cpp 1472-1497 `bool_operation_form`: `and` (`isAnd`) or `or`. -/
def boolLoop (r : Rec) (isAnd : Bool) (sid : Nat) : Bool → List Ptr → M Bool
  | res, [] => pure res
  | res, p :: t => do
    let v ← derefV (← r.eval p sid)
    let b ← M.rd fun st => v.boolValue st r.n
    let res' := if isAnd then res && b else res || b
    if res' then boolLoop r isAnd sid res' t else pure res'

/-- Environment.cpp 1494-1502 `and_form`, `or_form`. -/
def bBool (r : Rec) (isAnd : Bool) (args : List Ptr) (sid : Nat) : M Variant := do
  let b ← boolLoop r isAnd sid isAnd args
  mkBool b

/-- Environment.cpp 1541-1556 `definemacroevaluate_form`. -/
def bDefineMacroEval (r : Rec) (args : List Ptr) (sid : Nat) : M (Option Variant) := do
  checkArgs c!"define-macro-eval" 3 args sid
  let g ← M.get fun s => s.scopes (s.scopes sid).global
  match mapFind macrosKey g.vars with
  | none => pure none
  | some .null => ub .nullDeref
  | some (.mk _ (.scope m)) => do
    let p1 ← arg args 1
    let fs ← M.rd fun st => toEnumerable st p1
    let p2 ← arg args 2
    let ex ← M.rd fun st => toEnumerable st p2
    let name ← argStr r.n args 0
    let a ← allocVec fs
    let b ← allocVec ex
    let o ← allocObj (.macroRt a b)
    setVar m name o
    pure none
  | some _ => pure none

/-- Environment.cpp 1561-1574 `definemacroexpand_form`. -/
def bDefineMacroExpand (r : Rec) (args : List Ptr) (sid : Nat) : M (Option Variant) := do
  checkArgs c!"define-macro-expand" 3 args sid
  let g ← M.get fun s => s.scopes (s.scopes sid).global
  match mapFind macrosKey g.vars with
  | none => ub .nullDeref
  | some .null => ub .nullDeref
  | some (.mk _ (.scope m)) => do
    let p2 ← arg args 2
    let ex ← M.rd fun st => getExpression st p2
    let code ← allocList ex
    let res ← r.expand code sid
    let p1 ← arg args 1
    let fs ← M.rd fun st => getExpression st p1
    let ex' ← M.rd fun st => toEnumerable st res
    let name ← argStr r.n args 0
    let a ← allocVec fs
    let b ← allocVec ex'
    let o ← allocObj (.macroCt a b)
    setVar m name o
    pure none
  | some _ => pure none

/-- The loop over the elements in `ProcessQuotedSExpression` (Environment.cpp 1674-1694). -/
def procQLoop (r : Rec) (sid : Nat) : List Ptr → M (List Ptr)
  | [] => pure []
  | e :: t => do
    let hd ← match e with
      | .null => ub .nullDeref
      | .mk id .list => do
        let l ← M.get fun s => s.lists id
        let (res, splicing) ← r.procQ l sid
        if splicing then do
          let v ← M.lift (toVariant res)
          M.rd fun st => v.listValue st r.n
        else pure [res]
      | e => pure [e]
    let tl ← procQLoop r sid t
    pure (hd ++ tl)

/-- Is this element the symbol of an unquote form?  `some true`: splicing (Environment.cpp 1657-1664). -/
def unquoteKind (st : St) (n : Nat) (p : Ptr) : R (Option Bool) :=
  match p with
  | .null => R.ub .nullDeref
  | .mk _ (.var v) =>
    if v.type = .symbol then do
      let s ← varStr st n v
      .ok (if s = unquoteName then some false else if s = unquoteSplicingName then some true else none)
    else .ok none
  | _ => .ok none

/-- Environment.cpp 1647-1696 `ProcessQuotedSExpression`. -/
def procQStep (r : Rec) (expr : List Ptr) (sid : Nat) : M (Ptr × Bool) :=
  match expr with
  | [a, b] => do
    match (← M.rd fun st => unquoteKind st r.n a) with
    | some splicing => do
      let v ← derefV (← r.eval b sid)
      let p ← box { v with unq := if splicing then .splicing else .unquote }
      pure (p, splicing)
    | none => do
      let p ← allocList [a, b]
      pure (p, false)
  | l => do
    let l' ← procQLoop r sid l
    let p ← allocList l'
    pure (p, false)

/-- Environment.cpp 1698-1714 `quasiquote_form`. -/
def bQuasiquote (r : Rec) (args : List Ptr) (sid : Nat) : M Variant := do
  checkArgs c!"quasiquote" 1 args sid
  let p ← arg args 0
  match p with
  | .null => ub .nullDeref
  | .mk _ (.var v) => pure v
  | .mk id .list => do
    let l ← M.get fun s => s.lists id
    let (q, _) ← r.procQ l sid
    M.lift (mkVariant q)
  | p => M.lift (mkVariant p)

/-- Environment.cpp 1716-1727 `if_form`. -/
def bIf (r : Rec) (args : List Ptr) (sid : Nat) : M (Option Variant) :=
  match args with
  | [c, a] => go c a .null
  | [c, a, b] => go c a b
  | args => do
    let m ← M.lift (format c!"Bad argument count in {0}, has {1} expected {2}" c!"if" (natStr args.length)
      c!"18446744073709551615")
    throwScope m sid
where
  /-- the body -/
  go (c a b : Ptr) : M (Option Variant) := do
    let v ← derefV (← r.eval c sid)
    let t ← M.rd fun st => v.boolValue st r.n
    r.eval (if t then a else b) sid

/-- The loop of `while_form` (Environment.cpp 1735-1743). -/
def whileStep (r : Rec) (c body : Ptr) (sid : Nat) (cond res : Option Variant) : M (Option Variant) := do
  let v ← derefV cond
  if (← M.rd fun st => v.toBool st r.n) then do
    let res' ← r.eval body sid
    if (← M.get fun s => (s.scopes sid).isInReturn) then pure res'
    else do
      let cond' ← r.eval c sid
      r.whileL c body sid cond' res'
  else pure res

/-- Environment.cpp 1729-1745 `while_form`. -/
def bWhile (r : Rec) (args : List Ptr) (sid : Nat) : M (Option Variant) := do
  checkArgs c!"while" 2 args sid
  let c ← arg args 0
  let body ← arg args 1
  let cond ← r.eval c sid
  r.whileL c body sid cond (some undefinedV)

/-- Environment.cpp 1747-1769 `do_form`. -/
def doLoop (r : Rec) (sid : Nat) : Option Variant → List Ptr → M (Option Variant)
  | res, [] => pure res
  | _, p :: t =>
    match p with
    | .mk id .list => do
      let res ← r.eval (.mk id .list) sid
      if (← M.get fun s => (s.scopes sid).isInReturn) then pure res
      else doLoop r sid res t
    | p => do
      let v ← M.lift (toVariant p)
      throwTok c!"List expected in do" v.tok sid

/-- Environment.cpp 1781-1879 `fn_form`: creates a function. -/
def bFn (args : List Ptr) (sid : Nat) : M Variant := do
  let sc ← M.get fun s => s.scopes sid
  let name := match sc.userData with | some d => d | none => []
  let (sig, doc) := match sc.userDoc with | some d => d | none => ([], [])
  let c ← allocClosure ⟨name, sc.module, args, sid⟩
  let f ← allocObj (.fn ⟨.closure c, sig, doc, sc.module, false, false, false⟩)
  pure (.ofType .function f)

/-- Binding the formal arguments (Environment.cpp 1823-1827). -/
def bindFormals (n : Nat) (child : Nat) : List Ptr → List Ptr → M Unit
  | [], _ => pure ()
  | f :: fs, a :: as => do
    let s ← M.rd fun st => ptrStr st n f
    setVar child s a
    bindFormals n child fs as
  | _ :: _, [] => ub .index

/-- Missing arguments become NIL (Environment.cpp 1803-1821). -/
def padNil : Nat → M (List Ptr)
  | 0 => pure []
  | k + 1 => do
    let p ← box nilV
    let r ← padNil k
    pure (p :: r)

/-- `LispExceptionBase & ex ... throw ex` (Environment.cpp 1853-1872): the exception is copied as its base class. -/
def sliceExn {α : Type} (m : M α) : M α := fun s =>
  match m s with
  | .fail (.exn (.lisp _ msg _ _ _ _)) s' => .fail (.exn (.base msg)) s'
  | o => o

/-- The formal arguments of a function (Environment.cpp 1796). -/
def formalsOf (st : St) (n : Nat) (p : Ptr) : R (List Ptr) :=
  match p with
  | .null => R.ub .nullDeref
  | .mk _ (.var v) => v.listValue st n
  | p => getExpression st p

/-- The part of the lambda of `fn_form` that runs between `PushNextScope` and `PopNextScope`
(Environment.cpp 1795-1873): bind the arguments in the new scope `child` and evaluate the body. -/
def callBody (r : Rec) (c : Closure) (args : List Ptr) (child : Nat) : M (Option Variant) := do
  let fp ← arg c.args 0
  let formals ← M.rd fun st => formalsOf st r.n fp
  let pad ← padNil (formals.length - args.length)
  let all := args ++ pad
  bindFormals r.n child formals all
  let ap ← allocList all
  setVar child argsMetaKey ap
  if formals.length < all.length then do
    let ap2 ← allocList (all.drop formals.length)
    let b ← box ⟨.list, ap2, .none, none⟩
    setVar child additionalArgsKey b
  else pure ()
  let nl ← M.get fun s => (s.scopes c.scope).needsLValue
  modScope child fun sc => { sc with closure := some c.scope, needsLValue := nl }
  let body ← arg c.args 1
  sliceExn (r.eval body child)

/-- The lambda of `fn_form` (Environment.cpp 1790-1876): call of a user-defined function. -/
def callClosure (r : Rec) (cid : Nat) (args : List Ptr) (sid : Nat) : M (Option Variant) := do
  let c ← M.get fun s => s.clos cid
  let g ← M.get fun s => (s.scopes sid).global
  let sc ← M.get fun s => mkScope s c.name g c.module
  let child ← allocScope sc
  pushNext sid child
  let res ← callBody r c args child
  popNext sid
  pure res

/-- Environment.cpp 1886-1897 `GetTokenBeforeDefn`. -/
def tokenBeforeDefn (toks : List Token) (p : Ptr) : R (Option Token) :=
  match p with
  | .null => R.ub .nullDeref
  | .mk _ (.var v) => .ok (previousToken toks (previousToken toks (previousToken toks v.tok)))
  | _ => .ok none

/-- Environment.cpp 1899-1910 `GetEnumerableFromArgs`. -/
def enumerableFromArgs (st : St) (n : Nat) (p : Ptr) : R (List Ptr) :=
  match p with
  | .null => R.ub .nullDeref
  | .mk id (.var v) => if v.isList then v.listValue st n else toEnumerable st (.mk id (.var v))
  | p => toEnumerable st p

/-- Environment.cpp 1912-1939 `GetFormalArgsAsString`, `GetSignatureFromArgs`. -/
def signatureOf (st : St) (n : Nat) (p : Ptr) (name : Str) : R Str := do
  let l ← enumerableFromArgs st n p
  let s ← joinLoop (ptrStr st n) c!" " [] l
  .ok (c!"(" ++ name ++ (if s.isEmpty then [] else c!" ") ++ s ++ c!")")

/-- Environment.cpp 1941-1951 `UpdateDocumentationInformationAtScope`. -/
def updateDoc (n : Nat) (args : List Ptr) (sid : Nat) : M Unit := do
  let toks ← M.get fun s => (s.scopes sid).tokens
  let p0 ← arg args 0
  let t ← M.lift (tokenBeforeDefn toks p0)
  let doc := match t with
    | some t => if t.type = .comment then t.value.toStr else []
    | none => []
  let p1 ← arg args 1
  let name ← argStr n args 0
  let sig ← M.rd fun st => signatureOf st n p1 name
  modScope sid fun sc => { sc with userDoc := some (sig, doc) }

/-- `((*(scope->GlobalScope))[name])->ToLispVariantRef().FunctionValue()`. -/
def globalFunction (n : Nat) (name : Str) (sid : Nat) : M FnW := do
  match (← M.get fun s => mapFind name (s.scopes (s.scopes sid).global).vars) with
  | none => ub .nullDeref
  | some p => do
    let v ← M.lift (toVariant p)
    M.rd fun st => v.functionValue st n

/-- Environment.cpp 1953-1973 `defn_form_helper`, with `name` = "def" or "gdef". -/
def bDefn (r : Rec) (name : Str) (args : List Ptr) (sid : Nat) : M (Option Variant) := do
  checkArgs name 3 args sid
  updateDoc r.n args sid
  let fn ← globalFunction r.n c!"fn" sid
  let p0 ← arg args 0
  let nv ← derefV (← evalArgIfNeeded r p0 sid)
  let ns ← M.rd fun st => varStr st r.n nv
  modScope sid fun sc => { sc with userData := some ns }
  let p1 ← arg args 1
  let p2 ← arg args 2
  let res ← r.call fn [p1, p2] sid
  modScope sid fun sc => { sc with userData := none }
  let def_ ← globalFunction r.n name sid
  let v ← derefV res
  let b ← box v
  r.call def_ [p0, b] sid

/-! ## Dispatch and recursion -/

/-- Which C++ function a builtin is (the names in Environment.cpp 2307-2493). -/
def callPrim (r : Rec) (b : Builtin) (args : List Ptr) (sid : Nat) : M (Option Variant) :=
  match b with
  | .fuel => ret bFuel
  | .version => ret bVersion
  | .copyright => ret bCopyright
  | .help => ret (bHelp sid)
  | .doc => ret (bDoc r.n args sid)
  | .searchdoc => ret (bSearchDoc r.n args sid)
  | .htmldoc => ret (bHtmlDoc r.n sid)
  | .brk => ret (bBreak sid)
  | .vars => ret (bVars r.n sid)
  | .delvar => ret (bDelVar r.n args sid)
  | .trace => ret (bTrace r.n args sid)
  | .gettrace => ret (bGetTrace r.n sid)
  | .needLValue => ret (bNeedLValue args sid)
  | .import_ => bImport r args sid
  | .tickcount => ret (bTickCount args sid)
  | .sleep => ret (bSleep r.n args)
  | .datetime => ret bDatetime
  | .platform => ret bPlatform
  | .type => ret (bType args sid)
  | .typestr => ret (bTypeStr args sid)
  | .nop => pure (some undefinedV)
  | .return_ => ret (bReturn args sid)
  | .print => ret (bPrint r.n args sid)
  | .println => ret (bPrintLn r.n args sid)
  | .format => ret (bFormat r.n args sid)
  | .flush => ret (bFlush args sid)
  | .readline => ret (bReadLine args sid)
  | .parseInteger => ret (bParseInteger r.n args sid)
  | .parseFloat => ret (bParseFloat r.n args sid)
  | .toInt => ret (bToInt r.n args sid)
  | .toFloat => ret (bToFloat r.n args sid)
  | .search => ret (bSearch r.n args sid)
  | .slice => ret (bSlice r.n args sid)
  | .replace => ret (bReplace r.n args sid)
  | .trim => ret (bTrim r.n args sid)
  | .lower => ret (bLower r.n args sid)
  | .upper => ret (bUpper r.n args sid)
  | .add => arithFold r.n .add args
  | .sub => bSub r.n args
  | .mul => arithFold r.n .mul args
  | .div => arithFold r.n .div args
  | .mod => arithFold r.n .mod args
  | .shr => ret (bBit .shr r.n args sid)
  | .shl => ret (bBit .shl r.n args sid)
  | .bor => ret (bBit .bor r.n args sid)
  | .band => ret (bBit .band r.n args sid)
  | .bxor => ret (bBit .bxor r.n args sid)
  | .bnot => ret (bBitNot r.n args sid)
  | .lt => ret (bCmp .lt r.n args sid)
  | .gt => ret (bCmp .gt r.n args sid)
  | .le => ret (bCmp .le r.n args sid)
  | .ge => ret (bCmp .ge r.n args sid)
  | .eq => ret (bCmp .eq r.n args sid)
  | .ne => ret (bCmp .ne r.n args sid)
  | .not => ret (bNot r.n args sid)
  | .list => ret (bList args)
  | .map => ret (bMap r args sid)
  | .reduce => ret (bReduce r args sid)
  | .cons => ret (bCons r.n args)
  | .len => ret (bLen r.n args sid)
  | .first => ret (bFirst r.n args sid)
  | .last => ret (bLast r.n args sid)
  | .rest => ret (bRest r.n args sid)
  | .nth => ret (bNth r.n args sid)
  | .push => ret (bPush r.n args sid)
  | .pop => ret (bPop r.n args sid)
  | .append => ret (bAppend r.n args)
  | .reverse => ret (bReverse r.n args sid)
  | .rval => bRval r args sid
  | .sym => ret (bSym r.n args sid)
  | .str => ret (bStr r.n args sid)
  | .argscount => ret (bArgsCount args sid)
  | .args => ret (bArgs args sid)
  | .arg => ret (bArg r.n args sid)
  | .apply => bApply r args sid
  | .eval => bEval r args sid
  | .evalstr => bEvalStr r args sid
  | .makeDict => ret (bMakeDict args sid)
  | .dictSet => ret (bDictSet r.n args sid)
  | .dictGet => ret (bDictGet r.n args sid)
  | .dictRemove => ret (bDictRemove r.n args sid)
  | .dictKeys => ret (bDictKeys args sid)
  | .dictClear => ret (bDictClear args sid)
  | .dictContainsKey => ret (bDictContainsKey r.n args sid)
  | .dictContainsValue => ret (bDictContainsValue args sid)
  | .and => ret (bBool r true args sid)
  | .or => ret (bBool r false args sid)
  | .def_ => ret (bDef r args sid)
  | .gdef => ret (bGdef r args sid)
  | .setf => ret (bSetf r args sid)
  | .defineMacroEval => bDefineMacroEval r args sid
  | .defineMacroExpand => bDefineMacroExpand r args sid
  | .quote => ret (bQuote args sid)
  | .quasiquote => ret (bQuasiquote r args sid)
  | .unquote => ret (bUnquote unquoteName args sid)
  | .unquotesplicing => ret (bUnquote unquoteSplicingName args sid)
  | .if_ => bIf r args sid
  | .while_ => bWhile r args sid
  | .do_ => doLoop r sid (some undefinedV) args
  | .fn => ret (bFn args sid)
  | .defn => bDefn r c!"def" args sid
  | .gdefn => bDefn r c!"gdef" args sid
  | .fileExists => ret (bFileExists r.n args sid)
  | .fileRead => ret (bFileRead r.n args sid)
  | .fileWrite => ret (bFileWrite r.n args sid)
  | .mathPi => ret (bMathPi args sid)
  | .math f => ret (bMath f r.n args sid)
  | .mathPow => ret (bMathPow r.n args sid)

/-- `wrapper.Function(args, scope)`. -/
def callStep (r : Rec) (f : FnW) (args : List Ptr) (sid : Nat) : M (Option Variant) :=
  match f.kind with
  | .prim b => callPrim r b args sid
  | .closure c => callClosure r c args sid

/-- The interpreter with a budget of `k` nested calls. -/
def run : Nat → Rec
  | 0 => {
    n := 0
    eval := fun _ _ => M.fail .fuel
    call := fun _ _ _ => M.fail .fuel
    expand := fun _ _ => M.fail .fuel
    expand3 := fun _ _ => M.fail .fuel
    procQ := fun _ _ => M.fail .fuel
    subst := fun _ _ _ _ => M.fail .fuel
    whileL := fun _ _ _ _ _ => M.fail .fuel }
  | k + 1 => {
    n := k + 1
    eval := evalStep (run k)
    call := callStep (run k)
    expand := expandLoop (run k)
    expand3 := expandStep (run k)
    procQ := procQStep (run k)
    subst := substLoop (run k)
    whileL := whileStep (run k) }

end Fuel
