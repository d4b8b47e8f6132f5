import Verif.Debugger
/-!
# Model of the evaluator with an attached debugger (`fuel -d`)

With `scope->GlobalScope->Debugger != null` the evaluator asks the debugger before every call (Interpreter.cpp 202-209),
the function `break` and exceptions in functions enter the interactive loop (Environment.cpp 349-363, 1852-1872).
All scopes of a program run by `DebuggerLoop` have the same global scope, so "the debugger is attached" is a property of
the evaluator (`runD` instead of `run`) and not of a scope; its state is `St.dbg`.
-/

namespace Fuel

variable [World]

/-- One turn of the loop in `InteractiveLoop` (Debugger.cpp 92-271) of the attached debugger, whose state is part of the
program state.  The commands that evaluate code (`doc`, `searchdoc` and expressions) do not change the debugger themselves,
but the evaluated code can stop in the same debugger. -/
def dbgCommandD (r : Rec) (top : Nat) (fromMain : Bool) (cmd : Str) (cur : Nat) (script : Str) : M (DS × Ctl) := do
  let dbg ← M.get fun s => s.dbg
  let (d, c) ← dbgCommand r top fromMain cmd { dbg := dbg, cur := cur, script := script }
  match dcmd cmd with
  | .doc => pure (d, c)
  | .searchdoc => pure (d, c)
  | .eval => pure (d, c)
  | _ => do
    M.modify fun s => { s with dbg := d.dbg }
    pure (d, c)

/-- The loop of `InteractiveLoop` (Debugger.cpp 80-273) of the attached debugger; the result is `bRestart`.  At the end of the
input every line is empty, which leaves the loop; so the number of lines is a bound for the number of turns. -/
def dbgLoopD (r : Rec) (top : Nat) (fromMain : Bool) : Nat → Nat → Str → M Bool
  | 0, _, _ => M.fail .fuel
  | k + 1, cur, script => do
    write c!"FUEL(isp)-DBG> "
    let line ← readLine
    match (← dbgCommandD r top fromMain (trim line) cur script) with
    | (d, .again) => dbgLoopD r top fromMain k d.cur d.script
    | (_, .leave restart) => pure restart
    | (_, .stop) => M.fail (.exn .stopDebugger)

/-- Debugger.cpp 59-273 `InteractiveLoop(this, topScope, startedFromMain)`.  `globalScope->Tracing` is read (67-70); that the
readers and writers are set again has no effect, there is only one of each. -/
def interactD (r : Rec) (top : Nat) (fromMain : Bool) : M Bool := do
  match (← M.get fun s => (s.scopes (s.scopes top).global).tracing) with
  | none => ub .uninit
  | some _ => do
    let n ← M.get fun s => s.input.length
    dbgLoopD r top fromMain (n + 1) top []

/-- Debugger.cpp 262-274 `InteractiveLoop(scope, currentAst)`: show the position, then enter the loop; its result, the wish to
restart, is dropped. -/
def stopAt (r : Rec) (sid : Nat) (ast : List Ptr) : M Unit := do
  match ast with
  | [] => ub .index
  | h :: _ => do
    let sc ← M.get fun s => s.scopes sid
    match sc.curTok with
    | none => ub .nullDeref
    | some t => do
      let s ← M.rd fun st => ptrStr st r.n h
      writeLine (c!"--> " ++ s ++ c!" line=" ++ intStr t.line ++ c!" start=" ++ intStr t.start ++ c!" stop=" ++ intStr t.stop ++
        c!" module=" ++ sc.module ++ c!" token=" ++ t.toStr)
      let _ ← interactD r sid false
      pure ()

/-- The line of `GetPosInfo` (Interpreter.cpp 310-326), a `size_t`. -/
def posLine (t : Option Token) : Nat :=
  match t with
  | some t => sizeT t.line
  | none => 18446744073709551615

/-- The debugger is asked before a call (Interpreter.cpp 202-209, Debugger.cpp 276-284). -/
def beforeCall (r : Rec) (ast : List Ptr) (tok : Option Token) (sid : Nat) : M Unit := do
  let d ← M.get fun s => s.dbg
  let module ← M.get fun s => (s.scopes sid).module
  let (_, hit) ← needsBreak r.n (fun c => lispEval r c sid module false false) d sid (posLine tok)
  if hit then do
    M.modify fun s => { s with dbg := { s.dbg with stop := false } }
    stopAt r sid ast
  else pure ()

/-- Interpreter.cpp 102-212: evaluation of a list under the debugger. -/
def evalListD (r : Rec) (l : List Ptr) (sid : Nat) : M (Option Variant) :=
  match l with
  | [] => pure (some nilV)
  | f :: rest => do
    match (← M.rd fun st => getMacro st r.n f (st.scopes sid).global) with
    | some .null => ub .nullDeref
    | some (.mk _ (.macroRt fs ex)) => do
      let formals ← M.get fun s => s.lists fs
      let expr ← M.get fun s => s.lists ex
      let code ← replaceArgs r formals (f :: rest) expr sid
      let p ← allocList code
      r.eval p sid
    | some _ => M.lift (throwBase c!"Unexpected macro modus!")
    | none => do
      let fv ← M.lift (toVariant f)
      setCurTok sid fv.tok
      let (fn, as) ← M.rd fun st => resolveArgs st r.n sid f rest
      traceCall r.n f sid
      let vals ← evalArgs r fn.special sid as
      beforeCall r (f :: rest) fv.tok sid
      r.call fn vals sid

/-- Interpreter.cpp 74-213 `EvalAst` under the debugger. -/
def evalStepD (r : Rec) (ast : Ptr) (sid : Nat) : M (Option Variant) :=
  match ast with
  | .null => pure none
  | .mk _ (.var v) =>
    if v.type = .symbol then do
      let b ← box v
      let p ← M.rd fun st => resolve st r.n sid b
      let w ← M.lift (mkVariant p)
      pure (some w)
    else if v.type = .list then do
      let l ← M.rd fun st => v.listValue st r.n
      evalListD r l sid
    else pure (some v)
  | p => do
    let l ← M.rd fun st => toListRef st p
    evalListD r l sid

/-- Environment.cpp 349-363 `Break` with a debugger. -/
def bBreakD (r : Rec) (sid : Nat) : M Variant := do
  writeLine c!"break -> call stack:"
  let k ← M.rd fun st => callStackSize st (sid + 1) sid
  let t ← M.rd fun st => dumpStack st k (sid + 1) sid k
  writeLine t
  let _ ← interactD r sid false
  pure undefinedV

/-- The handlers around the body of a function (Environment.cpp 1847-1872) with a debugger: a Lisp exception is shown, the loop
is entered, and the exception is thrown again as its base class. -/
def catchD (r : Rec) (child : Nat) (body : Ptr) (m : M (Option Variant)) : M (Option Variant) := fun s =>
  match m s with
  | .fail (.exn (.lisp _ msg _ _ _ _)) s' => (do
      writeLine (c!"EXCEPTION: " ++ msg)
      let l ← M.rd fun st => toEnumerable st body
      stopAt r child l
      M.fail (.exn (.base msg)) : M (Option Variant)) s'
  | o => o

/-- The part of the lambda of `fn_form` that runs between `PushNextScope` and `PopNextScope` (Environment.cpp 1795-1873), with a
debugger. -/
def callBodyD (r : Rec) (c : Closure) (args : List Ptr) (child : Nat) : M (Option Variant) := do
  let fp ← arg c.args 0
  let formals ← M.rd fun st => formalsOf st r.n fp
  let pad ← padNil (formals.length - args.length)
  let all := args ++ pad
  bindFormals r.n child formals all
  let ap ← allocList all
  setVar child argsMetaKey ap
  if formals.length < all.length then do
    let ap2 ← allocList (all.drop formals.length)
    let b ← box ⟨.list, ap2, .none, none⟩
    setVar child additionalArgsKey b
  else pure ()
  let nl ← M.get fun s => (s.scopes c.scope).needsLValue
  modScope child fun sc => { sc with closure := some c.scope, needsLValue := nl }
  let body ← arg c.args 1
  catchD r child body (r.eval body child)

/-- The lambda of `fn_form` (Environment.cpp 1790-1876) with a debugger. -/
def callClosureD (r : Rec) (cid : Nat) (args : List Ptr) (sid : Nat) : M (Option Variant) := do
  let c ← M.get fun s => s.clos cid
  let g ← M.get fun s => (s.scopes sid).global
  let sc ← M.get fun s => mkScope s c.name g c.module
  let child ← allocScope sc
  pushNext sid child
  let res ← callBodyD r c args child
  popNext sid
  pure res

/-- `wrapper.Function(args, scope)` with a debugger. -/
def callStepD (r : Rec) (f : FnW) (args : List Ptr) (sid : Nat) : M (Option Variant) :=
  match f.kind with
  | .prim .brk => ret (bBreakD r sid)
  | .prim b => callPrim r b args sid
  | .closure c => callClosureD r c args sid

/-- The interpreter with an attached debugger and a budget of `k` nested calls. -/
def runD : Nat → Rec
  | 0 => run 0
  | k + 1 => {
    n := k + 1
    eval := evalStepD (runD k)
    call := callStepD (runD k)
    expand := expandLoop (runD k)
    expand3 := expandStep (runD k)
    procQ := procQStep (runD k)
    subst := substLoop (runD k)
    whileL := whileStep (runD k) }

/-- The evaluation in the loop of `DebuggerLoop` and its handlers (Debugger.cpp 301-325); `prev` is `result`.  The new `result` and
`bRestart`. -/
def runProgram (k : Nat) (script module : Str) (tracing : Bool) (prev : Option Variant) (g : Nat) : M (Option Variant × Bool) := do
  match (← tryM (lispEval (runD k) script g module tracing false)) with
  | .ok v => do
    M.modify fun s => { s with dbg := s.dbg.reset }
    pure (v, true)
  | .error .stopDebugger => pure (prev, false)
  | .error (.lisp _ msg _ _ _ _) => do
    let l ← M.lift (format c!"\nException: {0}" (c!"EXCEPTION: " ++ msg))
    writeLine l
    let l ← M.lift (format c!"\nStack:\n{0}" c!"<TODO>")
    writeLine l
    let b ← interactD (runD k) g true
    pure (prev, b)
  | .error _ => do
    writeLine c!"\nNative Exception..."
    pure (prev, true)

/-- The end of a turn of the loop in `DebuggerLoop` (Debugger.cpp 326-337). -/
def afterProgram (k : Nat) (g : Nat) (res : Option Variant) (again : Bool) : M (Option Variant × Bool) :=
  if again then do
    writeLine c!"restart program"
    match res with
    | some _ => pure (res, true)
    | none => do
      let b ← interactD (runD k) g true
      pure (res, b)
  else pure (res, false)

/-- One turn of the loop in `DebuggerLoop` (Debugger.cpp 290-337); `prev` is `result`.  The new `result` and `bRestart`. -/
def debuggerTurn (k : Nat) (script module : Str) (tracing : Bool) (prev : Option Variant) : M (Option Variant × Bool) := do
  if module == c!"command-line" then M.modify fun s => { s with dbg := { s.dbg with script := script } } else pure ()
  let g ← createDefaultScope
  let (res, again) ← runProgram k script module tracing prev g
  afterProgram k g res again

/-- Debugger.cpp 286-340 `DebuggerLoop`; the first argument is the number of turns. -/
def debuggerLoop (k : Nat) (script module : Str) (tracing : Bool) : Nat → Option Variant → M (Option Variant)
  | 0, _ => M.fail .fuel
  | j + 1, prev => do
    match (← debuggerTurn k script module tracing prev) with
    | (res, true) => debuggerLoop k script module tracing j res
    | (res, false) => pure res

end Fuel
