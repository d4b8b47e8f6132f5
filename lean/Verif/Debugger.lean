import Verif.Lisp
/-!
# Model of the debugger (CppLispDebugger/Debugger.cpp)

This file models the commands of the debugger in the situation of the interactive shell `fuel -i`, where no debugger is
attached to the evaluator (`Scope::Debugger == null`).  `needsBreak` is what the evaluator asks before every call
(Interpreter.cpp 199-206).  The evaluator with an attached debugger is in `DebugRun.lean`.
-/

namespace Fuel

variable [World]

/-- Debugger.cpp 342-346 `Reset`. -/
def Dbg.reset (d : Dbg) : Dbg := { d with stop := true, mode := .always }

/-- Debugger.cpp 449-461 `IsSameModule`. -/
def sameModule (a b : Str) : Bool := a.isEmpty || b.isEmpty || a == b

/-- Replace the first element that satisfies a test, or add at the end. -/
def replaceOrAdd (p : Bp → Bool) (x : Bp) : List Bp → List Bp
  | [] => [x]
  | b :: t => if p b then x :: t else b :: replaceOrAdd p x t

/-- Debugger.cpp 380-395 `AddBreakpoint`. -/
def Dbg.addBreakpoint (d : Dbg) (line : Nat) (module cond : Str) : Dbg :=
  { d with bps := replaceOrAdd (fun e => e.line == line && e.module == module) ⟨line, module, cond⟩ d.bps }

/-- Debugger.cpp 397-406 `ClearBreakpoint`: `size_t index = no - 1` (`int` subtraction, undefined for the smallest
`int`). -/
def Dbg.clearBreakpoint (d : Dbg) (no : Int) : R (Dbg × Bool) := do
  let i ← chk32 (no - 1)
  if sizeT i < d.bps.length then .ok ({ d with bps := d.bps.eraseIdx (sizeT i) }, true) else .ok (d, false)

/-- Debugger.cpp 408-411 `ClearAllBreakpoints`. -/
def Dbg.clearAll (d : Dbg) : Dbg := { d with bps := [] }

/-- Debugger.cpp 413-417 `DoStep`. -/
def Dbg.doStep (d : Dbg) : Dbg := { d with mode := .always, stop := true }

/-- Debugger.cpp 419-424 `DoStepOver` at call-stack size `n`. -/
def Dbg.doStepOver (d : Dbg) (n : Int) : Dbg := { d with mode := .atMost n, stop := true }

/-- Debugger.cpp 426-431 `DoStepOut`. -/
def Dbg.doStepOut (d : Dbg) (n : Int) : Dbg := { d with mode := .atMost (n - 1), stop := true }

/-- Debugger.cpp 433-436 `DoRun`. -/
def Dbg.doRun (d : Dbg) : Dbg := { d with stop := false }

/-- `IsStopStepFcn(scope)`, where the scope has the given call-stack size. -/
def StepMode.stops (m : StepMode) (size : Int) : Bool :=
  match m with
  | .always => true
  | .atMost n => decide (n ≥ size)

/-- `try { ... } catch (LispExceptionBase &) ... catch (...)`: exceptions become values, other outcomes do not. -/
def tryM {α : Type} (m : M α) : M (Except Exn α) := fun s =>
  match m s with
  | .ok a s' => .ok (.ok a) s'
  | .fail (.exn e) s' => .ok (.error e) s'
  | .fail f s' => .fail f s'

/-- Debugger.cpp 359-369: evaluation of the condition of a breakpoint. -/
def condHolds (n : Nat) (ev : Str → M (Option Variant)) (b : Bp) : M Bool := do
  match (← tryM (do
      let v ← derefV (← ev b.cond)
      M.rd fun st => v.boolValue st n)) with
  | .ok t => pure t
  | .error _ => do
    let t ← M.lift (format c!"Error: bad condition for line {0}: {1}" (natStr b.line) b.cond)
    writeLine t
    pure false

/-- Debugger.cpp 349-373 `HitsBreakpoint` with a scope whose module name is `module`; `ev` evaluates a condition in that
scope. -/
def hitsBreakpoint (n : Nat) (ev : Str → M (Option Variant)) (line : Nat) (module : Str) : List Bp → M Bool
  | [] => pure false
  | b :: t =>
    if sameModule b.module module && line == b.line then
      if b.cond.isEmpty then pure true else condHolds n ev b
    else hitsBreakpoint n ev line module t

/-- Debugger.cpp 375-378 `HasBreakpointAt` (no scope: conditions are ignored). -/
def hasBreakpointAt (line : Nat) (module : Str) (bps : List Bp) : Bool :=
  bps.any fun b => sameModule b.module module && line == b.line

/-- `IsStopStepFcn(scope)`; only the functions set by `over` and `out` ask for the size of the call stack. -/
def stopsHere (m : StepMode) (sid : Nat) : M Bool :=
  match m with
  | .always => pure true
  | .atMost n => do
    let size ← M.rd fun st => callStackSize st (sid + 1) sid
    pure (StepMode.stops (.atMost n) size)

/-- Debugger.cpp 276-284 `NeedsBreak`: the new debugger state and the answer. -/
def needsBreak (n : Nat) (ev : Str → M (Option Variant)) (d : Dbg) (sid : Nat) (line : Nat) : M (Dbg × Bool) := do
  let stops ← if d.stop then stopsHere d.mode sid else pure false
  let module ← M.get fun s => (s.scopes sid).module
  let hit ← if stops then pure true else hitsBreakpoint n ev line module d.bps
  if hit then pure ({ d with stop := false }, true) else pure (d, false)

/-! ## Commands of the interactive loop -/

/-- Debugger.cpp 560-581 `GetStringLiteral`: the text before the next quote, and its length. -/
def getStringLiteral (s : Str) : Str × Nat :=
  let l := s.takeWhile (· != '"')
  (l, l.length)

/-- `find_last_of(":")` for one character. -/
def lastIndexOf (c : Char) (s : Str) : Option Nat :=
  match s.reverse.findIdx? (· == c) with
  | none => none
  | some i => some (s.length - 1 - i)

/-- Debugger.cpp 511-558 `AddBreakpoint(debugger, cmd, currentModuleName)`: line, module and condition of the new
breakpoint, or none. -/
def parseBreak (cmd current : Str) : R (Option Bp) := do
  let some i := findSub c!" " cmd | R.ub .index
  let rest := trim (← substrFrom cmd i)
  let (module, rest, args) ←
    if startsWith rest c!"\"" then do
      let (m, k) := getStringLiteral (rest.drop 1)
      let rest ← substrFrom rest (k + 2)
      if startsWith rest c!":" then .ok (m, rest, ← split (rest.drop 1) c!" ") else .ok (m, rest, [])
    else .ok (current, rest, ← split rest c!" ")
  let cond ← match findSub c!" " rest with
    | some j => do .ok (trim (← substrFrom rest j))
    | none => .ok []
  match args with
  | [] => .ok none
  | a :: _ => do
    let (module, num) := match lastIndexOf ':' a with
      | some j => (a.take j, a.drop (j + 1))
      | none => (module, a)
    let line ← atoi num
    .ok (some ⟨sizeT line, module, cond⟩)

/-- The commands of the interactive loop. -/
inductive DCmd where
  | exit | help | about | funcs | macros | builtins | doc | searchdoc | modules | clear | stack | code | list | brk
  | up | down | step | over | out | run | locals | globals | restart | version | eval
deriving DecidableEq, Repr

/-- The chain of tests in `InteractiveLoop` (Debugger.cpp 92-254), on the trimmed line. -/
def dcmd (cmd : Str) : DCmd :=
  if cmd.isEmpty || cmd == c!"exit" || cmd == c!"quit" || cmd == c!"q" then .exit
  else if cmd == c!"help" || cmd == c!"h" then .help
  else if cmd == c!"about" then .about
  else if cmd == c!"funcs" then .funcs
  else if cmd == c!"macros" then .macros
  else if cmd == c!"builtins" then .builtins
  else if startsWith cmd c!"doc" then .doc
  else if startsWith cmd c!"searchdoc" then .searchdoc
  else if cmd == c!"modules" then .modules
  else if startsWith cmd c!"clear" then .clear
  else if cmd == c!"stack" || startsWith cmd c!"k" then .stack
  else if cmd == c!"code" || startsWith cmd c!"c" then .code
  else if startsWith cmd c!"list" || startsWith cmd c!"t" then .list
  else if startsWith cmd c!"break " || startsWith cmd c!"b " then .brk
  else if cmd == c!"up" || startsWith cmd c!"u" then .up
  else if cmd == c!"down" || startsWith cmd c!"d" then .down
  else if cmd == c!"step" || cmd == c!"s" then .step
  else if cmd == c!"over" || cmd == c!"v" then .over
  else if cmd == c!"out" || cmd == c!"o" then .out
  else if cmd == c!"run" || cmd == c!"r" then .run
  else if cmd == c!"locals" || startsWith cmd c!"l" then .locals
  else if cmd == c!"globals" || startsWith cmd c!"g" then .globals
  else if cmd == c!"restart" then .restart
  else if cmd == c!"version" || cmd == c!"ver" then .version
  else .eval

/-- `TextReader::ReadLine()` on the standard input; the empty text at its end. -/
def readLine : M Str := do
  match (← M.get fun s => s.input) with
  | [] => pure []
  | l :: ls => do
    M.modify fun s => { s with input := ls }
    pure l

/-- Debugger.cpp 495-506: the question of `clear`.  Without an answer the program asks forever; the model runs out of
its budget. -/
def askClear : Nat → M Bool
  | 0 => M.fail .fuel
  | k + 1 => do
    let a ← readLine
    let a := toUpper a
    if a == c!"Y" || a == c!"YES" then pure true
    else if a == c!"N" || a == c!"NO" then pure false
    else askClear k

/-- Debugger.cpp 479-509 `ClearBreakpoints(debugger, cmd)`.  `cmd` starts with "clear". -/
def clearCommand (d : Dbg) (cmd : Str) : M Dbg := do
  let rest ← M.lift (substrFrom cmd 5)
  let rest := trim rest
  if rest.isEmpty then do
    writeLine c!"Really delete all breakpoints? (y/n)"
    let n ← M.get fun s => s.input.length
    if (← askClear (n + 1)) then pure d.clearAll else pure d
  else do
    let no ← M.lift (atoi rest)
    let (d', ok) ← M.lift (d.clearBreakpoint no)
    if ok then pure () else writeLine c!"Warning: no breakpoint cleared"
    pure d'

/-- Debugger.cpp 438-447 `ShowBreakpoints`: the lines from number `no` on. -/
def showBreakpoints (no : Nat) : List Bp → M Unit
  | [] => pure ()
  | b :: t => do
    let l ← M.lift (format c!"#{0,-3} line={1,-5} module={2,-25} condition={3}" (natStr no) (natStr b.line) b.module b.cond)
    writeLine l
    showBreakpoints (no + 1) t

/-- Debugger.cpp 464-477 `ShowSourceCode`: the lines from number `i` on; `cur` is the current line (a `size_t`). -/
def showSource (bps : List Bp) (module : Str) (cur : Nat) (i : Nat) : List Str → M Unit
  | [] => pure ()
  | l :: t => do
    let b := if hasBreakpointAt i module bps then c!"B " else c!"  "
    let m := if cur = i then c!"-->" else []
    let line ← M.lift (format c!"{0,3} {1,2} {2,3} {3}" (natStr i) b m l)
    writeLine line
    showSource bps module cur (i + 1) t

/-- The script shown by `code` (Debugger.cpp 160-175). -/
def codeText (st : St) (module interactive cmdLine : Str) : R Str := do
  let script ← if module.isEmpty then .ok interactive
    else if startsWith module c!"<evalstr>:" then
      match findFrom module c!":" 10 with
      | some j => substrFrom module (10 + j)
      | none => substrFrom module 9
    else .ok (match mapFind module st.files with | some t => t | none => [])
  .ok (if script.isEmpty then cmdLine else script)

/-- Scope.cpp 289-326 `Dump` for the functions of a scope (`DumpFunctions`, `DumpBuiltinFunctions`); `info` computes the
last column. -/
def dumpFns (n : Nat) (sel : FnW → Bool) (info : FnW → R Str) : List (Str × Ptr) → M Unit
  | [] => pure ()
  | (k, p) :: t => do
    if startsWith k c!"###" then dumpFns n sel info t
    else do
      let v ← M.lift (toVariant p)
      if v.type = .function then do
        let f ← M.rd fun st => v.functionValue st n
        if sel f then do
          let i ← M.lift (info f)
          let d ← M.rd fun st => v.toStrDebugger st n
          let ts ← M.lift v.typeString
          let l ← M.lift (format c!"{0,20} --> {1,-40} : {2} {3}" k d ts i)
          writeLine l
        else pure ()
      else pure ()
      dumpFns n sel info t

/-- Scope.h 258-261 `DumpBuiltinFunctionsHelp`. -/
def dumpHelp (n : Nat) : List (Str × Ptr) → M Unit
  | [] => pure ()
  | (k, p) :: t => do
    if startsWith k c!"###" then dumpHelp n t
    else do
      let v ← M.lift (toVariant p)
      if v.type = .function then do
        let f ← M.rd fun st => v.functionValue st n
        if f.builtin then do
          let l ← M.lift (format c!"{0,20} --> {1}" k f.signature)
          writeLine l
          if f.doc.isEmpty then pure ()
          else do
            let l ← M.lift (format c!"{0,20}     {1}" c!" " f.doc)
            writeLine l
        else pure ()
      else pure ()
      dumpHelp n t

/-- Scope.cpp 213-217 `ExtractModuleName`. -/
def extractModule (m : Str) : R Str :=
  if startsWith m c!"<evalstr>:" then
    match findFrom m c!":" 10 with
    | some j => substr m 10 (j - 10)
    | none => substrFrom m 10
  else .ok m

/-- The entries of the scope stored under a meta key (Scope.cpp 275-287 `ProcessMetaScope`). -/
def metaEntries (st : St) (key : Str) (gid : Nat) : List (Str × Ptr) :=
  match mapFind key (st.scopes gid).vars with
  | some (.mk _ (.scope m)) => (st.scopes m).vars
  | _ => []

/-- Scope.cpp 219-232 `DumpFunctions`.  The recursion into the modules of a module is left out: a module scope has no
entry for modules. -/
def dumpFunctions (n : Nat) (gid : Nat) : M Unit := do
  let showMod (f : FnW) : R Str := do .ok (c!" : module=" ++ (← extractModule f.moduleName))
  let vars ← M.get fun s => (s.scopes gid).vars
  dumpFns n (fun _ => true) showMod vars
  let mods ← M.get fun s => metaEntries s modulesKey gid
  go showMod mods
where
  /-- the modules -/
  go (showMod : FnW → R Str) : List (Str × Ptr) → M Unit
    | [] => pure ()
    | (_, p) :: t => do
      match p with
      | .mk _ (.scope m) => do
        let vars ← M.get fun s => (s.scopes m).vars
        dumpFns n (fun _ => true) showMod vars
      | .null => ub .nullDeref
      | _ => pure ()
      go showMod t

/-- Lines of text. -/
def writeLines : List Str → M Unit
  | [] => pure ()
  | l :: t => do
    writeLine l
    writeLines t

/-- Utils.cpp 32-37 `ShowVersion`. -/
def showVersion : M Unit :=
  writeLines [[], c!"FUEL(isp) v0.99.6 (for C++) from 16.12.2023, (C) by Michael Neuroth", []]

/-- Utils.cpp 39-44 `ShowAbout`. -/
def showAbout : M Unit := do
  showVersion
  writeLines [c!"FUEL(isp) is a fast usable embeddable lisp interpreter", []]

/-- Debugger.cpp 583-612 `ShowInteractiveCmds`. -/
def helpLines : List Str := [
  [], c!"help for interactive loop:", [],
  c!"  (h)elp                       : show this help",
  c!"  version                      : show of this interpreter",
  c!"  about                        : show informations about this interpreter",
  c!"  (c)ode                       : show the program code",
  c!"  stac(k)                      : show the current call stack",
  c!"  (u)p                         : go one step up in call stack",
  c!"  (d)own                       : go one step down in call stack",
  c!"  (r)un                        : execute the program",
  c!"  (s)tep                       : step into function",
  c!"  o(v)er                       : step over function",
  c!"  (o)ut                        : step out of function",
  c!"  (b)reak [module:]line [cond] : set a breakpoint in line no with condition cond",
  c!"  clear [no]                   : clears a breakpoint with number no or clears all",
  c!"  lis(t)                       : shows all breakpoints",
  c!"  restart                      : restart program",
  c!"  (l)ocals                     : show all local variables of current scope",
  c!"  (g)lobals                    : show all global variables",
  c!"  modules                      : show all available modules",
  c!"  builtins                     : show all builtin functions",
  c!"  funcs                        : show all available functions",
  c!"  macros                       : show all available macros",
  c!"  doc [function]               : show documentation for all or only given function(s)",
  c!"  searchdoc name               : show documentation for function(s) containing name",
  c!"  exit                         : exit the interactive loop", []]

/-- Local variables of `InteractiveLoop`: the debugger, `currentScope` and `interactiveScript`. -/
structure DS where
  dbg : Dbg
  cur : Nat
  script : Str := []

/-- How the loop goes on: next command, leave the loop (with the value of `bRestart`), or `LispStopDebuggerException`. -/
inductive Ctl where
  | again
  | leave (restart : Bool)
  | stop
deriving DecidableEq, Repr

/-- The commands `doc` and `searchdoc` (Debugger.cpp 119-147). -/
def docCommand (r : Rec) (fname cmd : Str) (d : DS) (gid : Nat) : M Unit := do
  match (← M.lift (split cmd c!" ")) with
  | _ :: name :: _ => do
    let module ← M.get fun s => (s.scopes d.cur).module
    let v ← derefV (← lispEval r (c!"(" ++ fname ++ c!" '" ++ name ++ c!")") d.cur module false false)
    let t ← M.rd fun st => varStr st r.n v
    let l ← M.lift (format c!"{0}" t)
    writeLine l
  | _ => do
    let vars ← M.get fun s => (s.scopes gid).vars
    dumpHelp r.n vars

/-- Any other line is evaluated (Debugger.cpp 255-271). -/
def evalCommand (r : Rec) (cmd : Str) (d : DS) : M DS := do
  match (← tryM (do
      let module ← M.get fun s => (s.scopes d.cur).module
      let v ← derefV (← lispEval r cmd d.cur module false false)
      let t ← M.rd fun st => varStr st r.n v
      let l ← M.lift (format c!"result={0}" t)
      writeLine l)) with
  | .ok _ => pure { d with script := d.script ++ cmd ++ c!"\n" }
  | .error (.lisp _ msg _ _ _ _) => do
    writeLine (c!"Exception: " ++ msg)
    pure d
  | .error _ => do
    writeLine c!"Native Exception"
    pure d

/-- One turn of the loop in `InteractiveLoop` (Debugger.cpp 92-271) after reading and trimming the line.  `top` is
`topScope`. -/
def dbgCommand (r : Rec) (top : Nat) (fromMain : Bool) (cmd : Str) (d : DS) : M (DS × Ctl) := do
  let gid ← M.get fun s => (s.scopes top).global
  match dcmd cmd with
  | .exit => pure (d, if fromMain then .leave false else .stop)
  | .help => do writeLines helpLines; pure (d, .again)
  | .about => do showAbout; pure (d, .again)
  | .funcs => do dumpFunctions r.n gid; pure (d, .again)
  | .macros => do
    let l ← M.get fun s => metaEntries s macrosKey gid
    writeLines (l.map Prod.fst)
    pure (d, .again)
  | .builtins => do
    let vars ← M.get fun s => (s.scopes gid).vars
    dumpFns r.n FnW.builtin (fun _ => .ok []) vars
    pure (d, .again)
  | .doc => do docCommand r c!"doc" cmd d gid; pure (d, .again)
  | .searchdoc => do docCommand r c!"searchdoc" cmd d gid; pure (d, .again)
  | .modules => do
    let l ← M.get fun s => metaEntries s modulesKey gid
    writeLines (l.map Prod.fst)
    pure (d, .again)
  | .clear => do
    let dbg ← clearCommand d.dbg cmd
    pure ({ d with dbg := dbg }, .again)
  | .stack => do
    let n ← M.rd fun st => callStackSize st (d.cur + 1) d.cur
    let k ← M.rd fun st => callStackSize st (top + 1) top
    let t ← M.rd fun st => dumpStack st n (top + 1) top k
    writeLine t
    pure (d, .again)
  | .code => do
    let sc ← M.get fun s => s.scopes d.cur
    let t ← M.rd fun st => codeText st sc.module d.script d.dbg.script
    let ls ← M.lift (split t c!"\n")
    let cur := match sc.curTok with | some t => sizeT t.line | none => 18446744073709551615
    showSource d.dbg.bps sc.module cur 1 ls
    pure (d, .again)
  | .list => do
    writeLine c!"Breakpoints:"
    showBreakpoints 1 d.dbg.bps
    pure (d, .again)
  | .brk => do
    let module ← M.get fun s => (s.scopes d.cur).module
    match (← M.lift (parseBreak cmd module)) with
    | some b => pure ({ d with dbg := d.dbg.addBreakpoint b.line b.module b.cond }, .again)
    | none => do
      writeLine c!"Warning: no breakpoint set or modified"
      pure (d, .again)
  | .up => do
    match (← M.get fun s => (s.scopes d.cur).next) with
    | some x => pure ({ d with cur := x }, .again)
    | none => pure (d, .again)
  | .down => do
    match (← M.get fun s => (s.scopes d.cur).prev) with
    | some x => pure ({ d with cur := x }, .again)
    | none => pure (d, .again)
  | .step => pure ({ d with dbg := d.dbg.doStep }, .leave false)
  | .over => do
    let n ← M.rd fun st => callStackSize st (d.cur + 1) d.cur
    pure ({ d with dbg := d.dbg.doStepOver n }, .leave false)
  | .out => do
    let n ← M.rd fun st => callStackSize st (d.cur + 1) d.cur
    pure ({ d with dbg := d.dbg.doStepOut n }, .leave false)
  | .run => pure ({ d with dbg := d.dbg.doRun }, .leave false)
  | .locals => do
    let vars ← M.get fun s => (s.scopes d.cur).vars
    dumpVars r.n vars
    pure (d, .again)
  | .globals => do
    let vars ← M.get fun s => (s.scopes gid).vars
    dumpVars r.n vars
    pure (d, .again)
  | .restart => pure (d, .leave true)
  | .version => do showVersion; pure (d, .again)
  | .eval => do
    let d ← evalCommand r cmd d
    pure (d, .again)

/-- The loop of `InteractiveLoop` (Debugger.cpp 80-273).  At the end of the input every line is empty, which leaves the
loop; so the number of lines is a bound for the number of turns. -/
def dbgLoop (r : Rec) (top : Nat) (fromMain : Bool) : Nat → DS → M (DS × Ctl)
  | 0, _ => M.fail .fuel
  | k + 1, d => do
    write c!"FUEL(isp)-DBG> "
    let line ← readLine
    match (← dbgCommand r top fromMain (trim line) d) with
    | (d, .again) => dbgLoop r top fromMain k d
    | res => pure res

/-- Debugger.cpp 59-273 `InteractiveLoop(debugger, initialTopScope, ...)` with a given scope. -/
def interactiveLoop (r : Rec) (dbg : Dbg) (top : Nat) (fromMain : Bool) : M (DS × Ctl) := do
  let n ← M.get fun s => s.input.length
  dbgLoop r top fromMain (n + 1) { dbg := dbg, cur := top }

end Fuel
