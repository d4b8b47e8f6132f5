import Verif.DebugRun
/-!
# Model of the command line program (CppLisp/fuel.cpp)
-/

namespace Fuel

variable [World]

/-- fuel.cpp 114-124 `ContainsOptionAndRemove`: the remaining arguments and whether the option was found. -/
def takeOption (args : List Str) (opt : Str) : List Str × Bool := (args.erase opt, args.contains opt)

/-- fuel.cpp 131-136 `GetScriptFilesFromProgramArgs`. -/
def scriptFiles (args : List Str) : List Str := args.filter fun s => !startsWith s c!"-"

/-- The arguments from the first `-l=` on (fuel.cpp 212). -/
def libArgs (args : List Str) : List Str := args.dropWhile fun s => !startsWith s c!"-l="

/-- fuel.cpp 357-400 `Usage`. -/
def usage (hasDebugger : Bool) : M Unit := do
  showAbout
  writeLines [c!"usage:", c!">fuel [options] [script_file_name]", [], c!"options:",
    c!"  -v          : show version", c!"  -h          : show help", c!"  -e \"script\" : execute given script",
    c!"  -l=\"path\"   : path to library", c!"  --doc       : show language documentation",
    c!"  --html      : show language documentation in html",
    c!"  --macro-expand : expand all macros and show resulting code",
    c!"  -m          : measure execution time", c!"  -t          : enable tracing",
    c!"  -x          : exhaustive error output"]
  if hasDebugger then writeLines [c!"  -i          : interactive shell", c!"  -d          : start debugger"]
  else writeLines [[], c!"Info: no debugger support installed !"]
  writeLines [[]]

/-- What the options ask for (the local variables of `MainExtended`). -/
structure Plan where
  measure : Bool
  trace : Bool
  expand : Bool
  lengthy : Bool
  interactive : Bool
  debug : Bool
  loadFiles : Bool
  script : Str
  files : List Str
  libPath : Option Str
deriving DecidableEq, Repr

/-- The decision taken from the arguments. -/
inductive Decision where
  | usage | version | libError
  | unknown (opts : List Str)
  | run (p : Plan)
deriving DecidableEq, Repr

/-- fuel.cpp 156-276: interpretation of the command line (`-e` without script text reads outside of the vector). -/
def decideArgs (hasDebugger : Bool) (args : List Str) : R Decision := do
  if args.isEmpty then .ok .usage
  else do
    let (rest, measure) := takeOption args c!"-m"
    let (rest, v) := takeOption rest c!"-v"
    if v then .ok .version
    else do
      let (rest, h) := takeOption rest c!"-h"
      if h then .ok .usage
      else do
        let (rest, doc) := takeOption rest c!"--doc"
        let (rest, html) := takeOption rest c!"--html"
        let (rest, expand) := takeOption rest c!"--macro-expand"
        let (rest, lengthy) := takeOption rest c!"-x"
        let (rest, t) := takeOption rest c!"-t"
        let (rest, e) := takeOption rest c!"-e"
        let script ← if e then
            match scriptFiles args with
            | s :: _ => .ok s
            | [] => R.ub .index
          else .ok (if html then c!"(htmldoc)" else if doc then c!"(doc)" else [])
        let lib := libArgs args
        let (rest, libPath) ← match lib with
          | [] => .ok (rest, some none)
          | [l] => .ok ((takeOption rest l).1, some (some (l.drop 3)))
          | _ => .ok (rest, none)
        match libPath with
        | none => .ok .libError
        | some libPath => do
          let (rest, i) := if hasDebugger then takeOption rest c!"-i" else (rest, false)
          let (rest, d) := if hasDebugger then takeOption rest c!"-d" else (rest, false)
          let rest := (scriptFiles args).foldl (fun r f => (takeOption r f).1) rest
          if rest.isEmpty then
            .ok (.run ⟨measure, t || doc || html, expand, lengthy, i, d, !(doc || html || e), script, scriptFiles args,
              libPath⟩)
          else .ok (.unknown rest)

/-- The loop over the script files (fuel.cpp 312-331). -/
def runFiles (k : Nat) (stack : Str) (p : Plan) : Option Variant → List Str → M (Option Variant)
  | res, [] => pure res
  | _, f :: t => do
    let files ← M.get fun s => s.files
    let code := match mapFind f files with | some c => c | none => []
    let res ← saveEval k stack true code f p.lengthy p.trace p.expand
    runFiles k stack p res t

/-- fuel.cpp 283-289, 303 `InteractiveLoopHeader`. -/
def loopHeader : M Unit := do
  showVersion
  writeLines [c!"Type \"help\" for informations.", []]

/-- fuel.cpp 282-289: the interactive shell; the result is the debugger, whose breakpoints are kept for `-d`. -/
def runShell (k : Nat) (trace : Bool) : M Dbg := do
  loopHeader
  let g ← createDefaultScope
  modScope g fun sc => { sc with tracing := some trace }
  let (d, _) ← interactiveLoop (run k) {} g true
  pure d.dbg

/-- fuel.cpp 290-309: a program run under the debugger. -/
def runDebugger (k : Nat) (p : Plan) (d : Dbg) : M (Option Variant) := do
  M.modify fun s => { s with dbg := d }
  let files ← M.get fun s => s.files
  let name := match p.files with | f :: _ => f | [] => []
  loopHeader
  if p.script.isEmpty then
    debuggerLoop k (match mapFind name files with | some c => c | none => []) name p.trace k none
  else debuggerLoop k p.script c!"command-line" p.trace k none

/-- fuel.cpp 278-355: execution of the plan. -/
def runPlan (k : Nat) (stack : Str) (start : Int) (p : Plan) : M Unit := do
  match p.libPath with
  | some l => M.modify fun s => { s with libPath := l }
  | none => pure ()
  let d ← if p.interactive then runShell k p.trace else pure {}
  let res ← if p.debug then runDebugger k p d
    else if p.loadFiles && !p.interactive then runFiles k stack p (some undefinedV) p.files
    else if !p.script.isEmpty && !p.interactive then
      saveEval k stack true p.script c!"cmdline" false false p.expand
    else pure (some undefinedV)
  if p.expand then do
    let v ← derefV res
    let t ← M.rd fun st => varStr st k v
    writeLine (c!"Macro expand: " ++ t)
  else pure ()
  if p.trace then do
    let v ← derefV res
    let t ← M.rd fun st => varStr st k v
    writeLine (c!"Result=" ++ t)
  else pure ()
  if p.measure then do
    let now ← M.get fun s => World.tick s.clock
    M.modify fun s => { s with clock := s.clock + 1 }
    let l ← M.lift (format c!"Execution time = {0} s" (World.seconds (now - start)))
    writeLine l
  else pure ()

/-- fuel.cpp 145-355 `MainExtended`. -/
def mainExtended (k : Nat) (stack : Str) (hasDebugger : Bool) (args : List Str) : M Unit := do
  match (← M.lift (decideArgs hasDebugger args)) with
  | .usage => usage hasDebugger
  | .version => writeLine (c!"fuel v0.99.6 from 16.12.2023 compiled with " ++ World.compilerInfo)
  | .libError => writeLine c!"Error: only one library path is supported"
  | .unknown opts => writeLine (c!"Error: unknown option(s) " ++ (opts.map fun o => o ++ c!" ").flatten)
  | .run p => do
    let start ← M.get fun s => World.tick s.clock
    M.modify fun s => { s with clock := s.clock + 1 }
    runPlan k stack start p

end Fuel
