import Verif.Scope
/-!
# Model of the builtin functions of Environment.cpp that do not call the evaluator

Every function takes the nesting budget `n` of the text functions, the argument vector and the number of the calling
scope.  Sizes of containers are assumed to fit into `size_t`; where the code converts them to `int` the model does (`wrap32`), except in
the comparisons of positions in `Push` and `Pop`.
-/

namespace Fuel

variable [World]

/-- `LispVariant()` / `LispVariant(LispType::_Undefined)`. -/
def undefinedV : Variant := .ofType .undefined

/-- `LispVariant(LispType::_Nil)`. -/
def nilV : Variant := .ofType .nil

/-- `(size_t)i` for an `int`. -/
def sizeT (i : Int) : Nat := (i % 18446744073709551616).toNat

/-- `catch (...)`: replaces every exception by a result. -/
def catchAny {α : Type} (d : α) : R α → R α
  | .error (.exn _) => .ok d
  | r => r

/-! ## Information (Environment.cpp 267-382) -/

/-- Lisp.cpp 32-37, Environment.cpp 267-272 `Fuel`. -/
def bFuel : M Variant := mkStr c!"fuel version v0.99.6 from 16.12.2023"

/-- Environment.cpp 274-279 `Version`. -/
def bVersion : M Variant := mkStr c!"v0.99.6"

/-- Environment.cpp 281-286 `Copyright`. -/
def bCopyright : M Variant := mkStr c!"Copyright: MIT-License http://opensource.org/licenses/MIT"

/-- Environment.cpp 290-301 `Help`. -/
def bHelp (sid : Nat) : M Variant := do
  let vars ← M.get fun s => (s.scopes sid).vars
  let text := c!"available functions:\n" ++ (vars.map fun e => e.1 ++ c!"\n").flatten
  writeLine text
  mkStr text

/-- cstypes.cpp 154-184 `GetFormatedHelpString`. -/
def helpString (f : FnW) (sep splitter : Str) (nameDec synDec : Str → Str) : R Str := do
  let sig := f.signature
  let name ← if startsWith sig c!"(" then do
      let len := match findSub c!" " sig with
        | some k => k
        | none => match findSub c!")" sig with
          | some k => k - 1
          | none => 18446744073709551614
      let nm ← substr sig 1 len
      .ok (nameDec nm)
    else .ok c!"???"
  let name := name ++ (if f.special then c!" [special form]" else []) ++ sep
  let doc := (if f.doc.isEmpty then c!">not available<" else f.doc) ++ sep
  .ok (splitter ++ name ++ (synDec (c!"Syntax: " ++ sig) ++ sep) ++ doc ++ c!"\n")

/-- cstypes.cpp 140-145 `GetFormatedDoc`. -/
def formatedDoc (f : FnW) : R Str :=
  helpString f c!"\n\n" c!"-------------------------------------------------\n\n" id id

/-- cstypes.cpp 147-152 `GetHtmlFormatedDoc`. -/
def htmlDoc (f : FnW) : R Str :=
  helpString f c!"<br><br>" c!"<hr><br>" (fun s => c!"<b>" ++ s ++ c!"</b>") (fun s => c!"<code>" ++ s ++ c!"</code>")

/-- Scope.cpp 250-271 `GetFunctionsHelpFormated`. -/
def functionsHelp (st : St) (n : Nat) (sel : Str → Bool) : List (Str × Ptr) → R Str
  | [] => .ok []
  | (k, p) :: t => do
    let h ← if sel k then do
        let v ← toVariant p
        let f ← v.functionValue st n
        formatedDoc f
      else .ok []
    let r ← functionsHelp st n sel t
    .ok (h ++ r)

/-- The loop over the macro scope in `DoSearchDocumentation` (Environment.cpp 323-327). -/
def macrosHelp (st : St) (n : Nat) (sel : Str → Bool) : List (Str × Ptr) → R Str
  | [] => .ok []
  | (_, .mk _ (.scope m)) :: t => do
    let h ← functionsHelp st n sel (st.scopes m).vars
    let r ← macrosHelp st n sel t
    .ok (h ++ r)
  | _ => R.ub .nullDeref

/-- The loop over the arguments in `DoSearchDocumentation` (Environment.cpp 318-328). -/
def searchHelp (st : St) (n : Nat) (sid : Nat) (sel : Str → Str → Bool) : List Ptr → R Str
  | [] => .ok []
  | p :: t => do
    let name ← ptrStr st n p
    let h ← functionsHelp st n (fun k => sel k name) (st.scopes sid).vars
    let m ← match mapFind macrosKey (st.scopes (st.scopes sid).global).vars with
      | some (.mk _ (.scope m)) => macrosHelp st n (fun k => sel k name) (st.scopes m).vars
      | _ => R.ub .nullDeref
    let r ← searchHelp st n sid sel t
    .ok (h ++ m ++ r)

/-- Scope.cpp 289-326 `Dump` with a format function, for builtin functions (Scope.h 259-262, Scope.cpp 243). -/
def dumpDoc (st : St) (n : Nat) (fmt : FnW → R Str) : List (Str × Ptr) → R Str
  | [] => .ok []
  | (k, p) :: t => do
    let line ← if startsWith k c!"###" then .ok []
      else do
        let v ← toVariant p
        if v.type = .function then do
          let f ← v.functionValue st n
          if f.builtin then do
            let d ← fmt f
            let l ← format c!"{0}" d
            .ok (l ++ c!"\n")
          else .ok []
        else .ok []
    let r ← dumpDoc st n fmt t
    .ok (line ++ r)

/-- Environment.cpp 303-312 `DumpDocumentation`: the text is written and returned (if producing the text fails, the
model writes nothing). -/
def dumpDocumentation (text : Str) : M Variant := do
  write text
  mkStr text

/-- Environment.cpp 314-332 `DoSearchDocumentation`. -/
def searchDocumentation (n : Nat) (sel : Str → Str → Bool) (args : List Ptr) (sid : Nat) : M Variant :=
  if args.isEmpty then do
    let t ← M.rd fun st => dumpDoc st n formatedDoc (st.scopes (st.scopes sid).global).vars
    dumpDocumentation t
  else do
    let h ← M.rd fun st => searchHelp st n sid sel args
    let t ← M.lift (format c!"{0}" h)
    dumpDocumentation (t ++ c!"\n")

/-- Environment.cpp 339-342 `Documentation`. -/
def bDoc (n : Nat) (args : List Ptr) (sid : Nat) : M Variant :=
  searchDocumentation n (fun k name => startsWith k name) args sid

/-- Environment.cpp 344-347 `SearchDocumentation`. -/
def bSearchDoc (n : Nat) (args : List Ptr) (sid : Nat) : M Variant :=
  searchDocumentation n (fun k name => (findSub name k).isSome) args sid

/-- Environment.cpp 334-337 `HtmlDocumentation`, Scope.cpp 233-246. -/
def bHtmlDoc (n : Nat) (sid : Nat) : M Variant := do
  let t ← M.rd fun st => dumpDoc st n htmlDoc (st.scopes (st.scopes sid).global).vars
  dumpDocumentation (c!"<html>\n<head>\n<title>\nDocumentation of fuel language\n</title>\n</head>\n" ++
    c!"<h2>Documentation of builtin functions of the fuel language:</h2>\n<body>\n" ++ t ++ c!"</body>\n</html>\n")

/-- Environment.cpp 349-363 `Break` without debugger. -/
def bBreak (sid : Nat) : M Variant := do
  writeLine c!"break -> call stack:"
  let k ← M.rd fun st => callStackSize st (sid + 1) sid
  let t ← M.rd fun st => dumpStack st k (sid + 1) sid k
  writeLine t
  writeLine c!"Warning: can not break, because no debugger support availabe!"
  pure undefinedV

/-- Scope.cpp 289-326 `Dump` as called by `DumpVars` (Scope.h 237-240). -/
def dumpVars (n : Nat) : List (Str × Ptr) → M Unit
  | [] => pure ()
  | (k, p) :: t => do
    if startsWith k c!"###" then dumpVars n t
    else do
      let v ← M.lift (toVariant p)
      let sel ← if v.type = .function then do
          let f ← M.rd fun st => v.functionValue st n
          pure (!f.builtin)
        else pure true
      if sel then do
        let s ← M.rd fun st => v.toStrDebugger st n
        let ty ← M.lift v.typeString
        let line ← M.lift (format c!"{0,20} --> {1,-40} : {2} {3}" k s ty [])
        writeLine line
        dumpVars n t
      else dumpVars n t

/-- Environment.cpp 365-370 `Vars`. -/
def bVars (n : Nat) (sid : Nat) : M Variant := do
  writeLine c!"variables:"
  let vars ← M.get fun s => (s.scopes sid).vars
  dumpVars n vars
  pure undefinedV

/-- Environment.cpp 372-375 `DelVar`. -/
def bDelVar (n : Nat) (args : List Ptr) (sid : Nat) : M Variant := do
  checkArgs c!"delvar" 1 args sid
  let v ← argV args 0
  let name ← M.rd fun st => varStr st n v
  let vars ← M.get fun s => (s.scopes sid).vars
  modScope sid fun sc => { sc with vars := mapErase name sc.vars }
  mkBool (mapFind name vars).isSome

/-- Environment.cpp 379-382 `NeedLValue`. -/
def bNeedLValue (args : List Ptr) (sid : Nat) : M Variant := do
  checkArgs c!"need-l-value" 0 args sid
  mkBool (← M.get fun s => (s.scopes sid).needsLValue)

/-- Environment.cpp 384-389 `TracePrint`. -/
def bTrace (n : Nat) (args : List Ptr) (sid : Nat) : M Variant := do
  let v ← argV args 0
  let b ← M.rd fun st => v.boolValue st n
  let p ← allocObj (.bool b)
  setVar sid traceonKey p
  mkBool b

/-- Environment.cpp 391-395 `GetTracePrint`. -/
def bGetTrace (n : Nat) (sid : Nat) : M Variant := do
  match (← M.get fun s => mapFind tracebufferKey (s.scopes sid).vars) with
  | none => ub .nullDeref
  | some p => mkStr (← M.rd fun st => ptrStr st n p)

/-- Environment.cpp 429-432 `CurrentTickCount`. -/
def bTickCount (args : List Ptr) (sid : Nat) : M Variant := do
  checkArgs c!"tickcount" 0 args sid
  let k ← M.get fun s => s.clock
  M.modify fun s => { s with clock := s.clock + 1 }
  mkInt (wrap32 (World.tick k))

/-- Environment.cpp 434-439 `_Sleep`. -/
def bSleep (n : Nat) (args : List Ptr) : M Variant := do
  let v ← argMk args 0
  let _ ← M.rd fun st => v.toInt st n
  pure undefinedV

/-- Environment.cpp 441-461 `Datetime`. -/
def bDatetime : M Variant := do
  let k ← M.get fun s => s.clock
  M.modify fun s => { s with clock := s.clock + 1 }
  let (y, mo, d, h, mi, sec) := World.localtime k
  let p1 ← allocObj (.int (wrap32 y))
  let p2 ← allocObj (.int (wrap32 mo))
  let p3 ← allocObj (.int (wrap32 d))
  let p4 ← allocObj (.int (wrap32 h))
  let p5 ← allocObj (.int (wrap32 mi))
  let p6 ← allocObj (.int (wrap32 sec))
  mkList [p1, p2, p3, p4, p5, p6]

/-- Environment.cpp 486-495 `Platform`. -/
def bPlatform : M Variant := do
  let p1 ← allocObj (.str World.osName)
  let p2 ← allocObj (.str c!"C++")
  let p3 ← allocObj (.str World.wordSize)
  mkList [p1, p2, p3]

/-- Environment.cpp 608-612 `Return`. -/
def bReturn (args : List Ptr) (sid : Nat) : M Variant := do
  modScope sid fun sc => { sc with isInReturn := true }
  argMk args 0

/-- Environment.cpp 614-617 `GetType`. -/
def bType (args : List Ptr) (sid : Nat) : M Variant := do
  checkArgs c!"type" 1 args sid
  let v ← argV args 0
  mkInt v.type.code

/-- Environment.cpp 619-622 `GetTypeString`. -/
def bTypeStr (args : List Ptr) (sid : Nat) : M Variant := do
  checkArgs c!"typestr" 1 args sid
  let v ← argV args 0
  mkStr (← M.lift v.typeString)

/-! ## Text (Environment.cpp 122-142, 624-863) -/

/-- Environment.cpp 122-142 `GetStringRepresentation`. -/
def stringRep (n : Nat) (args : List Ptr) (sid : Nat) : M Str := do
  let text ← M.rd fun st => joinLoop (ptrStr st n) c!" " [] args
  let vars ← M.get fun s => (s.scopes sid).vars
  match mapFind traceonKey vars with
  | none => pure text
  | some .null => pure text
  | some (.mk _ _) =>
    match mapFind tracebufferKey vars with
    | none => ub .nullDeref
    | some b => do
      let t ← M.rd fun st => ptrStr st n b
      let p ← allocObj (.str (t ++ text))
      setVar sid tracebufferKey p
      pure text

/-- Environment.cpp 624-629 `Print`. -/
def bPrint (n : Nat) (args : List Ptr) (sid : Nat) : M Variant := do
  let t ← stringRep n args sid
  write t
  mkStr t

/-- Environment.cpp 631-636 `PrintLn`. -/
def bPrintLn (n : Nat) (args : List Ptr) (sid : Nat) : M Variant := do
  let t ← stringRep n args sid
  writeLine t
  mkStr t

/-- The texts of all arguments. -/
def argStrs (st : St) (n : Nat) : List Ptr → R (List Str)
  | [] => .ok []
  | p :: t => do
    let s ← ptrStr st n p
    let r ← argStrs st n t
    .ok (s :: r)

/-- Environment.cpp 638-667 `Format`. -/
def bFormat (n : Nat) (args : List Ptr) (sid : Nat) : M Variant := do
  checkOptionalArgs c!"format" 1 6 args sid
  let ss ← M.rd fun st => argStrs st n args
  let r ← match ss with
    | [f] => M.lift (format f)
    | [f, a] => M.lift (format f a)
    | [f, a, b] => M.lift (format f a b)
    | [f, a, b, c] => M.lift (format f a b c)
    | [f, a, b, c, d] => M.lift (format f a b c d)
    | [f, a, b, c, d, e] => M.lift (format f a b c d e)
    | _ => ub .index
  mkStr r

/-- Environment.cpp 669-675 `Flush`. -/
def bFlush (args : List Ptr) (sid : Nat) : M Variant := do
  checkArgs c!"flush" 0 args sid
  pure undefinedV

/-- Environment.cpp 677-680 `ReadLine`, cstypes.cpp 122-138. -/
def bReadLine (args : List Ptr) (sid : Nat) : M Variant := do
  checkArgs c!"readline" 0 args sid
  match (← M.get fun s => s.input) with
  | [] => mkStr []
  | l :: ls => do
    M.modify fun s => { s with input := ls }
    mkStr l

/-- cstypes.cpp 109-120 `TextReader(txt)` with `SetContent`, for a reader with a non-empty text (otherwise it reads from
the console): all lines of the text can be read. -/
def textReader (txt : Str) : M Unit := do
  let lines ← M.lift (split txt ['\n'])
  M.modify fun s => { s with input := lines }

/-- The `try` block of `ParseInteger` (Environment.cpp 688-697). -/
def parseIntText (s : Str) : R (Option Int) := do
  let (i, k) ← stoi s
  if k < s.length then throwBase c!"format error" else .ok (some i)

/-- Environment.cpp 682-702 `ParseInteger`. -/
def bParseInteger (n : Nat) (args : List Ptr) (sid : Nat) : M Variant := do
  checkArgs c!"parse-integer" 1 args sid
  let v ← argMk args 0
  match (← M.rd fun st => catchAny none (do parseIntText (← varStr st n v))) with
  | some i => mkInt i
  | none => pure undefinedV

/-- Environment.cpp 704-718 `ParseFloat`. -/
def bParseFloat (n : Nat) (args : List Ptr) (sid : Nat) : M Variant := do
  checkArgs c!"parse-float" 1 args sid
  let v ← argMk args 0
  match (← M.rd fun st => catchAny none (do
      let s ← varStr st n v
      let (d, _) ← stod s
      .ok (some d))) with
  | some d => mkDbl d
  | none => pure undefinedV

/-- Environment.cpp 720-742 `ToInt`; the last line creates an `object` of the number 0. -/
def bToInt (n : Nat) (args : List Ptr) (sid : Nat) : M Variant := do
  checkArgs c!"int" 1 args sid
  let v ← argMk args 0
  if v.type = .int then do mkInt (← M.rd fun st => v.intValue st n)
  else if v.type = .double then do
    let d ← M.rd fun st => v.doubleValue st n
    mkInt (← M.lift (dblToInt d))
  else if v.type = .string then bParseInteger n args sid
  else if v.type = .bool then do
    let b ← M.rd fun st => v.boolValue st n
    mkInt (if b then 1 else 0)
  else mkInt 0

/-- Environment.cpp 744-766 `ToFloat`. -/
def bToFloat (n : Nat) (args : List Ptr) (sid : Nat) : M Variant := do
  checkArgs c!"float" 1 args sid
  let v ← argMk args 0
  if v.type = .int then do
    let i ← M.rd fun st => v.intValue st n
    mkDbl (World.dOfInt i)
  else if v.type = .double then do mkDbl (← M.rd fun st => v.doubleValue st n)
  else if v.type = .string then bParseFloat n args sid
  else if v.type = .bool then do
    let b ← M.rd fun st => v.boolValue st n
    mkDbl (World.dOfInt (if b then 1 else 0))
  else mkInt 0

/-- `string::IndexOf(txt, pos, len)` = `find(txt.c_str(), pos, len)` (csstring.h 161-164): the pattern is the first `len` bytes
of the C string including its terminating zero byte. -/
def indexOfLen (s pat : Str) (pos len : Nat) : R (Option Nat) :=
  if len ≤ pat.length + 1 then .ok (findFrom s ((pat ++ [Char.ofNat 0]).take len) pos)
  else R.ub .index

/-- The loop over a list in `Search` (Environment.cpp 798-808). -/
def searchList (st : St) (n : Nat) (text : Str) : List Ptr → Nat → R (Option Nat)
  | [], _ => .ok none
  | p :: t, i => do
    let s ← ptrStr st n p
    if s = text then .ok (some i) else searchList st n text t (i + 1)

/-- The string search of `Search` (Environment.cpp 778-795); `18446744073709551615` is `npos`. -/
def searchStr (s pat : Str) (pos len : Nat) : R (Option Nat) :=
  if pos ≠ 18446744073709551615 then
    if len ≠ 18446744073709551615 then indexOfLen s pat pos len
    else .ok (findFrom s pat pos)
  else .ok (findFrom s pat 0)

/-- An optional `int` argument of `Search` as `size_t`. -/
def optSize (n : Nat) (args : List Ptr) (i : Nat) : M Nat :=
  if i < args.length then do
    let v ← argMk args i
    let k ← M.rd fun st => v.toInt st n
    pure (sizeT k)
  else pure 18446744073709551615

/-- Environment.cpp 768-816 `Search`. -/
def bSearch (n : Nat) (args : List Ptr) (sid : Nat) : M Variant := do
  checkOptionalArgs c!"search" 2 4 args sid
  let v0 ← argMk args 0
  let text ← M.rd fun st => varStr st n v0
  let v ← argV args 1
  let pos ← optSize n args 2
  let len ← optSize n args 3
  let found ← if v.type = .string then do
      let src ← M.rd fun st => varStr st n v
      M.lift (searchStr src text pos len)
    else if v.isList then do
      let l ← M.rd fun st => v.listValue st n
      M.rd fun st => searchList st n text l 0
    else M.lift (throwBase (c!"search not supported for type " ++ [Char.ofNat 11]))
  match found with
  | some i => mkInt (wrap32 i)
  | none => mkInt (-1)

/-- Environment.cpp 818-834 `Slice`. -/
def bSlice (n : Nat) (args : List Ptr) (sid : Nat) : M Variant := do
  checkArgs c!"slice" 3 args sid
  let v0 ← argMk args 0
  let s ← M.rd fun st => varStr st n v0
  let v1 ← argMk args 1
  let start ← M.rd fun st => v1.toInt st n
  let v2 ← argMk args 2
  let len ← M.rd fun st => v2.toInt st n
  if 0 ≤ len then do mkStr (← M.lift (substr s (sizeT start) len.toNat))
  else do mkStr (← M.lift (substrFrom s (sizeT start)))

/-- Environment.cpp 836-848 `Replace`. -/
def bReplace (n : Nat) (args : List Ptr) (sid : Nat) : M Variant := do
  checkArgs c!"replace" 3 args sid
  let a ← argStr n args 0
  let b ← argStr n args 1
  let c ← argStr n args 2
  mkStr (← M.lift (replaceAll a b c))

/-- `FuelFuncWrapper1<string, string>` (Environment.cpp 181-190). -/
def strFn (name : Str) (f : Str → Str) (n : Nat) (args : List Ptr) (sid : Nat) : M Variant := do
  checkArgs name 1 args sid
  let v ← argV args 0
  let s ← M.rd fun st => varStr st n v
  mkStr (f s)

/-- Environment.cpp 850-853 `Trim`. -/
def bTrim : Nat → List Ptr → Nat → M Variant := strFn c!"trim" trim
/-- Environment.cpp 855-858 `LowerCase`. -/
def bLower : Nat → List Ptr → Nat → M Variant := strFn c!"lower-case" toLower
/-- Environment.cpp 860-863 `UpperCase`. -/
def bUpper : Nat → List Ptr → Nat → M Variant := strFn c!"upper-case" toUpper

/-! ## Numbers and comparison (Environment.cpp 865-980) -/

/-- The loop of `ArithmetricOperation` once a first value exists. -/
def arithLoop (n : Nat) (op : ArithOp) : Variant → List Ptr → M Variant
  | acc, [] => pure acc
  | acc, p :: t => do
    let v ← M.lift (mkVariant p)
    let acc ← arith n op acc v
    arithLoop n op acc t

/-- Environment.cpp 865-880 `ArithmetricOperation`, 887-890 `Addition`, 912-930 `Multiplication`, `Division`, `Modulo`. -/
def arithFold (n : Nat) (op : ArithOp) : List Ptr → M (Option Variant)
  | [] => pure none
  | p :: t => do
    let v ← M.lift (mkVariant p)
    let r ← arithLoop n op v t
    pure (some r)

/-- Environment.cpp 892-910 `Subtraction`. -/
def bSub (n : Nat) (args : List Ptr) : M (Option Variant) :=
  match args with
  | [p] => do
    let v ← M.lift (mkVariant p)
    if v.type = .int then do
      let i ← M.rd fun st => v.intValue st n
      let r ← mkInt (← M.lift (chk32 (-i)))
      pure (some r)
    else if v.type = .double then do
      let d ← M.rd fun st => v.doubleValue st n
      let r ← mkDbl (World.dNeg d)
      pure (some r)
    else do
      let t ← M.lift v.typeString
      let m ← M.lift (format c!"Unary operator - not available for {0}" t)
      M.lift (throwBase m)
  | args => arithFold n .sub args

/-- Environment.cpp 927-930 `Not`. -/
def bNot (n : Nat) (args : List Ptr) (sid : Nat) : M Variant := do
  checkArgs c!"not" 1 args sid
  let v ← argV args 0
  let b ← M.rd fun st => v.boolValue st n
  mkBool (!b)

/-- The bit operators of Environment.cpp 932-960. -/
inductive BitOp where
  | shl | shr | bor | band | bxor
deriving DecidableEq, Repr

/-- The function name in the error message (`"lef-shift"` is used for four operators). -/
def BitOp.text : BitOp → Str
  | .shr => c!"right-shift"
  | _ => c!"lef-shift"

/-- The C++ operator on 32-bit `int`.  Shifting a negative number to the left, or one whose result needs more than 32 bits,
is undefined; `>>` is arithmetic. -/
def BitOp.int : BitOp → Int → Int → R Int
  | .shl, a, b => if b < 0 ∨ 32 ≤ b ∨ a < 0 ∨ 4294967296 ≤ a * 2 ^ b.toNat then R.ub .shift else .ok (wrap32 (a * 2 ^ b.toNat))
  | .shr, a, b => if b < 0 ∨ 32 ≤ b then R.ub .shift else .ok (a / 2 ^ b.toNat)
  | .bor, a, b => .ok (BitVec.ofInt 32 a ||| BitVec.ofInt 32 b).toInt
  | .band, a, b => .ok (BitVec.ofInt 32 a &&& BitVec.ofInt 32 b).toInt
  | .bxor, a, b => .ok (BitVec.ofInt 32 a ^^^ BitVec.ofInt 32 b).toInt

/-- Environment.cpp 932-955 `LeftShift`, `RightShift`, `BinaryOr`, `BinaryAnd`, `BinaryXOr`. -/
def bBit (op : BitOp) (n : Nat) (args : List Ptr) (sid : Nat) : M Variant := do
  checkArgs op.text 2 args sid
  let v ← argV args 0
  let w ← argV args 1
  let a ← M.rd fun st => v.intValue st n
  let b ← M.rd fun st => w.intValue st n
  mkInt (← M.lift (op.int a b))

/-- Environment.cpp 957-960 `BinaryNot`. -/
def bBitNot (n : Nat) (args : List Ptr) (sid : Nat) : M Variant := do
  checkArgs c!"binary-not" 1 args sid
  let v ← argV args 0
  let a ← M.rd fun st => v.intValue st n
  mkInt (-a - 1)

/-- The comparison functions (Environment.cpp 962-990). -/
inductive CmpOp where
  | lt | gt | le | ge | eq | ne
deriving DecidableEq, Repr

/-- The function name in the error message. -/
def CmpOp.text : CmpOp → Str
  | .lt => c!"<" | .gt => c!">" | .le => c!"<=" | .ge => c!">=" | .eq => c!"==" | .ne => c!"!="

/-- Environment.cpp 962-990: which operator of `LispVariant` is used (`a > b` is `b < a`, Variant.h 369-377). -/
def CmpOp.run (op : CmpOp) (st : St) (n : Nat) (l r : Variant) : R Bool :=
  match op with
  | .lt => vLt st n l r
  | .gt => vLt st n r l
  | .le => vLe st n l r
  | .ge => vLe st n r l
  | .eq => equalOp st n l r
  | .ne => do .ok (!(← equalOp st n l r))

/-- Environment.cpp 882-885 `CompareOperation`. -/
def bCmp (op : CmpOp) (n : Nat) (args : List Ptr) (sid : Nat) : M Variant := do
  checkArgs op.text 2 args sid
  let v ← argV args 0
  let w ← argV args 1
  mkBool (← M.rd fun st => op.run st n v w)

/-! ## Lists (Environment.cpp 992-1269) -/

/-- Environment.cpp 992-1001 `CreateList`. -/
def bList (args : List Ptr) : M Variant := mkList args

/-- Environment.cpp 1043-1068 `Cons`. -/
def bCons (n : Nat) (args : List Ptr) : M Variant :=
  match args with
  | [] => mkList []
  | [a] => mkList [a]
  | a :: b :: _ => do
    let v ← M.lift (toVariant b)
    if v.isList then do
      let l ← M.rd fun st => v.listValue st n
      mkList (a :: l)
    else mkList [a, b]

/-- The list or string size in `Length` (Environment.cpp 1082-1087). -/
def lenRest (n : Nat) (v : Variant) : M Variant :=
  if v.type = .string then do
    let s ← M.rd fun st => v.stringValue st n
    mkInt (wrap32 s.length)
  else do
    let l ← M.rd fun st => v.listValue st n
    mkInt (wrap32 l.length)

/-- Environment.cpp 1070-1088 `Length`. -/
def bLen (n : Nat) (args : List Ptr) (sid : Nat) : M Variant := do
  checkArgs c!"len" 1 args sid
  let v ← argV args 0
  if v.type = .native then
    match v.value with
    | .null => ub .nullDeref
    | .mk id .dict => do
      let d ← M.get fun s => s.dicts id
      mkInt (wrap32 d.length)
    | _ => lenRest n v
  else lenRest n v

/-- `LispVariant(action)` (Variant.cpp 52-55): a place that can be assigned. -/
def mkLVal (target : Ptr) (k : LKind) : M Variant := do
  let p ← allocObj (.lval target k)
  pure (.ofType .lvalue p)

/-- Environment.cpp 1090-1118 `First`. -/
def bFirst (n : Nat) (args : List Ptr) (sid : Nat) : M Variant := do
  checkArgs c!"first" 1 args sid
  let p ← arg args 0
  let v ← M.lift (toVariant p)
  if v.type = .string then do
    let s ← M.rd fun st => v.stringValue st n
    mkStr (← M.lift (substr s 0 1))
  else if (← M.get fun s => (s.scopes sid).needsLValue) then mkLVal p .first
  else
    match (← M.rd fun st => v.listValue st n) with
    | [] => ub .index
    | x :: _ => M.lift (mkVariant x)

/-- Environment.cpp 1120-1148 `Last`. -/
def bLast (n : Nat) (args : List Ptr) (sid : Nat) : M Variant := do
  checkArgs c!"last" 1 args sid
  let p ← arg args 0
  let v ← M.lift (toVariant p)
  if v.type = .string then do
    let s ← M.rd fun st => v.stringValue st n
    mkStr (← M.lift (substrFrom s (sizeT ((s.length : Int) - 1))))
  else if (← M.get fun s => (s.scopes sid).needsLValue) then mkLVal p .last
  else
    match (← M.rd fun st => v.listValue st n).getLast? with
    | none => ub .index
    | some x => M.lift (mkVariant x)

/-- Environment.cpp 1150-1161 `Rest`. -/
def bRest (n : Nat) (args : List Ptr) (sid : Nat) : M Variant := do
  checkArgs c!"rest" 1 args sid
  let v ← argV args 0
  if v.type = .string then do
    let s ← M.rd fun st => v.stringValue st n
    mkStr (← M.lift (substrFrom s 1))
  else
    match (← M.rd fun st => v.listValue st n) with
    | [] => ub .index
    | _ :: t => mkList t

/-- Environment.cpp 1163-1192 `Nth`. -/
def bNth (n : Nat) (args : List Ptr) (sid : Nat) : M Variant := do
  checkArgs c!"nth" 2 args sid
  let iv ← argV args 0
  let i ← M.rd fun st => iv.intValue st n
  let p ← arg args 1
  let v ← M.lift (toVariant p)
  if v.type = .string then do
    let s ← M.rd fun st => v.stringValue st n
    mkStr (← M.lift (substr s (sizeT i) 1))
  else if (← M.get fun s => (s.scopes sid).needsLValue) then mkLVal p (.nth i)
  else do
    let l ← M.rd fun st => v.listValue st n
    match l[sizeT i]? with
    | none => ub .index
    | some x => M.lift (mkVariant x)

/-- Environment.cpp 2288-2296 `GetLispType`. -/
def lispTypeName (p : Ptr) : R Str :=
  match p with
  | .null => R.ub .nullDeref
  | .mk _ (.var v) => v.typeString
  | .mk _ o => .ok o.typeName

/-- An optional position argument of `Push` and `Pop`. -/
def optPos (n : Nat) (args : List Ptr) (i : Nat) : M Int :=
  if i < args.length then do
    let v ← argV args i
    M.rd fun st => v.toInt st n
  else pure 0

/-- Environment.cpp 1194-1215 `Push`: inserting before the beginning is undefined. -/
def bPush (n : Nat) (args : List Ptr) (sid : Nat) : M Variant := do
  checkOptionalArgs c!"push" 2 3 args sid
  let v ← argV args 0
  let p ← arg args 1
  let lv ← M.lift (toVariant p)
  let pos ← optPos n args 2
  if lv.isList then do
    let l ← M.rd fun st => lv.listValue st n
    if pos < l.length then
      if pos < 0 then ub .index
      else
        match lv.value with
        | .mk id .list => do
          let x ← box v
          let l' := l.take pos.toNat ++ x :: l.drop pos.toNat
          setList id l'
          mkList l'
        | _ => ub .index
    else pure nilV
  else do
    let t ← M.lift (lispTypeName p)
    M.lift (throwBase (c!"push not supported for type " ++ t))

/-- Environment.cpp 1217-1238 `Pop`. -/
def bPop (n : Nat) (args : List Ptr) (sid : Nat) : M Variant := do
  checkOptionalArgs c!"pop" 1 2 args sid
  let p ← arg args 0
  let lv ← M.lift (toVariant p)
  let pos ← optPos n args 1
  if lv.isList then do
    let l ← M.rd fun st => lv.listValue st n
    if pos < l.length then
      if pos < 0 then ub .index
      else
        match lv.value, l[pos.toNat]? with
        | .mk id .list, some x => do
          setList id (l.take pos.toNat ++ l.drop (pos.toNat + 1))
          M.lift (mkVariant x)
        | _, _ => ub .index
    else pure nilV
  else do
    let t ← M.lift (lispTypeName p)
    M.lift (throwBase (c!"pop not supported for type " ++ t))

/-- The loop of `Append`. -/
def appendLoop (st : St) (n : Nat) : List Ptr → R (List Ptr)
  | [] => .ok []
  | p :: t => do
    let v ← toVariant p
    let l ← v.listValue st n
    let r ← appendLoop st n t
    .ok (l ++ r)

/-- Environment.cpp 1240-1253 `Append`. -/
def bAppend (n : Nat) (args : List Ptr) : M Variant := do
  let l ← M.rd fun st => appendLoop st n args
  mkList l

/-- Environment.cpp 1255-1269 `Reverse`. -/
def bReverse (n : Nat) (args : List Ptr) (sid : Nat) : M Variant := do
  checkArgs c!"reverse" 1 args sid
  let v ← argV args 0
  if v.type = .string then do
    let s ← M.rd fun st => v.stringValue st n
    mkStr s.reverse
  else do
    let l ← M.rd fun st => v.listValue st n
    mkList l.reverse

/-! ## Conversion and arguments (Environment.cpp 1282-1332) -/

/-- Environment.cpp 1282-1288 `SymbolFcn`. -/
def bSym (n : Nat) (args : List Ptr) (sid : Nat) : M Variant := do
  checkArgs c!"sym" 1 args sid
  let s ← argStr n args 0
  let p ← allocObj (.str s)
  pure (.ofType .symbol p)

/-- Environment.cpp 1290-1306 `ConvertToString`. -/
def bStr (n : Nat) (args : List Ptr) (sid : Nat) : M Variant := do
  checkArgs c!"str" 1 args sid
  let p ← arg args 0
  let s ← M.rd fun st => ptrStr st n p
  match p with
  | .mk _ (.var v) =>
    if v.type = .native then do mkStr (← M.rd fun st => nativeStr st n v.value)
    else mkStr s
  | _ => mkStr s

/-- `(*scope)[ArgsMeta]->ToListRef()`. -/
def argsList (sid : Nat) : M (List Ptr) := do
  match (← M.get fun s => mapFind argsMetaKey (s.scopes sid).vars) with
  | none => ub .nullDeref
  | some p => M.rd fun st => toListRef st p

/-- Environment.cpp 1308-1311 `ArgsCountFcn`. -/
def bArgsCount (args : List Ptr) (sid : Nat) : M Variant := do
  checkArgs c!"argscount" 0 args sid
  let l ← argsList sid
  mkInt (wrap32 l.length)

/-- Environment.cpp 1313-1319 `ArgsFcn`. -/
def bArgs (args : List Ptr) (sid : Nat) : M Variant := do
  checkArgs c!"args" 0 args sid
  let l ← argsList sid
  mkList l

/-- Environment.cpp 1321-1332 `ArgFcn`. -/
def bArg (n : Nat) (args : List Ptr) (sid : Nat) : M Variant := do
  checkArgs c!"arg" 1 args sid
  let iv ← argV args 0
  let i ← M.rd fun st => iv.intValue st n
  let l ← argsList sid
  if i < 0 then bad i l
  else match l[i.toNat]? with
    | some p => M.lift (mkVariant p)
    | none => bad i l
where
  /-- the error -/
  bad (i : Int) (l : List Ptr) : M Variant := do
    let m ← M.lift (format c!"Index out of range in args function (index={0} max={1})" (intStr i) (natStr l.length))
    M.lift (throwBase m)

/-! ## Dictionaries (Environment.cpp 1384-1470) -/

/-- `args[0]->ToLispVariantRef().Value->ToDictionary()`: no check of the type tag. -/
def dictOf (v : Variant) : R Nat :=
  match v.value with
  | .null => R.ub .nullDeref
  | .mk id .dict => .ok id
  | _ => R.ub .badUnion

/-- Environment.cpp 1384-1389 `MakeDict`. -/
def bMakeDict (args : List Ptr) (sid : Nat) : M Variant := do
  checkArgs c!"make-dict" 0 args sid
  let p ← allocDict []
  pure (.ofType .native p)

/-- The dictionary in the first argument. -/
def argDict (args : List Ptr) : M Nat := do
  let v ← argV args 0
  M.lift (dictOf v)

/-- Environment.cpp 1391-1401 `DictSet`. -/
def bDictSet (n : Nat) (args : List Ptr) (sid : Nat) : M Variant := do
  checkArgs c!"dict-set" 3 args sid
  let id ← argDict args
  let k ← argV args 1
  let v ← argV args 2
  let d ← M.rd fun st => dictSet st n k v.value (st.dicts id)
  setDict id d
  pure v

/-- Environment.cpp 1403-1412 `DictGet`. -/
def bDictGet (n : Nat) (args : List Ptr) (sid : Nat) : M Variant := do
  checkArgs c!"dict-get" 2 args sid
  let id ← argDict args
  let k ← argV args 1
  match (← M.rd fun st => dictFind st n k (st.dicts id)) with
  | some p => M.lift (mkVariant p)
  | none => do
    let p ← allocObj .undef
    M.lift (mkVariant p)

/-- Environment.cpp 1414-1423 `DictRemove`. -/
def bDictRemove (n : Nat) (args : List Ptr) (sid : Nat) : M Variant := do
  checkArgs c!"dict-remove" 2 args sid
  let id ← argDict args
  let k ← argV args 1
  let (d, ok) ← M.rd fun st => dictErase st n k (st.dicts id)
  setDict id d
  mkBool ok

/-- A list of boxed values. -/
def boxAll : List Variant → M (List Ptr)
  | [] => pure []
  | v :: t => do
    let p ← box v
    let r ← boxAll t
    pure (p :: r)

/-- Environment.cpp 1425-1438 `DictKeys`. -/
def bDictKeys (args : List Ptr) (sid : Nat) : M Variant := do
  checkArgs c!"dict-keys" 1 args sid
  let id ← argDict args
  let d ← M.get fun s => s.dicts id
  let l ← boxAll (d.map Prod.fst)
  mkList l

/-- Environment.cpp 1440-1448 `DictClear`. -/
def bDictClear (args : List Ptr) (sid : Nat) : M Variant := do
  checkArgs c!"dict-clean" 1 args sid
  let id ← argDict args
  setDict id []
  pure undefinedV

/-- Environment.cpp 1450-1459 `DictContainsKey`. -/
def bDictContainsKey (n : Nat) (args : List Ptr) (sid : Nat) : M Variant := do
  checkArgs c!"dict-contains-key" 2 args sid
  let id ← argDict args
  let k ← argV args 1
  let r ← M.rd fun st => dictFind st n k (st.dicts id)
  mkBool r.isSome

/-- Environment.cpp 1461-1470 `DictContainsValue`. -/
def bDictContainsValue (args : List Ptr) (sid : Nat) : M Variant := do
  checkArgs c!"dict-contains-value" 2 args sid
  let id ← argDict args
  let v ← argV args 1
  mkBool (← M.rd fun st => dictContainsValue st v.value (st.dicts id))

/-! ## Quoting (Environment.cpp 1578-1645) -/

/-- Environment.cpp 1578-1583 `quote_form`. -/
def bQuote (args : List Ptr) (sid : Nat) : M Variant := do
  checkArgs c!"quote" 1 args sid
  let p ← arg args 0
  let q ← copyObj p
  M.lift (mkVariant q)

/-- Environment.cpp 1633-1645 `unquote_form`, `unquotesplicing_form`. -/
def bUnquote (name : Str) (args : List Ptr) (sid : Nat) : M Variant := do
  checkArgs name 1 args sid
  argMk args 0

/-! ## Files and mathematics (Environment.cpp 2149-2286) -/

/-- Environment.cpp 2149-2155 `FileExits`. -/
def bFileExists (n : Nat) (args : List Ptr) (sid : Nat) : M Variant := do
  checkArgs c!"File-Exits" 1 args sid
  let v ← argV args 0
  let name ← M.rd fun st => varStr st n v
  mkBool (← M.get fun s => (mapFind name s.files).isSome)

/-- Environment.cpp 2157-2163 `FileReadAllText`. -/
def bFileRead (n : Nat) (args : List Ptr) (sid : Nat) : M Variant := do
  checkArgs c!"File-ReadAllText" 1 args sid
  let v ← argV args 0
  let name ← M.rd fun st => varStr st n v
  match (← M.get fun s => mapFind name s.files) with
  | some t => mkStr t
  | none => mkStr []

/-- Environment.cpp 2165-2172 `FileWriteAllText`: a file that cannot be written stays as it is, a written file can be
read afterwards. -/
def bFileWrite (n : Nat) (args : List Ptr) (sid : Nat) : M Variant := do
  checkArgs c!"File-WriteAllText" 2 args sid
  let v ← argV args 0
  let w ← argV args 1
  let name ← M.rd fun st => varStr st n v
  let text ← M.rd fun st => varStr st n w
  if World.canWrite name then do
    M.modify fun s => { s with files := mapSet name text s.files }
    mkBool true
  else mkBool false

/-- The names in the calls of `Math_function` (Environment.cpp 2189-2277). -/
def mathName : MathFn → Str
  | .sin => c!"Math-Sin" | .sinh => c!"Math-Sinh" | .asin => c!"Math-Asin" | .cos => c!"Math-Cos"
  | .cosh => c!"Math-Cosh" | .acos => c!"Math-Acos" | .tan => c!"Math-Tan" | .tanh => c!"Math-Tanh"
  | .atan => c!"Math-Atan" | .exp => c!"Math-Exp" | .log => c!"Math-Log" | .log10 => c!"Math-Log10"
  | .sqrt => c!"Math-Sqrt" | .round => c!"Math-Round" | .trunc => c!"Math-Truncated" | .fabs => c!"Math-Abs"
  | .floor => c!"Math-Floor" | .ceil => c!"Math-Ceiling"

/-- Environment.cpp 2174-2180 `Math_function`. -/
def bMath (f : MathFn) (n : Nat) (args : List Ptr) (sid : Nat) : M Variant := do
  checkArgs (mathName f) 1 args sid
  let v ← argV args 0
  let d ← M.rd fun st => v.toDouble st n
  mkDbl (World.math f d)

/-- Environment.cpp 2182-2187 `Math_pi`. -/
def bMathPi (args : List Ptr) (sid : Nat) : M Variant := do
  checkArgs c!"Math-Pi" 0 args sid
  mkDbl World.pi

/-- Environment.cpp 2279-2286 `Math_pow`. -/
def bMathPow (n : Nat) (args : List Ptr) (sid : Nat) : M Variant := do
  checkArgs c!"Math-Pow" 2 args sid
  let v ← argV args 0
  let w ← argV args 1
  let a ← M.rd fun st => v.toDouble st n
  let b ← M.rd fun st => w.toDouble st n
  mkDbl (World.dPow a b)

end Fuel
