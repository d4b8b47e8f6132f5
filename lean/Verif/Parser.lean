import Verif.Tokenizer
import Verif.Value
/-!
# Model of Parser.cpp

The parser builds an immutable tree `Sx`; `allocSx` then creates the corresponding objects.  In C++ the objects
are created while parsing; every list of the result is a fresh object in both.
-/

namespace Fuel

variable [World]

/-- Result of the parser: an atom made from a token, a symbol made by the parser itself (without
token), or a list. -/
inductive Sx where
  | atom (t : Token)
  | sym (name : Str)
  | list (l : List Sx)

/-- Parser.cpp 32-34. -/
def bracketsOutOfBalance : Str := c!"Brackets out of balance"
/-- Parser.cpp 33. -/
def bracketsOrUnexpected : Str := c!"Brackets out of balance or unexpected script code"
/-- Parser.cpp 34. -/
def unexpectedToken : Str := c!"Unexpected token"

/-- Exception.cpp 52-60 `LispException(text, token, moduleName)`. -/
def tokExn (msg : Str) (t : Token) (module : Str) : Fail :=
  .exn (.lisp true msg t.line t.start t.stop module)

/-- Parser.cpp 154-164 `OnlyCommentTokensFrom`. -/
def onlyComments (ts : List Token) : Bool := ts.all fun t => decide (t.type = .comment)

/-- Names used by the parser (Environment.cpp 85-88). -/
def quoteName : Str := c!"quote"
/-- Environment.cpp 86. -/
def quasiquoteName : Str := c!"quasiquote"
/-- Environment.cpp 87. -/
def unquoteName : Str := c!"_unquote"
/-- Environment.cpp 88. -/
def unquoteSplicingName : Str := c!"_unquotesplicing"

/-- Add an element to the innermost open list. -/
def pushTop (x : Sx) : List (List Sx) → List (List Sx)
  | [] => []
  | l :: st => (l ++ [x]) :: st

/-- Parser.cpp 58-152 `ParseTokens`.  `stack` is `listStack`, innermost list first; its head is
`current` (`current` is null exactly if the stack is empty).  `toks` are the tokens from index `i` on and
`last` is the last token of the whole input.  Result: `parseResult` and the tokens behind index `i` at
the return.  The first argument is a budget for loop iterations and nested calls. -/
def parseLoop (module : Str) (last : Option Token) :
    Nat → Bool → List Token → List (List Sx) → R (Sx × List Token)
  | 0, _, _, _ => .error .fuel
  | _ + 1, top, [], stack =>
    match top, last with
    | true, some t => .error (tokExn bracketsOutOfBalance t module)
    | _, _ => match stack with
      | [] => R.ub .nullDeref
      | cur :: _ => .ok (.list cur, [])
  | n + 1, top, t :: rest, stack =>
    match t.type with
    | .listStart => parseLoop module last n top rest ([] :: stack)
    | .listEnd =>
      match stack with
      | [] => R.ub .emptyStack
      | cur :: outer :: st => parseLoop module last n top rest ((outer ++ [.list cur]) :: st)
      | [cur] =>
        if top && !rest.isEmpty && !onlyComments rest then
          .error (tokExn bracketsOrUnexpected t module)
        else .ok (.list cur, rest)
    | .quote | .quasiQuote => do
      let (q, rest) ← parseLoop module last n false rest []
      let x := Sx.list [.sym (if t.type = .quote then quoteName else quasiquoteName), q]
      parseLoop module last n top rest (pushTop x stack)
    | .unQuote | .unQuoteSplicing => do
      let (q, rest) ← parseLoop module last n false rest []
      let x := Sx.list [.sym (if t.type = .unQuote then unquoteName else unquoteSplicingName), q]
      match stack with
      | [] => .ok (x, rest)
      | _ => parseLoop module last n top rest (pushTop x stack)
    | .comment => parseLoop module last n top rest stack
    | _ =>
      match stack with
      | [] => if top then .error (tokExn unexpectedToken t module) else .ok (.atom t, rest)
      | _ => parseLoop module last n top rest (pushTop (.atom t) stack)

/-- The call of `ParseTokens` in Parser.cpp 54 on the tokens of a script. -/
def parseTokens (module : Str) (toks : List Token) : R Sx := do
  let (x, _) ← parseLoop module toks.getLast? (2 * toks.length + 2) true toks []
  .ok x

/-- Parser.cpp 39-56 `LispParser::Parse` without the assignment to `scope->Tokens`. -/
def parse (code : Str) (off : Int) (module : Str) : R Sx := do
  parseTokens module (← tokenize code off)

/-! ## Creating the objects -/

/-- The object in `LispToken::Value`. -/
def TVal.obj : TVal → Obj
  | .str s => .str s
  | .int i => .int i
  | .dbl d => .dbl d
  | .bool b => .bool b

/-- Type of `LispVariant(token)` (Variant.cpp 87-99, `TypeOf` 538-584). -/
def Token.lispType (t : Token) : LispType :=
  if t.type = .nil then .nil
  else if t.type = .symbol then .symbol
  else match t.value with
    | .str _ => .string
    | .int _ => .int
    | .dbl _ => .double
    | .bool _ => .bool

mutual
/-- Object for a parse tree. -/
def allocSx : Sx → M Ptr
  | .atom t => do
    let v ← allocObj t.value.obj
    box ⟨t.lispType, v, .none, some t⟩
  | .sym name => do
    let v ← allocObj (.str name)
    box (.ofType .symbol v)
  | .list l => do
    let ps ← allocSxs l
    allocList ps
/-- Objects for a list of parse trees. -/
def allocSxs : List Sx → M (List Ptr)
  | [] => pure []
  | x :: xs => do
    let p ← allocSx x
    let ps ← allocSxs xs
    pure (p :: ps)
end

end Fuel
