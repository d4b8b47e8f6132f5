import Verif.Token
/-!
# Model of Tokenizer.cpp

The loop `for (size_t i = 0; i < code.Length(); i++)` is modelled with the index `i` and the text from
index `i` on, which together determine everything the loop body reads.
-/

namespace Fuel

variable [World]

/-- The local variables of `LispTokenizer::Tokenize` (Tokenizer.cpp 33-39) except the output list. -/
structure TS where
  cur : Str := []          -- currentToken
  startPos : Int := 0      -- currentTokenStartPos
  line : Int := 1          -- lineCount
  inStr : Bool := false    -- isInString
  inSym : Bool := false    -- isInSymbol
  bs : Bool := false       -- wasLastBackslash
deriving DecidableEq, Repr

/-- The lambda `addToken` (Tokenizer.cpp 42-49): the new token and the new local variables. -/
def addToken (off : Int) (ts : TS) (text : Str) (pos line : Int) : R (Token × TS) := do
  let t ← mkToken text (ts.startPos - off) (pos - off) line
  .ok (t, { ts with inSym := false, inStr := false, cur := [], startPos := pos + 1 })

/-- Tokenizer.cpp 182-196 `ProcessCharAfterBackslash`. -/
def charAfterBackslash (c : Char) : R Char :=
  if c = 'n' then .ok '\n'
  else if c = 'r' then .ok '\r'
  else if c = 't' then .ok '\t'
  else if c = '\\' then .ok '\\'
  else do
    let m ← format c!"Invalid character after backslash {0}" [c]
    throwBase m

/-- Tokenizer.cpp 207-217 `GetRestOfLine(code, i, newIndex)`, applied to the text `rest` behind the
semicolon: the comment text and `newIndex - (index of the semicolon)`.
Without a line end `find` gives `npos`: the text is then empty and `newIndex` wraps around to the index
of the semicolon.  If the line end follows at once, the whole rest of the code is taken. -/
def restOfLine (rest : Str) : Str × Nat :=
  match findSub ['\n'] rest with
  | none => ([], 0)
  | some 0 => (rest, rest.length)
  | some p => (rest.take (p + 1), p + 1)

/-- Tokenizer.cpp 198-205 `ProcessComment`: new token, local variables and number of skipped characters. -/
def processComment (off : Int) (i : Int) (rest : Str) (ts : TS) : R (Token × TS × Nat) := do
  let (text, skip) := restOfLine rest
  let (t, ts) ← addToken off ts (';' :: text) i ts.line
  .ok (t, ts, skip)

/-- Body of the loop (Tokenizer.cpp 53-174) for the character `ch` at index `i` followed by `rest`:
emitted tokens, new local variables and number of additionally skipped characters. -/
def tokStep (off : Int) (i : Int) (ch : Char) (rest : Str) (ts : TS) : R (List Token × TS × Nat) :=
  if isSpace ch then do
    let (out, ts) ←
      if ts.inStr then .ok ([], { ts with cur := ts.cur ++ [ch] })
      else if ts.inSym then do
        let (t, ts) ← addToken off ts ts.cur i ts.line
        .ok ([t], ts)
      else .ok ([], ts)
    let ts := { ts with bs := false }
    .ok (out, if ch = '\n' then { ts with line := ts.line + 1 } else ts, 0)
  else if ch = '\\' then
    if ts.bs then .ok ([], { ts with cur := ts.cur ++ [ch], bs := false }, 0)
    else .ok ([], { ts with bs := true }, 0)
  else if ch = '(' ∨ ch = ')' then do
    let (out, ts) ←
      if ts.inStr then .ok ([], { ts with cur := ts.cur ++ [ch] })
      else if ts.inSym then do
        let (t, ts) ← addToken off ts ts.cur i ts.line
        let (t2, ts) ← addToken off ts [ch] i ts.line
        .ok ([t, t2], ts)
      else do
        let (t, ts) ← addToken off ts [ch] i ts.line
        .ok ([t], ts)
    .ok (out, { ts with bs := false }, 0)
  else if ch = ';' then do
    let (out, ts, skip) ←
      if ts.inStr then .ok ([], { ts with cur := ts.cur ++ [ch] }, 0)
      else if ts.inSym then do
        let (t, ts) ← addToken off ts ts.cur i ts.line
        let (t2, ts, skip) ← processComment off i rest ts
        .ok ([t, t2], ts, skip)
      else do
        let (t, ts, skip) ← processComment off i rest ts
        .ok ([t], ts, skip)
    .ok (out, { ts with bs := false, line := ts.line + 1 }, skip)
  else if ch = '\'' ∨ ch = '`' ∨ ch = ',' then do
    let (out, ts, skip) ←
      if ts.inStr then .ok ([], { ts with cur := ts.cur ++ [ch] }, 0)
      else if rest.head? = some '@' then do
        let (t, ts) ← addToken off ts [ch, '@'] (i + 1) ts.line
        .ok ([t], ts, 1)
      else do
        let (t, ts) ← addToken off ts [ch] i ts.line
        .ok ([t], ts, 0)
    .ok (out, { ts with bs := false }, skip)
  else if ch = '"' then do
    let (out, ts) ←
      if ts.bs then .ok ([], { ts with cur := ts.cur ++ [ch] })
      else if ts.inStr then do
        let (t, ts) ← addToken off ts ('"' :: ts.cur ++ ['"']) i ts.line
        .ok ([t], ts)
      else .ok ([], { ts with inStr := true, cur := [] })
    .ok (out, { ts with bs := false }, 0)
  else do
    let ts := if !ts.inSym && !ts.inStr then { ts with inSym := true } else ts
    let c ← if ts.bs then charAfterBackslash ch else .ok ch
    .ok ([], { ts with cur := ts.cur ++ [c], bs := false }, 0)

/-- The loop of `Tokenize` and the code behind it (Tokenizer.cpp 51-180).  The first argument is an
iteration budget. -/
def tokLoop (off : Int) : Nat → Int → Str → TS → R (List Token)
  | 0, _, _, _ => .error .fuel
  | _ + 1, _, [], ts =>
    if ts.cur ≠ [] then do
      let (t, _) ← addToken off ts ts.cur (-1) ts.line
      .ok [t]
    else .ok []
  | n + 1, i, ch :: rest, ts => do
    let (out, ts, skip) ← tokStep off i ch rest ts
    let more ← tokLoop off n (i + 1 + skip) (rest.drop skip) ts
    .ok (out ++ more)

/-- Tokenizer.cpp 31-180 `LispTokenizer::Tokenize(code, offset)`.  C01 proves that the budget is enough. -/
def tokenize (code : Str) (off : Int := 0) : R (List Token) :=
  tokLoop off (code.length + 1) 0 code {}

end Fuel
