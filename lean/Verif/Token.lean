import Verif.CsString
import Verif.World
/-!
# Model of Token.cpp / Token.h
-/

namespace Fuel

/-- Token.h 40-57 `LispTokenType`. -/
inductive TokType where
  | listStart | listEnd | symbol | string | int | double | quote | quasiQuote | unQuote
  | unQuoteSplicing | true_ | false_ | comment | nil
deriving DecidableEq, Repr

/-- The `object` held in `LispToken::Value` (only these four kinds occur, Token.cpp 77-151). -/
inductive TVal where
  | str (s : Str)
  | int (i : Int)
  | dbl (d : Dbl)
  | bool (b : Bool)
deriving DecidableEq, Repr

/-- Token.h 69-142 `LispToken`.  Positions and line numbers are `size_t` in C++ and are only used after
conversion to `int`; the model keeps the integer, so that `(size_t)-1` is `-1`. -/
structure Token where
  type : TokType
  value : TVal
  start : Int
  stop : Int
  line : Int
deriving DecidableEq, Repr

variable [World]

/-- `object::ToString` on a token value (csobject.cpp 322-387). -/
def TVal.toStr : TVal → Str
  | .str s => s
  | .int i => intStr i
  | .dbl d => World.dToStr d
  | .bool b => if b then c!"true" else c!"false"

/-- Token.cpp 41-57 `Int32_TryParse`.  Only `std::invalid_argument` is caught. -/
def int32TryParse (txt : Str) : R (Option Int) :=
  match stoi txt with
  | .ok (v, errPos) => if errPos < txt.length then .ok none else .ok (some v)
  | .error (.exn .invalidArgument) => .ok none
  | .error f => .error f

/-- `std::stod(s, &errPos)`: value and number of consumed characters. -/
def stod (s : Str) : R (Dbl × Nat) :=
  let n := strtodLen (cStr s)
  if n == 0 then .error (.exn .invalidArgument)
  else match World.dStod (s.take n) with
    | some d => .ok (d, n)
    | none => .error (.exn .outOfRange)

/-- Token.cpp 59-75 `Double_TryParse`.  Only `std::invalid_argument` is caught. -/
def doubleTryParse (txt : Str) : R (Option Dbl) :=
  match stod txt with
  | .ok (v, errPos) => if errPos < txt.length then .ok none else .ok (some v)
  | .error (.exn .invalidArgument) => .ok none
  | .error f => .error f

/-- Token.cpp 77-151 `LispToken::LispToken`: classification of the text of a token. -/
def classify (text : Str) : R (TokType × TVal) :=
  if startsWith text c!"\"" then
    -- a text that starts with `"` has been built by the tokenizer with two quotes, so length >= 2;
    -- with length 1 the length argument of Substring wraps around to npos
    match substr text 1 (if text.length == 1 then text.length else text.length - 2) with
    | .ok s => .ok (.string, .str s)
    | .error f => .error f
  else if text == c!"'" then .ok (.quote, .str text)
  else if text == c!"`" then .ok (.quasiQuote, .str text)
  else if text == c!"," then .ok (.unQuote, .str text)
  else if text == c!",@" then .ok (.unQuoteSplicing, .str text)
  else if text == c!"(" then .ok (.listStart, .str text)
  else if text == c!")" then .ok (.listEnd, .str text)
  else match int32TryParse text with
    | .error f => .error f
    | .ok (some i) => .ok (.int, .int i)
    | .ok none => match doubleTryParse text with
      | .error f => .error f
      | .ok (some d) => .ok (.double, .dbl d)
      | .ok none =>
        if text == c!"true" || text == c!"#t" then .ok (.true_, .bool true)
        else if text == c!"false" || text == c!"#f" then .ok (.false_, .bool false)
        else if toUpper text == c!"NIL" then .ok (.nil, .int 0)
        else if startsWith text c!";" then .ok (.comment, .str text)
        else .ok (.symbol, .str text)

/-- Token.cpp 77-151 `LispToken::LispToken`. -/
def mkToken (text : Str) (start stop line : Int) : R Token :=
  match classify text with
  | .ok (t, v) => .ok { type := t, value := v, start := start, stop := stop, line := line }
  | .error f => .error f

/-- Token.cpp 163-170 `LispToken::ToString`. -/
def Token.toStr (t : Token) : Str := if t.type = .nil then c!"NIL" else t.value.toStr

/-- Token.cpp 153-161 `LispToken::operator==`. -/
def Token.eq (a b : Token) : Bool :=
  decide (a.type = b.type) && a.toStr == b.toStr && a.start == b.start && a.stop == b.stop
    && a.line == b.line

end Fuel
