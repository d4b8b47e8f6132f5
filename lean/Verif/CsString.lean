import Verif.Base
/-!
# Model of csstring.cpp / csstring.h and of the number conversions of the C++ library
-/

namespace Fuel

/-- `std::isspace` in the "C" locale; `Char_IsWhiteSpace` (Token.h 61-64). -/
def isSpace (c : Char) : Bool :=
  c == ' ' || c == '\t' || c == '\n' || c == '\r' || c == Char.ofNat 11 || c == Char.ofNat 12

/-- `std::isdigit`. -/
def isDigit (c : Char) : Bool := 48 ≤ c.toNat && c.toNat ≤ 57

/-- Value of a decimal digit. -/
def digitVal (c : Char) : Nat := c.toNat - 48

/-- `std::toupper` in the "C" locale (ASCII letters only). -/
def toUpperC (c : Char) : Char :=
  if 97 ≤ c.toNat && c.toNat ≤ 122 then Char.ofNat (c.toNat - 32) else c

/-- `std::tolower` in the "C" locale (ASCII letters only). -/
def toLowerC (c : Char) : Char :=
  if 65 ≤ c.toNat && c.toNat ≤ 90 then Char.ofNat (c.toNat + 32) else c

/-- csstring.cpp 68-73 `string::ToUpper`. -/
def toUpper (s : Str) : Str := s.map toUpperC

/-- csstring.cpp 75-80 `string::ToLower`. -/
def toLower (s : Str) : Str := s.map toLowerC

/-- csstring.cpp 82-89 `string::Trim`: erase the leading, then the trailing white space. -/
def trim (s : Str) : Str :=
  let s := s.dropWhile isSpace
  (s.reverse.dropWhile isSpace).reverse

/-- csstring.h 125-128 `string::StartsWith`: `compare(0, txt.length(), txt) == 0`. -/
def startsWith (s txt : Str) : Bool := s.take txt.length == txt

/-- csstring.cpp 59-66 `string::EndsWith`. -/
def endsWith (s txt : Str) : Bool :=
  if txt.length > s.length then false
  else txt.reverse == s.reverse.take txt.length

/-- Offset of the first occurrence of `pat` in `s` (`std::string::find(pat)`). -/
def findSub (pat : Str) : Str → Option Nat
  | [] => if pat.isEmpty then some 0 else none
  | c :: t => if pat.isPrefixOf (c :: t) then some 0 else (findSub pat t).map (· + 1)

/-- `std::string::find(pat, pos)`; `none` is `npos`. -/
def findFrom (s pat : Str) (pos : Nat) : Option Nat :=
  if pos ≤ s.length then (findSub pat (s.drop pos)).map (· + pos) else none

/-- csstring.h 130-133 `string::Substring` = `std::string::substr`: throws `std::out_of_range` if the
offset is past the end; the length is clipped. -/
def substr (s : Str) (off : Nat) (len : Nat) : R Str :=
  if off ≤ s.length then .ok ((s.drop off).take len) else .error (.exn .outOfRange)

/-- `substr(off)` (length `npos`). -/
def substrFrom (s : Str) (off : Nat) : R Str :=
  if off ≤ s.length then .ok (s.drop off) else .error (.exn .outOfRange)

/-- `std::string::replace(pos, n, txt)` with `pos` in range. -/
def spliceStr (s : Str) (pos n : Nat) (txt : Str) : Str :=
  s.take pos ++ txt ++ s.drop (pos + n)

/-- The loop of `do_replace` (csstring.h 101-104) with an iteration budget. -/
def doReplaceLoop (search repl : Str) : Nat → Str → Nat → R Str
  | 0, _, _ => .error .fuel
  | n + 1, s, pos =>
    match findFrom s search pos with
    | none => .ok s
    | some p => doReplaceLoop search repl n (spliceStr s p search.length repl) (p + repl.length)

/-- csstring.h 97-107 `do_replace`. The budget is the length of the text (C09 proves it is enough). -/
def doReplace (s search repl : Str) : R Str :=
  if search.isEmpty then .ok s else doReplaceLoop search repl (s.length + 1) s 0

/-- `txt.c_str()` read as a C string: stops at the first NUL. -/
def cStr (s : Str) : Str := s.takeWhile (· != Char.ofNat 0)

/-- csstring.h 135-139 `string::Replace`. -/
def replaceAll (s search repl : Str) : R Str := doReplace s (cStr search) (cStr repl)

/-- The loop of `string::Split` (csstring.cpp 97-107) with an iteration budget; the current piece
starts at `prev`, the search continues at `pos`.  `++pos` steps over one character only. -/
def splitLoop (sep s : Str) : Nat → Nat → Nat → List Str → R (List Str)
  | 0, _, _, _ => .error .fuel
  | n + 1, prev, pos, out =>
    match findFrom s sep pos with
    | none => do
      let last ← substrFrom s prev
      .ok (out ++ [last])
    | some p => do
      let piece ← substr s prev (p - prev)
      splitLoop sep s n (p + 1) (p + 1) (out ++ [piece])

/-- csstring.cpp 91-112 `string::Split`. -/
def split (s sep : Str) : R (List Str) := splitLoop sep s (s.length + 2) 0 0 []

/-! ## Numbers as text -/

/-- The digit character of a number below 10. -/
def digitChar (n : Nat) : Char := Char.ofNat (48 + n)

/-- Decimal digits of `n`, most significant first (budget `n + 1` is enough). -/
def natStrAux : Nat → Nat → Str
  | 0, _ => []
  | f + 1, n => if n < 10 then [digitChar n] else natStrAux f (n / 10) ++ [digitChar (n % 10)]

/-- `std::to_string` of a non-negative integer. -/
def natStr (n : Nat) : Str := natStrAux (n + 1) n

/-- `std::to_string(int)`. -/
def intStr (i : Int) : Str :=
  match i with
  | .ofNat n => natStr n
  | .negSucc n => '-' :: natStr (n + 1)

/-- Value of a digit sequence. -/
def digitsVal (ds : Str) : Nat := ds.foldl (fun a c => a * 10 + digitVal c) 0

/-- `strtol(s, &end, 10)`: skips white space, reads an optional sign and digits.
Result: `none` if there are no digits, otherwise the exact value and the number of consumed characters. -/
def strtol (s : Str) : Option (Int × Nat) :=
  let ws := s.takeWhile isSpace
  let r := s.dropWhile isSpace
  let (neg, signLen, r) := match r with
    | '-' :: t => (true, 1, t)
    | '+' :: t => (false, 1, t)
    | t => (false, 0, t)
  let ds := r.takeWhile isDigit
  if ds.isEmpty then none
  else
    let v : Int := digitsVal ds
    some (if neg then -v else v, ws.length + signLen + ds.length)

/-- `std::stoi(s, &errPos, 10)`: value and `errPos`; throws `std::invalid_argument` without digits and
`std::out_of_range` outside the `int` range. -/
def stoi (s : Str) : R (Int × Nat) :=
  match strtol (cStr s) with
  | none => .error (.exn .invalidArgument)
  | some (v, n) => if IsInt32 v then .ok (v, n) else .error (.exn .outOfRange)

/-- `atoi(s)`: 0 without digits; undefined outside the `int` range. -/
def atoi (s : Str) : R Int :=
  match strtol (cStr s) with
  | none => .ok 0
  | some (v, _) => if IsInt32 v then .ok v else .error (.ub .convert)

/-! ### `strtod`: which prefix is a number

The syntax of `strtod` is modelled exactly, the numeric value is a parameter (see `FP` in `Value`). -/

/-- Hexadecimal digit. -/
def isHexDigit (c : Char) : Bool :=
  isDigit c || (97 ≤ c.toNat && c.toNat ≤ 102) || (65 ≤ c.toNat && c.toNat ≤ 70)

/-- Case-insensitive prefix test (`pat` in lower case). -/
def prefixCI (pat s : Str) : Bool := (s.take pat.length).map toLowerC == pat

/-- Length of an exponent part introduced by one of the two letters, 0 if there is none. -/
def exponentLen (lo up : Char) (s : Str) : Nat :=
  match s with
  | c :: t =>
    if c == lo || c == up then
      let (sl, r) := match t with
        | '-' :: u => (1, u)
        | '+' :: u => (1, u)
        | u => (0, u)
      let n := (r.takeWhile isDigit).length
      if n == 0 then 0 else 1 + sl + n
    else 0
  | [] => 0

/-- Length of `digits [. digits]` with at least one digit, 0 otherwise. -/
def mantissaLen (dig : Char → Bool) (s : Str) : Nat :=
  let a := (s.takeWhile dig).length
  match s.dropWhile dig with
  | '.' :: t =>
    let b := (t.takeWhile dig).length
    if a == 0 && b == 0 then 0 else a + 1 + b
  | _ => a

/-- Length of the number at the start of `s` (no white space, no sign), 0 if there is none. -/
def unsignedFloatLen (s : Str) : Nat :=
  if prefixCI c!"infinity" s then 8
  else if prefixCI c!"inf" s then 3
  else if prefixCI c!"nan" s then
    match s.drop 3 with
    | '(' :: t =>
      let n := (t.takeWhile fun c => isDigit c || c.isAlpha || c == '_').length
      if (t.drop n).head? == some ')' then 3 + 1 + n + 1 else 3
    | _ => 3
  else if prefixCI c!"0x" s && mantissaLen isHexDigit (s.drop 2) != 0 then
    let m := mantissaLen isHexDigit (s.drop 2)
    2 + m + exponentLen 'p' 'P' (s.drop (2 + m))
  else
    let m := mantissaLen isDigit s
    if m == 0 then 0 else m + exponentLen 'e' 'E' (s.drop m)

/-- Number of characters consumed by `strtod(s, &end)`; 0 means no conversion. -/
def strtodLen (s : Str) : Nat :=
  let ws := (s.takeWhile isSpace).length
  let r := s.dropWhile isSpace
  let (sl, r) := match r with
    | '-' :: t => (1, t)
    | '+' :: t => (1, t)
    | t => (0, t)
  let n := unsignedFloatLen r
  if n == 0 then 0 else ws + sl + n

/-! ## Format -/

/-- csstring.h 91: the text that stands for a missing format argument. -/
def nullString : Str := c!"##<NULL>##"

/-- csstring.cpp 119-133 `string::ReplaceIn`: replaces the first occurrence; second component: found. -/
def replaceIn (temp find arg : Str) : Str × Bool :=
  match findSub find temp with
  | some pos => (spliceStr temp pos find.length arg, true)
  | none => (temp, false)

/-- csstring.cpp 135-163 `string::ReplaceInWithFill`: `{n,width}`.  Here `find` has 3 characters, so
`pos2 >= pos + 3` and the length given to `substr` does not wrap around. -/
def replaceInWithFill (temp find arg : Str) : R (Str × Bool) :=
  match findSub find temp with
  | none => .ok (temp, false)
  | some pos =>
    match findFrom temp ['}'] (pos + 1) with
    | none => .ok (temp, false)
    | some pos2 => do
      let len ← substr temp (pos + 3) (pos2 - pos - find.length)
      let (l, _) ← stoi len
      if l > 0 then
        let fill := List.replicate (l - arg.length).toNat ' '
        .ok (spliceStr temp pos (pos2 - pos + 1) (fill ++ arg), true)
      else do
        let al ← chk32 (-l)                       -- abs(INT_MIN) is undefined
        let fill := List.replicate (al - arg.length).toNat ' '
        .ok (spliceStr temp pos (pos2 - pos + 1) (arg ++ fill), true)

/-- One argument of `string::Format`: the pair of statements for `{n}` and `{n,` (e.g. csstring.cpp 170-179).
`errMsg` is the message for a missing argument. -/
def formatArg (errMsg : Str) (n : Char) (arg : Str) (temp : Str) : R Str := do
  let (temp, found) := replaceIn temp ['{', n, '}'] arg
  if found && arg == nullString then throwBase errMsg
  else
    let (temp, found) ← replaceInWithFill temp ['{', n, ','] arg
    if found && arg == nullString then throwBase errMsg
    else .ok temp

/-- csstring.cpp 165-220 `string::Format` with its default arguments. -/
def format (txt : Str) (a1 : Str := nullString) (a2 : Str := nullString) (a3 : Str := nullString)
    (a4 : Str := nullString) (a5 : Str := nullString) : R Str := do
  let err := c!"Not enough items for format string: " ++ txt
  let t ← formatArg err '0' a1 txt
  let t ← formatArg err '1' a2 t
  let t ← formatArg err '2' a3 t
  let t ← formatArg err '3' a4 t
  formatArg err '4' a5 t

/-- `std::string` comparison `<` / `strcmp` on NUL-free texts: lexicographic by unsigned byte. -/
def strLt : Str → Str → Bool
  | _, [] => false
  | [], _ :: _ => true
  | a :: s, b :: t => if a.toNat < b.toNat then true else if b.toNat < a.toNat then false else strLt s t

/-- csstring.cpp 222-225 `string::CompareOrdinal` (`strcmp`): sign of the comparison of the C strings. -/
def compareOrdinal (a b : Str) : Int :=
  if strLt (cStr a) (cStr b) then -1 else if strLt (cStr b) (cStr a) then 1 else 0

end Fuel
