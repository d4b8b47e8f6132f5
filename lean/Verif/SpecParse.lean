import Verif.SpecFloat
import Verif.Parser
/-!
# Specifications for s-expressions and bracket structure
-/

namespace Fuel.Spec

/-- The text without a leading sign. -/
def dropSign : Str → Str
  | '+' :: t => t
  | '-' :: t => t
  | t => t

/-- The text starts like a number: digit, point and digit, `inf` or `nan` (in any case), after an optional sign. -/
def NumberLike (s : Str) : Prop :=
  ∃ c t, dropSign s = c :: t ∧ (Digit c ∨ (c = '.' ∧ ∃ d u, t = d :: u ∧ Digit d) ∨
    (c ∈ ['i', 'I'] ∧ ∃ d e u, t = d :: e :: u ∧ d ∈ ['n', 'N'] ∧ e ∈ ['f', 'F']) ∨
    (c ∈ ['n', 'N'] ∧ ∃ d e u, t = d :: e :: u ∧ d ∈ ['a', 'A'] ∧ e ∈ ['n', 'N']))

/-- The words with a fixed meaning. -/
def reserved : List Str :=
  [c!"true", c!"#t", c!"false", c!"#f", c!"nil", c!"niL", c!"nIl", c!"nIL", c!"Nil", c!"NiL", c!"NIl", c!"NIL"]

/-- A name that can be written as a symbol. -/
def SymbolName (s : Str) : Prop := s ≠ [] ∧ (∀ c ∈ s, Plain c) ∧ ¬ NumberLike s ∧ s ∉ reserved

/-- The quote characters. -/
inductive Prefix where
  | quote
  | quasi
  | unquote
  | splice

/-- The function that a quote character stands for. -/
def Prefix.word : Prefix → Str
  | .quote => c!"quote"
  | .quasi => c!"quasiquote"
  | .unquote => c!"_unquote"
  | .splice => c!"_unquotesplicing"

/-- The quote character as lexical element. -/
def Prefix.lexeme : Prefix → Lexeme
  | .quote => .quote
  | .quasi => .quasi
  | .unquote => .unquote
  | .splice => .splice

/-- S-expressions. -/
inductive Sexp where
  | int (i : Int)
  | str (s : Str)
  | sym (s : Str)
  | bool (b : Bool)
  | nil
  | float (t : Str)
  | pre (k : Prefix) (x : Sexp)
  | list (l : List Sexp)

/-- What can follow a quote character: anything but a quote or quasiquote character and a symbol that starts with `@`. -/
def Sexp.Quotable : Sexp → Prop
  | .pre .quote _ => False
  | .pre .quasi _ => False
  | .sym ('@' :: _) => False
  | _ => True

mutual
/-- The integers have 32 bits, the symbols are names, the other numbers are in the notation of floating-point numbers, and there are no two quote characters in sequence. -/
def Sexp.WF [World] : Sexp → Prop
  | .int i => IsInt32 i
  | .str _ => True
  | .sym s => SymbolName s
  | .bool _ => True
  | .nil => True
  | .float t => ∃ d, FloatWord t d
  | .pre _ x => Sexp.WF x ∧ x.Quotable
  | .list l => Sexp.WFs l
/-- The same for all elements. -/
def Sexp.WFs [World] : List Sexp → Prop
  | [] => True
  | x :: l => Sexp.WF x ∧ Sexp.WFs l
end

mutual
/-- There is no floating-point number in the s-expression. -/
def Sexp.NoFloats : Sexp → Prop
  | .float _ => False
  | .pre _ x => Sexp.NoFloats x
  | .list l => Sexp.NoFloatss l
  | _ => True
/-- The same for all elements. -/
def Sexp.NoFloatss : List Sexp → Prop
  | [] => True
  | x :: l => Sexp.NoFloats x ∧ Sexp.NoFloatss l
end

/-- The notation of the boolean values. -/
def boolText (b : Bool) : Str := if b then c!"#t" else c!"#f"

mutual
/-- The lexical elements of the notation of an s-expression. -/
def Sexp.lexemes : Sexp → List Lexeme
  | .int i => [.word (intStr i)]
  | .str s => [.str s]
  | .sym s => [.word s]
  | .bool b => [.word (boolText b)]
  | .nil => [.word c!"nil"]
  | .float t => [.word t]
  | .pre k x => k.lexeme :: Sexp.lexemes x
  | .list l => .opening :: (Sexp.lexemess l ++ [.closing])
/-- The lexical elements of several s-expressions. -/
def Sexp.lexemess : List Sexp → List Lexeme
  | [] => []
  | x :: l => Sexp.lexemes x ++ Sexp.lexemess l
end

/-- Is the lexical element a comment? -/
def Lexeme.isComment : Lexeme → Bool
  | .comment _ => true
  | _ => false

mutual
/-- The usual notation: elements separated by one blank. -/
def Sexp.source : Sexp → Str
  | .int i => intStr i
  | .str s => '"' :: escape s ++ ['"']
  | .sym s => s
  | .bool b => boolText b
  | .nil => c!"nil"
  | .float t => t
  | .pre k x => k.lexeme.source ++ Sexp.source x
  | .list l => '(' :: (Sexp.sources l ++ [')'])
/-- The elements of a list, separated by blanks. -/
def Sexp.sources : List Sexp → Str
  | [] => []
  | [x] => Sexp.source x
  | x :: y :: l => Sexp.source x ++ ' ' :: Sexp.sources (y :: l)
end

mutual
/-- The result of the parser is the given s-expression. -/
inductive Reads [World] : Sexp → Sx → Prop
  | int {i t} : t.type = .int → t.value = .int i → Reads (.int i) (.atom t)
  | str {s t} : t.type = .string → t.value = .str s → Reads (.str s) (.atom t)
  | sym {s t} : t.type = .symbol → t.value = .str s → Reads (.sym s) (.atom t)
  | bool {b t} : t.type = (if b then .true_ else .false_) → t.value = .bool b → Reads (.bool b) (.atom t)
  | nil {t} : t.type = .nil → Reads .nil (.atom t)
  | float {s d t} : World.dStod s = some d → t.type = .double → t.value = .dbl d → Reads (.float s) (.atom t)
  | pre {k x y} : Reads x y → Reads (.pre k x) (.list [.sym k.word, y])
  | list {l l'} : ReadsAll l l' → Reads (.list l) (.list l')
/-- The same for all elements. -/
inductive ReadsAll [World] : List Sexp → List Sx → Prop
  | nil : ReadsAll [] []
  | cons {x y l l'} : Reads x y → ReadsAll l l' → ReadsAll (x :: l) (y :: l')
end

/-- Number of brackets that are open after the tokens, `none` if one is closed that was not open or if the first
bracket is closed before the end. -/
def depth : Nat → List Token → Option Nat
  | d, [] => some d
  | d, t :: ts =>
    if t.type = .listStart then depth (d + 1) ts
    else if t.type = .listEnd then
      match d with
      | 0 => none
      | 1 => if ts.isEmpty then some 0 else none
      | d + 2 => depth (d + 1) ts
    else depth d ts

/-- The tokens are one bracketed expression. -/
def Bracketed (ts : List Token) : Prop := ∃ t r, ts = t :: r ∧ t.type = .listStart ∧ depth 0 ts = some 0

/-- No quote characters. -/
def QuoteFree (ts : List Token) : Prop :=
  ∀ t ∈ ts, t.type ≠ .quote ∧ t.type ≠ .quasiQuote ∧ t.type ≠ .unQuote ∧ t.type ≠ .unQuoteSplicing

end Fuel.Spec
