import Verif.Token
import Verif.SpecText
/-!
# Specifications for source texts

Lexical elements of the language and their notation, independent of the tokenizer.
-/

namespace Fuel.Spec

/-- A character that can be part of a word (number or symbol). -/
def Plain (c : Char) : Prop := ¬ White c ∧ c ∉ ['\\', '(', ')', ';', '\'', '`', ',', '"']

instance (c : Char) : Decidable (Plain c) := by unfold Plain; infer_instance

/-- The text between the double quotes of a literal and the string it stands for: a backslash stands in front of double quotes and
backslashes; `\n`, `\r`, `\t` stand for line feed, carriage return and tabulator; all other characters stand for themselves. -/
inductive StringText : Str → Str → Prop
  | nil : StringText [] []
  | plain {c t s} : c ≠ '\\' → c ≠ '"' → StringText t s → StringText (c :: t) (c :: s)
  | backslash {t s} : StringText t s → StringText ('\\' :: '\\' :: t) ('\\' :: s)
  | quote {t s} : StringText t s → StringText ('\\' :: '"' :: t) ('"' :: s)
  | lineFeed {t s} : StringText t s → StringText ('\\' :: 'n' :: t) ('\n' :: s)
  | carriageReturn {t s} : StringText t s → StringText ('\\' :: 'r' :: t) ('\r' :: s)
  | tabulator {t s} : StringText t s → StringText ('\\' :: 't' :: t) ('\t' :: s)

/-- The text between the double quotes of the literal for `s`: backslash and double quote are escaped. -/
def escape : Str → Str
  | [] => []
  | c :: t => (if c = '\\' ∨ c = '"' then ['\\', c] else [c]) ++ escape t

/-- A lexical element. -/
inductive Lexeme where
  | opening
  | closing
  | word (s : Str)
  | str (s : Str)
  | quote
  | quasi
  | unquote
  | splice
  | comment (s : Str)

/-- How a lexical element is written. -/
def Lexeme.source : Lexeme → Str
  | .opening => c!"("
  | .closing => c!")"
  | .word s => s
  | .str s => '"' :: escape s ++ ['"']
  | .quote => c!"'"
  | .quasi => c!"`"
  | .unquote => c!","
  | .splice => c!",@"
  | .comment s => ';' :: s ++ ['\n']

/-- Words consist of at least one plain character; a comment has at least one character and no newline. -/
def Lexeme.WF : Lexeme → Prop
  | .word s => s ≠ [] ∧ ∀ c ∈ s, Plain c
  | .comment s => s ≠ [] ∧ '\n' ∉ s
  | _ => True

/-- May the element be followed immediately (without white space) by this text?  After a word only white space,
brackets, a comment or the end of the text; after a quote character anything but `@`. -/
def Lexeme.Before (l : Lexeme) (next : Str) : Prop :=
  match l with
  | .word _ => ∀ c, next.head? = some c → White c ∨ c ∈ ['(', ')', ';']
  | .quote | .quasi | .unquote => next.head? ≠ some '@'
  | _ => True

/-- A text made of lexical elements, each with the white space in front of it. -/
def render : List (Str × Lexeme) → Str
  | [] => []
  | (w, l) :: t => w ++ l.source ++ render t

/-- `items`, followed by the text `next`, is correctly separated. -/
def Separated (items : List (Str × Lexeme)) (next : Str) : Prop :=
  match items with
  | [] => True
  | (w, l) :: t => (∀ c ∈ w, White c) ∧ l.WF ∧ l.Before (render t ++ next) ∧ Separated t next

/-- Texts in which semicolons only start comments that end with a newline: ordinary characters, string literals
without semicolon (the last one possibly unterminated) and comments. -/
inductive Regular : Str → Prop
  | done : Regular []
  | char {c t} : c ∉ [';', '"', '\\'] → Regular t → Regular (c :: t)
  | str {s t} : ';' ∉ s → Regular t → Regular ('"' :: escape s ++ '"' :: t)
  | unterminated {s} : ';' ∉ s → Regular ('"' :: escape s)
  | comment {s t} : s ≠ [] → '\n' ∉ s → Regular t → Regular (';' :: s ++ '\n' :: t)

/-- Number of the line that contains offset `q` of the text, counted from 1. -/
def lineOf (code : Str) (q : Nat) : Nat := 1 + (code.take q).count '\n'

/-- Positions and line numbers of the tokens of `code` are right: a token ends at an offset inside the text and its
line is the line of that offset, except for a last token that runs to the end of the text, which gets the end
position -1; the positions do not decrease along the text. -/
structure Located (code : Str) (off : Int) (toks : List Token) : Prop where
  line : ∀ t ∈ toks, (∃ q : Nat, q < code.length ∧ t.stop = q - off ∧ t.line = lineOf code q) ∨
    (toks.getLast? = some t ∧ t.stop = -1 - off ∧ t.line = lineOf code code.length)
  starts : toks.Pairwise fun a b => a.start ≤ b.start
  stops : toks.Pairwise fun a b => a.stop ≤ b.stop ∨ b.stop = -1 - off

end Fuel.Spec
