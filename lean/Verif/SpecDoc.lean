import Verif.SpecCode
import Verif.SpecScope
import Verif.SpecDefault
import Verif.SpecText
/-!
# Specification of the documentation of functions
-/

namespace Fuel.Spec

variable [World]

/-- The same token: of the same kind, with the same text and at the same place. -/
structure SameToken (a b : Token) : Prop where
  type : a.type = b.type
  text : a.toStr = b.toStr
  start : a.start = b.start
  stop : a.stop = b.stop
  line : a.line = b.line

/-- `u` is the token before the first occurrence of `t`. -/
def TokenBefore (toks : List Token) (t u : Token) : Prop :=
  ∃ a t' b, toks = a ++ u :: t' :: b ∧ SameToken t' t ∧ ∀ x ∈ a ++ [u], ¬ SameToken x t

/-- `d` is the comment in front of a definition `(defn name ...)`; `t` is the token of the name; without a comment it is empty. -/
def CommentBefore (toks : List Token) (t : Token) (d : Str) : Prop :=
  (∃ x y c, TokenBefore toks t x ∧ TokenBefore toks x y ∧ TokenBefore toks y c ∧ c.type = .comment ∧ d = c.value.toStr) ∨
  ((¬ ∃ x y c, TokenBefore toks t x ∧ TokenBefore toks x y ∧ TokenBefore toks y c ∧ c.type = .comment) ∧ d = [])

/-- The syntax of a function with these parameters. -/
def syntaxText (name : Str) (params : List Str) : Str := c!"(" ++ name ++ (params.map (c!" " ++ ·)).flatten ++ c!")"

/-- The name of a function as it is shown in its documentation. -/
inductive Title : Str → Str → Prop
  | params {n r} : ' ' ∉ n → Title (c!"(" ++ n ++ c!" " ++ r) (n ++ c!" ")
  | none {n} : ' ' ∉ n → ')' ∉ n → Title (c!"(" ++ n ++ c!")") n
  | unknown {s} : (∀ r, s ≠ '(' :: r) → Title s c!"???"

/-- The documentation of a function. -/
def helpText (title : Str) (w : FnW) : Str :=
  c!"-------------------------------------------------\n\n" ++ title ++ (if w.special then c!" [special form]" else []) ++ c!"\n\n" ++
    c!"Syntax: " ++ w.signature ++ c!"\n\n" ++ (if w.doc = [] then c!">not available<" else w.doc) ++ c!"\n\n" ++ c!"\n"

/-- The documentation of the functions in the table whose names are selected, in the order of the table. -/
inductive Helps (sel : Str → Prop) : List (Str × Ptr) → Str → Prop
  | nil : Helps sel [] []
  | skip {n p l t} : ¬ sel n → Helps sel l t → Helps sel ((n, p) :: l) t
  | shown {n p w title l t} : sel n → Holds p (IsFn · w) → Title w.signature title → Helps sel l t → Helps sel ((n, p) :: l) (helpText title w ++ t)

/-- The documentation of a function as HTML. -/
def htmlText (title : Str) (w : FnW) : Str :=
  c!"<hr><br>" ++ (if w.signature.head? = some '(' then c!"<b>" ++ title ++ c!"</b>" else title) ++ (if w.special then c!" [special form]" else []) ++ c!"<br><br>" ++
    c!"<code>Syntax: " ++ w.signature ++ c!"</code><br><br>" ++ (if w.doc = [] then c!">not available<" else w.doc) ++ c!"<br><br>\n"

/-- The documentation of all built-in functions in the table; internal variables are left out. -/
inductive Manual (text : Str → FnW → Str) : List (Str × Ptr) → Str → Prop
  | nil : Manual text [] []
  | internal {n p l t} : c!"###" <+: n → Manual text l t → Manual text ((n, p) :: l) t
  | variable_ {n p l t} : ¬ c!"###" <+: n → Holds p (fun v => v.type ≠ .function ∨ ∃ w, IsFn v w ∧ w.builtin = false) → Manual text l t → Manual text ((n, p) :: l) t
  | builtin {n p w title l t} : ¬ c!"###" <+: n → Holds p (IsFn · w) → w.builtin = true → Title w.signature title → BraceFree (text title w) → Manual text l t →
      Manual text ((n, p) :: l) (text title w ++ c!"\n" ++ t)

/-- The HTML page around the documentation. -/
def htmlPage (t : Str) : Str := c!"<html>\n<head>\n<title>\nDocumentation of fuel language\n</title>\n</head>\n" ++
  c!"<h2>Documentation of builtin functions of the fuel language:</h2>\n<body>\n" ++ t ++ c!"</body>\n</html>\n"

end Fuel.Spec
