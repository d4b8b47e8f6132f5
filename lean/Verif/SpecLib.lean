import Verif.SpecCore
/-!
# The functions of the standard library

Library/fuellib.fuel defines functions in the language itself.  Here are their definitions as expressions, and what they should do.
-/

namespace Fuel.Spec.Core

variable [World]

/-- `(f a b ...)` -/
def ap (f : Str) (args : List Sexp) : Sexp := .list (.sym f :: args)

/-- `(defn name (p q ...) body)` -/
def defnCode (name : Str) (ps : List Str) (body : Sexp) : Sexp := .list [.sym c!"defn", .sym name, .list (ps.map .sym), body]

/-- Library/fuellib.fuel 46-49: `(first (cdr l))`. -/
def secondBody : Sexp := ap c!"first" [ap c!"cdr" [.sym c!"l"]]

/-- Library/fuellib.fuel 51-54: `(len l)`. -/
def lengthBody : Sexp := ap c!"len" [.sym c!"l"]

/-- Library/fuellib.fuel 56-59: `(len s)`. -/
def strlenBody : Sexp := ap c!"len" [.sym c!"s"]

/-- The condition of the loop of `find`: `(< i (len _list))`. -/
def findCond : Sexp := ap c!"<" [.sym c!"i", ap c!"len" [.sym c!"_list"]]

/-- The body of the loop of `find`: `(do (if (== key (nth i _list)) (return i)) (setf i (+ i 1)))`. -/
def findStep : Sexp :=
  ap c!"do" [ap c!"if" [ap c!"==" [.sym c!"key", ap c!"nth" [.sym c!"i", .sym c!"_list"]], ap c!"return" [.sym c!"i"]],
    ap c!"setf" [.sym c!"i", ap c!"+" [.sym c!"i", .int 1]]]

/-- Library/fuellib.fuel 66-79: `(do (def i 0) (while (< i (len _list)) (do (if (== key (nth i _list)) (return i)) (setf i (+ i 1)))) (return -1))`. -/
def findBody : Sexp :=
  ap c!"do" [ap c!"def" [.sym c!"i", .int 0], ap c!"while" [findCond, findStep], ap c!"return" [.int (-1)]]

/-- The body of the loop of `foreach`: `(do (apply fcn (list (nth __i container))) (setf __i (+ __i 1)))`. -/
def foreachStep : Sexp :=
  ap c!"do" [ap c!"apply" [.sym c!"fcn", ap c!"list" [ap c!"nth" [.sym c!"__i", .sym c!"container"]]],
    ap c!"setf" [.sym c!"__i", ap c!"+" [.sym c!"__i", .int 1]]]

/-- Library/fuellib.fuel 130-141: `(do (def __i 0) (def max (len container)) (while (< __i max) (do (apply fcn (list (nth __i container)))
(setf __i (+ __i 1)))))`. -/
def foreachBody : Sexp :=
  ap c!"do" [ap c!"def" [.sym c!"__i", .int 0], ap c!"def" [.sym c!"max", ap c!"len" [.sym c!"container"]],
    ap c!"while" [ap c!"<" [.sym c!"__i", .sym c!"max"], foreachStep]]

/-- The body of the loop of `arg-list-expression`: `(do (setf result (append result (list (sym (+ "p" (string i)))))) (setf i (+ i 1)))`. -/
def argListStep : Sexp :=
  ap c!"do" [ap c!"setf" [.sym c!"result", ap c!"append" [.sym c!"result", ap c!"list" [ap c!"sym" [ap c!"+" [.str c!"p", ap c!"string" [.sym c!"i"]]]]]],
    ap c!"setf" [.sym c!"i", ap c!"+" [.sym c!"i", .int 1]]]

/-- Library/fuellib.fuel 144-156: `(do (def result (list)) (def i 0) (while (< i argcount) (do (setf result (append result (list (sym (+ "p"
(string i)))))) (setf i (+ i 1)))) (return result))`. -/
def argListBody : Sexp :=
  ap c!"do" [ap c!"def" [.sym c!"result", ap c!"list" []], ap c!"def" [.sym c!"i", .int 0],
    ap c!"while" [ap c!"<" [.sym c!"i", .sym c!"argcount"], argListStep], ap c!"return" [.sym c!"result"]]

/-- The elements of a list; the characters of a string as strings. -/
inductive Elements : Val → List Val → Prop
  | list {l} : Elements (.list l) l
  | str {s} : Elements (.str s) (s.map fun c => .str [c])

/-- The position of the first element that is equal to the key; -1 if there is none.  The elements up to there can be compared with the key. -/
inductive Position (key : Val) : List Val → Int → Prop
  | none {l} : (∀ x ∈ l, Alike key x false) → Position key l (-1)
  | at_ {l x t} : (∀ y ∈ l, Alike key y false) → Alike key x true → Position key (l ++ x :: t) l.length

/-- The global variables are the built-in functions; there are no macros with their names. -/
structure Standard (R : Conf) (names : List Str) : Prop where
  count : 0 < R.count
  vars : ∀ n ∈ names, (R.frames 0).vars n = some (.prim n)
  macros : ∀ n ∈ names, R.macros n = none

/-- All that exists in `R` is unchanged in `R'`, which can have more frames. -/
structure Kept (R R' : Conf) : Prop where
  count : R.count ≤ R'.count
  frames : ∀ i, i < R.count → R'.frames i = R.frames i
  out : R'.out = R.out
  macros : R'.macros = R.macros
  modules : R'.modules = R.modules
  lib : R'.lib = R.lib
  input : R'.input = R.input

/-- The names that `find` uses. -/
def findNames : List Str := [c!"<", c!"len", c!"do", c!"if", c!"==", c!"nth", c!"return", c!"setf", c!"+", c!"def", c!"while"]

/-- The names that `arg-list-expression` uses. -/
def argListNames : List Str := [c!"<", c!"do", c!"return", c!"setf", c!"+", c!"def", c!"while", c!"list", c!"append", c!"sym", c!"string"]

/-- The symbols p0, p1, ... -/
def paramSyms (n : Nat) : List Val := (List.range n).map fun (i : Nat) => .sym (c!"p" ++ intStr i)

/-- The names that `foreach` uses. -/
def foreachNames : List Str := [c!"<", c!"do", c!"setf", c!"+", c!"def", c!"while", c!"list", c!"len", c!"nth", c!"apply"]

/-- The function is called with one element after the other; between the calls the counter in frame `F` is increased.  The calls do not change
this frame, and they do not redefine the names that `foreach` uses. -/
inductive CallsEach (F : Nat) (w : Val) : Nat → List Val → Conf → Conf → Prop
  | nil {i R} : CallsEach F w i [] R R
  | cons {i x l R v R1 R2} : NotList x → Apply F w [x] R v R1 → R1.frames F = R.frames F → Standard R1 foreachNames →
      CallsEach F w (i + 1) l (R1.set F c!"__i" (.int (i + 1 : Nat))) R2 → CallsEach F w i (x :: l) R R2

/-- The start of the loop of `foreach`, which was defined in frame `g`. -/
def foreachStart (g : Nat) (R : Conf) (c w : Val) (len : Nat) : Conf :=
  ((R.enter [c!"container", c!"fcn"] [c, w] g).set R.count c!"__i" (.int 0)).set R.count c!"max" (.int len)

/-- A script that defines a function and prints the result of a call with quoted arguments. -/
def libScript (name : Str) (ps : List Str) (body : Sexp) (args : List Sexp) : List Sexp :=
  [defnCode name ps body, ap c!"println" [ap name (args.map (.pre .quote))]]

/-- The data can be written in a script. -/
structure Data (x : Sexp) (v : Val) : Prop where
  quoted : Quoted x v
  wf : x.WF
  quotable : x.Quotable
  heads : x.Heads (fun n => n ∉ hidden ∧ n ≠ c!"define-macro-expand")

end Fuel.Spec.Core
