import Verif.SpecLib
/-!
# The macros of the standard library

`dotimes` and `setq` of Library/fuellib.fuel as expressions, and what they should do.
-/

namespace Fuel.Spec.Core

variable [World]

/-- `(first 'counterinfo)` -/
def counterCode (x : Sexp) : Sexp := ap c!"first" [.pre .quote x]

/-- The condition of the loop of `dotimes`: `(eval (list < (first 'counterinfo) (eval (nth 1 'counterinfo))))`. -/
def dotimesCond (x : Sexp) : Sexp :=
  ap c!"eval" [ap c!"list" [.sym c!"<", counterCode x, ap c!"eval" [ap c!"nth" [.int 1, .pre .quote x]]]]

/-- The last statement in the loop of `dotimes`: `(setf (rval (first 'counterinfo)) (eval (list + (first 'counterinfo) 1)))`. -/
def dotimesIncr (x : Sexp) : Sexp :=
  ap c!"setf" [ap c!"rval" [counterCode x], ap c!"eval" [ap c!"list" [.sym c!"+", counterCode x, .int 1]]]

/-- Library/fuellib.fuel 83-92: the body of `dotimes`, with `x` for `counterinfo` and `s` for `statements`:
`(do (def (first 'x) 0) (while (eval ...) (do (eval 's) (setf ...))) (delvar (first 'x)))`. -/
def dotimesCode (x s : Sexp) : List Sexp :=
  [.sym c!"do", ap c!"def" [counterCode x, .int 0],
    ap c!"while" [dotimesCond x, ap c!"do" [ap c!"eval" [.pre .quote s], dotimesIncr x]],
    ap c!"delvar" [counterCode x]]

/-- The parameters of `dotimes`. -/
def dotimesParams : List Str := [c!"counterinfo", c!"statements"]

/-- The body of `dotimes`. -/
def dotimesBody : List Sexp := dotimesCode (.sym c!"counterinfo") (.sym c!"statements")

/-- The names that `dotimes` uses. -/
def dotimesNames : List Str :=
  [c!"do", c!"def", c!"first", c!"quote", c!"while", c!"eval", c!"list", c!"<", c!"nth", c!"setf", c!"rval", c!"+", c!"delvar"]

/-- The names have their usual meanings in frame `f`; the text of a function is not the name of a macro. -/
structure Usual (names : List Str) (R : Conf) (f : Nat) : Prop where
  heads : ∀ n ∈ names, Head R f n (.prim n)
  macros : ∀ t, R.macros (c!"function " ++ t) = none

/-- The number of repetitions: an integer, a variable or a call of a function with such arguments and without effect. -/
inductive Limit (R : Conf) (f : Nat) : Sexp → Int → Prop
  | int {k} : Limit R f (.int k) k
  | var {m k} : Value R f m (.int k) → Limit R f (.sym m) k
  | call {h w args qs vs k} : Head R f h w → Quoteds args qs → Each (Meant R f) qs vs → Apply f w vs R (.int k) R → Limit R f (.list (.sym h :: args)) k

/-- The loop `while c < n: s; c := c + 1`, where `c` is a variable of frame `f`.  The statement can change the variable and the limit. -/
inductive Repeats (f : Nat) (c : Str) (n s : Sexp) : Conf → Conf → Prop
  | done {R i k} : (R.frames f).vars c = some (.int i) → Limit R f n k → k ≤ i → Repeats f c n s R R
  | step {R i k v R1 j R2} : (R.frames f).vars c = some (.int i) → Limit R f n k → i < k →
      Exec f s R v R1 → (R1.frames f).ret = false → Usual dotimesNames R1 f →
      (R1.frames f).vars c = some (.int j) → IsInt32 (j + 1) → Repeats f c n s (R1.set f c (.int (j + 1))) R2 → Repeats f c n s R R2

/-- The statement is executed for the values `i`, `i + 1`, ..., `k - 1` of the variable `c` of frame `f`; each time the variable is set before. -/
inductive Counts (f : Nat) (c : Str) (s : Sexp) (k : Int) : Int → Conf → Conf → Prop
  | done {R} : Counts f c s k k R (R.set f c (.int k))
  | step {i R v R1 R2} : i < k → Exec f s (R.set f c (.int i)) v R1 → (R1.frames f).ret = false → Usual dotimesNames R1 f →
      (R1.frames f).vars c = some (.int i) → Counts f c s k (i + 1) R1 R2 → Counts f c s k i R R2

/-- The parameters of `setq`. -/
def setqParams : List Str := [c!"symbol", c!"value"]

/-- Library/fuellib.fuel 95-97: `(setf symbol value)`. -/
def setqBody : List Sexp := [.sym c!"setf", .sym c!"symbol", .sym c!"value"]

end Fuel.Spec.Core
