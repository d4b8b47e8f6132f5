import Verif.SpecError
/-!
# Programs of the core language that run forever

The reference semantics of `SpecCore` says which programs end with a value, and `SpecError` says which ones end with an error.  This file says
which ones do not end.  The execution of a program is a tree of tasks: to execute a task, other tasks are executed one after the other.  A
program runs forever if there is an infinite path in this tree: a task, a part of it that is begun, a part of this part that is begun, and so on.
No rule of this file refers to itself: what is executed before a part is begun ends with a value in the sense of `SpecCore`.
-/

namespace Fuel.Spec.Core

variable [World]

/-- What is to be done, in frame `f` and starting with configuration `R`. -/
inductive Task where
  /-- evaluate an expression -/
  | eval (f : Nat) (e : Sexp) (R : Conf)
  /-- evaluate the operands of a call; names have the values they had in `R0` -/
  | operands (f : Nat) (R0 : Conf) (es : List Sexp) (R : Conf)
  /-- execute a loop with condition `c` and body `b` -/
  | loop (f : Nat) (c b : Sexp) (R : Conf)
  /-- execute statements -/
  | seq (f : Nat) (es : List Sexp) (R : Conf)
  /-- evaluate conditions until one is false -/
  | conj (f : Nat) (es : List Sexp) (R : Conf)
  /-- evaluate conditions -/
  | bools (f : Nat) (es : List Sexp) (R : Conf)
  /-- call a function -/
  | apply (f : Nat) (w : Val) (vs : List Val) (R : Conf)
  /-- call a function for every element -/
  | calls1 (f : Nat) (w : Val) (l : List Val) (R : Conf)
  /-- call a function for every element and the result so far -/
  | calls2 (f : Nat) (w a : Val) (l : List Val) (R : Conf)
  /-- fill a template -/
  | filled (f : Nat) (x : Sexp) (R : Conf)
  /-- fill the elements of a template -/
  | filledAll (f : Nat) (l : List Sexp) (R : Conf)

/-- The configuration at the start of a task. -/
def Task.conf : Task → Conf
  | .eval _ _ R => R
  | .operands _ _ _ R => R
  | .loop _ _ _ R => R
  | .seq _ _ R => R
  | .conj _ _ R => R
  | .bools _ _ R => R
  | .apply _ _ _ R => R
  | .calls1 _ _ _ R => R
  | .calls2 _ _ _ _ R => R
  | .filled _ _ R => R
  | .filledAll _ _ R => R

/-- In the execution of the first task, everything before the second one ends, and then the second one is begun. -/
inductive Begins : Task → Task → Prop
  | ifCond {f e h c l R} : Form e h (c :: l) → Head R f h (.prim c!"if") → l.length = 1 ∨ l.length = 2 → Begins (.eval f e R) (.eval f c R)
  | ifBranch {f e h c a b R t R1} : Form e h [c, a, b] → Head R f h (.prim c!"if") → Exec f c R (.bool t) R1 →
      Begins (.eval f e R) (.eval f (if t then a else b) R1)
  | ifThen {f e h c a R R1} : Form e h [c, a] → Head R f h (.prim c!"if") → Exec f c R (.bool true) R1 → Begins (.eval f e R) (.eval f a R1)
  | while_ {f e h c b R} : Form e h [c, b] → Head R f h (.prim c!"while") → Begins (.eval f e R) (.loop f c b R)
  | block {f e h d xs R} : Form e h xs → Head R f h (.prim d) → d ∈ [c!"do", c!"begin"] → Begins (.eval f e R) (.seq f xs R)
  | and_ {f e h d xs R} : Form e h xs → Head R f h (.prim d) → d ∈ [c!"and", c!"&&"] → Begins (.eval f e R) (.conj f xs R)
  | or_ {f e h d x xs R} : Form e h (x :: xs) → Head R f h (.prim d) → d ∈ [c!"or", c!"||"] → Begins (.eval f e R) (.eval f x R)
  | orTrue {f e h d x xs R R1} : Form e h (x :: xs) → Head R f h (.prim d) → d ∈ [c!"or", c!"||"] → Exec f x R (.bool true) R1 →
      Begins (.eval f e R) (.bools f xs R1)
  | def_ {f e h d n x R} : Form e h [.sym n, x] → Head R f h (.prim d) → d ∈ [c!"def", c!"gdef", c!"setf"] → Begins (.eval f e R) (.eval f x R)
  | defPlace {f e h p x R} : Form e h [p, x] → Head R f h (.prim c!"def") → Begins (.eval f e R) (.eval f p R)
  | defAt {f e h p n x R v0 R1} : Form e h [p, x] → Head R f h (.prim c!"def") → (∃ hp args, Form p hp args) → Exec f p R v0 R1 → Named v0 n →
      Begins (.eval f e R) (.eval f x R1)
  | setfPlace {f e h p hp y x R} : Form e h [p, x] → Head R f h (.prim c!"setf") → Form p hp [y] → Head R f hp (.prim c!"rval") →
      Begins (.eval f e R) (.eval f y R)
  | setfAt {f e h p hp y n x R v0 R1} : Form e h [p, x] → Head R f h (.prim c!"setf") → Form p hp [y] → Head R f hp (.prim c!"rval") →
      (∃ hy args, Form y hy args) → Exec f y R v0 R1 → Named v0 n → Begins (.eval f e R) (.eval f x R1)
  | rval {f e h x R} : Form e h [x] → Head R f h (.prim c!"rval") → Begins (.eval f e R) (.eval f x R)
  | evalCode {f e h q hq x R} : Form e h [q] → Head R f h (.prim c!"eval") → Form q hq [x] → Head R f hq (.prim c!"quote") →
      Begins (.eval f e R) (.eval f x R)
  | quasi {f e h x R} : Form e h [x] → Head R f h (.prim c!"quasiquote") → Begins (.eval f e R) (.filled f x R)
  | operand {f e h args R w} : Form e h args → Head R f h w → Ordinary w → Begins (.eval f e R) (.operands f R args R)
  | call {f e h args R w vs R1} : Form e h args → Head R f h w → Operands f R args R vs R1 → Begins (.eval f e R) (.apply f w vs R1)
  | macro_ {f e h args ps body R} : Form e h args → R.macros h = some (ps, body) → MacroCall R f ps args body →
      Begins (.eval f e R) (.eval f (.list (instantiate ps args body)) R)
  | unquote {f x y R} : Form x c!"_unquote" [y] → Begins (.filled f x R) (.eval f y R)
  | filledList {f l R} : l.length ≠ 2 → Begins (.filled f (.list l) R) (.filledAll f l R)
  | filledHere {f x l R} : Begins (.filledAll f (x :: l) R) (.filled f x R)
  | filledSpliced {f x y l R} : Form x c!"_unquotesplicing" [y] → Begins (.filledAll f (x :: l) R) (.eval f y R)
  | filledOne {f x l R v R1} : Filled f x R v R1 → Begins (.filledAll f (x :: l) R) (.filledAll f l R1)
  | filledSplice {f x y l R w ws R1} : Form x c!"_unquotesplicing" [y] → Exec f y R w R1 → AsList w ws → Begins (.filledAll f (x :: l) R) (.filledAll f l R1)
  | operandHere {f R0 e es R} : Begins (.operands f R0 (e :: es) R) (.eval f e R)
  | operandName {f R0 n es R v} : Value R0 f n v → Begins (.operands f R0 (.sym n :: es) R) (.operands f R0 es R)
  | operandUnknown {f R0 n es R} : Unknown R0 f n → Begins (.operands f R0 (.sym n :: es) R) (.operands f R0 es R)
  | operandOther {f R0 e es R v R1} : (∀ n, e ≠ .sym n) → Exec f e R v R1 → Begins (.operands f R0 (e :: es) R) (.operands f R0 es R1)
  | loopCond {f c b R} : Begins (.loop f c b R) (.eval f c R)
  | loopBody {f c b R v R1} : Exec f c R v R1 → truth v = some true → Begins (.loop f c b R) (.eval f b R1)
  | loopAgain {f c b R v R1 r1 R2} : Exec f c R v R1 → truth v = some true → Exec f b R1 r1 R2 → (R2.frames f).ret = false →
      Begins (.loop f c b R) (.loop f c b R2)
  | seqHere {f e es R} : Begins (.seq f (e :: es) R) (.eval f e R)
  | seqNext {f e es R r1 R1} : (∃ h args, Form e h args) → Exec f e R r1 R1 → (R1.frames f).ret = false → Begins (.seq f (e :: es) R) (.seq f es R1)
  | seqSkip {f e h c a es R R1} : Form e h [c, a] → Head R f h (.prim c!"if") → Exec f c R (.bool false) R1 → (R1.frames f).ret = false →
      Begins (.seq f (e :: es) R) (.seq f es R1)
  | seqMacro {f e h d n ps body es R} : Form e h [.sym n, .list (ps.map .sym), .list body] → Head R f h (.prim d) →
      d ∈ [c!"define-macro", c!"define-macro-eval"] → n ∉ hidden → (R.frames f).ret = false → Begins (.seq f (e :: es) R) (.seq f es (R.defMacro n ps body))
  | conjHere {f e es R} : Begins (.conj f (e :: es) R) (.eval f e R)
  | conjNext {f e es R R1} : Exec f e R (.bool true) R1 → Begins (.conj f (e :: es) R) (.conj f es R1)
  | boolsHere {f e es R} : Begins (.bools f (e :: es) R) (.eval f e R)
  | boolsNext {f e es R b R1} : Exec f e R (.bool b) R1 → Begins (.bools f (e :: es) R) (.bools f es R1)
  | body {f ps body g vs R} : ps.Nodup → (∀ p ∈ ps, p ∉ hidden) → Begins (.apply f (.clo ps body g) vs R) (.eval R.count body (R.enter ps vs g))
  | map {f w l R} : Callable w → Begins (.apply f (.prim c!"map") [w, .list l] R) (.calls1 f w l R)
  | reduce {f w l a R} : Callable w → Begins (.apply f (.prim c!"reduce") [w, .list l, a] R) (.calls2 f w a l R)
  | apply {f w l R} : (∀ x ∈ l, NotList x) → Begins (.apply f (.prim c!"apply") [w, .list l] R) (.apply f w l R)
  | evalCall {f c w l vs R} : Called R f c w → Each (Meant R f) l vs → Begins (.apply f (.prim c!"eval") [.list (c :: l)] R) (.apply f w vs R)
  | calls1Here {f w x l R} : NotList x → Begins (.calls1 f w (x :: l) R) (.apply f w [x] R)
  | calls1Next {f w x l R v R1} : NotList x → Apply f w [x] R v R1 → Begins (.calls1 f w (x :: l) R) (.calls1 f w l R1)
  | calls2Here {f w a x l R} : NotList x → Begins (.calls2 f w a (x :: l) R) (.apply f w [x, a] R)
  | calls2Next {f w a x l R v R1} : NotList x → Apply f w [x, a] R v R1 → Begins (.calls2 f w a (x :: l) R) (.calls2 f w v l R1)

/-- An infinite path of tasks. -/
def Path (path : Nat → Task) : Prop := ∀ n, Begins (path n) (path (n + 1))

/-- The task runs forever. -/
def Forever (t : Task) : Prop := ∃ path, path 0 = t ∧ Path path

end Fuel.Spec.Core
