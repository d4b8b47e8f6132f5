import Verif.SpecCore
import Verif.SpecArity
/-!
# The errors of the core language

Continues the reference semantics of the core language (`SpecCore`): what a program does that makes an error.  The language has no way
to catch an error, so the first one ends the program.  `Fails f e R msg t` says: the evaluation of `e` in frame `f` ends with the error
message `msg`, and `t` is the text written from the start of the program until then.
-/

namespace Fuel.Spec.Core

variable [World]

/-- The text of a value in error messages. -/
inductive Raw : Val → Str → Prop
  | int {i} : Raw (.int i) (intStr i)
  | dbl {d} : Raw (.dbl d) (World.dToStr d)
  | str {s} : Raw (.str s) s
  | sym {s} : Raw (.sym s) s
  | bool {b} : Raw (.bool b) (if b then c!"true" else c!"false")

/-- The text can stand in an error message: it has no curly brackets (they are place holders) and is not the text that stands for
"no argument". -/
def Sound (s : Str) : Prop := BraceFree s ∧ s ≠ c!"##<NULL>##"

/-- "Invalid cast ...". -/
def castText (to s why : Str) : Str := c!"Invalid cast for " ++ to ++ c!", value=" ++ s ++ c!" " ++ why

/-- "can not convert ...". -/
def convertText (v : Val) (to : Str) : Str := c!"can not convert " ++ (typeOf v).2 ++ c!" to " ++ to

/-- "no + operator ...": the types are shown as characters with the numbers of the types. -/
def operatorText (op : Str) (a b : Val) : Str :=
  c!"no " ++ op ++ c!" operator for types " ++ [Char.ofNat (typeOf a).1.toNat] ++ c!" and " ++ [Char.ofNat (typeOf b).1.toNat]

/-- "Function ... not found". -/
def functionText (t : Str) : Str := c!"Function \"" ++ t ++ c!"\" not found"

/-! ## Built-in functions -/

/-- The name is the name of this built-in function or special form. -/
def Means (n : Str) (b : Builtin) (special : Bool) : Prop := ∃ e ∈ defaultTable, e.name = n ∧ e.fn = b ∧ e.special = special

/-- Functions that evaluate all arguments before the call. -/
def Ordinary : Val → Prop
  | .prim n => ∃ b, Means n b false
  | .clo _ _ _ => True
  | _ => False

/-- No list, no string. -/
def Scalar : Val → Prop
  | .int _ => True
  | .dbl _ => True
  | .sym _ => True
  | .bool _ => True
  | _ => False

/-- No number and no string. -/
def Odd : Val → Prop
  | .int _ => False
  | .dbl _ => False
  | .str _ => False
  | _ => True

/-- The operators. -/
inductive Operator : Str → Str → (Int → Int → Int) → Prop
  | add {n} : n ∈ [c!"+", c!"add", c!"string"] → Operator n c!"+" (· + ·)
  | sub {n} : n ∈ [c!"-", c!"sub"] → Operator n c!"-" (· - ·)
  | mul {n} : n ∈ [c!"*", c!"mul"] → Operator n c!"*" (· * ·)

/-- An operator cannot be applied to the two values. -/
inductive Clash (op : Str) : Val → Val → Str → Prop
  | right {a s} : Sound s → Clash op (.int a) (.sym s) (castText c!"int" s (convertText (.sym s) c!"int"))
  | left {b s} : Sound s → Clash op (.sym s) (.int b) (castText c!"int" s (convertText (.sym s) c!"int"))
  | rightDbl {d s} : Sound s → Clash op (.dbl d) (.sym s) (castText c!"double" s (convertText (.sym s) c!"double"))
  | leftDbl {d s} : Sound s → Clash op (.sym s) (.dbl d) (castText c!"double" s (convertText (.sym s) c!"double"))
  | types {a b} : Odd a → Odd b → (op = c!"+" → ∀ l l', AsList a l → ¬ AsList b l') → Clash op a b (operatorText op a b)

/-- Errors of built-in functions. -/
inductive FnErr : Str → List Val → Str → Prop
  | count {n b m lo hi vs} : Means n b false → arity b = some (m, lo, hi) → vs.length < lo ∨ hi < vs.length → FnErr n vs (arityMessage m lo hi vs.length)
  | not {n v s} : n ∈ [c!"!", c!"not"] → (∀ b, v ≠ .bool b) → Raw v s → Sound s → FnErr n [v] (castText c!"bool" s c!"no")
  | list {n v s} : n ∈ [c!"first", c!"car", c!"rest", c!"cdr", c!"last", c!"len", c!"reverse"] → Scalar v → Raw v s → Sound s →
      FnErr n [v] (castText c!"list" s c!"no")
  | nthIndex {v w s} : (∀ i, v ≠ .int i) → Raw v s → Sound s → FnErr c!"nth" [v, w] (castText c!"int" s c!"no")
  | nthList {i v s} : Scalar v → Raw v s → Sound s → FnErr c!"nth" [.int i, v] (castText c!"list" s c!"no")
  | mapFn {v w} : ¬ Callable v → FnErr c!"map" [v, w] c!"No function in map"
  | mapList {v w} : Callable v → (∀ l, ¬ AsList w l) → FnErr c!"map" [v, w] c!"No list in map"
  | reduceFn {v w x} : ¬ Callable v → FnErr c!"reduce" [v, w, x] c!"No function in reduce"
  | reduceList {v w x} : Callable v → (∀ l, ¬ AsList w l) → FnErr c!"reduce" [v, w, x] c!"No list in reduce"
  | applyList {v w} : Callable v → (∀ l, ¬ AsList w l) → FnErr c!"apply" [v, w] c!"Expected list as arguments in apply"
  | first {n op g a b l msg} : Operator n op g → Clash op a b msg → FnErr n (a :: b :: l) msg
  | later {n op g a r b l l' msg} : Operator n op g → Folds g a l r → Clash op (.int r) b msg → FnErr n (.int a :: l.map .int ++ b :: l') msg
  | negate {n v} : n ∈ [c!"-", c!"sub"] → (∀ i, v ≠ .int i) → (∀ d, v ≠ .dbl d) → FnErr n [v] (c!"Unary operator - not available for " ++ (typeOf v).2)
  /-- operations on bits need integers -/
  | bits {n a b s} : n ∈ [c!"&", c!"|", c!"^", c!"<<", c!">>"] → (∀ i, a ≠ .int i) → Raw a s → Sound s → FnErr n [a, b] (castText c!"int" s c!"no")
  | bitsRight {n i b s} : n ∈ [c!"&", c!"|", c!"^", c!"<<", c!">>"] → (∀ i, b ≠ .int i) → Raw b s → Sound s → FnErr n [.int i, b] (castText c!"int" s c!"no")
  | bnot {a s} : (∀ i, a ≠ .int i) → Raw a s → Sound s → FnErr c!"~" [a] (castText c!"int" s c!"no")
  | lt {a b} : Odd a → Odd b → FnErr c!"<" [a, b] (operatorText c!"< or >" a b)
  | gt {a b} : Odd a → Odd b → FnErr c!">" [a, b] (operatorText c!"< or >" b a)
  /-- a format text with a placeholder that has no argument -/
  | format {pieces l ts i} : ShownAll false l ts → l.length ≤ 5 → (∀ p ∈ pieces, SlotOk p) → (slotNums pieces).Nodup → (∀ j ∈ slotNums pieces, j < 10) →
      (∀ t ∈ ts, BraceFree t ∧ t ≠ c!"##<NULL>##") → i ∈ slotNums pieces → l.length ≤ i → i < 5 →
      FnErr c!"format" (.str (slotSources pieces) :: l) (c!"Not enough items for format string: " ++ slotSources pieces)

/-! ## Programs -/

/-- Not a list. -/
def Atom : Sexp → Prop
  | .int _ => True
  | .float _ => True
  | .str _ => True
  | .sym _ => True
  | .bool _ => True
  | _ => False

mutual
/-- The evaluation of the expression in frame `f` ends with the error `msg`; `t` is the text written until then. -/
inductive Fails : Nat → Sexp → Conf → Str → Str → Prop
  /-- an unknown name is called -/
  | unknown {f e h args R} : Form e h args → R.macros h = none → Unknown R f h → Sound h → Fails f e R (functionText h) R.out
  /-- a value is called that is no function -/
  | noFunction {f e h args R w s t} : Form e h args → Head R f h w → Raw w s → Sound s → Shown false w t → Fails f e R (functionText t) R.out
  | count {f e h args R d b m lo hi} : Form e h args → Head R f h (.prim d) → Means d b true → arity b = some (m, lo, hi) →
      args.length < lo ∨ hi < args.length → Fails f e R (arityMessage m lo hi args.length) R.out
  /-- the message shows -1 as unsigned number -/
  | ifCount {f e h args R} : Form e h args → Head R f h (.prim c!"if") → args.length < 2 ∨ 3 < args.length →
      Fails f e R (c!"Bad argument count in if, has " ++ natStr args.length ++ c!" expected 18446744073709551615") R.out
  | ifCond {f e h c l R msg t} : Form e h (c :: l) → Head R f h (.prim c!"if") → l.length = 1 ∨ l.length = 2 → Fails f c R msg t → Fails f e R msg t
  | ifBad {f e h c l R v R1 s} : Form e h (c :: l) → Head R f h (.prim c!"if") → l.length = 1 ∨ l.length = 2 → Exec f c R v R1 → (∀ b, v ≠ .bool b) → Raw v s → Sound s →
      Fails f e R (castText c!"bool" s c!"no") R1.out
  | ifBranch {f e h c a b R t R1 msg o} : Form e h [c, a, b] → Head R f h (.prim c!"if") → Exec f c R (.bool t) R1 →
      Fails f (if t then a else b) R1 msg o → Fails f e R msg o
  | ifThen {f e h c a R R1 msg o} : Form e h [c, a] → Head R f h (.prim c!"if") → Exec f c R (.bool true) R1 → Fails f a R1 msg o → Fails f e R msg o
  | while_ {f e h c b R msg t} : Form e h [c, b] → Head R f h (.prim c!"while") → LoopFails f c b R msg t → Fails f e R msg t
  | block {f e h d xs R msg t} : Form e h xs → Head R f h (.prim d) → d ∈ [c!"do", c!"begin"] → SeqFails f xs R msg t → Fails f e R msg t
  | and_ {f e h d xs R msg t} : Form e h xs → Head R f h (.prim d) → d ∈ [c!"and", c!"&&"] → ConjFails f xs R msg t → Fails f e R msg t
  | defName {f e h d a x R} : Form e h [a, x] → Head R f h (.prim d) → d ∈ [c!"def", c!"gdef"] → (∃ i, a = .int i) ∨ (∃ b, a = .bool b) ∨ (∃ t, a = .float t) →
      Fails f e R c!"Symbol expected" R.out
  | def_ {f e h d n x R msg t} : Form e h [.sym n, x] → Head R f h (.prim d) → d ∈ [c!"def", c!"gdef", c!"setf"] → Fails f x R msg t → Fails f e R msg t
  /-- assignment to an unknown variable -/
  | setf {f e h n x R v R'} : Form e h [.sym n, x] → Head R f h (.prim c!"setf") → Exec f x R v R' → Unknown R' f n →
      Fails f e R (c!"Symbol " ++ n ++ c!" not found") R'.out
  | quasi {f e h x R msg t} : Form e h [x] → Head R f h (.prim c!"quasiquote") → FilledFails f x R msg t → Fails f e R msg t
  | operand {f e h args R w msg t} : Form e h args → Head R f h w → Ordinary w → OperandsFail f R args R msg t → Fails f e R msg t
  | call {f e h args R w vs R1 msg t} : Form e h args → Head R f h w → Operands f R args R vs R1 → ApplyFails f w vs R1 msg t → Fails f e R msg t
  | macro_ {f e h args ps body R msg t} : Form e h args → R.macros h = some (ps, body) → MacroCall R f ps args body →
      Fails f (.list (instantiate ps args body)) R msg t → Fails f e R msg t
/-- Templates. -/
inductive FilledFails : Nat → Sexp → Conf → Str → Str → Prop
  | unquote {f x y R msg t} : Form x c!"_unquote" [y] → Fails f y R msg t → FilledFails f x R msg t
  | list {f l R msg t} : l.length ≠ 2 → FilledAllFail f l R msg t → FilledFails f (.list l) R msg t
/-- The elements of templates. -/
inductive FilledAllFail : Nat → List Sexp → Conf → Str → Str → Prop
  | here {f x l R msg t} : FilledFails f x R msg t → FilledAllFail f (x :: l) R msg t
  | spliced {f x y l R msg t} : Form x c!"_unquotesplicing" [y] → Fails f y R msg t → FilledAllFail f (x :: l) R msg t
  | one {f x l R v R1 msg t} : Filled f x R v R1 → FilledAllFail f l R1 msg t → FilledAllFail f (x :: l) R msg t
  | splice {f x y l R w ws R1 msg t} : Form x c!"_unquotesplicing" [y] → Exec f y R w R1 → AsList w ws → FilledAllFail f l R1 msg t →
      FilledAllFail f (x :: l) R msg t
/-- The operands of a call: the first one that fails ends the evaluation. -/
inductive OperandsFail : Nat → Conf → List Sexp → Conf → Str → Str → Prop
  | here {f R0 e es R msg t} : Fails f e R msg t → OperandsFail f R0 (e :: es) R msg t
  | name {f R0 n es R v msg t} : Value R0 f n v → OperandsFail f R0 es R msg t → OperandsFail f R0 (.sym n :: es) R msg t
  | other {f R0 e es R v R1 msg t} : (∀ n, e ≠ .sym n) → Exec f e R v R1 → OperandsFail f R0 es R1 msg t → OperandsFail f R0 (e :: es) R msg t
/-- Loops. -/
inductive LoopFails : Nat → Sexp → Sexp → Conf → Str → Str → Prop
  | cond {f c b R msg t} : Fails f c R msg t → LoopFails f c b R msg t
  | bad {f c b R v R1 s} : Exec f c R v R1 → Named v s → Sound s → LoopFails f c b R (castText c!"bool" s (convertText v c!"bool")) R1.out
  | body {f c b R v R1 msg t} : Exec f c R v R1 → truth v = some true → Fails f b R1 msg t → LoopFails f c b R msg t
  | again {f c b R v R1 r1 R2 msg t} : Exec f c R v R1 → truth v = some true → Exec f b R1 r1 R2 → (R2.frames f).ret = false →
      LoopFails f c b R2 msg t → LoopFails f c b R msg t
/-- Statements. -/
inductive SeqFails : Nat → List Sexp → Conf → Str → Str → Prop
  | here {f e es R msg t} : Fails f e R msg t → SeqFails f (e :: es) R msg t
  | atom {f e es R} : Atom e → SeqFails f (e :: es) R c!"List expected in do" R.out
  | next {f e es R r1 R1 msg t} : (∃ h args, Form e h args) → Exec f e R r1 R1 → (R1.frames f).ret = false → SeqFails f es R1 msg t → SeqFails f (e :: es) R msg t
  | skip {f e h c a es R R1 msg t} : Form e h [c, a] → Head R f h (.prim c!"if") → Exec f c R (.bool false) R1 → (R1.frames f).ret = false →
      SeqFails f es R1 msg t → SeqFails f (e :: es) R msg t
  | macro_ {f e h d n ps body es R msg t} : Form e h [.sym n, .list (ps.map .sym), .list body] → Head R f h (.prim d) →
      d ∈ [c!"define-macro", c!"define-macro-eval"] → n ∉ hidden → (R.frames f).ret = false → SeqFails f es (R.defMacro n ps body) msg t →
      SeqFails f (e :: es) R msg t
/-- Conjunctions. -/
inductive ConjFails : Nat → List Sexp → Conf → Str → Str → Prop
  | here {f e es R msg t} : Fails f e R msg t → ConjFails f (e :: es) R msg t
  | bad {f e es R v R1 s} : Exec f e R v R1 → (∀ b, v ≠ .bool b) → Raw v s → Sound s → ConjFails f (e :: es) R (castText c!"bool" s c!"no") R1.out
  | next {f e es R R1 msg t} : Exec f e R (.bool true) R1 → ConjFails f es R1 msg t → ConjFails f (e :: es) R msg t
/-- Calls. -/
inductive ApplyFails : Nat → Val → List Val → Conf → Str → Str → Prop
  | fn {f n vs R msg} : FnErr n vs msg → ApplyFails f (.prim n) vs R msg R.out
  | clo {f ps body g vs R msg t} : ps.Nodup → (∀ p ∈ ps, p ∉ hidden) → Fails R.count body (R.enter ps vs g) msg t → ApplyFails f (.clo ps body g) vs R msg t
  | map {f w l R msg t} : Callable w → Calls1Fail f w l R msg t → ApplyFails f (.prim c!"map") [w, .list l] R msg t
  | reduce {f w l a R msg t} : Callable w → Calls2Fail f w a l R msg t → ApplyFails f (.prim c!"reduce") [w, .list l, a] R msg t
  | apply {f w l R msg t} : (∀ x ∈ l, NotList x) → ApplyFails f w l R msg t → ApplyFails f (.prim c!"apply") [w, .list l] R msg t
/-- Calls for the elements of a list. -/
inductive Calls1Fail : Nat → Val → List Val → Conf → Str → Str → Prop
  | here {f w x l R msg t} : NotList x → ApplyFails f w [x] R msg t → Calls1Fail f w (x :: l) R msg t
  | next {f w x l R v R1 msg t} : NotList x → Apply f w [x] R v R1 → Calls1Fail f w l R1 msg t → Calls1Fail f w (x :: l) R msg t
/-- The same with the result so far. -/
inductive Calls2Fail : Nat → Val → Val → List Val → Conf → Str → Str → Prop
  | here {f w a x l R msg t} : NotList x → ApplyFails f w [x, a] R msg t → Calls2Fail f w a (x :: l) R msg t
  | next {f w a x l R v R1 msg t} : NotList x → Apply f w [x, a] R v R1 → Calls2Fail f w v l R1 msg t → Calls2Fail f w a (x :: l) R msg t
end

end Fuel.Spec.Core
