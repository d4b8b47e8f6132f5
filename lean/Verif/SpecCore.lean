import Verif.SpecScript
import Verif.SpecOps
import Verif.SpecText
import Verif.SpecBits
import Verif.SpecDict
import Verif.SpecFormat
/-!
# A reference semantics of the core language

What a program of the core language means, independently of the interpreter: values, frames of variables, and the usual rules
for literals, variables, quotation, templates, `if`, `while`, `do`, `and`, `or`, definitions, assignments, functions, calls, `eval`, `rval`,
`delvar`, `readline`, `evalstr`, `import`, dictionaries, run-time macros and `(nth i (platform))`.  The core language has no compile-time macros, no changes of existing lists and
no files but modules.
The rules describe the programs that end with a value; they say nothing about programs that fail.
-/

namespace Fuel.Spec.Core

variable [World]

/-- The values: a built-in function is known by its name; a user-defined function has parameters, a body and the frame in which it was
defined; a dictionary is known by its number. -/
inductive Val where
  | int (i : Int)
  | dbl (d : Dbl)
  | str (s : Str)
  | sym (s : Str)
  | bool (b : Bool)
  | nil
  | undef
  | list (l : List Val)
  | prim (name : Str)
  | clo (params : List Str) (body : Sexp) (frame : Nat)
  | dict (a : Nat)

/-- Variables of the program or of one call of a function; `parent` is the frame in which the function was defined; `ret`: `return` was
executed. -/
structure Frame where
  vars : Str → Option Val
  parent : Option Nat
  ret : Bool

/-- The frames with the numbers below `count` exist, number 0 has the global variables; `out` is the text written so far; `macros` are
the macros with their parameters and bodies; `input` are the lines that can be read from the standard input; `dicts` are the dictionaries
with their entries in the order of the keys; `lib` says in which file the module with a name is and which program is in the file; `modules` are
the imported modules in the order of the names of their files with the frames of their variables. -/
structure Conf where
  count : Nat
  frames : Nat → Frame
  out : Str
  macros : Str → Option (List Str × List Sexp)
  input : List Str
  dicts : List (List (Key × Val))
  lib : Str → Option (Str × List Sexp)
  modules : List (Str × Nat)

/-- The start of a program: the global variables are the built-in functions; there are no macros, no dictionaries, no modules and nothing to
read. -/
def Conf.start : Conf where
  count := 1
  frames := fun _ => ⟨fun n => if n ∈ defaultTable.map Entry.name then some (.prim n) else none, none, false⟩
  out := []
  macros := fun _ => none
  input := []
  dicts := []
  lib := fun _ => none
  modules := []

/-- Change of one frame. -/
def Conf.withFrame (R : Conf) (f : Nat) (F : Frame) : Conf := { R with frames := fun i => if i = f then F else R.frames i }

/-- Assignment to a variable of a frame. -/
def Conf.set (R : Conf) (f : Nat) (n : Str) (v : Val) : Conf :=
  R.withFrame f { R.frames f with vars := fun m => if m = n then some v else (R.frames f).vars m }

/-- A variable of a frame is removed. -/
def Conf.unset (R : Conf) (f : Nat) (n : Str) : Conf :=
  R.withFrame f { R.frames f with vars := fun m => if m = n then none else (R.frames f).vars m }

/-- `return` was executed. -/
def Conf.mark (R : Conf) (f : Nat) : Conf := R.withFrame f { R.frames f with ret := true }

/-- Text is written. -/
def Conf.write (R : Conf) (t : Str) : Conf := { R with out := R.out ++ t }

/-- A macro is defined. -/
def Conf.defMacro (R : Conf) (n : Str) (ps : List Str) (body : List Sexp) : Conf :=
  { R with macros := fun m => if m = n then some (ps, body) else R.macros m }

/-- The values of the parameters of a call: in order, NIL if there are not enough arguments. -/
def paramVal : List Str → List Val → Str → Option Val
  | [], _, _ => none
  | p :: ps, vs, n => if n = p then some (vs.headD .nil) else paramVal ps vs.tail n

/-- A function defined in frame `g` is called: there is a new frame with the parameters. -/
def Conf.enter (R : Conf) (ps : List Str) (vs : List Val) (g : Nat) : Conf :=
  { R.withFrame R.count ⟨paramVal ps vs, some g, false⟩ with count := R.count + 1 }

/-- A module is imported: there is a new frame without variables. -/
def Conf.openModule (R : Conf) : Conf := { R.withFrame R.count ⟨fun _ => none, none, false⟩ with count := R.count + 1 }

/-- The module with frame `g` was executed: a copy of the frame is kept; `ms` are the modules now. -/
def Conf.closeModule (R : Conf) (g : Nat) (ms : List (Str × Nat)) : Conf :=
  { R.withFrame R.count (R.frames g) with count := R.count + 1, modules := ms }

/-- The frame `g` is entered into the modules, which are in the order of their names; it replaces an older one with the same name. -/
inductive Inserted (file : Str) (g : Nat) : List (Str × Nat) → List (Str × Nat) → Prop
  | new {a b} : (∀ x ∈ a, LexLt x.1 file) → (∀ x ∈ b, LexLt file x.1) → Inserted file g (a ++ b) (a ++ (file, g) :: b)
  | again {a b h} : (∀ x ∈ a, LexLt x.1 file) → Inserted file g (a ++ (file, h) :: b) (a ++ (file, g) :: b)

/-- Frame `g` is the innermost of frame `f` and the frames around it that has the variable. -/
inductive Innermost (R : Conf) (n : Str) : Nat → Nat → Prop
  | here {f v} : (R.frames f).vars n = some v → Innermost R n f f
  | up {f p g} : (R.frames f).vars n = none → (R.frames f).parent = some p → Innermost R n p g → Innermost R n f g

/-- The value of a name in frame `f`: the local variable, otherwise the global one, otherwise that of the innermost function around, otherwise that
of the first module with the name. -/
inductive Value (R : Conf) (f : Nat) (n : Str) : Val → Prop
  | locally {v} : n ∉ hidden → (R.frames f).vars n = some v → Value R f n v
  | globally {v} : n ∉ hidden → (R.frames f).vars n = none → (R.frames 0).vars n = some v → Value R f n v
  | outer {g v} : n ∉ hidden → (R.frames f).vars n = none → (R.frames 0).vars n = none → Innermost R n f g → (R.frames g).vars n = some v →
      Value R f n v
  | module {a b file g v} : n ∉ hidden → (R.frames 0).vars n = none → (∀ g, ¬ Innermost R n f g) → R.modules = a ++ (file, g) :: b →
      (∀ x ∈ a, (R.frames x.2).vars n = none) → (R.frames g).vars n = some v → Value R f n v

/-- The value of a name in frame `f` that is not the name of a macro. -/
def Head (R : Conf) (f : Nat) (n : Str) (v : Val) : Prop := R.macros n = none ∧ Value R f n v

/-- The name means nothing. -/
def Unknown (R : Conf) (f : Nat) (n : Str) : Prop :=
  n ∉ hidden ∧ (R.frames 0).vars n = none ∧ (∀ g, ¬ Innermost R n f g) ∧ ∀ x ∈ R.modules, (R.frames x.2).vars n = none

/-- The expression has the form `(h args ...)`; `'x` is `(quote x)`. -/
inductive Form : Sexp → Str → List Sexp → Prop
  | list {h args} : Form (.list (.sym h :: args)) h args
  | pre {k x} : Form (.pre k x) (Prefix.word k) [x]

mutual
/-- The value of a quotation. -/
inductive Quoted : Sexp → Val → Prop
  | int {i} : Quoted (.int i) (.int i)
  | float {t d} : World.dStod t = some d → Quoted (.float t) (.dbl d)
  | str {s} : Quoted (.str s) (.str s)
  | sym {s} : Quoted (.sym s) (.sym s)
  | bool {b} : Quoted (.bool b) (.bool b)
  | pre {k x v} : Quoted x v → Quoted (.pre k x) (.list [.sym (Prefix.word k), v])
  | list {l vs} : Quoteds l vs → Quoted (.list l) (.list vs)
/-- The same for all elements. -/
inductive Quoteds : List Sexp → List Val → Prop
  | nil : Quoteds [] []
  | cons {x v l vs} : Quoted x v → Quoteds l vs → Quoteds (x :: l) (v :: vs)
end

/-- Conditions of loops. -/
def truth : Val → Option Bool
  | .bool b => some b
  | .int i => some (decide (i ≠ 0))
  | .dbl d => some (World.dTruthy d)
  | _ => none

/-! ## Built-in functions -/

/-- `op` is applied from left to right; every result has 32 bits. -/
inductive Folds (op : Int → Int → Int) : Int → List Int → Int → Prop
  | nil {a} : Folds op a [] a
  | cons {a b l r} : IsInt32 (op a b) → Folds op (op a b) l r → Folds op a (b :: l) r

/-- Numbers as floating-point numbers. -/
inductive Num : Val → Dbl → Prop
  | int {i} : Num (.int i) (World.dOfInt i)
  | dbl {d} : Num (.dbl d) d

/-- Two numbers as floating-point numbers; at least one of them is one. -/
def Nums (a b : Val) (x y : Dbl) : Prop := Num a x ∧ Num b y ∧ ((∃ d, a = .dbl d) ∨ ∃ d, b = .dbl d)

/-- An operation is applied from left to right: `oi` to two integers (every result has 32 bits), `od` if there is a floating-point number. -/
inductive NumFolds (oi : Int → Int → Int) (od : Dbl → Dbl → Dbl) : Val → List Val → Val → Prop
  | nil {a x} : Num a x → NumFolds oi od a [] a
  | ints {a b l r} : IsInt32 (oi a b) → NumFolds oi od (.int (oi a b)) l r → NumFolds oi od (.int a) (.int b :: l) r
  | dbls {a b x y l r} : Nums a b x y → NumFolds oi od (.dbl (od x y)) l r → NumFolds oi od a (b :: l) r

/-- The names of the mathematical functions. -/
def mathTable : List (Str × MathFn) :=
  [(c!"Math-Sin", .sin), (c!"Math-Sinh", .sinh), (c!"Math-Asin", .asin), (c!"Math-Cos", .cos), (c!"Math-Cosh", .cosh), (c!"Math-Acos", .acos),
   (c!"Math-Tan", .tan), (c!"Math-Tanh", .tanh), (c!"Math-Atan", .atan), (c!"Math-Exp", .exp), (c!"Math-Log", .log), (c!"Math-Log10", .log10),
   (c!"Math-Sqrt", .sqrt), (c!"Math-Round", .round), (c!"Math-Truncate", .trunc), (c!"Math-Abs", .fabs), (c!"Math-Floor", .floor),
   (c!"Math-Ceiling", .ceil)]

/-- Strings, symbols and numbers as text. -/
inductive Plain : Val → Str → Prop
  | str {s} : Plain (.str s) s
  | sym {s} : Plain (.sym s) s
  | int {i} : Plain (.int i) (intStr i)
  | dbl {d} : Plain (.dbl d) (World.dToStr d)

mutual
/-- The text shown for a value; the Boolean: strings are shown in quotation marks. -/
inductive Shown : Bool → Val → Str → Prop
  | int {q i} : Shown q (.int i) (intStr i)
  | dbl {q d} : Shown q (.dbl d) (World.dToStr d)
  | str {s} : Shown false (.str s) s
  | quoted {s} : Shown true (.str s) (c!"\"" ++ s ++ c!"\"")
  | sym {q s} : Shown q (.sym s) s
  | bool {q b} : Shown q (.bool b) (boolText b)
  | nil {q} : Shown q .nil c!"NIL"
  | undef {q} : Shown q .undef c!"<undefined>"
  | list {q l ts} : ShownAll true l ts → Shown q (.list l) (c!"(" ++ joined ts ++ c!")")
/-- The same for all elements. -/
inductive ShownAll : Bool → List Val → List Str → Prop
  | nil {q} : ShownAll q [] []
  | cons {q v t l ts} : Shown q v t → ShownAll q l ts → ShownAll q (v :: l) (t :: ts)
end

/-- NIL is the empty list. -/
inductive AsList : Val → List Val → Prop
  | list {l} : AsList (.list l) l
  | nil : AsList .nil []

/-- Are the values equal? -/
inductive Alike : Val → Val → Bool → Prop
  | int {a b} : Alike (.int a) (.int b) (decide (a = b))
  | str {a b} : Alike (.str a) (.str b) (decide (a = b))
  | sym {a b} : Alike (.sym a) (.sym b) (decide (a = b))
  | bool {a b} : Alike (.bool a) (.bool b) (decide (a = b))
  | nil : Alike .nil .nil true
  | dbl {a b x y} : Nums a b x y → Alike a b (World.dNear x y)
  | symLeft {s v} : (∀ t, v ≠ .sym t) → Alike (.sym s) v false
  | symRight {s v} : (∀ t, v ≠ .sym t) → Alike v (.sym s) false
  | nilLeft {v} : v ≠ .nil → Alike .nil v false
  | nilRight {v} : v ≠ .nil → Alike v .nil false

/-- Number and name of the type of a value. -/
def typeOf : Val → Int × Str
  | .undef => (0, c!"Undefined")
  | .nil => (1, c!"Nil")
  | .bool _ => (2, c!"Bool")
  | .int _ => (3, c!"Int")
  | .dbl _ => (4, c!"Double")
  | .str _ => (5, c!"String")
  | .list _ => (6, c!"List")
  | .prim _ => (7, c!"Function")
  | .clo _ _ _ => (7, c!"Function")
  | .sym _ => (8, c!"Symbol")
  | .dict _ => (9, c!"NativeDictionary")

/-- A string or a symbol with this text. -/
inductive Named : Val → Str → Prop
  | str {s} : Named (.str s) s
  | sym {s} : Named (.sym s) s

/-- Results of built-in functions that have no effect. -/
inductive Fn : Str → List Val → Val → Prop
  | add {n a l r} : n ∈ [c!"+", c!"add", c!"string"] → Folds (· + ·) a l r → Fn n (.int a :: l.map .int) (.int r)
  | sub {n a b l r} : n ∈ [c!"-", c!"sub"] → Folds (· - ·) a (b :: l) r → Fn n (.int a :: .int b :: l.map .int) (.int r)
  | neg {n a} : n ∈ [c!"-", c!"sub"] → IsInt32 (-a) → Fn n [.int a] (.int (-a))
  | mul {n a l r} : n ∈ [c!"*", c!"mul"] → Folds (· * ·) a l r → Fn n (.int a :: l.map .int) (.int r)
  | div {n a b q r} : n ∈ [c!"/", c!"div"] → Truncated a b q r → IsInt32 q → Fn n [.int a, .int b] (.int q)
  | mod {n a b q r} : n ∈ [c!"%", c!"mod"] → Truncated a b q r → IsInt32 q → Fn n [.int a, .int b] (.int r)
  | concat {n s l ts} : n ∈ [c!"+", c!"add", c!"string"] → Each Plain l ts → Fn n (.str s :: l) (.str (s ++ ts.flatten))
  | lt {a b} : Fn c!"<" [.int a, .int b] (.bool (decide (a < b)))
  | gt {a b} : Fn c!">" [.int a, .int b] (.bool (decide (a > b)))
  | le {a b} : Fn c!"<=" [.int a, .int b] (.bool (decide (a ≤ b)))
  | ge {a b} : Fn c!">=" [.int a, .int b] (.bool (decide (a ≥ b)))
  | eq {n a b r} : n ∈ [c!"=", c!"==", c!"equal"] → Alike a b r → Fn n [a, b] (.bool r)
  | ne {a b r} : Alike a b r → Fn c!"!=" [a, b] (.bool (!r))
  | ltStr {a b r} : NoZero a → NoZero b → (r = true ↔ LexLt a b) → Fn c!"<" [.str a, .str b] (.bool r)
  | gtStr {a b r} : NoZero a → NoZero b → (r = true ↔ LexLt b a) → Fn c!">" [.str a, .str b] (.bool r)
  | leStr {a b r} : NoZero a → NoZero b → (r = true ↔ ¬ LexLt b a) → Fn c!"<=" [.str a, .str b] (.bool r)
  | geStr {a b r} : NoZero a → NoZero b → (r = true ↔ ¬ LexLt a b) → Fn c!">=" [.str a, .str b] (.bool r)
  | not {n b} : n ∈ [c!"!", c!"not"] → Fn n [.bool b] (.bool (!b))
  | list {l} : Fn c!"list" l (.list l)
  | cons {v w l} : AsList w l → Fn c!"cons" [v, w] (.list (v :: l))
  | first {n v l} : n ∈ [c!"first", c!"car"] → Fn n [.list (v :: l)] v
  | rest {n v l} : n ∈ [c!"rest", c!"cdr"] → Fn n [.list (v :: l)] (.list l)
  | last {l v} : Fn c!"last" [.list (l ++ [v])] v
  | nth {i : Nat} {v l} : IsInt32 i → l[i]? = some v → Fn c!"nth" [.int i, .list l] v
  | firstStr {n c t} : n ∈ [c!"first", c!"car"] → Fn n [.str (c :: t)] (.str [c])
  | restStr {n c t} : n ∈ [c!"rest", c!"cdr"] → Fn n [.str (c :: t)] (.str t)
  | nthStr {i : Nat} {s c} : IsInt32 i → s[i]? = some c → Fn c!"nth" [.int i, .str s] (.str [c])
  | type {v} : Fn c!"type" [v] (.int (typeOf v).1)
  | typestr {v} : Fn c!"typestr" [v] (.str (typeOf v).2)
  | sym {v s} : Named v s → Fn c!"sym" [v] (.sym s)
  | len {w l} : AsList w l → IsInt32 l.length → Fn c!"len" [w] (.int l.length)
  | lenStr {s : Str} : IsInt32 s.length → Fn c!"len" [.str s] (.int (s.length : Nat))
  | append {ws ls} : Each AsList ws ls → Fn c!"append" ws (.list ls.flatten)
  | reverse {w l} : AsList w l → Fn c!"reverse" [w] (.list l.reverse)
  | str {v t} : Shown false v t → Fn c!"str" [v] (.str t)
  | upper {s o} : Pointwise Upper s o → Fn c!"upper-case" [.str s] (.str o)
  | lower {s o} : Pointwise Lower s o → Fn c!"lower-case" [.str s] (.str o)
  | trim {s a o b} : s = a ++ o ++ b → (∀ c ∈ a, White c) → (∀ c ∈ b, White c) → Tight o → Fn c!"trim" [.str s] (.str o)
  | replace {s a b o} : a ≠ [] → NoZero a → NoZero b → Replaced a b s o → Fn c!"replace" [.str s, .str a, .str b] (.str o)
  | search {a s} {i : Nat} : IsInt32 s.length → FirstAt a s i → Fn c!"search" [.str a, .str s] (.int i)
  | searchNone {a s} : IsInt32 s.length → (∀ i, ¬ OccursAt a s i) → Fn c!"search" [.str a, .str s] (.int (-1))
  | searchIn {a vs ts} {i : Nat} : (∀ l, .list l ∉ vs) → ShownAll false vs ts → IsInt32 vs.length → ts[i]? = some a → (∀ j, j < i → ts[j]? ≠ some a) →
      Fn c!"search" [.str a, .list vs] (.int i)
  | searchMissing {a vs ts} : (∀ l, .list l ∉ vs) → ShownAll false vs ts → a ∉ ts → Fn c!"search" [.str a, .list vs] (.int (-1))
  | parse {s ws num i} : s = ws ++ num → (∀ c ∈ ws, White c) → Numeral num i → IsInt32 i → Fn c!"parse-integer" [.str s] (.int i)
  | parseNone {s} : (¬ ∃ ws num i, s = ws ++ num ∧ (∀ c ∈ ws, White c) ∧ Numeral num i ∧ IsInt32 i) → Fn c!"parse-integer" [.str s] .undef
  | nop {l} : Fn c!"nop" l .undef
  | addNum {n a l r} : n ∈ [c!"+", c!"add", c!"string"] → NumFolds (· + ·) World.dAdd a l r → Fn n (a :: l) r
  | subNum {n a b l r} : n ∈ [c!"-", c!"sub"] → NumFolds (· - ·) World.dSub a (b :: l) r → Fn n (a :: b :: l) r
  | negDbl {n d} : n ∈ [c!"-", c!"sub"] → Fn n [.dbl d] (.dbl (World.dNeg d))
  | mulNum {n a l r} : n ∈ [c!"*", c!"mul"] → NumFolds (· * ·) World.dMul a l r → Fn n (a :: l) r
  | divDbl {n a b x y} : n ∈ [c!"/", c!"div"] → Nums a b x y → Fn n [a, b] (.dbl (World.dDiv x y))
  | modDbl {n a b x y} : n ∈ [c!"%", c!"mod"] → Nums a b x y → Fn n [a, b] (.dbl (World.dFmod x y))
  | ltDbl {a b x y} : Nums a b x y → Fn c!"<" [a, b] (.bool (World.dLt x y))
  | gtDbl {a b x y} : Nums a b x y → Fn c!">" [a, b] (.bool (World.dLt y x))
  | leDbl {a b x y} : Nums a b x y → Fn c!"<=" [a, b] (.bool (World.dLe x y))
  | geDbl {a b x y} : Nums a b x y → Fn c!">=" [a, b] (.bool (World.dLe y x))
  | int {i} : Fn c!"int" [.int i] (.int i)
  | intDbl {d i} : World.dToInt d = some i → IsInt32 i → Fn c!"int" [.dbl d] (.int i)
  | intBool {b} : Fn c!"int" [.bool b] (.int (if b then 1 else 0))
  | float {a x} : Num a x → Fn c!"float" [a] (.dbl x)
  | floatBool {b} : Fn c!"float" [.bool b] (.dbl (World.dOfInt (if b then 1 else 0)))
  | parseFloat {n s num d} : n ∈ [c!"parse-float", c!"float"] → NoZero s → LongestNumber s num → World.dStod num = some d → Fn n [.str s] (.dbl d)
  | math {n f a x} : (n, f) ∈ mathTable → Num a x → Fn n [a] (.dbl (World.math f x))
  | and {x y r} : IsInt32 r → (∀ i, i < 32 → (Bit r i ↔ Bit x i ∧ Bit y i)) → Fn c!"&" [.int x, .int y] (.int r)
  | or {x y r} : IsInt32 r → (∀ i, i < 32 → (Bit r i ↔ Bit x i ∨ Bit y i)) → Fn c!"|" [.int x, .int y] (.int r)
  | xor {x y r} : IsInt32 r → (∀ i, i < 32 → (Bit r i ↔ ¬ (Bit x i ↔ Bit y i))) → Fn c!"^" [.int x, .int y] (.int r)
  | bnot {x} : Fn c!"~" [.int x] (.int (-x - 1))
  | shl {x} {y : Nat} : y < 32 → 0 ≤ x → IsInt32 (x * 2 ^ y) → Fn c!"<<" [.int x, .int y] (.int (x * 2 ^ y))
  | shr {x} {y : Nat} {r s} : y < 32 → x = r * 2 ^ y + s → 0 ≤ s → s < 2 ^ y → Fn c!">>" [.int x, .int y] (.int r)
  | slice {s a o b} : s = a ++ o ++ b → IsInt32 s.length → Fn c!"slice" [.str s, .int (a.length : Nat), .int (o.length : Nat)] (.str o)
  | sliceRest {s a o} {n : Int} : s = a ++ o → IsInt32 s.length → n < 0 → Fn c!"slice" [.str s, .int (a.length : Nat), .int n] (.str o)
  | pi : Fn c!"Math-Pi" [] (.dbl World.pi)
  | pow {a b x y} : Num a x → Num b y → Fn c!"Math-Pow" [a, b] (.dbl (World.dPow x y))
  /-- a format text with at most five arguments, whose placeholders have different numbers; there are no other curly brackets -/
  | format {pieces l ts} : ShownAll false l ts → l.length ≤ 5 → (∀ p ∈ pieces, SlotOk p) → (slotNums pieces).Nodup → (∀ i ∈ slotNums pieces, i < l.length) →
      (∀ t ∈ ts, BraceFree t ∧ t ≠ c!"##<NULL>##") → Fn c!"format" (.str (slotSources pieces) :: l) (.str (slotFill ts pieces))
  | flush : Fn c!"flush" [] .undef
  | sleep {i} : Fn c!"sleep" [.int i] .undef
  | fuel {l} : Fn c!"fuel" l (.str c!"fuel version v0.99.6 from 16.12.2023")
  | version {l} : Fn c!"version" l (.str c!"v0.99.6")
  | copyright {l} : Fn c!"copyright" l (.str c!"Copyright: MIT-License http://opensource.org/licenses/MIT")

/-- Built-in functions that write. -/
inductive Prints : Str → List Val → Str → Str → Prop
  | print {l ts} : ShownAll false l ts → Prints c!"print" l (joined ts) (joined ts)
  | println {l ts} : ShownAll false l ts → Prints c!"println" l (joined ts) (joined ts ++ c!"\n")

/-! ## Dictionaries -/

/-- Keys are integers and strings (without the character 0). -/
inductive KeyOf : Val → Key → Prop
  | int {i} : KeyOf (.int i) (.int i)
  | str {s} : NoZero s → KeyOf (.str s) (.str s)

/-- The key as value. -/
def keyVal : Key → Val
  | .int i => .int i
  | .str s => .str s

/-- What a dictionary keeps of a value: a symbol becomes a string; NIL, the undefined value and dictionaries are not kept. -/
inductive Stored : Val → Val → Prop
  | int {i} : Stored (.int i) (.int i)
  | dbl {d} : Stored (.dbl d) (.dbl d)
  | str {s} : Stored (.str s) (.str s)
  | sym {s} : Stored (.sym s) (.str s)
  | bool {b} : Stored (.bool b) (.bool b)
  | list {l} : Stored (.list l) (.list l)
  | prim {n} : Stored (.prim n) (.prim n)
  | clo {ps body g} : Stored (.clo ps body g) (.clo ps body g)

/-- The key `k` in the entries `d`: the entries `a` have smaller keys, `b` have greater keys, and `hit` is the value of `k`, if there is one. -/
structure Located (k : Key) (d a : List (Key × Val)) (hit : Option Val) (b : List (Key × Val)) : Prop where
  all : d = a ++ (hit.map fun v => (k, v)).toList ++ b
  less : ∀ e ∈ a, e.1.Lt k
  greater : ∀ e ∈ b, k.Lt e.1

/-- An integer, a string or a truth value. -/
inductive Simple : Val → Prop
  | int {i} : Simple (.int i)
  | str {s} : Simple (.str s)
  | bool {b} : Simple (.bool b)

/-- Questions to dictionaries. -/
inductive Asks (ds : List (List (Key × Val))) : Str → List Val → Val → Prop
  | get {a d kv k x hit y} : ds[a]? = some d → KeyOf kv k → Located k d x hit y → Asks ds c!"dict-get" [.dict a, kv] (hit.getD .undef)
  | has {a d kv k x hit y} : ds[a]? = some d → KeyOf kv k → Located k d x hit y → Asks ds c!"dict-contains-key" [.dict a, kv] (.bool hit.isSome)
  | keys {a d} : ds[a]? = some d → Asks ds c!"dict-keys" [.dict a] (.list (d.map fun e => keyVal e.1))
  | len {a d} : ds[a]? = some d → IsInt32 d.length → Asks ds c!"len" [.dict a] (.int d.length)
  | hasValue {a d v w r} : ds[a]? = some d → Stored v w → Simple w → (r = true ↔ ∃ e ∈ d, e.2 = w) → Asks ds c!"dict-contains-value" [.dict a, v] (.bool r)

/-- Changes of dictionaries. -/
inductive Changes (ds : List (List (Key × Val))) : Str → List Val → Val → List (List (Key × Val)) → Prop
  | make : Changes ds c!"make-dict" [] (.dict ds.length) (ds ++ [[]])
  | set {a d kv k v w x hit y} : ds[a]? = some d → KeyOf kv k → Stored v w → Located k d x hit y →
      Changes ds c!"dict-set" [.dict a, kv, v] v (ds.set a (x ++ (k, w) :: y))
  | remove {a d kv k x hit y} : ds[a]? = some d → KeyOf kv k → Located k d x hit y →
      Changes ds c!"dict-remove" [.dict a, kv] (.bool hit.isSome) (ds.set a (x ++ y))
  | clear {a d} : ds[a]? = some d → Changes ds c!"dict-clear" [.dict a] .undef (ds.set a [])

/-- No list. -/
def NotList : Val → Prop
  | .list _ => False
  | _ => True

/-- A function. -/
def Callable : Val → Prop
  | .prim _ => True
  | .clo _ _ _ => True
  | _ => False

/-- What an element of a list that is evaluated as a call means: names have their values, unknown names mean themselves. -/
inductive Meant (R : Conf) (f : Nat) : Val → Val → Prop
  | name {n v} : Value R f n v → Meant R f (.sym n) v
  | unknown {n} : Unknown R f n → Meant R f (.sym n) (.sym n)
  | other {v} : (∀ n, v ≠ .sym n) → NotList v → Meant R f v v

/-- The function of a list that is evaluated as a call: the first element is a name or a function.  (The text of a function starts with
`function`, and the texts of first elements are looked up in the table of macros.) -/
inductive Called (R : Conf) (f : Nat) : Val → Val → Prop
  | name {n w} : Head R f n w → Called R f (.sym n) w
  | fn {w} : Callable w → (∀ t, R.macros (c!"function " ++ t) = none) → Called R f w w

/-! ## Macros -/

mutual
/-- Every symbol `p` is replaced by `a`. -/
def subst (p : Str) (a : Sexp) : Sexp → Sexp
  | .sym n => if n = p then a else .sym n
  | .pre k x => .pre k (subst p a x)
  | .list l => .list (substs p a l)
  | x => x
/-- The same for all elements. -/
def substs (p : Str) (a : Sexp) : List Sexp → List Sexp
  | [] => []
  | x :: l => subst p a x :: substs p a l
end

/-- One parameter after the other is replaced by its argument. -/
def instantiate : List Str → List Sexp → List Sexp → List Sexp
  | p :: ps, a :: as, body => instantiate ps as (substs p a body)
  | _, _, body => body

mutual
/-- The symbol occurs. -/
def Uses (p : Str) : Sexp → Prop
  | .sym n => n = p
  | .pre k x => k.word = p ∨ Uses p x
  | .list l => UsesAny p l
  | _ => False
/-- It occurs in one of the elements. -/
def UsesAny (p : Str) : List Sexp → Prop
  | [] => False
  | x :: l => Uses p x ∨ UsesAny p l
end

mutual
/-- The name occurs only as symbol, not as string and not in the form of a quote character; NIL does not occur. -/
def Clean (p : Str) : Sexp → Prop
  | .str s => s ≠ p
  | .nil => False
  | .pre k x => k.word ≠ p ∧ Clean p x
  | .list l => Cleans p l
  | _ => True
/-- The same for all elements. -/
def Cleans (p : Str) : List Sexp → Prop
  | [] => True
  | x :: l => Clean p x ∧ Cleans p l
end

/-- A function that is not executed during macro expansion. -/
def Passive : Val → Prop
  | .prim n => n ≠ c!"define-macro-expand"
  | .clo _ _ _ => True
  | _ => False

/-- The macro can be called with these arguments: there are enough of them, parameters are not confused with strings, the body does not
use `quoted-macro-args`, and no list in the arguments starts with a local variable that is not a function. -/
structure MacroCall (R : Conf) (f : Nat) (ps : List Str) (args body : List Sexp) : Prop where
  enough : ps.length ≤ args.length
  clean : ∀ p ∈ ps, Cleans p body ∧ Cleans p args
  rest : Cleans c!"quoted-macro-args" body ∧ ¬ UsesAny c!"quoted-macro-args" body
  heads : Sexp.HeadsAll (fun n => n ∉ hidden ∧ ∀ v, (R.frames f).vars n = some v → Passive v) args

/-- No list in the expression starts with a variable of the frame that is not a function. -/
def Literal (R : Conf) (f : Nat) (e : Sexp) : Prop := e.Heads fun n => n ∉ hidden ∧ ∀ v, (R.frames f).vars n = some v → Passive v

/-! ## Programs -/

mutual
/-- Evaluating the expression in frame `f` gives a value; `R` and `R'` are the configurations before and after. -/
inductive Exec : Nat → Sexp → Conf → Val → Conf → Prop
  | int {f i R} : Exec f (.int i) R (.int i) R
  | float {f t d R} : World.dStod t = some d → Exec f (.float t) R (.dbl d) R
  | str {f s R} : Exec f (.str s) R (.str s) R
  | bool {f b R} : Exec f (.bool b) R (.bool b) R
  | nil {f R} : Exec f .nil R .nil R
  | empty {f R} : Exec f (.list []) R .nil R
  | var {f n R v} : Value R f n v → Exec f (.sym n) R v R
  | unknown {f n R} : Unknown R f n → Exec f (.sym n) R (.sym n) R
  | quote {f e h x R v} : Form e h [x] → Head R f h (.prim c!"quote") → Quoted x v → Exec f e R v R
  | quasi {f e h x R v R'} : Form e h [x] → Head R f h (.prim c!"quasiquote") → Filled f x R v R' → Exec f e R v R'
  | if_ {f e h c a b R t R1 v R2} : Form e h [c, a, b] → Head R f h (.prim c!"if") → Exec f c R (.bool t) R1 →
      Exec f (if t then a else b) R1 v R2 → Exec f e R v R2
  | ifThen {f e h c a R R1 v R2} : Form e h [c, a] → Head R f h (.prim c!"if") → Exec f c R (.bool true) R1 →
      Exec f a R1 v R2 → Exec f e R v R2
  | while_ {f e h c b R v R'} : Form e h [c, b] → Head R f h (.prim c!"while") → Loop f c b .undef R v R' → Exec f e R v R'
  | block {f e h d xs R v R'} : Form e h xs → Head R f h (.prim d) → d ∈ [c!"do", c!"begin"] → Seq f (some .undef) xs R v R' → Exec f e R v R'
  | and_ {f e h d xs R b R'} : Form e h xs → Head R f h (.prim d) → d ∈ [c!"and", c!"&&"] → Conj f xs R b R' → Exec f e R (.bool b) R'
  | def_ {f e h n x R v R'} : Form e h [.sym n, x] → Head R f h (.prim c!"def") → n ∉ hidden → Exec f x R v R' →
      Exec f e R v (R'.set f n v)
  | gdef {f e h n x R v R'} : Form e h [.sym n, x] → Head R f h (.prim c!"gdef") → n ∉ hidden → Exec f x R v R' →
      Exec f e R v (R'.set 0 n v)
  | setf {f g e h n x R v R'} : Form e h [.sym n, x] → Head R f h (.prim c!"setf") → n ∉ hidden → n ≠ [] → Exec f x R v R' →
      Innermost R' n f g → Exec f e R v (R'.set g n v)
  | defAt {f e h p n x R v0 R1 v R2} : Form e h [p, x] → Head R f h (.prim c!"def") → (∃ hp args, Form p hp args) → Exec f p R v0 R1 → Named v0 n →
      n ∉ hidden → Exec f x R1 v R2 → Exec f e R v (R2.set f n v)
  | setfAt {f g e h p hp y n x R v0 R1 v R2} : Form e h [p, x] → Head R f h (.prim c!"setf") → Form p hp [y] → Head R f hp (.prim c!"rval") →
      (∃ hy args, Form y hy args) → Exec f y R v0 R1 → Named v0 n → n ∉ hidden → n ≠ [] → Exec f x R1 v R2 → Innermost R2 n f g →
      Exec f e R v (R2.set g n v)
  | rval {f e h x R v R'} : Form e h [x] → Head R f h (.prim c!"rval") → (∃ hx args, Form x hx args) → Exec f x R v R' → Exec f e R v R'
  | evalCode {f e h q hq x R v R'} : Form e h [q] → Head R f h (.prim c!"eval") → Form q hq [x] → Head R f hq (.prim c!"quote") →
      (∃ hx args, Form x hx args) → Exec f x R v R' → Exec f e R v R'
  | orFalse {f e h d x xs R R'} : Form e h (x :: xs) → Head R f h (.prim d) → d ∈ [c!"or", c!"||"] → Exec f x R (.bool false) R' →
      Exec f e R (.bool false) R'
  | orTrue {f e h d x xs R R1 R'} : Form e h (x :: xs) → Head R f h (.prim d) → d ∈ [c!"or", c!"||"] → Exec f x R (.bool true) R1 →
      Bools f xs R1 R' → Exec f e R (.bool true) R'
  | fn {f e h d ps body R} : Form e h [.list (ps.map .sym), body] → Head R f h (.prim d) → d ∈ [c!"fn", c!"lambda"] →
      Exec f e R (.clo ps body f) R
  | defn {f e h n ps body R} : Form e h [.sym n, .list (ps.map .sym), body] → Head R f h (.prim c!"defn") → n ∉ hidden →
      (R.frames 0).vars c!"fn" = some (.prim c!"fn") → (R.frames 0).vars c!"def" = some (.prim c!"def") →
      Exec f e R (.clo ps body f) (R.set f n (.clo ps body f))
  | gdefn {f e h n ps body R} : Form e h [.sym n, .list (ps.map .sym), body] → Head R f h (.prim c!"gdefn") → n ∉ hidden →
      (R.frames 0).vars c!"fn" = some (.prim c!"fn") → (R.frames 0).vars c!"gdef" = some (.prim c!"gdef") →
      Exec f e R (.clo ps body f) (R.set 0 n (.clo ps body f))
  | call {f e h args R w vs R1 v R2} : Form e h args → Head R f h w → Operands f R args R vs R1 → Apply f w vs R1 v R2 →
      Exec f e R v R2
  | platform {f e h q hq R s} {i : Nat} : Form e h [.int i, q] → Head R f h (.prim c!"nth") → Form q hq [] → Head R f hq (.prim c!"platform") →
      [World.osName, c!"C++", World.wordSize][i]? = some s → Exec f e R (.str s) R
  | macro_ {f e h args ps body R v R'} : Form e h args → R.macros h = some (ps, body) → MacroCall R f ps args body →
      Exec f (.list (instantiate ps args body)) R v R' → Exec f e R v R'
/-- The value of a template: `,x` is replaced by the value of `x`, in lists of all lengths but 2 (a list of two elements is not processed). -/
inductive Filled : Nat → Sexp → Conf → Val → Conf → Prop
  | atom {f x R v} : (∀ l, x ≠ .list l) → (∀ k y, x ≠ .pre k y) → Quoted x v → Filled f x R v R
  | unquote {f x y R v R'} : Form x c!"_unquote" [y] → Exec f y R v R' → Filled f x R v R'
  | two {f x h y R v} : Form x h [y] → h ≠ c!"_unquote" → h ≠ c!"_unquotesplicing" → Quoted x v → Filled f x R v R
  | pair {f a b R v} : (∀ n, a ≠ .sym n) → Quoted (.list [a, b]) v → Filled f (.list [a, b]) R v R
  | list {f l R vs R'} : l.length ≠ 2 → FilledAll f l R vs R' → Filled f (.list l) R (.list vs) R'
/-- The same for all elements; instead of `,@x` there are the elements of the value of `x`. -/
inductive FilledAll : Nat → List Sexp → Conf → List Val → Conf → Prop
  | nil {f R} : FilledAll f [] R [] R
  | one {f x l R v R1 vs R'} : Filled f x R v R1 → FilledAll f l R1 vs R' → FilledAll f (x :: l) R (v :: vs) R'
  | splice {f x y l R w ws R1 vs R'} : Form x c!"_unquotesplicing" [y] → Exec f y R w R1 → AsList w ws → FilledAll f l R1 vs R' →
      FilledAll f (x :: l) R (ws ++ vs) R'
/-- The operands of a call: names have the value they had before the call (`R0`); the others are evaluated from left to right. -/
inductive Operands : Nat → Conf → List Sexp → Conf → List Val → Conf → Prop
  | nil {f R0 R} : Operands f R0 [] R [] R
  | name {f R0 n es R v vs R'} : Value R0 f n v → Operands f R0 es R vs R' → Operands f R0 (.sym n :: es) R (v :: vs) R'
  | unknown {f R0 n es R vs R'} : Unknown R0 f n → Operands f R0 es R vs R' → Operands f R0 (.sym n :: es) R (.sym n :: vs) R'
  | other {f R0 e es R v R1 vs R'} : (∀ n, e ≠ .sym n) → Exec f e R v R1 → Operands f R0 es R1 vs R' → Operands f R0 (e :: es) R (v :: vs) R'
/-- A loop with condition `c` and body `b`; the value is that of the last execution of the body (first `r`); `return` ends the loop. -/
inductive Loop : Nat → Sexp → Sexp → Val → Conf → Val → Conf → Prop
  | stop {f c b r R v R'} : Exec f c R v R' → truth v = some false → Loop f c b r R r R'
  | again {f c b r R v R1 r1 R2 r2 R3} : Exec f c R v R1 → truth v = some true → Exec f b R1 r1 R2 → (R2.frames f).ret = false →
      Loop f c b r1 R2 r2 R3 → Loop f c b r R r2 R3
  | ret {f c b r R v R1 r1 R2} : Exec f c R v R1 → truth v = some true → Exec f b R1 r1 R2 → (R2.frames f).ret = true → Loop f c b r R r1 R2
/-- Statements in order; the value is that of the last one (first `r`); `return` skips the others.  The definition of a macro and an
`if` without a second branch whose condition is false have no value. -/
inductive Seq : Nat → Option Val → List Sexp → Conf → Val → Conf → Prop
  | done {f r R} : Seq f (some r) [] R r R
  | next {f r e es R r1 R1 v R'} : (∃ h args, Form e h args) → Exec f e R r1 R1 → (R1.frames f).ret = false → Seq f (some r1) es R1 v R' →
      Seq f r (e :: es) R v R'
  | ret {f r e es R v R'} : (∃ h args, Form e h args) → Exec f e R v R' → (R'.frames f).ret = true → Seq f r (e :: es) R v R'
  | skip {f r e h c a es R R1 v R'} : Form e h [c, a] → Head R f h (.prim c!"if") → Exec f c R (.bool false) R1 → (R1.frames f).ret = false →
      Seq f none es R1 v R' → Seq f r (e :: es) R v R'
  | macro_ {f r e h d n ps body es R v R'} : Form e h [.sym n, .list (ps.map .sym), .list body] → Head R f h (.prim d) →
      d ∈ [c!"define-macro", c!"define-macro-eval"] → n ∉ hidden → (R.frames f).ret = false → Seq f none es (R.defMacro n ps body) v R' →
      Seq f r (e :: es) R v R'
/-- Are all conditions true?  The evaluation ends with the first false one. -/
inductive Conj : Nat → List Sexp → Conf → Bool → Conf → Prop
  | all {f R} : Conj f [] R true R
  | stop {f e es R R'} : Exec f e R (.bool false) R' → Conj f (e :: es) R false R'
  | next {f e es R R1 b R'} : Exec f e R (.bool true) R1 → Conj f es R1 b R' → Conj f (e :: es) R b R'
/-- The conditions are evaluated from left to right. -/
inductive Bools : Nat → List Sexp → Conf → Conf → Prop
  | nil {f R} : Bools f [] R R
  | cons {f e es R b R1 R'} : Exec f e R (.bool b) R1 → Bools f es R1 R' → Bools f (e :: es) R R'
/-- A call of a function from frame `f`. -/
inductive Apply : Nat → Val → List Val → Conf → Val → Conf → Prop
  | fn {f n vs R v} : Fn n vs v → Apply f (.prim n) vs R v R
  | prints {f n vs R s t} : Prints n vs s t → Apply f (.prim n) vs R (.str s) (R.write t)
  | return_ {f v R} : Apply f (.prim c!"return") [v] R v (R.mark f)
  | clo {f ps body g vs R v R'} : ps.Nodup → (∀ p ∈ ps, p ∉ hidden) → Exec R.count body (R.enter ps vs g) v R' →
      Apply f (.clo ps body g) vs R v R'
  | map {f w l R vs R'} : Callable w → Calls1 f w l R vs R' → Apply f (.prim c!"map") [w, .list l] R (.list vs) R'
  | reduce {f w l a R v R'} : Callable w → Calls2 f w a l R v R' → Apply f (.prim c!"reduce") [w, .list l, a] R v R'
  | apply {f w l R v R'} : (∀ x ∈ l, NotList x) → Apply f w l R v R' → Apply f (.prim c!"apply") [w, .list l] R v R'
  | eval {f v w R} : Meant R f v w → Apply f (.prim c!"eval") [v] R w R
  | evalEmpty {f R} : Apply f (.prim c!"eval") [.list []] R .nil R
  | evalCall {f c w l vs R v R'} : Called R f c w → Each (Meant R f) l vs → Apply f w vs R v R' → Apply f (.prim c!"eval") [.list (c :: l)] R v R'
  | delvar {f v n R} : Named v n → n ∉ hidden → Apply f (.prim c!"delvar") [v] R (.bool ((R.frames f).vars n).isSome) (R.unset f n)
  | readline {f l ls R} : R.input = l :: ls → Apply f (.prim c!"readline") [] R (.str l) { R with input := ls }
  | evalstr {f text xs R v R'} : Sexp.WFs xs → Written xs text → Literal R f (.list (.sym c!"do" :: xs)) →
      Exec f (.list (.sym c!"do" :: xs)) R v R' → Apply f (.prim c!"evalstr") [.str text] R v R'
  | import {f w name file xs R v R' ms} : Named w name → R.lib name = some (file, xs) → file ∉ hidden →
      Literal R.openModule R.count (.list (.sym c!"do" :: xs)) → Exec R.count (.list (.sym c!"do" :: xs)) R.openModule v R' →
      Inserted file R'.count R'.modules ms → Apply f (.prim c!"import") [w] R v (R'.closeModule R.count ms)
  | asks {f n vs R v} : Asks R.dicts n vs v → Apply f (.prim n) vs R v R
  | changes {f n vs R v ds} : Changes R.dicts n vs v ds → Apply f (.prim n) vs R v { R with dicts := ds }
/-- The function is called for every element; the elements are no lists. -/
inductive Calls1 : Nat → Val → List Val → Conf → List Val → Conf → Prop
  | nil {f w R} : Calls1 f w [] R [] R
  | cons {f w x l R v R1 vs R2} : NotList x → Apply f w [x] R v R1 → Calls1 f w l R1 vs R2 → Calls1 f w (x :: l) R (v :: vs) R2
/-- The function is called for every element and the result so far; the elements are no lists. -/
inductive Calls2 : Nat → Val → Val → List Val → Conf → Val → Conf → Prop
  | nil {f w a R} : Calls2 f w a [] R a R
  | cons {f w a x l R v R1 r R2} : NotList x → Apply f w [x, a] R v R1 → Calls2 f w v l R1 r R2 → Calls2 f w a (x :: l) R r R2
end

/-! ## Values of the interpreter -/

/-- The scopes of the frames and the objects of the dictionaries. -/
structure Emb where
  scope : Nat → Nat
  dict : Nat → Option Nat

instance : CoeFun Emb fun _ => Nat → Nat := ⟨Emb.scope⟩

mutual
/-- The value `v` of the interpreter in state `st` is the given value; the frames of user-defined functions are the scopes `μ 0`, `μ 1`, ...,
`μ (N - 1)`. -/
inductive IsVal (st : St) (μ : Emb) (N : Nat) : Variant → Val → Prop
  | int {v i} : IsInt v i → v.unq ≠ .splicing → IsVal st μ N v (.int i)
  | dbl {v d} : IsDbl v d → v.unq ≠ .splicing → IsVal st μ N v (.dbl d)
  | str {v s} : IsStr v s → v.unq ≠ .splicing → IsVal st μ N v (.str s)
  | sym {v s} : IsSym v s → v.unq ≠ .splicing → IsVal st μ N v (.sym s)
  | bool {v b} : IsBool v b → v.unq ≠ .splicing → IsVal st μ N v (.bool b)
  | nil {v} : IsNil v → v.unq ≠ .splicing → IsVal st μ N v .nil
  | undef {v} : IsUndef v → v.unq ≠ .splicing → IsVal st μ N v .undef
  | list {v i l} : IsListAt v i → v.unq ≠ .splicing → i < st.next → AreVals st μ N (st.lists i) l → IsVal st μ N v (.list l)
  | prim {v e} : e ∈ defaultTable → IsFn v e.wrapper → v.unq ≠ .splicing → IsVal st μ N v (.prim e.name)
  | clo {v w cid f fp bp cs ps c body} : IsFn v w → v.unq ≠ .splicing → w.kind = .closure cid → w.special = false → w.evalInExpand = false → cid < st.next → f < N →
      (st.clos cid).scope = μ f → (st.clos cid).args = [fp, bp] → IsTree st fp (.list cs) → CodesOf cs (ps.map .sym) →
      IsTree st bp c → CodeOf c body → IsVal st μ N v (.clo ps body f)
  | dict {v i a} : IsDictAt v i → v.unq ≠ .splicing → μ.dict a = some i → IsVal st μ N v (.dict a)
/-- The same for the elements of a list; an element can be a bare list. -/
inductive AreVals (st : St) (μ : Emb) (N : Nat) : List Ptr → List Val → Prop
  | nil : AreVals st μ N [] []
  | value {j v x ps l} : IsVal st μ N v x → AreVals st μ N ps l → AreVals st μ N (.mk j (.var v) :: ps) (x :: l)
  | bare {i l' ps l} : i < st.next → AreVals st μ N (st.lists i) l' → AreVals st μ N ps l → AreVals st μ N (.mk i .list :: ps) (.list l' :: l)
end

/-! ## Arithmetic expressions -/

/-- Expressions over integers. -/
inductive Expr where
  | num (i : Int)
  | add (a b : Expr)
  | sub (a b : Expr)
  | mul (a b : Expr)

/-- The mathematical value. -/
def Expr.value : Expr → Int
  | .num i => i
  | .add a b => a.value + b.value
  | .sub a b => a.value - b.value
  | .mul a b => a.value * b.value

/-- All intermediate results have 32 bits. -/
def Expr.Fits : Expr → Prop
  | .num i => IsInt32 i
  | .add a b => a.Fits ∧ b.Fits ∧ IsInt32 (a.value + b.value)
  | .sub a b => a.Fits ∧ b.Fits ∧ IsInt32 (a.value - b.value)
  | .mul a b => a.Fits ∧ b.Fits ∧ IsInt32 (a.value * b.value)

/-- The expression as s-expression. -/
def Expr.code : Expr → Sexp
  | .num i => .int i
  | .add a b => .list [.sym c!"+", a.code, b.code]
  | .sub a b => .list [.sym c!"-", a.code, b.code]
  | .mul a b => .list [.sym c!"*", a.code, b.code]

end Fuel.Spec.Core
