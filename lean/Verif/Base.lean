/-!
# Base: strings, outcomes and pure partial computations

Shared vocabulary of the model.  Nothing here is specific to FUEL except the list of
exceptions and kinds of undefined behaviour that its code can produce.
-/

namespace Fuel

/-- A C++ `std::string` (CppLisp `string`, csstring.h 110-204): a sequence of bytes.  A `Char` stands
for one byte; the model does not interpret encodings. -/
abbrev Str := List Char

/-- `c!"abc"` is the character list `['a', 'b', 'c']` (notation only). -/
syntax:max (name := charLit) "c!" str : term

open Lean in
macro_rules
  | `(c!$s) => do
    let cs := s.getString.toList
    let ts : Array (TSyntax `term) := cs.toArray.map fun c => Syntax.mkCharLit c
    `(([$ts,*] : List Char))

/-- Kinds of undefined behaviour of the C++ abstract machine that the code can run into. -/
inductive UB where
  | nullDeref      -- dereference of a null pointer
  | index          -- container access out of range / on an empty container
  | emptyStack     -- pop() on an empty std::stack
  | overflow       -- signed integer overflow
  | divZero        -- integer division by zero
  | shift          -- bad shift count or shifted negative value
  | convert        -- double or text to int conversion out of range
  | comparator     -- std::map used with an ordering that is not a strict weak order
  | uninit         -- read of an uninitialised variable
  | badUnion       -- read of an inactive member of the union in `object`
deriving DecidableEq, Repr

/-- C++ exceptions (csexception.h, Exception.cpp 30-74).
* `lisp full msg line start stop module`: `LispException` (`full = true`) or, after slicing or when thrown
  directly, `LispExceptionBase` (`full = false`, carries only the message).
  The stack dump stored in `LispException::Data["StackInfo"]` is not modelled.
* `outOfRange`, `invalidArgument`: exceptions of the C++ library (`std::out_of_range`, `std::invalid_argument`).
* `stopDebugger`: `LispStopDebuggerException` (Exception.h 81-88).  Its base class is private, so the handlers for
  `LispExceptionBase` do not catch it. -/
inductive Exn where
  | lisp (full : Bool) (msg : Str) (line start stop : Int) (module : Str)
  | outOfRange
  | invalidArgument
  | stopDebugger
deriving DecidableEq, Repr

/-- `LispExceptionBase(msg)` (csexception.h 35-52). -/
def Exn.base (msg : Str) : Exn := .lisp false msg 0 0 0 []

/-- The message of a Lisp exception. -/
def Exn.msg : Exn → Str
  | .lisp _ m _ _ _ _ => m
  | _ => []

/-- Is it derived from `LispExceptionBase`? -/
def Exn.isLisp : Exn → Bool
  | .lisp .. => true
  | _ => false

/-- Ways in which a computation does not return. -/
inductive Fail where
  | exn (e : Exn)
  | ub (u : UB)
  | fuel           -- step budget of the model exhausted (no behaviour of the program)
  | unmodelled     -- the model does not say what the program does here
deriving DecidableEq, Repr

/-- Pure C++ computation that may throw or be undefined. -/
abbrev R (α : Type) := Except Fail α

instance {ε α : Type} [DecidableEq ε] [DecidableEq α] : DecidableEq (Except ε α)
  | .ok a, .ok b => if h : a = b then isTrue (by rw [h]) else isFalse (by simpa using h)
  | .error a, .error b => if h : a = b then isTrue (by rw [h]) else isFalse (by simpa using h)
  | .ok _, .error _ => isFalse (by simp)
  | .error _, .ok _ => isFalse (by simp)

/-- `throw LispExceptionBase(msg)`. -/
def throwBase {α} (msg : Str) : R α := .error (.exn (.base msg))

/-- 32-bit `int` range. -/
def intMin : Int := -2147483648
/-- 32-bit `int` range. -/
def intMax : Int := 2147483647

/-- `x` is a value of the C++ type `int`. -/
def IsInt32 (x : Int) : Prop := -2147483648 ≤ x ∧ x ≤ 2147483647

instance (x : Int) : Decidable (IsInt32 x) := by unfold IsInt32; infer_instance

/-- Conversion of an arbitrary integer to `int` (two's complement wrap-around, as done by all compilers). -/
def wrap32 (x : Int) : Int := Int.bmod x 4294967296

/-- Result of a signed operation: undefined behaviour if it does not fit. -/
def chk32 (x : Int) : R Int := if IsInt32 x then .ok x else .error (.ub .overflow)

end Fuel
