import Verif.Token
/-!
# Values, heap, scopes and the state monad

Models csobject.h (`object`), Variant.h (`LispVariant`), cstypes.h (`LispFunctionWrapper`, `Dictionary`)
and the data members of Scope.h (`LispScope`).
-/

namespace Fuel

/-- csobject.h 55-70 `LispType`. -/
inductive LispType where
  | undefined | nil | bool | int | double | string | list | function | symbol | native | lvalue | error
deriving DecidableEq, Repr

/-- The numbers of the enumeration (csobject.h 55-70). -/
def LispType.code : LispType → Int
  | .undefined => 0 | .nil => 1 | .bool => 2 | .int => 3 | .double => 4 | .string => 5 | .list => 6
  | .function => 7 | .symbol => 8 | .native => 9 | .lvalue => 11 | .error => 999

/-- Variant.h 50-55 `LispUnQuoteModus`. -/
inductive Unq where
  | none | unquote | splicing
deriving DecidableEq, Repr

/-- The C++ functions registered by `CreateDefaultScope` (Environment.cpp 2298-2500); one constructor
per C++ function, so that two names bound to the same function have the same constructor. -/
inductive Builtin where
  | fuel | version | copyright | help | doc | searchdoc | htmldoc | brk | vars | delvar | trace | gettrace
  | needLValue | import_ | tickcount | sleep | datetime | platform
  | type | typestr | nop | return_ | print | println | format | flush | readline
  | parseInteger | parseFloat | toInt | toFloat | search | slice | replace | trim | lower | upper
  | add | sub | mul | div | mod | shr | shl | bor | band | bxor | bnot
  | lt | gt | le | ge | eq | ne | not | list | map | reduce | cons | len | first | last | rest | nth
  | push | pop | append | reverse | rval | sym | str | argscount | args | arg | apply | eval | evalstr
  | makeDict | dictSet | dictGet | dictRemove | dictKeys | dictClear | dictContainsKey | dictContainsValue
  | and | or | def_ | gdef | setf | defineMacroEval | defineMacroExpand | quote | quasiquote
  | unquote | unquotesplicing | if_ | while_ | do_ | fn | defn | gdefn
  | fileExists | fileRead | fileWrite | mathPi | math (f : MathFn) | mathPow
deriving DecidableEq, Repr

/-- What a `LispFunctionWrapper::Function` is: a C++ function, or the lambda created by `fn_form`
(Environment.cpp 1789-1876) whose captured variables are stored in the state under the given number. -/
inductive FnKind where
  | prim (b : Builtin)
  | closure (cid : Nat)
deriving DecidableEq, Repr

/-- cstypes.h 318-377 `LispFunctionWrapper`. -/
structure FnW where
  kind : FnKind
  signature : Str
  doc : Str
  moduleName : Str
  builtin : Bool
  special : Bool
  evalInExpand : Bool
deriving DecidableEq, Repr

/-- Which setter lambda an L-value holds: `First` (Environment.cpp 1104-1109), `Last` (1134-1139),
`Nth` (1178-1183, with the captured `size_t index`). -/
inductive LKind where
  | first | last | nth (index : Int)
deriving DecidableEq, Repr

mutual
/-- `std::shared_ptr<object>`: null, or the identity of the object (its address) with its content.
Content that is never changed is stored inline; the elements of a list or dictionary are stored in the state under
the identity. -/
inductive Ptr where
  | null
  | mk (id : Nat) (o : Obj)
/-- csobject.h 100-330 `object` with its type tag. -/
inductive Obj where
  | undef                          -- __Undefined
  | bool (b : Bool)
  | int (i : Int)
  | dbl (d : Dbl)
  | str (s : Str)
  | list                           -- __List; elements in `St.lists`
  | dict                           -- __Dictionary; entries in `St.dicts`
  | fn (f : FnW)                   -- __LispFunctionWrapper
  | lval (target : Ptr) (k : LKind) -- __LValue: setter action with its captured list
  | scope (sid : Nat)              -- __LispScope
  | macroRt (formals expr : Nat)   -- __LispMacroRuntimeEvaluate; the two lists are in `St.lists`
  | macroCt (formals expr : Nat)   -- __LispMacroCompileTimeExpand
  | var (v : Variant)              -- __LispVariant
/-- Variant.h 105-420 `LispVariant` (`CachedFunction` is never used by the code). -/
structure Variant where
  type : LispType
  value : Ptr
  unq : Unq
  tok : Option Token
end

deriving instance DecidableEq for Ptr, Obj, Variant

/-- The captured variables `name, moduleName, args, scope` of the lambda in `fn_form`
(Environment.cpp 1789-1790). -/
structure Closure where
  name : Str
  module : Str
  args : List Ptr
  scope : Nat
deriving DecidableEq

/-- Scope.h 49-175 `LispScope`.  `vars` is the `std::map` part in key order.
`Debugger` is null or, in `DebugRun.lean`, the debugger in the state; `Input`/`Output` are part of the state. -/
structure Scope where
  vars : List (Str × Ptr) := []
  name : Str := []
  module : Str := []
  global : Nat := 0                   -- never null: see `createDefaultScope`
  next : Option Nat := none
  prev : Option Nat := none
  closure : Option Nat := none
  isInEval : Bool := false
  isInReturn : Bool := false
  needsLValue : Bool := false
  tracing : Option Bool := none       -- `none`: not initialised by the constructor (Scope.cpp 32-53)
  curTok : Option Token := none
  userData : Option Str := none
  userDoc : Option (Str × Str) := none
  tokens : List Token := []
deriving DecidableEq

/-- Debugger.h 58-76 `LispBreakpointInfo`; `line` is a `size_t`. -/
structure Bp where
  line : Nat
  module : Str
  cond : Str
deriving DecidableEq, Repr

/-- The function `IsStopStepFcn` (Debugger.cpp 345, 413-431): always true, or
`limit >= scope->GetCallStackSize()`. -/
inductive StepMode where
  | always
  | atMost (limit : Int)
deriving DecidableEq, Repr

/-- Debugger.h 91-103: the state of a `LispDebugger`. -/
structure Dbg where
  bps : List Bp := []
  stop : Bool := true
  mode : StepMode := .always
  script : Str := []
deriving DecidableEq, Repr

/-- The state of an interpreter process. -/
structure St where
  next : Nat := 0                                  -- next free number for objects, scopes and closures
  lists : Nat → List Ptr := fun _ => []
  dicts : Nat → List (Variant × Ptr) := fun _ => []
  clos : Nat → Closure := fun _ => ⟨[], [], [], 0⟩
  scopes : Nat → Scope := fun _ => {}
  out : Str := []                                  -- everything written to the output so far
  input : List Str := []                           -- lines not yet read
  files : List (Str × Str) := []                   -- readable files: name and content
  clock : Nat := 0                                 -- number of clock queries so far
  libPath : Str := []                              -- `LispUtils_LibraryPath` (Environment.cpp 97)
  dbg : Dbg := {}                                  -- the debugger, if one is attached (see `DebugRun.lean`)

/-- Outcome of a stateful computation; the effects before an exception are kept. -/
inductive Out (α : Type) where
  | ok (a : α) (s : St)
  | fail (f : Fail) (s : St)

/-- Stateful C++ computation. -/
def M (α : Type) : Type := St → Out α

namespace M

/-- Return a value. -/
def pure {α} (a : α) : M α := fun s => .ok a s

/-- Sequential composition. -/
def bind {α β} (m : M α) (k : α → M β) : M β := fun s =>
  match m s with
  | .ok a s' => k a s'
  | .fail f s' => .fail f s'

instance : Monad M where
  pure := M.pure
  bind := M.bind

/-- Abort. -/
def fail {α} (f : Fail) : M α := fun s => .fail f s

/-- Run a computation that only reads the state. -/
def rd {α} (g : St → R α) : M α := fun s =>
  match g s with
  | .ok a => .ok a s
  | .error f => .fail f s

/-- Run a pure computation. -/
def lift {α} (r : R α) : M α := rd fun _ => r

/-- Read from the state. -/
def get {α} (g : St → α) : M α := fun s => .ok (g s) s

/-- Change the state. -/
def modify (g : St → St) : M Unit := fun s => .ok () (g s)

end M

/-- Undefined behaviour. -/
def ub {α} (u : UB) : M α := M.fail (.ub u)

/-- Undefined behaviour in a pure computation. -/
def R.ub {α} (u : UB) : R α := .error (.ub u)

/-- Store a value under a number. -/
def fset {α : Type} (f : Nat → α) (k : Nat) (v : α) : Nat → α := fun i => if i = k then v else f i

/-- `std::make_shared<object>(x)` for content that is not a list or dictionary. -/
def allocObj (o : Obj) : M Ptr := fun s => .ok (.mk s.next o) { s with next := s.next + 1 }

/-- `std::make_shared<object>(list)`: a new list object holding the given elements. -/
def allocList (l : List Ptr) : M Ptr := fun s =>
  .ok (.mk s.next .list) { s with next := s.next + 1, lists := fset s.lists s.next l }

/-- `std::make_shared<IEnumerable<...>>(list)`: a new vector that is not an `object` (used by macros). -/
def allocVec (l : List Ptr) : M Nat := fun s =>
  .ok s.next { s with next := s.next + 1, lists := fset s.lists s.next l }

/-- `std::make_shared<object>(dictionary)`. -/
def allocDict (d : List (Variant × Ptr)) : M Ptr := fun s =>
  .ok (.mk s.next .dict) { s with next := s.next + 1, dicts := fset s.dicts s.next d }

/-- The captured variables of a new function. -/
def allocClosure (c : Closure) : M Nat := fun s =>
  .ok s.next { s with next := s.next + 1, clos := fset s.clos s.next c }

/-- `std::make_shared<LispScope>(...)`. -/
def allocScope (sc : Scope) : M Nat := fun s =>
  .ok s.next { s with next := s.next + 1, scopes := fset s.scopes s.next sc }

/-- `std::make_shared<object>(variant)`. -/
def box (v : Variant) : M Ptr := allocObj (.var v)

/-- Write access to the elements of a list object. -/
def setList (id : Nat) (l : List Ptr) : M Unit := .modify fun s => { s with lists := fset s.lists id l }

/-- Write access to the entries of a dictionary object. -/
def setDict (id : Nat) (d : List (Variant × Ptr)) : M Unit :=
  .modify fun s => { s with dicts := fset s.dicts id d }

/-- Write access to a scope. -/
def modScope (sid : Nat) (g : Scope → Scope) : M Unit :=
  .modify fun s => { s with scopes := fset s.scopes sid (g (s.scopes sid)) }

/-- `TextWriter::Write` (cstypes.cpp 32-39). -/
def write (t : Str) : M Unit := .modify fun s => { s with out := s.out ++ t }

/-- `TextWriter::WriteLine(txt)` (cstypes.cpp 50-57). -/
def writeLine (t : Str) : M Unit := write (t ++ ['\n'])

/-- `std::make_shared<object>(*p)`: copy of an object (csobject.cpp 76-124).  Lists and dictionaries are copied
with the same element pointers, a scope is copied into a new scope. -/
def copyObj : Ptr → M Ptr
  | .null => ub .nullDeref
  | .mk id .list => do allocList (← M.get fun s => s.lists id)
  | .mk id .dict => do allocDict (← M.get fun s => s.dicts id)
  | .mk _ (.scope sid) => do
    let n ← allocScope (← M.get fun s => s.scopes sid)
    allocObj (.scope n)
  | .mk _ o => allocObj o

/-- Are two pointers the same address? -/
def Ptr.same : Ptr → Ptr → Bool
  | .null, .null => true
  | .mk a _, .mk b _ => a == b
  | _, _ => false

/-- The content behind a pointer; dereferencing null is undefined. -/
def Ptr.deref : Ptr → R Obj
  | .null => R.ub .nullDeref
  | .mk _ o => .ok o

/-- `object::IsLispVariant`, on a pointer known to be non-null. -/
def Ptr.isVar : Ptr → Bool
  | .mk _ (.var _) => true
  | _ => false

/-- `object::IsList`, on a pointer known to be non-null. -/
def Ptr.isRawList : Ptr → Bool
  | .mk _ .list => true
  | _ => false

/-- `LispVariant(LispType, value)` (Variant.cpp 44-50). -/
def Variant.ofType (t : LispType) (v : Ptr := .null) : Variant := ⟨t, v, .none, none⟩

/-- csobject.cpp 425-435 `object::ToLispVariantRef` (and `ToLispVariant`, 403-411, which copies):
objects that are not variants give a Nil value without content. -/
def toVariant : Ptr → R Variant
  | .null => R.ub .nullDeref
  | .mk _ (.var v) => .ok v
  | .mk _ _ => .ok (.ofType .nil)

/-- Variant.h 57-99 `ConvertObjectTypeToVariantType(val->GetType())`. -/
def Obj.lispType : Obj → LispType
  | .undef => .undefined
  | .bool _ => .bool
  | .int _ => .int
  | .dbl _ => .double
  | .str _ => .string
  | .list => .list
  | .dict => .undefined
  | .fn _ => .function
  | .lval _ _ => .undefined
  | .scope _ => .undefined
  | .macroRt _ _ => .undefined
  | .macroCt _ _ => .undefined
  | .var _ => .undefined

/-- Variant.cpp 39-42, 57-77 `LispVariant(std::shared_ptr<object> val)`. -/
def mkVariant : Ptr → R Variant
  | .null => R.ub .nullDeref
  | .mk _ (.var v) => .ok v
  | .mk id o => .ok ⟨o.lispType, .mk id o, .none, none⟩

/-- csobject.cpp 449-459 `object::ToListRef`: objects that are not lists give an empty list. -/
def toListRef (st : St) : Ptr → R (List Ptr)
  | .null => R.ub .nullDeref
  | .mk id .list => .ok (st.lists id)
  | .mk _ _ => .ok []

/-- csobject.cpp 515-518 `object::ToEnumerableOfObjectRef`: no check of the type tag. -/
def toEnumerable (st : St) : Ptr → R (List Ptr)
  | .null => R.ub .nullDeref
  | .mk id .list => .ok (st.lists id)
  | .mk _ _ => R.ub .badUnion

/-! ## Association lists for `std::map<string, ...>` -/

/-- `std::map::find`. -/
def mapFind {α : Type} (k : Str) : List (Str × α) → Option α
  | [] => none
  | (a, v) :: t => if a = k then some v else mapFind k t

/-- `map[k] = v` in a map ordered by key. -/
def mapSet {α : Type} (k : Str) (v : α) : List (Str × α) → List (Str × α)
  | [] => [(k, v)]
  | (a, w) :: t => if a = k then (k, v) :: t else if strLt k a then (k, v) :: (a, w) :: t
    else (a, w) :: mapSet k v t

/-- `map.erase(k)`; a key occurs at most once. -/
def mapErase {α : Type} (k : Str) : List (Str × α) → List (Str × α)
  | [] => []
  | (a, w) :: t => if a = k then mapErase k t else (a, w) :: mapErase k t

end Fuel
