import Verif.Value
/-!
# Model of Variant.cpp and of the comparison and text functions of csobject.cpp

Text and comparison functions only read the state.  Functions that walk through nested lists take a
nesting budget `n`, because a list can contain itself.
-/

namespace Fuel

variable [World]

/-! ## Text -/

/-- The loops `for (...) { if (ret.size() > 0) ret += sep; ret += f(elem); }`
(csobject.cpp 343-350, Variant.cpp 766-773). -/
def joinLoop {α : Type} (f : α → R Str) (sep : Str) : Str → List α → R Str
  | acc, [] => .ok acc
  | acc, p :: t => do
    let x ← f p
    joinLoop f sep ((if acc.isEmpty then acc else acc ++ sep) ++ x) t

mutual
/-- csobject.cpp 322-387 `object::ToString`. -/
def ptrStr (st : St) : Nat → Ptr → R Str
  | 0, _ => .error .fuel
  | n + 1, p => match p with
    | .null => R.ub .nullDeref
    | .mk id o => match o with
      | .undef => .ok c!"Undefined"
      | .bool b => .ok (if b then c!"true" else c!"false")
      | .int i => .ok (intStr i)
      | .dbl d => .ok (World.dToStr d)
      | .str s => .ok s
      | .list => do
        let r ← joinLoop (ptrStr st n) c!" " [] (st.lists id)
        .ok (c!"(" ++ r ++ c!")")
      | .dict => .ok c!"Dictionary"
      | .fn _ => .ok c!"LispFunctionWrapper"
      | .scope _ => .ok c!"LispScope"
      | .lval _ _ | .macroRt _ _ | .macroCt _ _ => .ok c!"<unknown>"
      | .var v => varStr st n v

/-- Variant.cpp 244-291 `LispVariant::ToString`. -/
def varStr (st : St) : Nat → Variant → R Str
  | 0, _ => .error .fuel
  | n + 1, v => match v.type with
    | .symbol => ptrStr st n v.value
    | .string => match v.value with
      | .null => .ok c!"null"
      | p => ptrStr st n p
    | .int => match v.value with
      | .null => R.ub .nullDeref
      | .mk _ (.int i) => .ok (intStr i)
      | _ => R.ub .badUnion
    | .double => match v.value with
      | .null => R.ub .nullDeref
      | .mk _ (.dbl d) => .ok (World.dToStr d)
      | _ => R.ub .badUnion
    | .bool => match v.value with
      | .null => R.ub .nullDeref
      | .mk _ (.bool b) => .ok (if b then c!"#t" else c!"#f")
      | _ => R.ub .badUnion
    | .nil => .ok c!"NIL"
    | .list => do
      let l ← toEnumerable st v.value
      let r ← joinLoop (expandStr st n) c!" " [] l
      .ok (c!"(" ++ r ++ c!")")
    | .function => match v.value with
      | .null => R.ub .nullDeref
      | .mk _ (.fn f) => .ok (c!"function " ++ f.signature)
      | _ => throwBase c!"Invalid cast to lisp function wrapper."
    | .native => nativeStr st n v.value
    | .undefined => .ok c!"<undefined>"
    | .error => do
      let s ← ptrStr st n v.value
      .ok (c!"Error: " ++ s)
    | .lvalue => .ok c!"?"

/-- Variant.cpp 760-783 `ExpandContainerToString` on an element, with `ExpandItemForContainer`
(293-304) and `ToStringDebugger` (235-242) for strings. -/
def expandStr (st : St) : Nat → Ptr → R Str
  | 0, _ => .error .fuel
  | n + 1, p => match p with
    | .null => R.ub .nullDeref
    | .mk id .list => do
      let r ← joinLoop (expandStr st n) c!" " [] (st.lists id)
      .ok (c!"(" ++ r ++ c!")")
    | .mk id (.var v) =>
      if v.type = .string then do
        let s ← varStr st n v
        .ok (c!"\"" ++ s ++ c!"\"")
      else ptrStr st n (.mk id (.var v))
    | p => ptrStr st n p

/-- Variant.cpp 705-753 `GetNativeObjectStringRepresentation` (objects of type `__IEnumerableOfObject`
are never created). -/
def nativeStr (st : St) : Nat → Ptr → R Str
  | 0, _ => .error .fuel
  | n + 1, p => match p with
    | .null => R.ub .nullDeref
    | .mk id .dict => do
      let r ← joinLoop (fun e : Variant × Ptr => do
        let a ← nativeStr st n e.1.value
        let b ← nativeStr st n e.2
        .ok (c!"[" ++ a ++ c!" : " ++ b ++ c!"]")) c!", " [] (st.dicts id)
      .ok (c!"{ " ++ r ++ c!" }")
    | .mk _ (.str s) => .ok (c!"\"" ++ s ++ c!"\"")
    | .mk _ (.var v) => do
      let s ← varStr st n v
      .ok (if v.type = .string then c!"\"" ++ s ++ c!"\"" else s)
    | p => ptrStr st n p
end

/-- Variant.cpp 203-213 `LispVariant::StringValue`. -/
def Variant.stringValue (st : St) (n : Nat) (v : Variant) : R Str :=
  match v.value with
  | .null => .ok c!"null"
  | p => ptrStr st n p

/-- Variant.cpp 235-242 `LispVariant::ToStringDebugger`. -/
def Variant.toStrDebugger (st : St) (n : Nat) (v : Variant) : R Str :=
  if v.type = .string then do
    let s ← v.stringValue st n
    .ok (c!"\"" ++ s ++ c!"\"")
  else varStr st n v

/-- csobject.cpp 275-320 `object::GetTypeName`. -/
def Obj.typeName : Obj → Str
  | .undef => c!"Undefined"
  | .bool _ => c!"Bool"
  | .int _ => c!"Int"
  | .dbl _ => c!"Double"
  | .str _ => c!"String"
  | .list => c!"List"
  | .var _ => c!"LispVariant"
  | .fn _ => c!"LispFunctionWrapper"
  | .scope _ => c!"LispScope"
  | .dict | .lval _ _ | .macroRt _ _ | .macroCt _ _ => c!"<unknown>"

/-- Variant.cpp 107-146 `LispVariant::TypeString`. -/
def Variant.typeString (v : Variant) : R Str :=
  match v.type with
  | .undefined => .ok c!"Undefined"
  | .nil => .ok c!"Nil"
  | .bool => .ok c!"Bool"
  | .int => .ok c!"Int"
  | .double => .ok c!"Double"
  | .string => .ok c!"String"
  | .list => .ok c!"List"
  | .function => .ok c!"Function"
  | .symbol => .ok c!"Symbol"
  | .native => match v.value with
    | .null => R.ub .nullDeref
    | .mk _ .dict => .ok c!"NativeDictionary"
    | .mk _ o => .ok (c!"NativeObject<" ++ o.typeName ++ c!">")
  | .error => .ok c!"Error"
  | .lvalue => .ok c!"unknown_type"

/-! ## Exceptions -/

/-- `LispException(text, 0)` followed by `AddTokenInfos(token)` (Exception.cpp 31-71). -/
def exnNoScope (msg : Str) (t : Option Token) : Fail :=
  match t with
  | none => .exn (.lisp true msg (-1) (-1) (-1) c!"???")
  | some t => .exn (.lisp true msg t.line t.start t.stop c!"???")

/-- Variant.cpp 586-591 `throw CreateInvalidCastException(name, msg)`. -/
def castExn {α : Type} (st : St) (n : Nat) (v : Variant) (name : Str) (msg : Str := c!"no") : R α := do
  let s ← v.stringValue st n
  let m ← format c!"Invalid cast for {2}, value={1} {0}" msg s name
  .error (exnNoScope m v.tok)

/-- `throw CreateInvalidCastException(to, Format(CanNotConvertTo, TypeString(), to))`
(Variant.cpp 160, 181, 202). -/
def convExn {α : Type} (st : St) (n : Nat) (v : Variant) (to : Str) : R α := do
  let t ← v.typeString
  let m ← format c!"can not convert {0} to {1}" t to
  castExn st n v to m

/-- The implicit conversion of a `LispType` to `string` via `string(char)` in
`CreateInvalidOperationException` (Variant.cpp 595). -/
def LispType.charStr (t : LispType) : Str := [Char.ofNat (t.code.toNat % 256)]

/-- Variant.cpp 593-598 `throw CreateInvalidOperationException(operation, l, r)`. -/
def opExn {α : Type} (op : Str) (l r : Variant) : R α := do
  let m ← format c!"no {0} operator for types {1} and {2}" op l.type.charStr r.type.charStr
  .error (exnNoScope m l.tok)

/-! ## Access and conversion -/

/-- Variant.h 203-206 `IsList`: lists and NIL. -/
def Variant.isList (v : Variant) : Bool := v.type = .list ∨ v.type = .nil

/-- Variant.cpp 600-610 `FunctionValue`. -/
def Variant.functionValue (st : St) (n : Nat) (v : Variant) : R FnW :=
  if v.type ≠ .function then castExn st n v c!"function" c!"not found"
  else match v.value with
    | .null => R.ub .nullDeref
    | .mk _ (.fn f) => .ok f
    | _ => throwBase c!"Invalid cast to lisp function wrapper."

/-- Variant.cpp 634-653 `ListValueRef` (and `ListValue`, 612-630, which copies): the elements. -/
def Variant.listValue (st : St) (n : Nat) (v : Variant) : R (List Ptr) :=
  if v.type = .nil then .ok []
  else if v.type ≠ .list then castExn st n v c!"list"
  else toEnumerable st v.value

/-- Variant.cpp 673-682 `DoubleValue`. -/
def Variant.doubleValue (st : St) (n : Nat) (v : Variant) : R Dbl :=
  if v.type ≠ .double then castExn st n v c!"double"
  else match v.value with
    | .null => R.ub .nullDeref
    | .mk _ (.dbl d) => .ok d
    | _ => R.ub .badUnion

/-- Variant.cpp 684-693 `IntValue`. -/
def Variant.intValue (st : St) (n : Nat) (v : Variant) : R Int :=
  if v.type ≠ .int then castExn st n v c!"int"
  else match v.value with
    | .null => R.ub .nullDeref
    | .mk _ (.int i) => .ok i
    | _ => R.ub .badUnion

/-- Variant.cpp 695-704 `BoolValue`. -/
def Variant.boolValue (st : St) (n : Nat) (v : Variant) : R Bool :=
  if v.type ≠ .bool then castExn st n v c!"bool"
  else match v.value with
    | .null => R.ub .nullDeref
    | .mk _ (.bool b) => .ok b
    | _ => R.ub .badUnion

/-- Variant.cpp 148-163 `ToBool`. -/
def Variant.toBool (st : St) (n : Nat) (v : Variant) : R Bool :=
  match v.type with
  | .bool => v.boolValue st n
  | .int => do .ok (decide ((← v.intValue st n) ≠ 0))
  | .double => do .ok (World.dTruthy (← v.doubleValue st n))
  | _ => convExn st n v c!"bool"

/-- `(int)d`. -/
def dblToInt (d : Dbl) : R Int :=
  match World.dToInt d with
  | some i => if IsInt32 i then .ok i else R.ub .convert
  | none => R.ub .convert

/-- Variant.cpp 165-184 `ToInt`. -/
def Variant.toInt (st : St) (n : Nat) (v : Variant) : R Int :=
  match v.type with
  | .bool => do .ok (if (← v.boolValue st n) then 1 else 0)
  | .int => v.intValue st n
  | .double => do dblToInt (← v.doubleValue st n)
  | .string => do atoi (← v.stringValue st n)
  | _ => convExn st n v c!"int"

/-- Variant.cpp 186-205 `ToDouble`. -/
def Variant.toDouble (st : St) (n : Nat) (v : Variant) : R Dbl :=
  match v.type with
  | .bool => do .ok (World.dOfInt (if (← v.boolValue st n) then 1 else 0))
  | .int => do .ok (World.dOfInt (← v.intValue st n))
  | .double => v.doubleValue st n
  | .string => do .ok (World.dAtof (cStr (← v.stringValue st n)))
  | _ => convExn st n v c!"double"

/-! ## Construction of results -/

/-- `LispVariant(std::make_shared<object>(x))` for an atomic `x`. -/
def mkAtom (o : Obj) : M Variant := do
  let p ← allocObj o
  pure ⟨o.lispType, p, .none, none⟩

/-- `LispVariant(std::make_shared<object>(i))`. -/
def mkInt (i : Int) : M Variant := mkAtom (.int i)
/-- `LispVariant(std::make_shared<object>(d))`. -/
def mkDbl (d : Dbl) : M Variant := mkAtom (.dbl d)
/-- `LispVariant(std::make_shared<object>(b))`. -/
def mkBool (b : Bool) : M Variant := mkAtom (.bool b)
/-- `LispVariant(std::make_shared<object>(s))`. -/
def mkStr (s : Str) : M Variant := mkAtom (.str s)
/-- `LispVariant(std::make_shared<object>(list))`. -/
def mkList (l : List Ptr) : M Variant := do
  let p ← allocList l
  pure ⟨.list, p, .none, none⟩

/-! ## Operators -/

/-- The arithmetic operators of `LispVariant`. -/
inductive ArithOp where
  | add | sub | mul | div | mod
deriving DecidableEq, Repr

/-- Text of the operator in error messages. -/
def ArithOp.text : ArithOp → Str
  | .add => c!"+" | .sub => c!"-" | .mul => c!"*" | .div => c!"/" | .mod => c!"%"

/-- The C++ operator on `int`. -/
def ArithOp.int : ArithOp → Int → Int → R Int
  | .add, a, b => chk32 (a + b)
  | .sub, a, b => chk32 (a - b)
  | .mul, a, b => chk32 (a * b)
  | .div, a, b => if b = 0 then R.ub .divZero else chk32 (a.tdiv b)
  | .mod, a, b => if b = 0 then R.ub .divZero else if IsInt32 (a.tdiv b) then .ok (a.tmod b) else R.ub .overflow

/-- The C++ operator on `double`. -/
def ArithOp.dbl : ArithOp → Dbl → Dbl → Dbl
  | .add => World.dAdd | .sub => World.dSub | .mul => World.dMul | .div => World.dDiv | .mod => World.dFmod

/-- Variant.cpp 367-446 `operator+`, `-`, `*`, `/`, `%`.  The operands of the C++ operators are converted
left to right (C++ leaves the order open). -/
def arith (n : Nat) (op : ArithOp) (l r : Variant) : M Variant :=
  if op = .add ∧ (l.type = .string ∨ r.type = .string) then do
    let a ← M.rd fun st => l.stringValue st n
    let b ← M.rd fun st => r.stringValue st n
    mkStr (a ++ b)
  else if l.type = .double ∨ r.type = .double then do
    let a ← M.rd fun st => l.toDouble st n
    let b ← M.rd fun st => r.toDouble st n
    mkDbl (op.dbl a b)
  else if l.type = .int ∨ r.type = .int then do
    let a ← M.rd fun st => l.toInt st n
    let b ← M.rd fun st => r.toInt st n
    let c ← M.lift (op.int a b)
    mkInt c
  else if op = .add ∧ l.isList = true ∧ r.isList = true then do
    let a ← M.rd fun st => l.listValue st n
    let b ← M.rd fun st => r.listValue st n
    mkList (a ++ b)
  else M.lift (opExn op.text l r)

/-- Variant.cpp 448-463 `operator <`. -/
def vLt (st : St) (n : Nat) (l r : Variant) : R Bool :=
  if l.type = .double ∨ r.type = .double then do
    let a ← l.toDouble st n
    let b ← r.toDouble st n
    .ok (World.dLt a b)
  else if l.type = .int ∨ r.type = .int then do
    let a ← l.toInt st n
    let b ← r.toInt st n
    .ok (decide (a < b))
  else if l.type = .string ∨ r.type = .string then do
    let a ← varStr st n l
    let b ← varStr st n r
    .ok (decide (compareOrdinal a b < 0))
  else opExn c!"< or >" l r

/-- Variant.cpp 465-480 `operator <=`. -/
def vLe (st : St) (n : Nat) (l r : Variant) : R Bool :=
  if l.type = .double ∨ r.type = .double then do
    let a ← l.toDouble st n
    let b ← r.toDouble st n
    .ok (World.dLe a b)
  else if l.type = .int ∨ r.type = .int then do
    let a ← l.toInt st n
    let b ← r.toInt st n
    .ok (decide (a ≤ b))
  else if l.type = .string ∨ r.type = .string then do
    let a ← varStr st n l
    let b ← varStr st n r
    .ok (decide (compareOrdinal a b ≤ 0))
  else opExn c!"<= or >=" l r

/-- `std::vector<std::shared_ptr<object>>::operator==`: the same pointers. -/
def samePtrs : List Ptr → List Ptr → Bool
  | [], [] => true
  | p :: ps, q :: qs => p.same q && samePtrs ps qs
  | _, _ => false

/-- `std::map<string, std::shared_ptr<object>>::operator==`: the same keys and pointers. -/
def sameVars : List (Str × Ptr) → List (Str × Ptr) → Bool
  | [], [] => true
  | p :: ps, q :: qs => p.1 == q.1 && p.2.same q.2 && sameVars ps qs
  | _, _ => false

/-- csobject.cpp 132-182 `object::operator==` applied to `*p` and `*q`, and `LispVariant::operator==`
(Variant.cpp 785-788) for variants. -/
def ptrEq (st : St) : Ptr → Ptr → R Bool
  | .null, _ => R.ub .nullDeref
  | _, .null => R.ub .nullDeref
  | .mk _ .undef, .mk _ .undef => .ok true
  | .mk _ (.bool a), .mk _ (.bool b) => .ok (a == b)
  | .mk _ (.int a), .mk _ (.int b) => .ok (decide (a = b))
  | .mk _ (.dbl a), .mk _ (.dbl b) => .ok (World.dEq a b)
  | .mk _ (.str a), .mk _ (.str b) => .ok (a == b)
  | .mk i .list, .mk j .list => .ok (samePtrs (st.lists i) (st.lists j))
  | .mk _ (.var ⟨_, v, _, _⟩), .mk _ (.var ⟨_, w, _, _⟩) => ptrEq st v w
  | .mk _ (.scope a), .mk _ (.scope b) => .ok (sameVars (st.scopes a).vars (st.scopes b).vars)
  | .mk _ _, .mk _ _ => .ok false

/-- csobject.cpp 525-567 `object::Equals` applied to `*p` and `*q`: as `operator==`, but two variants are
compared as freshly created `shared_ptr`s and therefore always differ. -/
def ptrEquals (st : St) : Ptr → Ptr → R Bool
  | .mk _ (.var _), .mk _ (.var _) => .ok false
  | p, q => ptrEq st p q

/-- cstypes.h 127-148 `SequenceEqual`. -/
def seqEqual (st : St) : List Ptr → List Ptr → R Bool
  | [], [] => .ok true
  | p :: ps, q :: qs => do
    if ps.length ≠ qs.length then .ok false
    else if (← ptrEq st p q) then seqEqual st ps qs else .ok false
  | _, _ => .ok false

/-- Variant.cpp 482-529 `LispVariant::EqualOp`. -/
def equalOp (st : St) (n : Nat) (l r : Variant) : R Bool :=
  if l.type = .native ∧ r.type = .native then .ok (l.value.same r.value)
  else if l.type = .symbol ∨ r.type = .symbol then
    if l.type = .symbol ∧ r.type = .symbol then do
      let a ← varStr st n l
      let b ← varStr st n r
      .ok (a == b)
    else .ok false
  else if l.type = .bool ∧ r.type = .bool then do
    let a ← l.boolValue st n
    let b ← r.boolValue st n
    .ok (a == b)
  else if l.type = .nil ∨ r.type = .nil then .ok (decide (l.type = .nil ∧ r.type = .nil))
  else if l.type = .list ∧ r.type = .list then do
    let a ← l.listValue st n
    let b ← r.listValue st n
    seqEqual st a b
  else if l.type = .undefined ∨ r.type = .undefined then
    .ok (decide (l.type = .undefined ∧ r.type = .undefined))
  else if l.type = .string ∨ r.type = .string then do
    let a ← varStr st n l
    let b ← varStr st n r
    .ok (a == b)
  else if l.type = .double ∨ r.type = .double then do
    let a ← l.toDouble st n
    let b ← r.toDouble st n
    .ok (World.dNear a b)
  else if l.type = .int ∨ r.type = .int then do
    let a ← l.toInt st n
    let b ← r.toInt st n
    .ok (decide (a = b))
  else opExn c!"==" l r

/-- Variant.cpp 323-331 `SymbolCompare(other)`. -/
def Variant.symbolCompare (st : St) (v : Variant) (other : Ptr) : R Bool :=
  match other with
  | .null => R.ub .nullDeref
  | .mk _ (.var w) => ptrEquals st v.value w.value
  | _ => .ok false

/-! ## Dictionaries: `std::map<LispVariant, std::shared_ptr<object>>` ordered by `operator <` -/

/-- `std::map::lower_bound` followed by the equality test, as used by `find`, `operator[]` and `erase`: the entries
before the first entry that is not less than `k`, and whether that entry is equivalent to `k`. -/
def dictSplit (st : St) (n : Nat) (k : Variant) :
    List (Variant × Ptr) → R (List (Variant × Ptr) × Option (Variant × Ptr) × List (Variant × Ptr))
  | [] => .ok ([], none, [])
  | e :: d => do
    if (← vLt st n e.1 k) then
      let (pre, hit, post) ← dictSplit st n k d
      .ok (e :: pre, hit, post)
    else if (← vLt st n k e.1) then .ok ([], none, e :: d)
    else .ok ([], some e, d)

/-- Both comparisons of every entry with `k`. -/
def dictCmp (st : St) (n : Nat) (k : Variant) : List (Variant × Ptr) → R (List (Bool × Bool))
  | [] => .ok []
  | e :: d => do
    let a ← vLt st n e.1 k
    let b ← vLt st n k e.1
    let r ← dictCmp st n k d
    .ok ((a, b) :: r)

/-- The entries are partitioned by `k`: less, then at most one equivalent, then greater.  In this case the search in a
balanced tree has the same result for every shape of the tree. -/
def partitioned : List (Bool × Bool) → Bool
  | [] => true
  | (true, false) :: t => partitioned t
  | (false, _) :: t => t.all fun x => !x.1 && x.2
  | (true, true) :: _ => false

/-- `std::map` access with key `k`.  `operator <` on values is not a total order (keys of different types may be
ordered in a cycle): if the entries are not partitioned by `k`, or a comparison fails, the result depends on the shape
of the tree and the model marks the outcome.  A map with at most one entry has only one shape. -/
def dictAccess (st : St) (n : Nat) (k : Variant) (d : List (Variant × Ptr)) :
    R (List (Variant × Ptr) × Option (Variant × Ptr) × List (Variant × Ptr)) :=
  match d with
  | [] => dictSplit st n k []
  | [e] => dictSplit st n k [e]
  | d => match dictCmp st n k d with
    | .ok l => if partitioned l then dictSplit st n k d else .error .unmodelled
    | .error .fuel => .error .fuel
    | .error _ => .error .unmodelled

/-- `d[k] = v`: an existing entry keeps its key. -/
def dictSet (st : St) (n : Nat) (k : Variant) (v : Ptr) (d : List (Variant × Ptr)) :
    R (List (Variant × Ptr)) := do
  let (pre, hit, post) ← dictAccess st n k d
  .ok (pre ++ (((hit.map Prod.fst).getD k, v) :: post))

/-- `d.find(k)`. -/
def dictFind (st : St) (n : Nat) (k : Variant) (d : List (Variant × Ptr)) : R (Option Ptr) := do
  let (_, hit, _) ← dictAccess st n k d
  .ok (hit.map Prod.snd)

/-- `d.erase(k)`: the remaining entries and whether something was erased. -/
def dictErase (st : St) (n : Nat) (k : Variant) (d : List (Variant × Ptr)) :
    R (List (Variant × Ptr) × Bool) := do
  let (pre, hit, post) ← dictAccess st n k d
  .ok (pre ++ post, hit.isSome)

/-- cstypes.h 203-215 `ContainsValue`. -/
def dictContainsValue (st : St) (v : Ptr) : List (Variant × Ptr) → R Bool
  | [] => .ok false
  | e :: d => do if (← ptrEq st e.2 v) then .ok true else dictContainsValue st v d

end Fuel
