import Verif.SpecOps
/-!
# Specifications for lists
-/

namespace Fuel.Spec

/-- `v` is the value that the element `p` of a list stands for.  Elements created by evaluation are boxed values, elements
created by reading code may be bare lists, and some library functions store bare atoms. -/
inductive Denotes : Ptr → Variant → Prop
  | value {i v} : Denotes (.mk i (.var v)) v
  | list {i v} : IsListAt v i → Denotes (.mk i .list) v
  | int {i x v} : IsInt v x → Denotes (.mk i (.int x)) v
  | dbl {i x v} : IsDbl v x → Denotes (.mk i (.dbl x)) v
  | str {i x v} : IsStr v x → Denotes (.mk i (.str x)) v
  | bool {i x v} : IsBool v x → Denotes (.mk i (.bool x)) v

/-- The pointer is an element as above. -/
def IsElem (p : Ptr) : Prop := ∃ v, Denotes p v

/-- `q` in state `st'` is a copy of the element `p` in state `st`: the same value, or a list with the same elements. -/
inductive CopyOf (st st' : St) : Ptr → Ptr → Prop
  | value {i j v} : CopyOf st st' (.mk i (.var v)) (.mk j (.var v))
  | list {i j} : st'.lists j = st.lists i → CopyOf st st' (.mk i .list) (.mk j .list)
  | int {i j x} : CopyOf st st' (.mk i (.int x)) (.mk j (.int x))
  | dbl {i j x} : CopyOf st st' (.mk i (.dbl x)) (.mk j (.dbl x))
  | str {i j x} : CopyOf st st' (.mk i (.str x)) (.mk j (.str x))
  | bool {i j x} : CopyOf st st' (.mk i (.bool x)) (.mk j (.bool x))

/-- `f` (a way to call a function with arguments) is called once for every element of the list, in order, each time with a
copy of the element; the calls return the given values.  Between the calls nothing happens but the creation of new
objects. -/
inductive MapCalls (f : List Ptr → M (Option Variant)) : List Ptr → St → List Variant → St → Prop
  | nil {s} : MapCalls f [] s [] s
  | cons {e c t s s0 s1 s2 s3 v vs} : Extends s s0 → CopyOf s s0 e c → f [c] s0 = .ok (some v) s1 → Extends s1 s2 →
      MapCalls f t s2 vs s3 → MapCalls f (e :: t) s (v :: vs) s3

/-- `f` is called once for every element of the list, in order, each time with a copy of the element and the result of the
previous call (the initial value in the first call); the last result is the given value. -/
inductive FoldCalls (f : List Ptr → M (Option Variant)) : Variant → List Ptr → St → Variant → St → Prop
  | nil {a s} : FoldCalls f a [] s a s
  | cons {a e c q t s s0 s1 s2 v w} : Extends s s0 → CopyOf s s0 e c → Holds q (· = a) → f [c, q] s0 = .ok (some v) s1 →
      FoldCalls f v t s1 w s2 → FoldCalls f a (e :: t) s w s2

/-- The states agree except for newly created objects and the elements of the list object `i`. -/
structure OnlyList (i : Nat) (st st' : St) : Prop where
  next : st.next ≤ st'.next
  lists : ∀ j, j < st.next → j ≠ i → st'.lists j = st.lists j
  dicts : ∀ j, j < st.next → st'.dicts j = st.dicts j
  clos : ∀ j, j < st.next → st'.clos j = st.clos j
  scopes : ∀ j, j < st.next → st'.scopes j = st.scopes j
  out : st'.out = st.out
  input : st'.input = st.input
  files : st'.files = st.files
  clock : st'.clock = st.clock
  libPath : st'.libPath = st.libPath

/-- The functions that only read their arguments and create new values. -/
def readOnly : List Builtin :=
  [.first, .last, .rest, .nth, .cons, .append, .reverse, .len, .list, .quote, .add, .sub, .mul, .div, .mod, .lt, .gt, .le,
   .ge, .eq, .ne, .not, .shr, .shl, .bor, .band, .bxor, .bnot, .type, .typestr, .nop, .format, .parseInteger, .parseFloat,
   .toInt, .toFloat, .search, .slice, .replace, .trim, .lower, .upper, .sym, .str, .makeDict, .dictGet, .dictKeys,
   .dictContainsKey, .dictContainsValue, .argscount, .args, .arg, .fn, .unquote, .unquotesplicing, .fileExists, .fileRead,
   .fuel, .version, .copyright, .platform, .needLValue, .gettrace, .flush, .mathPi, .mathPow] ++
  [MathFn.sin, .sinh, .asin, .cos, .cosh, .acos, .tan, .tanh, .atan, .exp, .log, .log10, .sqrt, .round, .trunc, .fabs,
   .floor, .ceil].map .math

end Fuel.Spec
