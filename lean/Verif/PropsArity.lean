import Verif.PropsCall
import Verif.SpecArity
/-!
# Wrong numbers of arguments (C63)
-/

set_option linter.unusedSectionVars false
set_option linter.unusedSimpArgs false

namespace Fuel

open Spec

variable [World]

/-- The name can be put into a format text. -/
def PlainName (name : Str) : Prop := BraceFree name ∧ name ≠ c!"##<NULL>##"

theorem format_count {name a b : Str} (h : PlainName name) (ha : PlainName a) (hb : PlainName b) :
    format c!"Bad argument count in {0}, has {1} expected {2}" name a b =
      .ok (c!"Bad argument count in " ++ name ++ c!", has " ++ a ++ c!" expected " ++ b) := by
  have hf := format_pieces (args := [name, a, b])
    (ps := [.lit c!"Bad argument count in ", .hole 0, .lit c!", has ", .hole 1, .lit c!" expected ", .hole 2])
    (by simp [BraceFree]) (by simp only [List.mem_cons, List.not_mem_nil, or_false]; rintro x (rfl | rfl | rfl) <;> assumption)
    (by simp [holes]) (by simp [holes])
  simpa [argOr, sources, Piece.source, fill, nullString] using hf

theorem format_between {name a b c : Str} (h : PlainName name) (ha : PlainName a) (hb : PlainName b) (hc : PlainName c) :
    format c!"Bad argument count in {0}, has {1} expected between {2} and {3}" name a b c =
      .ok (c!"Bad argument count in " ++ name ++ c!", has " ++ a ++ c!" expected between " ++ b ++ c!" and " ++ c) := by
  have hf := format_pieces (args := [name, a, b, c])
    (ps := [.lit c!"Bad argument count in ", .hole 0, .lit c!", has ", .hole 1, .lit c!" expected between ", .hole 2, .lit c!" and ", .hole 3])
    (by simp [BraceFree]) (by simp only [List.mem_cons, List.not_mem_nil, or_false]; rintro x (rfl | rfl | rfl | rfl) <;> assumption)
    (by simp [holes]) (by simp [holes])
  simpa [argOr, sources, Piece.source, fill, nullString] using hf

/-- The computation raises this exception and changes nothing. -/
def Stops {α : Type} (m : M α) (st : St) (e : Fail) : Prop := m st = .fail e st

theorem Stops.bind {α β : Type} {m : M α} {f : α → M β} {st : St} {e : Fail} (h : Stops m st e) : Stops (m >>= f) st e := by
  unfold Stops at *; rw [M.bind_apply, h]
theorem Stops.bind_get {α β : Type} {g : St → α} {f : α → M β} {st : St} {e : Fail} (h : Stops (f (g st)) st e) : Stops (M.get g >>= f) st e := h
theorem Stops.ret {m : M Variant} {st : St} {e : Fail} (h : Stops m st e) : Stops (ret m) st e := h.bind

theorem checkArgs_bad {name : Str} {c : Nat} {args : List Ptr} {sid : Nat} {st : St} (hn : PlainName name) (h : args.length ≠ c) :
    Stops (checkArgs name c args sid) st (scopeExn (st.scopes sid) (arityMessage name c c args.length)) := by
  unfold Stops checkArgs
  rw [if_neg h, format_count hn (natStr_text _) (natStr_text _)]
  simp [arityMessage, M.lift_ok, throwScope]

theorem checkOptionalArgs_bad {name : Str} {lo hi : Nat} {args : List Ptr} {sid : Nat} {st : St} (hn : PlainName name) (hne : lo ≠ hi)
    (h : args.length < lo ∨ hi < args.length) :
    Stops (checkOptionalArgs name lo hi args sid) st (scopeExn (st.scopes sid) (arityMessage name lo hi args.length)) := by
  unfold Stops checkOptionalArgs
  rw [if_neg (by omega), format_between hn (natStr_text _) (natStr_text _) (natStr_text _)]
  simp [arityMessage, M.lift_ok, throwScope, hne]

theorem scopeExn_raises {α : Type} {m : M α} {st : St} {sid : Nat} {msg : Str} (h : Stops m st (scopeExn (st.scopes sid) msg)) :
    Raises m st fun e st' => st' = st ∧ ∃ l a b mod, e = .lisp true msg l a b mod := by
  unfold scopeExn at h
  split at h
  · exact ⟨_, _, h, rfl, _, _, _, _, rfl⟩
  · exact ⟨_, _, h, rfl, _, _, _, _, rfl⟩

/-- C63: a function or special form that is called with too few or too many arguments raises a Lisp exception that names the function, the number of
arguments it got and the number it expects; nothing has been evaluated or changed before. -/
theorem C63_arity (k : Nat) {b : Builtin} {name : Str} {lo hi : Nat} {args : List Ptr} (sid : Nat) (st : St)
    (hb : arity b = some (name, lo, hi)) (h : args.length < lo ∨ hi < args.length) :
    Raises (callPrim (run k) b args sid) st fun e st' =>
      st' = st ∧ ∃ line start stop module, e = .lisp true (arityMessage name lo hi args.length) line start stop module := by
  apply scopeExn_raises (sid := sid)
  cases b
  case math f =>
    cases f <;> (
      cases hb
      refine Stops.ret (Stops.bind (checkArgs_bad ?_ ?_))
      · exact ⟨by simp [BraceFree, mathName], by simp [mathName]⟩
      · omega)
  all_goals cases hb
  all_goals simp only [callPrim]
  all_goals first | (apply Stops.ret) | skip
  all_goals first
    | (refine Stops.bind (checkArgs_bad ⟨by simp [BraceFree, BitOp.text, CmpOp.text, unquoteName, unquoteSplicingName], by simp [BitOp.text, CmpOp.text, unquoteName, unquoteSplicingName]⟩ ?_); omega)
    | (refine Stops.bind (checkOptionalArgs_bad ⟨by simp [BraceFree, BitOp.text, CmpOp.text, unquoteName, unquoteSplicingName], by simp [BitOp.text, CmpOp.text, unquoteName, unquoteSplicingName]⟩ (by omega) ?_); omega)
    | (refine Stops.bind_get (Stops.bind (checkArgs_bad ⟨by simp [BraceFree, BitOp.text, CmpOp.text, unquoteName, unquoteSplicingName], by simp [BitOp.text, CmpOp.text, unquoteName, unquoteSplicingName]⟩ ?_)); omega)

example (k : Nat) (st : St) (p : Ptr) : Raises (callPrim (run k) .nth [p] 0) st fun e st' => st' = st ∧
    ∃ line start stop module, e = .lisp true c!"Bad argument count in nth, has 1 expected 2" line start stop module :=
  C63_arity k (b := .nth) (args := [p]) 0 st rfl (.inl (Nat.le_refl 2))
example (k : Nat) (st : St) : Raises (callPrim (run k) .search [] 0) st fun e st' => st' = st ∧
    ∃ line start stop module, e = .lisp true c!"Bad argument count in search, has 0 expected between 2 and 4" line start stop module :=
  C63_arity k (b := .search) (args := []) 0 st rfl (.inl (Nat.le_succ 1))

/-- C63: `if` with less than two or more than three arguments raises an exception (with a wrong expected number). -/
theorem C63_if (k : Nat) {args : List Ptr} (sid : Nat) (st : St) (h : args.length < 2 ∨ 3 < args.length) :
    Raises (callPrim (run k) .if_ args sid) st fun e st' => st' = st ∧ ∃ line start stop module,
      e = .lisp true (c!"Bad argument count in if, has " ++ natStr args.length ++ c!" expected 18446744073709551615") line start stop module := by
  apply scopeExn_raises (sid := sid)
  simp only [callPrim]
  have hf := format_count (name := c!"if") (a := natStr args.length) (b := c!"18446744073709551615")
    ⟨by simp [BraceFree], by simp⟩ (natStr_text _) ⟨by simp [BraceFree], by simp⟩
  unfold bIf
  split
  · simp at h
  · simp at h
  · unfold Stops
    rw [M.bind_apply, hf]
    simp [M.lift_ok, throwScope]

example (k : Nat) (st : St) (p : Ptr) : Raises (callPrim (run k) .if_ [p] 0) st fun _ st' => st' = st := by
  obtain ⟨e, st', h, h', _⟩ := C63_if k (args := [p]) 0 st (.inl (Nat.le_refl 2))
  exact ⟨e, st', h, h'⟩

/-- C63, negative part: `return`, `trace` and `sleep` do not check; without argument the behaviour is undefined (they read behind the end of the
argument list). -/
theorem C63_unchecked_wrong (k : Nat) (sid : Nat) (st : St) :
    callPrim (run k) .trace [] sid st = .fail (.ub .index) st ∧ callPrim (run k) .sleep [] sid st = .fail (.ub .index) st ∧
    ∃ st', callPrim (run k) .return_ [] sid st = .fail (.ub .index) st' := ⟨rfl, rfl, _, rfl⟩

end Fuel
