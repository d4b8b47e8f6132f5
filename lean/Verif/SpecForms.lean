import Verif.SpecEval
import Verif.SpecText
/-!
# Specifications for the special forms
-/

namespace Fuel.Spec

variable [World]

/-- Conditions of `while`: booleans, and numbers, which are true unless they are zero. -/
inductive Truthy : Variant → Bool → Prop
  | bool {v t} : IsBool v t → Truthy v t
  | int {v x} : IsInt v x → Truthy v (decide (x ≠ 0))
  | dbl {v d} : IsDbl v d → Truthy v (World.dTruthy d)

/-- The operands are evaluated from left to right until the first false one; `b`: were all operands true? -/
inductive AndRun (s : Nat) : List Ptr → St → Bool → St → Prop
  | all {st} : AndRun s [] st true st
  | stop {p t st v st1} : Evals p s st (.ok (some v) st1) → IsBool v false → AndRun s (p :: t) st false st1
  | next {p t st v st1 b st2} : Evals p s st (.ok (some v) st1) → IsBool v true → AndRun s t st1 b st2 → AndRun s (p :: t) st b st2

/-- All operands are evaluated from left to right; they are booleans. -/
inductive AllBool (s : Nat) : List Ptr → St → St → Prop
  | nil {st} : AllBool s [] st st
  | cons {p t st v st1 b st2} : Evals p s st (.ok (some v) st1) → IsBool v b → AllBool s t st1 st2 → AllBool s (p :: t) st st2

/-- The loop `while c b` in scope `s`: `r` is the value of the last iteration so far. -/
inductive WhileRun (c b : Ptr) (s : Nat) : Option Variant → St → Out (Option Variant) → Prop
  /-- the condition is false: the loop ends with the last value -/
  | stop {r st v st1} : Evals c s st (.ok (some v) st1) → Truthy v false → WhileRun c b s r st (.ok r st1)
  /-- the condition is true and the body executes no `return`: go on -/
  | again {r st v st1 r' st2 o} : Evals c s st (.ok (some v) st1) → Truthy v true → Evals b s st1 (.ok r' st2) →
      (st2.scopes s).isInReturn = false → WhileRun c b s r' st2 o → WhileRun c b s r st o
  /-- the body executes `return` -/
  | ret {r st v st1 r' st2} : Evals c s st (.ok (some v) st1) → Truthy v true → Evals b s st1 (.ok r' st2) →
      (st2.scopes s).isInReturn = true → WhileRun c b s r st (.ok r' st2)
  /-- the condition fails -/
  | condFails {r st f st1} : Evals c s st (.fail f st1) → WhileRun c b s r st (.fail f st1)
  /-- the body fails -/
  | bodyFails {r st v st1 f st2} : Evals c s st (.ok (some v) st1) → Truthy v true → Evals b s st1 (.fail f st2) →
      WhileRun c b s r st (.fail f st2)

/-- The position of an exception raised at the given token, and "nowhere" without token. -/
def exnAt (msg : Str) (module : Str) : Option Token → Fail
  | none => .exn (.lisp true msg (-1) (-1) (-1) module)
  | some t => .exn (.lisp true msg t.line t.start t.stop module)

/-- The block with the given statements: `r` is the value of the last statement so far. -/
inductive DoRun (s : Nat) : Option Variant → List Ptr → St → Out (Option Variant) → Prop
  | done {r st} : DoRun s r [] st (.ok r st)
  /-- the statement is executed and contains no `return`: go on -/
  | next {r i t st v st1 o} : Evals (.mk i .list) s st (.ok v st1) → (st1.scopes s).isInReturn = false → DoRun s v t st1 o →
      DoRun s r (.mk i .list :: t) st o
  /-- the statement executes `return`: the remaining statements are skipped -/
  | ret {r i t st v st1} : Evals (.mk i .list) s st (.ok v st1) → (st1.scopes s).isInReturn = true →
      DoRun s r (.mk i .list :: t) st (.ok v st1)
  /-- the statement fails -/
  | fails {r i t st f st1} : Evals (.mk i .list) s st (.fail f st1) → DoRun s r (.mk i .list :: t) st (.fail f st1)
  /-- the statement is not a list -/
  | bad {r i v t st} : DoRun s r (.mk i (.var v) :: t) st (.fail (exnAt c!"List expected in do" (st.scopes s).module v.tok) st)

/-- A piece of code: a list or an atom. -/
def IsCode (p : Ptr) : Prop := ∃ i, p = .mk i .list ∨ ∃ v, p = .mk i (.var v)

end Fuel.Spec
