import Verif.SpecEval
import Verif.Debugger
/-!
# Specifications for the debugger
-/

namespace Fuel.Spec

variable [World]

/-- The breakpoint belongs to the given line of the given module. -/
def At (b : Bp) (line : Nat) (module : Str) : Prop := b.line = line ∧ b.module = module

/-- At most one breakpoint for each line of each module. -/
def Distinct (l : List Bp) : Prop := l.Pairwise fun b c => ¬ At b c.line c.module

/-- The changes of the list of breakpoints. -/
inductive BpOp where
  | add (line : Nat) (module cond : Str)
  | clear (no : Int)
  | clearAll

/-- The call of the debugger for a change. -/
def BpOp.call (d : Dbg) : BpOp → R Dbg
  | .add l m c => .ok (d.addBreakpoint l m c)
  | .clear no => (d.clearBreakpoint no).map Prod.fst
  | .clearAll => .ok d.clearAll

/-- All the calls, one after the other. -/
def BpOp.callAll (d : Dbg) : List BpOp → R Dbg
  | [] => .ok d
  | o :: t => do BpOp.callAll (← o.call d) t

/-- The effect of a change on the list of breakpoints: a new breakpoint is added at the end, one for the same line and module
is replaced where it stands, `clear` removes the breakpoint with the given number, counted from 1. -/
inductive Effect : BpOp → List Bp → List Bp → Prop
  | added {line module cond l} : (∀ b ∈ l, ¬ At b line module) → Effect (.add line module cond) l (l ++ [⟨line, module, cond⟩])
  | changed {line module cond a b t} : At b line module → Effect (.add line module cond) (a ++ b :: t) (a ++ ⟨line, module, cond⟩ :: t)
  | removed {no : Int} {a b t} : no = a.length + 1 → Effect (.clear no) (a ++ b :: t) (a ++ t)
  | kept {no : Int} {l} : no < 1 ∨ (l.length : Int) < no → Effect (.clear no) l l
  | all {l} : Effect .clearAll l []

/-- The effect of a history of changes. -/
inductive Effects : List BpOp → List Bp → List Bp → Prop
  | nil {l} : Effects [] l l
  | cons {o t l m n} : Effect o l m → Effects t m n → Effects (o :: t) l n

/-- The numbers the history uses are 32-bit integers other than the smallest one. -/
def InRange (ops : List BpOp) : Prop := ∀ no, .clear no ∈ ops → IsInt32 no ∧ no ≠ -2147483648

/-- The breakpoint is for the given position; an empty module name stands for every module. -/
def Matches (b : Bp) (line : Nat) (module : Str) : Prop := b.line = line ∧ (b.module = [] ∨ module = [] ∨ b.module = module)

/-- The number of active calls: 1 in the main program. -/
inductive Depth (st : St) : Nat → Nat → Prop
  | main {s} : (st.scopes s).prev = none → Depth st s 1
  | call {s p n} : (st.scopes s).prev = some p → Depth st p n → Depth st s (n + 1)

end Fuel.Spec
