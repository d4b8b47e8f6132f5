import Verif.PropsSession
import Verif.PropsInspect
/-!
# C88: the function `break`
-/

set_option linter.unusedSectionVars false

namespace Fuel

open Spec Spec.Core

section
variable [World]

theorem callStack_out {st : St} {s : Nat} {l : List Nat} (h : CallStack st s l) (o : Str) : CallStack { st with out := o } s l := by
  induction h with
  | main h => exact .main h
  | call h _ ih => exact .call h ih

/-- C88: `(break)` in a program under the debugger shows the call stack, with an arrow at the innermost call, and asks for commands.  When the user lets the
program run, it goes on with an undefined value; nothing but the output and the lines that were read has changed.  When the user leaves, the program ends. -/
theorem C88_break (k : Nat) {st : St} (hl : Links st) {sid : Nat} {l : List Nat} (hs : CallStack st sid l)
    (hc : ∀ x ∈ l, Column (st.scopes x).name ∧ Column (st.scopes x).module) {tr : Bool} (ht : (st.scopes (st.scopes sid).global).tracing = some tr)
    (hd : st.dbg.stop = false) {goesOn : Bool} {rest : List Str} {t : Str} (h : Dialog st.input goesOn rest t) {f : FnW} (hf : f.kind = .prim .brk) (args : List Ptr) :
    let st' := { st with out := st.out ++ (c!"break -> call stack:\n" ++ stackLines l.length 1 (l.map st.scopes) ++ c!"\n" ++ t), input := rest }
    if goesOn then ∃ v, (runD (k + 1)).call f args sid st = .ok (some v) st' ∧ IsUndef v
    else (runD (k + 1)).call f args sid st = .fail (.exn .stopDebugger) st' := by
  have h2 := fun o => callStackSize_depth (st := { st with out := o }) ⟨hl.clos, hl.old, hl.fresh, hl.callers⟩ (callStack_depth (s := sid) (l := l) (callStack_out hs o)) (sid + 1) (by omega)
  have h3 := fun o => dumpStack_ok (st := { st with out := o }) ⟨hl.clos, hl.old, hl.fresh, hl.callers⟩ (s := sid) (l := l) (callStack_out hs o) hc l.length (sid + 1) (by omega)
  have h4 := dialog_loop h (runD k) sid (st := { st with out := st.out ++ (c!"break -> call stack:\n" ++ stackLines l.length 1 (l.map st.scopes) ++ c!"\n") }) rfl hd
    (n := st.input.length + 1) (by omega) sid []
  dsimp only at h2 h3 h4 ⊢
  have e : (runD (k + 1)).call f args sid st = (do let _ ← dbgLoopD (runD k) sid false (st.input.length + 1) sid []; pure (some undefinedV) : M (Option Variant))
      { st with out := st.out ++ (c!"break -> call stack:\n" ++ stackLines l.length 1 (l.map st.scopes) ++ c!"\n") } := by
    show callStepD (runD k) f args sid st = _
    rw [callStepD, hf]
    simp only [ret, bBreakD, interactD, M.bind_apply, writeLine, write, M.modify_apply, M.rd_apply, h2, h3, M.get_apply, ht, List.append_assoc, List.cons_append, List.nil_append]
    generalize dbgLoopD (runD k) sid false (st.input.length + 1) sid [] _ = o
    cases o <;> rfl
  rw [e]
  cases goesOn with
  | true =>
    obtain ⟨x, h4⟩ := h4
    refine ⟨undefinedV, ?_, rfl⟩
    rw [M.bind_apply, h4]
    simp only [M.pure_apply, List.append_assoc]
  | false =>
    simp only [Bool.false_eq_true, if_false] at h4 ⊢
    rw [M.bind_apply, h4]
    simp only [List.append_assoc]

end

section
attribute [local instance] demoWorld

/-- `(break)` in a function that was called from the second line: the call stack has two calls. -/
example : demoDebug c!"(defn f (x) (do (break) (println x)))
(f 5)" [c!"run", c!"version", c!"run"] = some (true, true, c!"--> do line=1 start=-3 stop=-1 module= token=do
FUEL(isp)-DBG> break -> call stack:
       1 name=<main>                              lineno=2    module=
-->    2 name=f                                   lineno=1    module=

FUEL(isp)-DBG> \nFUEL(isp) v0.99.6 (for C++) from 16.12.2023, (C) by Michael Neuroth

FUEL(isp)-DBG> 5
restart program
") := by decide +kernel

/-- The answers of the user in this session. -/
example : Dialog [c!"version", c!"run"] true [] (prompt ++ banner ++ prompt) :=
  .info (c := c!"version") (typed_of [] [] rfl (by simp) (by simp) (by simp [Tight, White])) (.version (by simp)) (.run (c := c!"run") (typed_of [] [] rfl (by simp) (by simp) (by simp [Tight, White])) (by simp))

/-- The states that the theorem is about: a call of `f`, no step pending, the trace flag set. -/
example : ∃ st sid l, Links st ∧ CallStack st sid l ∧ l.length = 2 ∧ (∀ x ∈ l, Column (st.scopes x).name ∧ Column (st.scopes x).module) ∧
    (st.scopes (st.scopes sid).global).tracing = some false ∧ st.dbg.stop = false := by
  obtain ⟨st, h, hx⟩ := demoAfter_of (code := c!"(defn f (a) (throw a)) (f 1)") (P := fun st =>
    match (List.range st.next).find? fun s => (binding st s c!"a").isSome with
    | some s => match (st.scopes s).prev with
      | some p => decide ((st.scopes p).prev = none ∧ (st.scopes p).name = c!"<main>" ∧ (st.scopes p).module = [] ∧ (st.scopes s).name = c!"f" ∧
          (st.scopes s).module = [] ∧ (st.scopes (st.scopes s).global).tracing = some false)
      | none => false
    | none => false) (by decide +kernel)
  split at hx
  · rename_i s _
    split at hx
    · rename_i p hp
      obtain ⟨h1, h2, h3, h4, h5, h6⟩ := of_decide_eq_true hx
      refine ⟨{ st with dbg := { st.dbg with stop := false } }, s, [p] ++ [s], links_dbg h.links _ st.out, .call hp (.main h1), rfl, fun x hx => ?_, h6, rfl⟩
      simp only [List.cons_append, List.nil_append, List.mem_cons, List.not_mem_nil, or_false] at hx
      rcases hx with rfl | rfl
      · simp only [h2, h3]
        exact ⟨⟨by simp [BraceFree], by decide⟩, ⟨by simp [BraceFree], by decide⟩⟩
      · simp only [h4, h5]
        exact ⟨⟨by simp [BraceFree], by decide⟩, ⟨by simp [BraceFree], by decide⟩⟩
    · cases hx
  · cases hx

end

end Fuel
