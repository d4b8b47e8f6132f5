import Verif.PropsDoc
import Verif.PropsConsume
import Verif.DemoEval
/-!
# C71: a definition without a parameter list; C31: the arguments outside of functions
-/

set_option linter.unusedSectionVars false
set_option linter.unusedSimpArgs false

namespace Fuel

open Spec

variable [World]

/-- C71 needs a list of parameters: if there is anything else in its place, a number for example, then `defn` and `gdefn` have undefined behaviour (the
value is read as a list), instead of raising an exception. -/
theorem C71_no_list_wrong (g : Bool) (k : Nat) {st : St} {s i j : Nat} {u v : Variant} {n : Str} (hu : IsSym u n) (hv : v.isList = false) (body : Ptr) :
    callPrim (run (k + 3)) (if g then .gdefn else .defn) [.mk i (.var u), .mk j (.var v), body] s st = .fail (.ub .badUnion) st := by
  have hs : ptrStr st (k + 3) (.mk i (.var u)) = .ok n := ptrStr_sym hu
  cases g <;>
    simp [callPrim, bDefn, checkArgs, updateDoc, arg, tokenBeforeDefn, argStr, hs, signatureOf, enumerableFromArgs, toEnumerable, hv, R.ub, run_n, M.rd_apply, M.lift_apply, M.bind_apply, M.get_apply, M.pure_apply]

-- the definition `(defn f 7 5)`
example (st : St) : callPrim (run 3) .defn [.mk 0 (.var ⟨.symbol, .mk 1 (.str c!"f"), .none, none⟩), .mk 2 (.var ⟨.int, .mk 3 (.int 7), .none, none⟩), .null] 0 st = .fail (.ub .badUnion) st :=
  C71_no_list_wrong false 0 (n := c!"f") ⟨rfl, 1, rfl⟩ rfl _

/-- C31 is about functions: in a scope that does not belong to a call, the top level for example, `args`, `argscount` and `arg` have undefined behaviour (a
null pointer is dereferenced), whatever position is asked for. -/
theorem C31_toplevel_wrong (k : Nat) {st : St} {s : Nat} (h : binding st s argsMetaKey = none) :
    callPrim (run k) .args [] s st = .fail (.ub .nullDeref) st ∧ callPrim (run k) .argscount [] s st = .fail (.ub .nullDeref) st ∧
    ∀ p x, Holds p (IsInt · x) → callPrim (run (k + 1)) .arg [p] s st = .fail (.ub .nullDeref) st := by
  have hm : mapFind argsMetaKey (st.scopes s).vars = none := by rw [mapFind_eq_lookup]; exact h
  refine ⟨?_, ?_, fun p x hp => ?_⟩
  · simp [callPrim, ret, bArgs, checkArgs, argsList, hm, M.bind_apply, M.get_apply, ub, M.fail]
  · simp [callPrim, ret, bArgsCount, checkArgs, argsList, hm, M.bind_apply, M.get_apply, ub, M.fail]
  · obtain ⟨i, v, rfl, hv⟩ := hp
    simp [callPrim, ret, bArg, checkArgs, argV, arg, toVariant_var, intValue_int hv, argsList, hm, M.bind_apply, M.get_apply, M.rd_apply, ub, M.fail]

-- the global scope of a new interpreter
example : ∃ st, @createDefaultScope {} = .ok 0 st ∧ binding st 0 argsMetaKey = none := by
  obtain ⟨st, h, _⟩ := @create_ok demoWorld {}
  refine ⟨st, h, ?_⟩
  have h2 : binding (createDefaultScope {}).st 0 argsMetaKey = none := by decide +kernel
  rw [h] at h2
  exact h2

end Fuel
