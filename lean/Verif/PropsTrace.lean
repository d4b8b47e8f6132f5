import Verif.SpecTrace
import Verif.SpecSave
import Verif.SpecConv
import Verif.PropsConv
import Verif.PropsCall
import Verif.PropsExpand
import Verif.LemRun
import Verif.PropsRun
/-!
# C66 Recording of printed texts, C67 trace of the evaluation
-/

set_option linter.unusedSectionVars false
set_option linter.unusedSimpArgs false

namespace Fuel
open Spec

section
variable [World]

theorem setVar_wrote {st : St} {s : Nat} {name : Str} {p : Ptr} {t : Str} {m : Nat} (hm : st.next ≤ m) :
    Wrote st { st with next := m, out := st.out ++ t, scopes := fset st.scopes s { st.scopes s with vars := mapSet name p (st.scopes s).vars } } s name t := by
  refine ⟨rfl, fun n hn => ?_, by simp, ⟨hm, fun _ _ => rfl, fun _ _ => rfl, fun _ _ => rfl, fun i _ => ?_, rfl, rfl, rfl, rfl, rfl⟩⟩
  · simp only [binding, fset_self, lookup_mapSet]
    exact if_neg hn
  · by_cases h : i = s <;> simp [fset, h]

/-- C66: `(trace b)` sets the switch of the current scope and returns it. -/
theorem C66_trace (k : Nat) {p : Ptr} {b : Bool} (s : Nat) (st : St) (hp : Holds p (IsBool · b)) :
    Returns (callPrim (run k) .trace [p] s) st fun v st' => IsBool v b ∧ (∃ i, binding st' s c!"###traceon###" = some (.mk i (.bool b))) ∧
      Wrote st st' s c!"###traceon###" [] := by
  obtain ⟨i, v, rfl, hv⟩ := hp
  refine ⟨⟨.bool, .mk (st.next + 1) (.bool b), .none, none⟩, { st with next := st.next + 2, scopes := fset st.scopes s { st.scopes s with vars := mapSet traceonKey (.mk st.next (.bool b)) (st.scopes s).vars } }, ?_, ⟨rfl, _, rfl⟩, ⟨st.next, ?_⟩, ?_⟩
  · simp [callPrim, ret, bTrace, argV, arg, toVariant_var, M.rd_apply, boolValue_bool hv, allocObj, setVar, modScope, mkBool, mkAtom, Obj.lispType]
  · simp only [binding, fset_self, lookup_mapSet]; rfl
  · have := setVar_wrote (st := st) (s := s) (name := traceonKey) (p := .mk st.next (.bool b)) (t := []) (m := st.next + 2) (by omega)
    rw [List.append_nil] at this
    exact this

/-- C66: if texts are recorded in the current scope, then `(print x ...)` and `(println x ...)` append the text of the arguments (without the end of
the line) to the recorded text; they return this text and write it to the output. -/
theorem C66_print {st : St} {s : Nat} {t : Str} {args : List Ptr} {l : List Code} {ts : List Str} (hr : Recording st s) (ht : Recorded st s t)
    (ha : AreTrees st args l) (hs : Texts l ts) :
    ∃ K, ∀ k, K ≤ k →
      (Returns (callPrim (run k) .print args s) st fun v st' => IsStr v (joined ts) ∧ Recorded st' s (t ++ joined ts) ∧
        Wrote st st' s c!"###tracebuffer###" (joined ts)) ∧
      (Returns (callPrim (run k) .println args s) st fun v st' => IsStr v (joined ts) ∧ Recorded st' s (t ++ joined ts) ∧
        Wrote st st' s c!"###tracebuffer###" (joined ts ++ c!"\n")) := by
  obtain ⟨K, hK⟩ := ptrStr_texts hs ha
  obtain ⟨i, o, hr⟩ := hr
  obtain ⟨j, ht⟩ := ht
  rw [binding, ← mapFind_eq_lookup] at hr ht
  have hr : mapFind traceonKey (st.scopes s).vars = some (.mk i o) := hr
  have ht : mapFind tracebufferKey (st.scopes s).vars = some (.mk j (.str t)) := ht
  refine ⟨K + 1, fun k hk => ?_⟩
  have hj : joinLoop (ptrStr st k) c!" " [] args = .ok (joined ts) := joinLoop_joined (hK k (by omega))
  have hp : ptrStr st k (.mk j (.str t)) = .ok t := by
    obtain ⟨k, rfl⟩ : ∃ m, k = m + 1 := ⟨k - 1, by omega⟩
    simp [ptrStr]
  have hrep : stringRep k args s st = .ok (joined ts)
      ({ st with next := st.next + 1, scopes := fset st.scopes s { st.scopes s with vars := mapSet tracebufferKey (.mk st.next (.str (t ++ joined ts))) (st.scopes s).vars } } : St) := by
    simp only [stringRep, M.bind_apply, M.rd_apply, hj, M.get_apply, hr, ht, hp, allocObj, setVar, modScope, M.modify_apply, M.pure_apply]
  constructor
  · refine ⟨_, _, by simp only [callPrim, ret, bPrint, run_n, M.bind_apply, hrep, write, mkStr, mkAtom, allocObj, M.modify_apply, M.pure_apply]; rfl, ⟨rfl, _, rfl⟩, ⟨st.next, ?_⟩,
      setVar_wrote (by omega)⟩
    simp only [binding, fset_self, lookup_mapSet]; rfl
  · refine ⟨⟨.string, .mk (st.next + 1) (.str (joined ts)), .none, none⟩, { st with next := st.next + 2, out := st.out ++ (joined ts ++ c!"\n"), scopes := fset st.scopes s { st.scopes s with vars := mapSet tracebufferKey (.mk st.next (.str (t ++ joined ts))) (st.scopes s).vars } }, ?_, ⟨rfl, _, rfl⟩, ⟨st.next, ?_⟩,
      setVar_wrote (by omega)⟩
    · simp [callPrim, ret, bPrintLn, run_n, hrep, writeLine, write, mkStr, mkAtom, allocObj, Obj.lispType]
    · simp only [binding, fset_self, lookup_mapSet]; rfl

/-- C66: `(gettrace)` returns what has been recorded in the current scope, and changes nothing. -/
theorem C66_gettrace {k : Nat} (hk : 1 ≤ k) {st : St} {s : Nat} {t : Str} (args : List Ptr) (ht : Recorded st s t) :
    Returns (callPrim (run k) .gettrace args s) st fun v st' => IsStr v t ∧ Extends st st' := by
  obtain ⟨k, rfl⟩ : ∃ m, k = m + 1 := ⟨k - 1, by omega⟩
  obtain ⟨j, ht⟩ := ht
  rw [binding, ← mapFind_eq_lookup] at ht
  have ht : mapFind tracebufferKey (st.scopes s).vars = some (.mk j (.str t)) := ht
  refine returns_str t ?_ fun _ _ he hi => ⟨hi, he⟩
  simp [callPrim, ret, bGetTrace, ht, M.rd_apply, ptrStr, run_n]

/-- C66: in a new interpreter texts are recorded from the start. -/
theorem C66_new {st st' : St} {s : Nat} (h : NewInterpreter st s st') : Recording st' s ∧ Recorded st' s [] := by
  obtain ⟨i, j, h1, h2⟩ := h.trace
  exact ⟨⟨j, _, h2⟩, ⟨i, h1⟩⟩

/-! ## C67 -/

theorem traceCall_on {st : St} {n s : Nat} {f : Ptr} {name : Str} (h : TraceOn st s) (hf : Holds f (IsSym · name)) (hi : Insertable name) :
    traceCall (n + 3) f s st = .ok () (withLine st (c!"--> " ++ name)) := by
  have h : (st.scopes (st.scopes s).global).tracing = some true := h
  obtain ⟨i, v, rfl, hv⟩ := hf
  have hfm : format c!"--> {0}" name = .ok (c!"--> " ++ name) := by
    have hf := format_pieces (args := [name]) (ps := [.lit c!"--> ", .hole 0]) (by simp [BraceFree]) (by simpa [Insertable, nullString] using hi) (by simp [holes]) (by simp [holes])
    simpa [argOr, sources, Piece.source, fill, nullString] using hf
  simp [traceCall, h, M.rd_apply, ptrStr_sym hv, hfm, writeLine, write, withLine]

theorem traceOn_atToken {st : St} {sid : Nat} (t : Option Token) (h : TraceOn st sid) : TraceOn (atToken st sid t) sid := by
  unfold TraceOn at *
  rw [(sameNames_atToken st sid t).global]
  cases t with
  | none => exact h
  | some t =>
    by_cases h' : (st.scopes sid).global = sid
    · rw [h'] at h; simp [atToken, fset, h', h]
    · simp [atToken, fset, h', h]

/-- C67: if the trace is switched on, the evaluation of a special form writes a line with its name and is then the call of the form with the code of its
arguments, as without trace. -/
theorem C67_special {st : St} {s : Nat} {ast : Ptr} {name : Str} {tok : Option Token} {w : FnW} {args : List Ptr} (ha : Acyclic st)
    (h : IsCall st s ast name tok w args) (hn : Insertable name) (ht : TraceOn st s) (hs : w.special = true) {o : Out (Option Variant)} :
    Evals ast s st o ↔ Calls w args s (withLine (atToken st s tok) (c!"--> " ++ name)) o := by
  obtain ⟨⟨i, f, rfl, hl, ⟨name', p, ⟨j, v, rfl, hv⟩, hm, hlk, hp⟩, hf, rfl⟩, hpl⟩ := h
  refine lim_iff (monoSeq_eval _ s st) (monoSeq_call w args s _) 3 1 fun k hk => ?_
  obtain ⟨m, rfl⟩ : ∃ m, k = m + 3 := ⟨k - 3, by omega⟩
  rw [run_eval (m + 3)]
  have hn' := run_n (m + 3)
  have e1 : resolveElem (atToken st s v.tok) (m + 3) s (.mk j (.var v)) = .ok p :=
    resolveElem_sym (n := m) ((sameNames_atToken st s v.tok).acyclic ha) hv ((sameNames_atToken st s v.tok).lookup hlk)
  simp only [evalStep, M.bind_apply, M.rd_apply, toListRef, hl, evalList, hn', getMacro_none (ptrStr_sym hv) hm, M.lift_apply, toVariant]
  simp only [setCurTok_apply, resolveArgs, e1, bind_ok_R, headFunction_ok hp, hs, if_true, traceCall_on (traceOn_atToken _ ht) hf hn, evalArgs_special hpl]
  rfl

/-- C67: the same for a call of a function: the line is written after the names among the arguments have been replaced by their values and before the
calls among them are evaluated. -/
theorem C67_call {st st1 : St} {s : Nat} {ast : Ptr} {name : Str} {tok : Option Token} {w : FnW} {args args' vs : List Ptr} (ha : Acyclic st)
    (h : IsCall st s ast name tok w args) (hn : Insertable name) (ht : TraceOn st s) (hw : w.special = false) (hr : All2 (Resolved st s) args args')
    (hv : EvalArgs s args' (withLine (atToken st s tok) (c!"--> " ++ name)) vs st1) {o : Out (Option Variant)} :
    Evals ast s st o ↔ Calls w vs s st1 o := by
  obtain ⟨⟨i, f, rfl, hl, ⟨name', p, ⟨j, v, rfl, hv'⟩, hm, hlk, hp⟩, hf, rfl⟩, hpl⟩ := h
  obtain ⟨K, hv⟩ := evalArgs_of hv
  rename_i hv0; clear hv0
  refine lim_iff (monoSeq_eval _ s st) (monoSeq_call w vs s _) (max K 3) 1 fun k hk => ?_
  obtain ⟨m, rfl⟩ : ∃ m, k = m + 3 := ⟨k - 3, by omega⟩
  rw [run_eval (m + 3)]
  have hn' := run_n (m + 3)
  have hs := sameNames_atToken st s v.tok
  have e1 : resolveElem (atToken st s v.tok) (m + 3) s (.mk j (.var v)) = .ok p :=
    resolveElem_sym (n := m) (hs.acyclic ha) hv' (hs.lookup hlk)
  have e2 : resolveList (atToken st s v.tok) (m + 3) s args = .ok args' := by
    refine resolveList_of (n := m) (hs.acyclic ha) ?_
    clear hv hpl hl
    induction hr with
    | nil => exact .nil
    | cons hab _ ih =>
      refine .cons ?_ ih
      cases hab with
      | symbol a b => exact .symbol a (hs.lookup b)
      | unknown a b => exact .unknown a (hs.lookup b)
      | value a => exact .value a
      | list => exact .list
  simp only [evalStep, M.bind_apply, M.rd_apply, toListRef, hl, evalList, hn', getMacro_none (ptrStr_sym hv') hm, M.lift_apply, toVariant]
  have hv := hv (m + 3) (by omega)
  simp only [tokenOf] at hv
  simp only [setCurTok_apply, resolveArgs, e1, bind_ok_R, headFunction_ok hp, hw, Bool.false_eq_true, if_false, e2, traceCall_on (traceOn_atToken _ ht) hf hn, hv]

/-- C67: a script that is run in a global scope with (without) trace is evaluated with the trace switched on (off). -/
theorem C67_switch (k : Nat) (code module : Str) {s : Nat} (b : Bool) {st : St} (hs : (st.scopes s).global = s) :
    ∃ st', lispEval (run k) code s module b false st = evalCode (run k) code s false st' ∧ (b = true → TraceOn st' s) ∧ (b = false → TraceOff st' s) := by
  refine ⟨{ st with scopes := fset st.scopes s { st.scopes s with module := module, tracing := some b } }, rfl, ?_, ?_⟩ <;> rintro rfl <;> simp [TraceOn, TraceOff, hs]

end

section
attribute [local instance] demoWorld

/-- C66, negative part: `(trace #f)` does not stop the recording, and texts are recorded before `(trace #t)`. -/
theorem C66_off_wrong : demoScripts [c!"(print \"a\") (trace #t) (print \"b\") (trace #f) (print \"c\") (println (gettrace))"] = c!"abcabc\n" := by decide +kernel

/-- C66, negative part: the recorded text belongs to the scope: what a function prints is not recorded. -/
theorem C66_function_wrong : demoScripts [c!"(defn f () (print \"a\")) (trace #t) (f) (println (gettrace))"] = c!"a\n" := by decide +kernel

/-- The output of a script that is run with trace in a new interpreter. -/
def demoTrace (code : Str) : Str := (Spec.Out.after (lispEvalNew 60 code [] true false {})).out

/-- A script with trace: one line for every call and every special form, before its arguments are evaluated. -/
example : demoTrace c!"(def x 1) (println (+ x (* 2 3)))" = c!"--> do\n--> def\n--> println\n--> +\n--> *\n7\n" := by decide +kernel

/-- C67, negative part: `evalstr` at top level switches the trace off, for the rest of the script. -/
theorem C67_evalstr_wrong : demoTrace c!"(print 1) (evalstr \"(print 2)\") (print 3)" = c!"--> do\n--> print\n1--> evalstr\n23" := by decide +kernel

end

end Fuel
