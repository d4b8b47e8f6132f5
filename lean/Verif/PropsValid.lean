import Verif.LemValidDebug
import Verif.DemoEval
/-!
# C34: all states are valid
-/

set_option linter.unusedSectionVars false
set_option linter.unusedVariables false

namespace Fuel

open Spec

section
variable [World]

theorem keeps_of_safe {L : Layout} {st : St} (h : StateOk L st) {m : M (Option Variant)} (hm : ∀ w : Lay, w.k = L → Safe w m) : Keeps L (m st) := by
  have := safe_out (hm (Lay.all L h.objs st) rfl) st (.of_state h)
  generalize m st = o at this
  cases this with
  | ok a b c => exact ⟨_, a.grows, b.state, fun v st' e => by cases e; exact c.ok v rfl⟩
  | fail a b => exact ⟨_, a.grows, b.state, fun v st' e => by cases e⟩

/-- C34: evaluating valid code in an existing scope of a valid state gives a valid state and a valid result. -/
theorem C34_eval {L : Layout} {st : St} (h : StateOk L st) {ast : Ptr} (ha : RefOk L ast) {s : Nat} (hs : L s = some .scope) (k : Nat) :
    Keeps L ((run k).eval ast s st) :=
  keeps_of_safe h fun w e => by
    subst e
    have : Good w ast := ⟨ha⟩
    have : Is w s .scope := ⟨hs⟩
    infer_instance

/-- C34: calling a function of a valid state with valid arguments gives a valid state and a valid result. -/
theorem C34_call {L : Layout} {st : St} (h : StateOk L st) {f : FnW} (hf : FnOk L f) {args : List Ptr} (ha : ∀ p ∈ args, RefOk L p) {s : Nat}
    (hs : L s = some .scope) (k : Nat) : Keeps L ((run k).call f args s st) :=
  keeps_of_safe h fun w e => by
    subst e
    have : Good w f := ⟨hf⟩
    have : Good w args := ⟨ha⟩
    have : Is w s .scope := ⟨hs⟩
    infer_instance

/-- C34: running a script in an existing scope of a valid state gives a valid state and a valid result. -/
theorem C34_script {L : Layout} {st : St} (h : StateOk L st) {s : Nat} (hs : L s = some .scope) (k : Nat) (code module : Str) (tracing onlyExpand : Bool) :
    Keeps L (lispEval (run k) code s module tracing onlyExpand st) :=
  keeps_of_safe h fun w e => by
    subst e
    have : Is w s .scope := ⟨hs⟩
    infer_instance

/-- C34: running a script in an interpreter of its own gives a valid state and a valid result, also if the script fails. -/
theorem C34_save {L : Layout} {st : St} (h : StateOk L st) (k : Nat) (stack : Str) (outp : Bool) (code module : Str) (verbose tracing onlyExpand : Bool) :
    Keeps L (saveEval k stack outp code module verbose tracing onlyExpand st) :=
  keeps_of_safe h fun w e => by infer_instance

/-- C34: creating an interpreter keeps a state valid. -/
theorem C34_create {L : Layout} {st : St} (h : StateOk L st) {s : Nat} {st' : St} (hc : createDefaultScope st = .ok s st') :
    ∃ L', L.Grows L' ∧ StateOk L' st' ∧ L' s = some .scope := by
  have h0 : Safe (Lay.all L h.objs st) _ := create_safe
  generalize createDefaultScope = c at h0 hc
  have := safe_id h0 st (.of_state h)
  rw [hc] at this
  obtain ⟨w', a, b, c⟩ := this
  exact ⟨w'.k, a.grows, b.state, c.ok⟩

/-- C34: evaluating valid code under the debugger, whatever the user enters when the program stops, gives a valid state and a valid result. -/
theorem C34_debug {L : Layout} {st : St} (h : StateOk L st) {ast : Ptr} (ha : RefOk L ast) {s : Nat} (hs : L s = some .scope) (k : Nat) :
    Keeps L ((runD k).eval ast s st) :=
  keeps_of_safe h fun w e => by
    subst e
    have : Good w ast := ⟨ha⟩
    have : Is w s .scope := ⟨hs⟩
    infer_instance

/-- C34: running a script under the debugger gives a valid state and a valid result. -/
theorem C34_debug_script {L : Layout} {st : St} (h : StateOk L st) {s : Nat} (hs : L s = some .scope) (k : Nat) (code module : Str) (tracing onlyExpand : Bool) :
    Keeps L (lispEval (runD k) code s module tracing onlyExpand st) :=
  keeps_of_safe h fun w e => by
    subst e
    have : Is w s .scope := ⟨hs⟩
    infer_instance

/-- C34: the program `fuel` with any arguments, any input and any files keeps the state valid, also if it fails. -/
theorem C34_program {L : Layout} {st : St} (h : StateOk L st) (k : Nat) (stack : Str) (hasDebugger : Bool) (args : List Str) :
    ∃ L', L.Grows L' ∧ StateOk L' (Out.after (mainExtended k stack hasDebugger args st)) := by
  have := (inferInstance : Safe (Lay.all L h.objs st) (mainExtended k stack hasDebugger args)).ok st (.of_state h)
  generalize mainExtended k stack hasDebugger args st = o at this
  cases o with
  | ok a s => obtain ⟨w', a, b, _⟩ := this; exact ⟨w'.k, a.grows, b.state⟩
  | fail f s => obtain ⟨w', a, b⟩ := this; exact ⟨w'.k, a.grows, b.state⟩

/-- C34: every state of an application is valid. -/
theorem C34_session {st : St} {l : List Nat} (h : Session st l) : ∃ L, StateOk L st ∧ ∀ s ∈ l, L s = some .scope := by
  induction h with
  | init h1 h2 h3 =>
    exact ⟨fun _ => none, ⟨fun _ _ => rfl, fun i _ => ⟨h2 i, h3 i⟩, fun _ _ e => (by cases e), fun i _ => by rw [h2]; simp, fun i _ => by rw [h3]; simp, fun _ e => (by cases e),
      fun _ e => (by cases e)⟩, by simp⟩
  | create _ hc ih =>
    obtain ⟨L, h1, h2⟩ := ih
    obtain ⟨L', a, b, c⟩ := C34_create h1 hc
    refine ⟨L', b, fun s hs => ?_⟩
    rcases List.mem_cons.1 hs with rfl | hs
    · exact c
    · exact a _ _ (h2 s hs)
  | script k code module tracing onlyExpand _ hs ih =>
    obtain ⟨L, h1, h2⟩ := ih
    obtain ⟨L', a, b, _⟩ := C34_script h1 (h2 _ hs) k code module tracing onlyExpand
    exact ⟨L', b, fun s hs => a _ _ (h2 s hs)⟩
  | save k stack outp code module verbose tracing onlyExpand _ ih =>
    obtain ⟨L, h1, h2⟩ := ih
    obtain ⟨L', a, b, _⟩ := C34_save h1 k stack outp code module verbose tracing onlyExpand
    exact ⟨L', b, fun s hs => a _ _ (h2 s hs)⟩
  | debug k code module tracing onlyExpand _ hs ih =>
    obtain ⟨L, h1, h2⟩ := ih
    obtain ⟨L', a, b, _⟩ := C34_debug_script h1 (h2 _ hs) k code module tracing onlyExpand
    exact ⟨L', b, fun s hs => a _ _ (h2 s hs)⟩
  | program k stack hasDebugger args _ ih =>
    obtain ⟨L, h1, h2⟩ := ih
    obtain ⟨L', a, b⟩ := C34_program h1 k stack hasDebugger args
    exact ⟨L', b, fun s hs => a _ _ (h2 s hs)⟩
  | outside input files clock dbg _ ih =>
    obtain ⟨L, h1, h2⟩ := ih
    exact ⟨L, ⟨h1.fresh, h1.blank, h1.objs, h1.lists, h1.dicts, h1.clos, h1.scopes⟩, h2⟩

/-- C34: the result of a script is a valid value of the state behind it. -/
theorem C34_result {st : St} {l : List Nat} (h : Session st l) {s : Nat} (hs : s ∈ l) {k : Nat} {code module : Str} {tracing onlyExpand : Bool} {v : Variant}
    {st' : St} (he : lispEval (run k) code s module tracing onlyExpand st = .ok (some v) st') : ∃ L, StateOk L st' ∧ ValueOk L v := by
  obtain ⟨L, h1, h2⟩ := C34_session h
  obtain ⟨L', _, b, c⟩ := C34_script h1 (h2 _ hs) k code module tracing onlyExpand
  rw [he] at b
  exact ⟨L', b, c v st' he⟩

/-! ## What validity means -/

/-- C34: what a valid reference points to has been created. -/
theorem C34_exists {L : Layout} {st : St} (h : StateOk L st) {i : Nat} {o : Obj} (hr : RefOk L (.mk i o)) : i < st.next :=
  Nat.lt_of_not_le fun hn => by
    have := h.fresh i hn
    simp only [RefOk] at hr
    rw [hr] at this
    cases this

/-- C34: two valid references with the same number see the same content. -/
theorem C34_same {L : Layout} {i : Nat} {o o' : Obj} (h : RefOk L (.mk i o)) (h' : RefOk L (.mk i o')) : o = o' := by
  simp only [RefOk] at h h'
  rw [h] at h'
  cases h'
  rfl

/-- C34: an integer value is a 32-bit integer, and reading it succeeds. -/
theorem C34_int {L : Layout} {st : St} (h : StateOk L st) {v : Variant} (hv : ValueOk L v) (ht : v.type = .int) :
    ∃ i x, v.value = .mk i (.int x) ∧ IsInt32 x ∧ ∀ n, v.intValue st n = .ok x := by
  obtain ⟨h1, h2⟩ := hv
  simp only [Tagged, ht] at h2
  obtain ⟨i, x, e⟩ := h2
  rw [e] at h1
  exact ⟨i, x, e, h.objs i _ h1, fun n => by simp [Variant.intValue, ht, e]⟩

/-- C34: reading a value according to its type succeeds. -/
theorem C34_read {L : Layout} {st : St} (h : StateOk L st) {v : Variant} (hv : ValueOk L v) (n : Nat) :
    (v.type = .bool → ∃ b, v.boolValue st n = .ok b) ∧ (v.type = .int → ∃ x, v.intValue st n = .ok x) ∧
    (v.type = .double → ∃ d, v.doubleValue st n = .ok d) ∧ (v.type = .list → ∃ l, v.listValue st n = .ok l ∧ ∀ p ∈ l, RefOk L p) ∧
    (v.type = .native → ∃ i, dictOf v = .ok i ∧ ∀ e ∈ st.dicts i, ValueOk L e.1 ∧ RefOk L e.2) ∧
    (v.type = .function → ∃ f, v.functionValue st n = .ok f ∧ FnOk L f) ∧
    (v.type = .string ∨ v.type = .symbol → ∃ i t, v.value = .mk i (.str t) ∧ varStr st (n + 2) v = .ok t) := by
  obtain ⟨h1, h2⟩ := hv
  refine ⟨fun e => ?_, fun e => ?_, fun e => ?_, fun e => ?_, fun e => ?_, fun e => ?_, fun e => ?_⟩
  · simp only [Tagged, e] at h2
    obtain ⟨i, b, e'⟩ := h2
    exact ⟨b, by simp [Variant.boolValue, e, e']⟩
  · simp only [Tagged, e] at h2
    obtain ⟨i, b, e'⟩ := h2
    exact ⟨b, by simp [Variant.intValue, e, e']⟩
  · simp only [Tagged, e] at h2
    obtain ⟨i, b, e'⟩ := h2
    exact ⟨b, by simp [Variant.doubleValue, e, e']⟩
  · simp only [Tagged, e] at h2
    obtain ⟨i, e'⟩ := h2
    exact ⟨st.lists i, by simp [Variant.listValue, e, e', toEnumerable], h.lists i (.inl (by have := h1; rw [e'] at this; exact this))⟩
  · simp only [Tagged, e] at h2
    obtain ⟨i, e'⟩ := h2
    exact ⟨i, by simp [dictOf, e'], h.dicts i (by have := h1; rw [e'] at this; exact this)⟩
  · simp only [Tagged, e] at h2
    obtain ⟨i, f, e'⟩ := h2
    rw [e'] at h1
    exact ⟨f, by simp [Variant.functionValue, e, e'], h.objs i _ h1⟩
  · have : ∃ i t, v.value = .mk i (.str t) := by
      rcases e with e | e <;> simpa only [Tagged, e] using h2
    obtain ⟨i, t, e'⟩ := this
    refine ⟨i, t, e', ?_⟩
    rcases e with e | e <;> simp [varStr, e, e', ptrStr]

/-- C34: what a variable, a list or a dictionary of a valid state holds is valid; the boxes hold valid values. -/
theorem C34_stored {L : Layout} {st : St} (h : StateOk L st) {i : Nat} {v : Variant} (hr : RefOk L (.mk i (.var v))) : ValueOk L v := h.objs i _ hr

/-- C34: an integer in a variable of an interpreter is a 32-bit integer. -/
theorem C34_variable {st : St} {l : List Nat} (h : Session st l) {s : Nat} (hs : s ∈ l) {name : Str} {i : Nat} {v : Variant}
    (hv : (name, Ptr.mk i (.var v)) ∈ (st.scopes s).vars) (ht : v.type = .int) : ∃ j x, v.value = .mk j (.int x) ∧ IsInt32 x := by
  obtain ⟨L, h1, h2⟩ := C34_session h
  obtain ⟨j, x, a, b, _⟩ := C34_int h1 (C34_stored h1 ((h1.scopes s (h2 s hs)).vars _ hv)) ht
  exact ⟨j, x, a, b⟩

end

attribute [local instance] demoWorld

/-- A script that fails after its first definition, then a script that uses the definition. -/
def sessB : Bool :=
  match createDefaultScope {} with
  | .ok s st =>
    let st1 := Out.after (lispEval (run 60) c!"(def a (* 65536 32767)) (def l (list a \"x\")) (nth 1 7)" s [] false false st)
    (st1.scopes s).vars.any (fun e => match e.2 with | .mk _ (.var v) => decide (e.1 = c!"a" ∧ v.type = .int) | _ => false) &&
      match lispEval (run 60) c!"(- a 1)" s [] false false st1 with
      | .ok (some v) _ => decide (v.type = .int)
      | _ => false
  | _ => false

-- the first script fails
set_option maxRecDepth 20000 in
example : (match createDefaultScope {} with
    | .ok s st => match lispEval (run 60) c!"(def a (* 65536 32767)) (def l (list a \"x\")) (nth 1 7)" s [] false false st with
      | .fail (.exn _) _ => true
      | _ => false
    | _ => false) = true := by decide +kernel

set_option maxRecDepth 20000 in
theorem sessB_true : sessB = true := by decide +kernel

-- the hypotheses of `C34_session`, `C34_variable`, `C34_result` (and so those of the other theorems)
example : ∃ st s i v, Session st [s] ∧ (c!"a", Ptr.mk i (.var v)) ∈ (st.scopes s).vars ∧ v.type = .int ∧
    ∃ r st', lispEval (run 60) c!"(- a 1)" s [] false false st = .ok (some r) st' ∧ r.type = .int := by
  have h := sessB_true
  unfold sessB at h
  cases hc : createDefaultScope {} with
  | fail f s => rw [hc] at h; cases h
  | ok s st =>
    rw [hc] at h
    have hs : Session st [s] := .create (.init rfl (fun _ => rfl) (fun _ => rfl)) hc
    have hs2 := Session.script 60 c!"(def a (* 65536 32767)) (def l (list a \"x\")) (nth 1 7)" [] false false hs (List.mem_cons_self ..)
    simp only at h
    generalize Out.after (lispEval (run 60) c!"(def a (* 65536 32767)) (def l (list a \"x\")) (nth 1 7)" s [] false false st) = st1 at h hs2
    rw [Bool.and_eq_true, List.any_eq_true] at h
    obtain ⟨⟨e, he, h1⟩, h2⟩ := h
    obtain ⟨n, p⟩ := e
    split at h1
    · rename_i i v hp
      simp only [decide_eq_true_eq] at h1 hp
      obtain ⟨h1, h3⟩ := h1
      subst h1 hp
      refine ⟨st1, s, i, v, hs2, he, h3, ?_⟩
      split at h2
      · rename_i r st' hr
        exact ⟨r, st', hr, by simpa using h2⟩
      · cases h2
    · cases h1

end Fuel
