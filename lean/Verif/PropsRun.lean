import Verif.LemEval
import Verif.LemStep
import Verif.PropsList
import Verif.Demo
/-!
# Properties of every evaluation: C27, C32, C33, C45, C54
-/

set_option linter.unusedSectionVars false

namespace Fuel

open Spec

/-! ## C33 The outcome does not depend on the budget -/

section
variable [World]

/-- C33: evaluation of code: unless the budget is exhausted, a larger one gives the same outcome (value or exception, and state). -/
theorem C33_eval {k k' : Nat} (h : k ≤ k') (ast : Ptr) (sid : Nat) (st : St) (he : Ends ((run k).eval ast sid st)) :
    (run k').eval ast sid st = (run k).eval ast sid st :=
  ((monoSeq_eval ast sid st k k' h).resolve_left fun ⟨s, hs⟩ => he s hs).symm

/-- C33: the same for function calls. -/
theorem C33_call {k k' : Nat} (h : k ≤ k') (f : FnW) (args : List Ptr) (sid : Nat) (st : St)
    (he : Ends ((run k).call f args sid st)) : (run k').call f args sid st = (run k).call f args sid st :=
  ((monoSeq_call f args sid st k k' h).resolve_left fun ⟨s, hs⟩ => he s hs).symm

/-- C33: the same for macro expansion. -/
theorem C33_expand {k k' : Nat} (h : k ≤ k') (ast : Ptr) (sid : Nat) (st : St) (he : Ends ((run k).expand ast sid st)) :
    (run k').expand ast sid st = (run k).expand ast sid st :=
  ((monoSeq_expand ast sid st k k' h).resolve_left fun ⟨s, hs⟩ => he s hs).symm

/-- C33: the same for scripts in an existing scope. -/
theorem C33_scriptIn {k k' : Nat} (h : k ≤ k') (code : Str) (sid : Nat) (module : Str) (tracing onlyExpand : Bool) (st : St)
    (he : Ends (lispEval (run k) code sid module tracing onlyExpand st)) :
    lispEval (run k') code sid module tracing onlyExpand st = lispEval (run k) code sid module tracing onlyExpand st :=
  ((monoSeq_lispEval code sid module tracing onlyExpand st k k' h).resolve_left fun ⟨s, hs⟩ => he s hs).symm

/-- C33: the same for scripts in a new interpreter. -/
theorem C33_script {k k' : Nat} (h : k ≤ k') (code module : Str) (tracing onlyExpand : Bool) (st : St)
    (he : Ends (lispEvalNew k code module tracing onlyExpand st)) :
    lispEvalNew k' code module tracing onlyExpand st = lispEvalNew k code module tracing onlyExpand st :=
  ((monoSeq_lispEvalNew code module tracing onlyExpand st k k' h).resolve_left fun ⟨s, hs⟩ => he s hs).symm

/-- C33: the same for `SaveEval`. -/
theorem C33_saveEval {k k' : Nat} (h : k ≤ k') (stack : Str) (outp : Bool) (code module : Str) (verbose tracing onlyExpand : Bool) (st : St)
    (he : Ends (lispEvalNew k code module tracing onlyExpand st)) :
    saveEval k' stack outp code module verbose tracing onlyExpand st = saveEval k stack outp code module verbose tracing onlyExpand st := by
  simp only [saveEval, C33_script h code module tracing onlyExpand st he]

/-- C33: evaluation is deterministic. -/
theorem C33_deterministic {ast : Ptr} {sid : Nat} {st : St} {o o' : Out (Option Variant)} (h : Evals ast sid st o) (h' : Evals ast sid st o') :
    o = o' := Lim.unique (monoSeq_eval ast sid st) h h'

/-- C33: scripts are deterministic. -/
theorem C33_deterministic_script {code module : Str} {st : St} {o o' : Out (Option Variant)} (h : Runs code module st o)
    (h' : Runs code module st o') : o = o' := Lim.unique (monoSeq_lispEvalNew code module false false st) h h'

end

/-- Does the outcome come from a sufficient budget? -/
def endsB {α : Type} : Out α → Bool
  | .fail .fuel _ => false
  | _ => true

theorem ends_of {α : Type} {o : Out α} (h : endsB o = true) : Ends o := by
  rintro s rfl; simp [endsB] at h

-- a recursive function ends with a budget of 100, and not with a budget of 20
example : Ends (@lispEvalNew demoWorld 100 c!"(defn f (n) (if (< n 1) 0 (f (- n 1)))) (f 3)" [] false false {}) := ends_of (by decide +kernel)
example : endsB (@lispEvalNew demoWorld 20 c!"(defn f (n) (if (< n 1) 0 (f (- n 1)))) (f 3)" [] false false {}) = false := by decide +kernel

/-! ## C54 Output is only appended -/

section
variable [World]

theorem Pres2.any {α : Type} {sid : Nat} {m : M α} [h : Pres2 sid m] (s : St) : Step sid s (m s).st := by
  have := h.rel s
  cases e : m s with
  | ok a s' => rw [e] at this; exact this.toStep
  | fail f s' => rw [e] at this; exact this

theorem after_eq {α : Type} (o : Out α) : Out.after o = o.st := by cases o <;> rfl

/-- C54: evaluating code only appends to the output, whatever the outcome. -/
theorem C54_eval (k : Nat) (ast : Ptr) (sid : Nat) (st : St) : st.out <+: (Out.after ((run k).eval ast sid st)).out := by
  rw [after_eq]; exact (Pres2.any (sid := sid) st).out

/-- C54: calling a function only appends to the output. -/
theorem C54_call (k : Nat) (f : FnW) (args : List Ptr) (sid : Nat) (st : St) :
    st.out <+: (Out.after ((run k).call f args sid st)).out := by
  rw [after_eq]; exact (Pres2.any (sid := sid) st).out

/-- C54: a script in an existing scope only appends to the output. -/
theorem C54_scriptIn (k : Nat) (code : Str) (sid : Nat) (module : Str) (tracing onlyExpand : Bool) (st : St) :
    st.out <+: (Out.after (lispEval (run k) code sid module tracing onlyExpand st)).out := by
  rw [after_eq]; exact (Pres2.any (sid := sid) st).out

/-- What creating an interpreter does. -/
structure Fresh (s s' : St) : Prop where
  next : s.next ≤ s'.next
  out : s'.out = s.out
  input : s'.input = s.input
  links : Links s → Links s'

instance : Rel Fresh where
  refl s := ⟨Nat.le_refl _, rfl, rfl, id⟩
  trans h g := ⟨Nat.le_trans h.next g.next, by rw [g.out, h.out], by rw [g.input, h.input], fun l => g.links (h.links l)⟩
  ext h := ⟨h.next, h.out, h.input, h.links⟩

theorem fresh_scope {sc : Scope} (hc : sc.closure = none) (hp : sc.prev = none) : Pres Fresh (allocScope sc) := ⟨fun s => by
  refine ⟨Nat.le_succ _, rfl, rfl, fun l => ⟨fun i => ?_, fun i c h => ?_, fun i hi => ?_, fun i p h => ?_⟩⟩ <;> simp only [allocScope, Out.st] at *
  · have := l.clos i; omega
  · by_cases e : i = s.next
    · subst e; simp [hc] at h
    · rw [fset_ne _ _ e] at h; exact l.old i c h
  · rw [fset_ne _ _ (by omega)]
    exact l.fresh i (by omega)
  · by_cases e : i = s.next
    · subst e; simp [hp] at h
    · rw [fset_ne _ _ e] at h; have := l.callers i p h; omega⟩
theorem fresh_mod {j : Nat} {f : Scope → Scope} (h : ∀ sc, (f sc).closure = sc.closure ∧ (f sc).prev = sc.prev) : Pres Fresh (modScope j f) := ⟨fun _ =>
  ⟨Nat.le_refl _, rfl, rfl, links_modScope (h _).1 fun _ hp => .inl ((h _).2 ▸ hp)⟩⟩
instance (j : Nat) (n : Str) (p : Ptr) : Pres Fresh (setVar j n p) := fresh_mod fun _ => ⟨rfl, rfl⟩
instance (j : Nat) (e : Entry) : Pres Fresh (register j e) := by unfold register; pres
instance (j : Nat) (l : List Entry) : Pres Fresh (registerAll j l) := by
  induction l with
  | nil => unfold registerAll; pres
  | cons e l ih => unfold registerAll; pres
instance : Pres Fresh createDefaultScope := by
  unfold createDefaultScope
  refine Pres.bind (fresh_scope rfl rfl) fun sid => ?_
  refine Pres.bind (fresh_mod fun _ => ⟨rfl, rfl⟩) fun _ => ?_
  refine Pres.bind (fresh_scope rfl rfl) fun m => ?_
  refine Pres.bind inferInstance fun mo => ?_
  refine Pres.bind inferInstance fun _ => ?_
  refine Pres.bind (fresh_scope rfl rfl) fun k => ?_
  pres

theorem registerAll_ok (j : Nat) (l : List Entry) (s : St) : ∃ s', registerAll j l s = .ok () s' := by
  induction l generalizing s with
  | nil => exact ⟨s, rfl⟩
  | cons e l ih =>
    obtain ⟨s', h⟩ := ih (register j e s).st
    exact ⟨s', by rw [← h]; rfl⟩

theorem create_ok (s : St) : ∃ s', createDefaultScope s = .ok s.next s' ∧ s.next < s'.next := by
  have h : ∃ s', createDefaultScope s = .ok s.next s' := by
    unfold createDefaultScope
    simp only [M.bind_apply, M.pure_apply, allocScope, modScope, setVar, allocObj, M.modify_apply]
    generalize St.mk _ _ _ _ _ _ _ _ _ _ _ = s1
    obtain ⟨s', h⟩ := registerAll_ok s.next defaultTable s1
    exact ⟨s', by rw [h]⟩
  obtain ⟨s', h⟩ := h
  refine ⟨s', h, ?_⟩
  unfold createDefaultScope at h
  rw [M.bind_apply] at h
  have hs : Pres Fresh (do
    modScope s.next fun sc => { sc with global := s.next }
    let m ← allocScope { name := modulesKey, global := s.next }
    let mo ← allocObj (.scope m)
    setVar s.next modulesKey mo
    let k ← allocScope { name := macrosKey, global := s.next }
    let ko ← allocObj (.scope k)
    setVar s.next macrosKey ko
    let tb ← allocObj (.str [])
    setVar s.next tracebufferKey tb
    let tn ← allocObj (.bool false)
    setVar s.next traceonKey tn
    registerAll s.next defaultTable
    pure s.next : M Nat) := by
    refine Pres.bind (fresh_mod fun _ => ⟨rfl, rfl⟩) fun _ => ?_
    refine Pres.bind (fresh_scope rfl rfl) fun m => ?_
    refine Pres.bind inferInstance fun mo => ?_
    refine Pres.bind inferInstance fun _ => ?_
    refine Pres.bind (fresh_scope rfl rfl) fun k => ?_
    pres
  have := (hs.rel { s with next := s.next + 1, scopes := fset s.scopes s.next { name := c!"<main>" } }).next
  simp only [allocScope] at h
  rw [h] at this
  exact this

/-- C54: a script in a new interpreter only appends to the output. -/
theorem C54_script (k : Nat) (code module : Str) (tracing onlyExpand : Bool) (st : St) :
    st.out <+: (Out.after (lispEvalNew k code module tracing onlyExpand st)).out := by
  obtain ⟨s', h, _⟩ := create_ok st
  have h1 : s'.out = st.out := by
    have := ((inferInstance : Pres Fresh createDefaultScope).rel st).out
    rwa [h] at this
  unfold lispEvalNew
  rw [M.bind_apply, h, ← h1]
  exact C54_scriptIn k code st.next module tracing onlyExpand s'

/-- C54: evaluating code only takes lines from the beginning of the standard input, whatever the outcome. -/
theorem C54_input_eval (k : Nat) (ast : Ptr) (sid : Nat) (st : St) : (Out.after ((run k).eval ast sid st)).input <:+ st.input := by
  rw [after_eq]; exact (Pres2.any (sid := sid) st).input

/-- C54: a script in an existing scope only takes lines from the beginning of the standard input. -/
theorem C54_input_scriptIn (k : Nat) (code : Str) (sid : Nat) (module : Str) (tracing onlyExpand : Bool) (st : St) :
    (Out.after (lispEval (run k) code sid module tracing onlyExpand st)).input <:+ st.input := by
  rw [after_eq]; exact (Pres2.any (sid := sid) st).input

/-- C54: a script in a new interpreter only takes lines from the beginning of the standard input. -/
theorem C54_input (k : Nat) (code module : Str) (tracing onlyExpand : Bool) (st : St) :
    (Out.after (lispEvalNew k code module tracing onlyExpand st)).input <:+ st.input := by
  obtain ⟨s', h, _⟩ := create_ok st
  have h1 : s'.input = st.input := by
    have := ((inferInstance : Pres Fresh createDefaultScope).rel st).input
    rwa [h] at this
  unfold lispEvalNew
  rw [M.bind_apply, h, ← h1]
  exact C54_input_scriptIn k code st.next module tracing onlyExpand s'

theorem prefix_writeErr {outp : Bool} {t : Str} {s : St} : s.out <+: (writeErr outp t s).st.out := by
  cases outp <;> simp [writeErr, writeLine, write, Out.st]

/-- Appending relation. -/
structure Appends (s s' : St) : Prop where
  out : s.out <+: s'.out
instance : Rel Appends where
  refl _ := ⟨List.prefix_refl _⟩
  trans h g := ⟨h.out.trans g.out⟩
  ext h := ⟨h.out ▸ List.prefix_refl _⟩
instance (t : Str) : Pres Appends (write t) := ⟨fun _ => ⟨List.prefix_append _ _⟩⟩
instance (t : Str) : Pres Appends (writeLine t) := inferInstanceAs (Pres Appends (write _))
instance (o : Bool) (t : Str) : Pres Appends (writeErr o t) := by unfold writeErr; pres
instance (t : Str) : Pres Appends (errorValue t) := by unfold errorValue; pres

/-- C54: `SaveEval` only appends to the output. -/
theorem C54_saveEval (k : Nat) (stack : Str) (outp : Bool) (code module : Str) (verbose tracing onlyExpand : Bool) (st : St) :
    st.out <+: (Out.after (saveEval k stack outp code module verbose tracing onlyExpand st)).out := by
  have h := C54_script k code module tracing onlyExpand st
  rw [after_eq] at *
  unfold saveEval
  split
  · rename_i e; rw [e] at h
    exact h.trans (Pres.rel (R := Appends) (m := (_ : M (Option Variant))) (self := by pres) _).out
  · rename_i e; rw [e] at h
    exact h.trans (Pres.rel (R := Appends) (m := (_ : M (Option Variant))) (self := by pres) _).out
  · exact h

end

-- a program that reads one of two lines
example : (Out.after (@lispEvalNew demoWorld 30 c!"(readline)" [] false false { input := [c!"a", c!"b"] })).input = [c!"b"] := by decide +kernel

-- the output "1" of an earlier script stays
example : (Out.after (@lispEvalNew demoWorld 30 c!"(println 2)" [] false false { out := c!"1\n" })).out = c!"1\n2\n" := by decide +kernel

/-! ## C32 Lookup ends -/

section
variable [World]

theorem links_after {α : Type} {sid : Nat} {m : M α} [Pres2 sid m] {st : St} (h : Links st) (hs : sid < st.next) : Links (Out.after (m st)) := by
  rw [after_eq]; exact (Pres2.any (sid := sid) (m := m) st).links hs h

theorem Spec.Reachable.links {st : St} (h : Reachable st) : Links st := by
  induction h with
  | init h0 hs hc => exact ⟨fun i => by simp [hc], fun i c h => by simp [hs] at h, fun i _ => by simp [hs], fun i p h => by simp [hs] at h⟩
  | create _ ih => rw [after_eq]; exact ((inferInstance : Pres Fresh createDefaultScope).rel _).links ih
  | script k code s module t e _ hs ih => exact links_after ih hs
  | eval k ast s _ hs ih => exact links_after ih hs
  | call k f args s _ hs ih => exact links_after ih hs
  | expand k ast s _ hs ih => exact links_after ih hs

theorem enclosing_of_acyclic {st : St} (h : Acyclic st) (s : Nat) : ∃ l, Enclosing st s l ∧ l.Pairwise (· > ·) ∧ ∀ c ∈ l, c < s := by
  induction s using Nat.strongRecOn with
  | ind s ih =>
    cases hc : (st.scopes s).closure with
    | none => exact ⟨[], .nil hc, .nil, by simp⟩
    | some c =>
      have hlt := h s c hc
      obtain ⟨l, h1, h2, h3⟩ := ih c hlt
      refine ⟨c :: l, .cons hc h1, .cons h3 h2, ?_⟩
      intro x hx
      rcases List.mem_cons.1 hx with rfl | hx
      · exact hlt
      · exact Nat.lt_trans (h3 x hx) hlt

/-- C32: in every reachable state (also in the middle of an evaluation) the enclosing scopes of every scope form a finite
sequence without repetitions. -/
theorem C32_chain {st : St} (h : Reachable st) (s : Nat) : ∃ l, Enclosing st s l ∧ l.Nodup ∧ s ∉ l := by
  obtain ⟨l, h1, h2, h3⟩ := enclosing_of_acyclic h.links.old s
  refine ⟨l, h1, h2.imp fun h => Nat.ne_of_gt h, fun hs => Nat.lt_irrefl _ (h3 s hs)⟩

theorem resolve_ends {st : St} (ha : Acyclic st) {n s : Nat} {p : Ptr} {name : Str} (hp : ptrStr st n p = .ok name) :
    resolve st n s p ≠ .error .fuel := by
  obtain ⟨l, he, _⟩ := enclosing_of_acyclic ha s
  have hc := closureFind_some ha (name := name) he (s + 1) (by omega)
  simp only [resolve, hp, bind_ok_R]
  split
  · simp
  · split
    · simp
    · cases hc' : closureFind st name (s + 1) s with
      | error e => rw [hc'] at hc; simp [Except.map] at hc
      | ok c =>
        cases c with
        | some c => simp
        | none =>
          have hm : ∀ l, moduleSearch st name l ≠ .error .fuel := by
            intro l
            induction l with
            | nil => simp [moduleSearch]
            | cons e l ih =>
              obtain ⟨a, q⟩ := e
              cases q with
              | null => simp [moduleSearch, R.ub]
              | mk i o =>
                cases o with
                | scope m => unfold moduleSearch; split <;> simp_all
                | _ => simp [moduleSearch, R.ub]
          have : findInModules st (st.scopes s).global name ≠ .error .fuel := by
            unfold findInModules; split <;> simp_all [R.ub]
          cases hm' : findInModules st (st.scopes s).global name with
          | error e => rw [hm'] at this; simpa [bind_error_R] using this
          | ok r => cases r <;> simp

/-- C32: in every reachable state the evaluation of every symbol ends. -/
theorem C32_lookup_ends {st : St} (h : Reachable st) (s i : Nat) {v : Variant} {name : Str} (hv : IsSym v name) :
    ∃ o, Evals (.mk i (.var v)) s st o := by
  refine ⟨(run 4).eval (.mk i (.var v)) s st, ?_, 4, rfl⟩
  rw [run_eval 3]
  simp only [evalStep, hv.1, if_true, M.bind_apply, box, allocObj, M.rd_apply]
  have hr : resolve { st with next := st.next + 1 } 3 s (.mk st.next (.var v)) ≠ .error .fuel :=
    resolve_ends (st := { st with next := st.next + 1 }) h.links.old (ptrStr_sym (n := 0) hv)
  rw [show (run 3).n = 3 from rfl]
  cases hres : resolve { st with next := st.next + 1 } 3 s (.mk st.next (.var v)) with
  | error e => rw [hres] at hr; intro s' hs; simp only at hs; injection hs with hs; simp [hs] at hr
  | ok p =>
    simp only [M.lift_apply]
    cases p with
    | null => exact ends_ub _ _
    | mk i o => cases o <;> exact ends_ok _ _

end

/-! ## C27 What a name means -/

section
variable [World]

/-- C27: evaluating a name gives what it means: the local variable, otherwise the global variable, otherwise the variable of the
nearest enclosing function, otherwise the variable of a module; and changes nothing.  (`Acyclic st` holds in every
reachable state by C32.) -/
theorem C27_lookup {st : St} (ha : Acyclic st) {s i : Nat} {v : Variant} {name : Str} {p : Ptr} (hv : IsSym v name)
    (hl : Lookup st s name (some p)) (hp : IsElem p) :
    ∃ w st', Evals (.mk i (.var v)) s st (.ok (some w) st') ∧ Denotes p w ∧ Extends st st' := by
  obtain ⟨w, hw, hd⟩ := mkVariant_elem hp
  refine ⟨w, { st with next := st.next + 1 }, ⟨ends_ok _ _, 4, ?_⟩, hd, extends_next _ _ (Nat.le_succ _)⟩
  rw [run_eval 3]
  simp only [evalStep, hv.1, if_true, M.bind_apply, box, allocObj, M.rd_apply]
  have hn : SameNames st { st with next := st.next + 1 } := ⟨fun _ => rfl, fun _ => rfl, fun _ => rfl⟩
  have := resolve_eq (hn.acyclic ha) (n := 3) (e := .mk st.next (.var v)) (ptrStr_sym (n := 0) hv) (hn.lookup hl)
  rw [show (run 3).n = 3 from rfl, this]
  simp [M.lift_apply, hw]

/-- C27: an unknown name evaluates to itself. -/
theorem C27_unknown {st : St} (ha : Acyclic st) {s i : Nat} {v : Variant} {name : Str} (hv : IsSym v name) (hl : Lookup st s name none) :
    ∃ st', Evals (.mk i (.var v)) s st (.ok (some v) st') ∧ Extends st st' := by
  refine ⟨{ st with next := st.next + 1 }, ⟨ends_ok _ _, 4, ?_⟩, extends_next _ _ (Nat.le_succ _)⟩
  rw [run_eval 3]
  simp only [evalStep, hv.1, if_true, M.bind_apply, box, allocObj, M.rd_apply]
  have hn : SameNames st { st with next := st.next + 1 } := ⟨fun _ => rfl, fun _ => rfl, fun _ => rfl⟩
  have := resolve_eq (hn.acyclic ha) (n := 3) (e := .mk st.next (.var v)) (ptrStr_sym (n := 0) hv) (hn.lookup hl)
  rw [show (run 3).n = 3 from rfl, this]
  simp [M.lift_apply, mkVariant]

theorem enclosing_unique {st : St} {s : Nat} {l l' : List Nat} (h : Enclosing st s l) (h' : Enclosing st s l') : l = l' := by
  induction h generalizing l' with
  | nil h1 => cases h' with
    | nil => rfl
    | cons h2 _ => rw [h1] at h2; cases h2
  | cons h1 _ ih => cases h' with
    | nil h2 => rw [h1] at h2; cases h2
    | cons h2 h3 => rw [h1] at h2; cases h2; rw [ih h3]

theorem scopes_unique {l : List (Str × Ptr)} {m m' : List Nat} (h : Scopes l m) (h' : Scopes l m') : m = m' := by
  induction h generalizing m' with
  | nil => cases h'; rfl
  | cons _ ih => cases h' with | cons h' => rw [ih h']

/-- C27: a name means at most one thing. -/
theorem C27_functional {st : St} {s : Nat} {name : Str} {r r' : Option Ptr} (h : Lookup st s name r) (h' : Lookup st s name r') : r = r' := by
  have hm : ∀ m m', Modules st s m → Modules st s m' → m = m' := by
    rintro m m' ⟨i, a, h1, h2⟩ ⟨j, b, h3, h4⟩
    rw [h1] at h3; injection h3 with h3; injection h3 with _ h3; injection h3 with h3; subst h3
    exact scopes_unique h2 h4
  cases h with
  | locally h1 => cases h' <;> simp_all
  | globally h1 h2 => cases h' <;> simp_all
  | enclosing h1 h2 h3 h4 => cases h' with
    | locally g1 => simp_all
    | globally g1 g2 => simp_all
    | enclosing g1 g2 g3 g4 => rw [enclosing_unique h3 g3, g4] at h4; exact h4.symm
    | modules g1 g2 g3 g4 => rw [enclosing_unique h3 g3, g4] at h4; cases h4
  | modules h1 h2 h3 h4 h5 h6 => cases h' with
    | locally g1 => simp_all
    | globally g1 g2 => simp_all
    | enclosing g1 g2 g3 g4 => rw [enclosing_unique h3 g3, g4] at h4; cases h4
    | modules g1 g2 g3 g4 g5 g6 => rw [← h6, ← g6, hm _ _ h5 g5]

/-- C27: in a reachable state in which the table of modules is intact, every name means something or is unknown. -/
theorem C27_total {st : St} (h : Reachable st) {s : Nat} {m : List Nat} (hm : Modules st s m) (name : Str) : ∃ r, Lookup st s name r := by
  obtain ⟨l, hl, _⟩ := C32_chain h s
  cases h1 : binding st s name with
  | some p => exact ⟨_, .locally h1⟩
  | none => cases h2 : binding st (st.scopes s).global name with
    | some p => exact ⟨_, .globally h1 h2⟩
    | none => cases h3 : firstOf st name l with
      | some p => exact ⟨_, .enclosing h1 h2 hl h3⟩
      | none => exact ⟨_, .modules h1 h2 hl h3 hm rfl⟩

end

/-! ## C45 The call stack and the flag for places are restored -/

section
variable [World]

theorem StepOk.restored {sid : Nat} {s s' : St} (h : StepOk sid s s') (hs : sid < s.next) (hn : (s.scopes sid).next = none) {j : Nat} (hj : j < s.next) :
    (s'.scopes j).next = (s.scopes j).next ∧ (s'.scopes j).prev = (s.scopes j).prev ∧ (s'.scopes j).needsLValue = (s.scopes j).needsLValue := by
  by_cases e : j = sid
  · subst e
    exact ⟨by rw [h.stack hs hn, hn], h.prev hs j hj, h.flag hs⟩
  · have := h.other hs j hj e
    exact ⟨this.next, this.prev, this.needsLValue⟩

/-- C45: if an evaluation in a scope that calls nobody at the moment returns normally, then afterwards every scope that existed before
has the same caller, the same called scope and the same place flag as before. -/
theorem C45_eval {k : Nat} {ast : Ptr} {sid : Nat} {st st' : St} {v : Option Variant} (h : (run k).eval ast sid st = .ok v st')
    (hs : sid < st.next) (hn : (st.scopes sid).next = none) (j : Nat) (hj : j < st.next) :
    (st'.scopes j).next = (st.scopes j).next ∧ (st'.scopes j).prev = (st.scopes j).prev ∧
    (st'.scopes j).needsLValue = (st.scopes j).needsLValue := (Pres2.ok h).restored hs hn hj

/-- C45: the same for function calls. -/
theorem C45_call {k : Nat} {f : FnW} {args : List Ptr} {sid : Nat} {st st' : St} {v : Option Variant}
    (h : (run k).call f args sid st = .ok v st') (hs : sid < st.next) (hn : (st.scopes sid).next = none) (j : Nat) (hj : j < st.next) :
    (st'.scopes j).next = (st.scopes j).next ∧ (st'.scopes j).prev = (st.scopes j).prev ∧
    (st'.scopes j).needsLValue = (st.scopes j).needsLValue := (Pres2.ok (sid := sid) h).restored hs hn hj

/-- C45: the same for scripts. -/
theorem C45_script {k : Nat} {code module : Str} {tr ex : Bool} {sid : Nat} {st st' : St} {v : Option Variant}
    (h : lispEval (run k) code sid module tr ex st = .ok v st') (hs : sid < st.next) (hn : (st.scopes sid).next = none) (j : Nat) (hj : j < st.next) :
    (st'.scopes j).next = (st.scopes j).next ∧ (st'.scopes j).prev = (st.scopes j).prev ∧
    (st'.scopes j).needsLValue = (st.scopes j).needsLValue := (Pres2.ok h).restored hs hn hj

end

-- a call of a user-defined function returns normally from a scope without a called scope
example : ∃ sid st v st', createDefaultScope {} = .ok sid st ∧ sid < st.next ∧ (st.scopes sid).next = none ∧
    @lispEval demoWorld (@run demoWorld 60) c!"(defn f (x) (* x x)) (f 3)" sid [] false false st = .ok v st' := by
  have h : (match createDefaultScope {} with
    | .ok sid st => decide (sid < st.next) && (st.scopes sid).next.isNone &&
      (match @lispEval demoWorld (@run demoWorld 60) c!"(defn f (x) (* x x)) (f 3)" sid [] false false st with
      | .ok _ _ => true | _ => false)
    | _ => false) = true := by decide +kernel
  cases hc : createDefaultScope {} with
  | fail f s => rw [hc] at h; cases h
  | ok sid st =>
    rw [hc] at h
    simp only [Bool.and_eq_true, decide_eq_true_eq, Option.isNone_iff_eq_none] at h
    refine ⟨sid, st, ?_⟩
    cases ho : @lispEval demoWorld (@run demoWorld 60) c!"(defn f (x) (* x x)) (f 3)" sid [] false false st with
    | ok v s => exact ⟨v, s, rfl, h.1.1, h.1.2, rfl⟩
    | fail f s => rw [ho] at h; simp at h

/-- C45: after an exception inside a function the caller still refers to the abandoned scope. -/
theorem C45_exception_wrong : ∃ code sid st e st', createDefaultScope {} = .ok sid st ∧
    @lispEval demoWorld (@run demoWorld 60) code sid [] false false st = .fail (.exn e) st' ∧
    (st.scopes sid).next = none ∧ (st'.scopes sid).next ≠ none := by
  refine ⟨c!"(defn f () (first 1)) (f)", ?_⟩
  have h : (match createDefaultScope {} with
    | .ok sid st => (st.scopes sid).next.isNone &&
      (match @lispEval demoWorld (@run demoWorld 60) c!"(defn f () (first 1)) (f)" sid [] false false st with
      | .fail (.exn _) s => (s.scopes sid).next.isSome | _ => false)
    | _ => false) = true := by decide +kernel
  cases hc : createDefaultScope {} with
  | fail f s => rw [hc] at h; cases h
  | ok sid st =>
    rw [hc] at h
    simp only [Bool.and_eq_true, Option.isNone_iff_eq_none] at h
    refine ⟨sid, st, ?_⟩
    cases ho : @lispEval demoWorld (@run demoWorld 60) c!"(defn f () (first 1)) (f)" sid [] false false st with
    | ok v s => rw [ho] at h; simp at h
    | fail f s =>
      rw [ho] at h
      cases f with
      | exn e => exact ⟨e, s, rfl, rfl, h.1, by intro hn; simp [hn] at h⟩
      | _ => simp at h

/-- C45: after an exception during the evaluation of a place in an assignment the place flag stays set, so that `first` returns a
place instead of the value. -/
theorem C45_flag_wrong : ∃ code sid st e st', createDefaultScope {} = .ok sid st ∧
    @lispEval demoWorld (@run demoWorld 60) code sid [] false false st = .fail (.exn e) st' ∧
    (st.scopes sid).needsLValue = false ∧ (st'.scopes sid).needsLValue = true := by
  refine ⟨c!"(setf (first) 2)", ?_⟩
  have h : (match createDefaultScope {} with
    | .ok sid st => !(st.scopes sid).needsLValue &&
      (match @lispEval demoWorld (@run demoWorld 60) c!"(setf (first) 2)" sid [] false false st with
      | .fail (.exn _) s => (s.scopes sid).needsLValue | _ => false)
    | _ => false) = true := by decide +kernel
  cases hc : createDefaultScope {} with
  | fail f s => rw [hc] at h; cases h
  | ok sid st =>
    rw [hc] at h
    simp only [Bool.and_eq_true, Bool.not_eq_true'] at h
    refine ⟨sid, st, ?_⟩
    cases ho : @lispEval demoWorld (@run demoWorld 60) c!"(setf (first) 2)" sid [] false false st with
    | ok v s => rw [ho] at h; simp at h
    | fail f s =>
      rw [ho] at h
      cases f with
      | exn e => exact ⟨e, s, rfl, rfl, h.1, h.2⟩
      | _ => simp at h

/-! ## C39 return affects only the current function call -/

section
variable [World]

/-- C39: a call of a user-defined function, whatever its outcome, leaves the "return was executed" mark of every existing scope (the caller's
scope in particular) as it was: the caller's block goes on after the call. -/
theorem C39_call {k : Nat} {w : FnW} {cid : Nat} (hw : w.kind = .closure cid) (args : List Ptr) {sid : Nat} {st : St} (hs : sid < st.next)
    (j : Nat) (hj : j < st.next) :
    ((Out.after ((run k).call w args sid st)).scopes j).isInReturn = (st.scopes j).isInReturn := by
  rw [after_eq]
  have hstep := Pres2.any (sid := sid) (m := (run k).call w args sid) st
  by_cases e : j = sid
  · subst e
    cases k with
    | zero => rfl
    | succ k =>
      rw [run_call]
      simp only [callStep, hw, callClosure, M.bind_apply, M.get_apply]
      have := inScope_rel (sid := j) (P := (st.clos cid).scope < st.next) st (body := callBody (run k) (st.clos cid) args)
        (sc := mkScope st (st.clos cid).name (st.scopes j).global (st.clos cid).module) inferInstance (fun hs h => by have := h.clos cid; omega) rfl rfl
      simp only [M.bind_apply] at this
      split at this
      · rename_i heq
        simp only [heq, Out.st]
        rw [← show _ = _ from this.2 hs]
      · rename_i heq
        simp only [heq, Out.st]
        exact this.2 hs
  · have := hstep.other hs j hj e
    rw [← show _ = _ from this]

end

-- the caller goes on after the call
example : (Out.after (@lispEvalNew demoWorld 60 c!"(defn f () (do (return 1) (println 2))) (f) (println 3)" [] false false {})).out = c!"3\n" := by
  decide +kernel

/-- The output after a list of scripts on the scope of a new interpreter. -/
def demoScripts (codes : List Str) : Str :=
  match createDefaultScope {} with
  | .ok sid st => go sid codes st
  | .fail _ _ => []
where
  /-- the scripts that are left -/
  go (sid : Nat) : List Str → St → Str
    | [], st => st.out
    | c :: t, st => match @lispEval demoWorld (@run demoWorld 60) c sid [] false false st with
      | .ok _ st' => go sid t st'
      | .fail _ st' => st'.out

/-- C39: after a return at top level, every later script on the same scope stops after its first statement. -/
theorem C39_toplevel_wrong : demoScripts [c!"(println 1) (println 2)"] = c!"1\n2\n" ∧
    demoScripts [c!"(return 1)", c!"(println 1) (println 2)"] = c!"1\n" := by
  decide +kernel

end Fuel
