import Verif.PropsValid
import Verif.SpecFrame
/-!
# C89: programs change only what they can reach, and interpreters are independent of each other
-/

set_option linter.unusedSectionVars false
set_option linter.unusedVariables false

namespace Fuel

open Spec Classical

section
variable [World]

/-- The place agrees with the layout. -/
def PlaceOk (L : Layout) : Place → Prop
  | .ref p => RefOk L p
  | .vec i => L i = some .vec
  | .env i => L i = some .closure
  | .scope i => L i = some .scope

theorem placeOk_mono {L L' : Layout} (h : L.Grows L') {x : Place} (hx : PlaceOk L x) : PlaceOk L' x := by
  cases x with
  | ref p => exact refOk_mono h hx
  | vec i => exact h _ _ hx
  | env i => exact h _ _ hx
  | scope i => exact h _ _ hx

theorem placeOk_known {L : Layout} {x : Place} (hx : PlaceOk L x) {i : Nat} (hi : x.num = some i) : L i ≠ none := by
  cases x with
  | ref p =>
    cases p with
    | null => cases hi
    | mk j o => cases hi; intro h; simp only [PlaceOk, RefOk] at hx; rw [hx] at h; cases h
  | vec j => cases hi; intro h; simp only [PlaceOk] at hx; rw [hx] at h; cases h
  | env j => cases hi; intro h; simp only [PlaceOk] at hx; rw [hx] at h; cases h
  | scope j => cases hi; intro h; simp only [PlaceOk] at hx; rw [hx] at h; cases h

theorem leads_ok {L : Layout} {st : St} (h : StateOk L st) {x y : Place} (hl : Leads st x y) (hx : PlaceOk L x) : PlaceOk L y := by
  cases hl with
  | value => exact (h.objs _ _ hx).1
  | element hp => exact h.lists _ (.inl hx) _ hp
  | key he => exact (h.dicts _ hx _ he).1.1
  | entry he => exact (h.dicts _ hx _ he).2
  | function hf => exact h.objs _ _ hx _ hf
  | lvalue => exact h.objs _ _ hx
  | module => exact h.objs _ _ hx
  | macroRtParams => exact (h.objs _ _ hx).1
  | macroRtBody => exact (h.objs _ _ hx).2
  | macroCtParams => exact (h.objs _ _ hx).1
  | macroCtBody => exact (h.objs _ _ hx).2
  | vector hp => exact h.lists _ (.inr hx) _ hp
  | code hp => exact (h.clos _ hx).1 _ hp
  | definedIn => exact (h.clos _ hx).2
  | «variable» he => exact (h.scopes _ hx).vars _ he
  | «global» => exact (h.scopes _ hx).global
  | closure hc => exact (h.scopes _ hx).closure _ hc
  | callee hc => exact (h.scopes _ hx).next _ hc
  | caller hc => exact (h.scopes _ hx).prev _ hc

theorem reach_ok {L : Layout} {st : St} (h : StateOk L st) {R : Place → Prop} (hr : ∀ x, R x → PlaceOk L x) {x : Place} (hx : Reach st R x) : PlaceOk L x := by
  induction hx with
  | root h => exact hr _ h
  | step _ hl ih => exact leads_ok h hl ih

theorem leads_untouched {st st' : St} {x y : Place} (h : ∀ i, x.num = some i → Untouched st st' i) : Leads st' x y ↔ Leads st x y := by
  constructor
  · intro hl
    cases hl with
    | value => exact .value
    | element hp => exact .element ((h _ rfl).lists ▸ hp)
    | key he => exact .key ((h _ rfl).dicts ▸ he)
    | entry he => exact .entry ((h _ rfl).dicts ▸ he)
    | function hf => exact .function hf
    | lvalue => exact .lvalue
    | module => exact .module
    | macroRtParams => exact .macroRtParams
    | macroRtBody => exact .macroRtBody
    | macroCtParams => exact .macroCtParams
    | macroCtBody => exact .macroCtBody
    | vector hp => exact .vector ((h _ rfl).lists ▸ hp)
    | code hp => exact .code ((h _ rfl).clos ▸ hp)
    | definedIn => rw [(h _ rfl).clos]; exact .definedIn
    | «variable» he => exact .variable ((h _ rfl).scopes ▸ he)
    | «global» => rw [(h _ rfl).scopes]; exact .global
    | closure hc => exact .closure ((h _ rfl).scopes ▸ hc)
    | callee hc => exact .callee ((h _ rfl).scopes ▸ hc)
    | caller hc => exact .caller ((h _ rfl).scopes ▸ hc)
  · intro hl
    cases hl with
    | value => exact .value
    | element hp => exact .element ((h _ rfl).lists.symm ▸ hp)
    | key he => exact .key ((h _ rfl).dicts.symm ▸ he)
    | entry he => exact .entry ((h _ rfl).dicts.symm ▸ he)
    | function hf => exact .function hf
    | lvalue => exact .lvalue
    | module => exact .module
    | macroRtParams => exact .macroRtParams
    | macroRtBody => exact .macroRtBody
    | macroCtParams => exact .macroCtParams
    | macroCtBody => exact .macroCtBody
    | vector hp => exact .vector ((h _ rfl).lists.symm ▸ hp)
    | code hp => exact .code ((h _ rfl).clos.symm ▸ hp)
    | definedIn => rw [← (h _ rfl).clos]; exact .definedIn
    | «variable» he => exact .variable ((h _ rfl).scopes.symm ▸ he)
    | «global» => rw [← (h _ rfl).scopes]; exact .global
    | closure hc => exact .closure ((h _ rfl).scopes.symm ▸ hc)
    | callee hc => exact .callee ((h _ rfl).scopes.symm ▸ hc)
    | caller hc => exact .caller ((h _ rfl).scopes.symm ▸ hc)

theorem looksSame_of {st st' : St} {R : Place → Prop} (h : ∀ x i, Reach st R x → x.num = some i → Untouched st st' i) : LooksSame st R st' := by
  refine ⟨h, fun x => ⟨fun hx => ?_, fun hx => ?_⟩⟩
  · induction hx with
    | root hr => exact .root hr
    | step _ hl ih => exact .step ih ((leads_untouched fun i hi => h _ i ih hi).1 hl)
  · induction hx with
    | root hr => exact .root hr
    | step hx hl ih => exact .step ih ((leads_untouched fun i hi => h _ i hx hi).2 hl)

/-! ## The part of a layout that can be reached -/

/-- The part of a layout that can be reached. -/
noncomputable def within (L : Layout) (st : St) (R : Place → Prop) : Layout := fun i => if ∃ x, Reach st R x ∧ x.num = some i then L i else none

theorem within_some {L : Layout} {st : St} {R : Place → Prop} {i : Nat} {k : Kind} (h : within L st R i = some k) : L i = some k ∧ ∃ x, Reach st R x ∧ x.num = some i := by
  unfold within at h
  split at h
  · exact ⟨h, by assumption⟩
  · cases h

theorem within_ok {L : Layout} {st : St} {R : Place → Prop} {x : Place} (hx : Reach st R x) (h : PlaceOk L x) : PlaceOk (within L st R) x := by
  cases x with
  | ref p =>
    cases p with
    | null => trivial
    | mk i o => simp only [PlaceOk, RefOk, within] at h ⊢; rw [if_pos ⟨_, hx, rfl⟩]; exact h
  | vec i => simp only [PlaceOk, within] at h ⊢; rw [if_pos ⟨_, hx, rfl⟩]; exact h
  | env i => simp only [PlaceOk, within] at h ⊢; rw [if_pos ⟨_, hx, rfl⟩]; exact h
  | scope i => simp only [PlaceOk, within] at h ⊢; rw [if_pos ⟨_, hx, rfl⟩]; exact h

/-- The place that is known to the layout under a number. -/
theorem place_obj {L : Layout} {x : Place} {i : Nat} {o : Obj} (h : PlaceOk L x) (hi : x.num = some i) (hl : L i = some (.obj o)) : x = .ref (.mk i o) := by
  cases x with
  | ref p =>
    cases p with
    | null => cases hi
    | mk j o' => cases hi; simp only [PlaceOk, RefOk] at h; rw [h] at hl; cases hl; rfl
  | vec j => cases hi; simp only [PlaceOk] at h; rw [h] at hl; cases hl
  | env j => cases hi; simp only [PlaceOk] at h; rw [h] at hl; cases hl
  | scope j => cases hi; simp only [PlaceOk] at h; rw [h] at hl; cases hl
theorem place_vec {L : Layout} {x : Place} {i : Nat} (h : PlaceOk L x) (hi : x.num = some i) (hl : L i = some .vec) : x = .vec i := by
  cases x with
  | ref p =>
    cases p with
    | null => cases hi
    | mk j o' => cases hi; simp only [PlaceOk, RefOk] at h; rw [h] at hl; cases hl
  | vec j => cases hi; rfl
  | env j => cases hi; simp only [PlaceOk] at h; rw [h] at hl; cases hl
  | scope j => cases hi; simp only [PlaceOk] at h; rw [h] at hl; cases hl
theorem place_env {L : Layout} {x : Place} {i : Nat} (h : PlaceOk L x) (hi : x.num = some i) (hl : L i = some .closure) : x = .env i := by
  cases x with
  | ref p =>
    cases p with
    | null => cases hi
    | mk j o' => cases hi; simp only [PlaceOk, RefOk] at h; rw [h] at hl; cases hl
  | vec j => cases hi; simp only [PlaceOk] at h; rw [h] at hl; cases hl
  | env j => cases hi; rfl
  | scope j => cases hi; simp only [PlaceOk] at h; rw [h] at hl; cases hl
theorem place_scope {L : Layout} {x : Place} {i : Nat} (h : PlaceOk L x) (hi : x.num = some i) (hl : L i = some .scope) : x = .scope i := by
  cases x with
  | ref p =>
    cases p with
    | null => cases hi
    | mk j o' => cases hi; simp only [PlaceOk, RefOk] at h; rw [h] at hl; cases hl
  | vec j => cases hi; simp only [PlaceOk] at h; rw [h] at hl; cases hl
  | env j => cases hi; simp only [PlaceOk] at h; rw [h] at hl; cases hl
  | scope j => cases hi; rfl

/-- The reachable part of a valid state is valid by itself. -/
theorem within_state {L : Layout} {st : St} (h : StateOk L st) {R : Place → Prop} (hr : ∀ x, R x → PlaceOk L x) : StateOk (within L st R) st := by
  have ok : ∀ {x}, Reach st R x → PlaceOk (within L st R) x := fun hx => within_ok hx (reach_ok h hr hx)
  refine ⟨fun i hi => ?_, h.blank, fun i o hi => ?_, fun i hi p hp => ?_, fun i hi e he => ?_, fun i hi => ?_, fun i hi => ?_⟩
  · cases e : within L st R i with
    | none => rfl
    | some k => have := (within_some e).1; rw [h.fresh i hi] at this; cases this
  · obtain ⟨h1, x, h2, h3⟩ := within_some hi
    have := place_obj (reach_ok h hr h2) h3 h1
    subst this
    have h4 := h.objs i o h1
    cases o with
    | int x => exact h4
    | fn f => exact fun c hc => ok (.step h2 (.function hc))
    | lval t k => exact ok (.step h2 .lvalue)
    | scope s => exact ok (.step h2 .module)
    | macroRt a b => exact ⟨ok (.step h2 .macroRtParams), ok (.step h2 .macroRtBody)⟩
    | macroCt a b => exact ⟨ok (.step h2 .macroCtParams), ok (.step h2 .macroCtBody)⟩
    | var v => exact ⟨ok (.step h2 .value), h4.2⟩
    | _ => trivial
  · rcases hi with hi | hi
    · obtain ⟨h1, x, h2, h3⟩ := within_some hi
      have := place_obj (reach_ok h hr h2) h3 h1
      subst this
      exact ok (.step h2 (.element hp))
    · obtain ⟨h1, x, h2, h3⟩ := within_some hi
      have := place_vec (reach_ok h hr h2) h3 h1
      subst this
      exact ok (.step h2 (.vector hp))
  · obtain ⟨h1, x, h2, h3⟩ := within_some hi
    have := place_obj (reach_ok h hr h2) h3 h1
    subst this
    exact ⟨⟨ok (.step h2 (.key he)), (h.dicts i h1 e he).1.2⟩, ok (.step h2 (.entry he))⟩
  · obtain ⟨h1, x, h2, h3⟩ := within_some hi
    have := place_env (reach_ok h hr h2) h3 h1
    subst this
    exact ⟨fun p hp => ok (.step h2 (.code hp)), ok (.step h2 .definedIn)⟩
  · obtain ⟨h1, x, h2, h3⟩ := within_some hi
    have := place_scope (reach_ok h hr h2) h3 h1
    subst this
    exact ⟨(h.scopes i h1).names, fun e he => ok (.step h2 (.variable he)), ok (.step h2 .global), fun c hc => ok (.step h2 (.closure hc)),
      fun c hc => ok (.step h2 (.callee hc)), fun c hc => ok (.step h2 (.caller hc))⟩

/-- A layout, with all that it does not know frozen. -/
def layOf (L : Layout) (st : St) (h : StateOk L st) : Lay := ⟨L, h.objs, fun i => i < st.next ∧ L i = none, st, fun _ h => h.2⟩

theorem layOf_ok {L : Layout} {st : St} (h : StateOk L st) : Ok (layOf L st h) st :=
  ⟨⟨h.fresh, h.blank, h.lists, h.dicts, h.clos, h.scopes, fun i hi => ⟨hi.1, rfl, rfl, rfl, rfl⟩⟩⟩

/-- What a computation does if it knows only the part of the state that is in the layout. -/
structure Stays (L : Layout) (st : St) (L' : Layout) (st' : St) : Prop where
  grows : L.Grows L'
  ok : StateOk L' st'
  same : ∀ i, i < st.next → L i = none → i < st'.next ∧ L' i = none ∧ Untouched st st' i

theorem stays_of {L : Layout} {st st' : St} {h : StateOk L st} {w' : Lay} (hx : Ext (layOf L st h) w') (ho : Ok w' st') : Stays L st w'.k st' :=
  ⟨hx.grows, ho.state, fun i h1 h2 => by
    have hf : w'.frozen i := by rw [hx.frozen]; exact ⟨h1, h2⟩
    obtain ⟨a, b, c, d, e⟩ := ho.ok.frame i hf
    rw [hx.old] at b c d e
    exact ⟨a, w'.apart i hf, ⟨b, c, d, e⟩⟩⟩

theorem stays_safe {α : Type} [HasGood α] {L : Layout} {st : St} (h : StateOk L st) {m : M α} (hm : ∀ w : Lay, w.k = L → Safe w m) : ∃ L', Stays L st L' (Out.after (m st)) := by
  have := (hm (layOf L st h) rfl).ok st (layOf_ok h)
  generalize m st = o at this
  cases o with
  | ok a s => obtain ⟨w', a, b, _⟩ := this; exact ⟨_, stays_of a b⟩
  | fail f s => obtain ⟨w', a, b⟩ := this; exact ⟨_, stays_of a b⟩

theorem changesOnly_of {α : Type} [HasGood α] {L : Layout} {st : St} (h : StateOk L st) {R : Place → Prop} (hr : ∀ x, R x → PlaceOk L x) {m : M α}
    (hm : ∀ w : Lay, (∀ x, R x → PlaceOk w.k x) → Safe w m) : ChangesOnly st R (Out.after (m st)) := by
  have h1 := within_state h hr
  obtain ⟨L', h2⟩ := stays_safe h1 (m := m) fun w e => hm w fun x hx => by rw [e]; exact within_ok (.root hx) (hr x hx)
  intro i hi hn
  have : within L st R i = none := by
    unfold within
    rw [if_neg]
    rintro ⟨x, hx, h3⟩
    exact hn x hx h3
  exact (h2.same i hi this).2.2

/-! ## Programs change only what they can reach -/

/-- C89: a script that runs in an interpreter changes only what can be reached from the scope of this interpreter (and what it creates), also if it fails. -/
theorem C89_script {st : St} {l : List Nat} (h : Session st l) {s : Nat} (hs : s ∈ l) (k : Nat) (code module : Str) (tracing onlyExpand : Bool) :
    ChangesOnly st (· = .scope s) (Out.after (lispEval (run k) code s module tracing onlyExpand st)) := by
  obtain ⟨L, h1, h2⟩ := C34_session h
  exact changesOnly_of h1 (fun x e => by subst e; exact h2 s hs) fun w hw => by
    have : Is w s .scope := ⟨hw _ rfl⟩
    infer_instance

/-- C89: the same under the debugger, whatever the user enters where the program stops. -/
theorem C89_debug {st : St} {l : List Nat} (h : Session st l) {s : Nat} (hs : s ∈ l) (k : Nat) (code module : Str) (tracing onlyExpand : Bool) :
    ChangesOnly st (· = .scope s) (Out.after (lispEval (runD k) code s module tracing onlyExpand st)) := by
  obtain ⟨L, h1, h2⟩ := C34_session h
  exact changesOnly_of h1 (fun x e => by subst e; exact h2 s hs) fun w hw => by
    have : Is w s .scope := ⟨hw _ rfl⟩
    infer_instance

/-- C89: evaluating code in a scope changes only what can be reached from the scope and the code. -/
theorem C89_eval {L : Layout} {st : St} (h : StateOk L st) {ast : Ptr} (ha : RefOk L ast) {s : Nat} (hs : L s = some .scope) (k : Nat) :
    ChangesOnly st (fun x => x = .scope s ∨ x = .ref ast) (Out.after ((run k).eval ast s st)) :=
  changesOnly_of h (fun x e => by rcases e with rfl | rfl; exact hs; exact ha) fun w hw => by
    have : Is w s .scope := ⟨hw _ (.inl rfl)⟩
    have : Good w ast := ⟨hw _ (.inr rfl)⟩
    infer_instance

/-- C89: calling a function changes only what can be reached from the captured variables of the function, the arguments and the scope of the caller. -/
theorem C89_call {L : Layout} {st : St} (h : StateOk L st) {f : FnW} (hf : FnOk L f) {args : List Ptr} (ha : ∀ p ∈ args, RefOk L p) {s : Nat}
    (hs : L s = some .scope) (k : Nat) :
    ChangesOnly st (fun x => x = .scope s ∨ (∃ c, f.kind = .closure c ∧ x = .env c) ∨ ∃ p ∈ args, x = .ref p) (Out.after ((run k).call f args s st)) :=
  changesOnly_of h (fun x e => by
    rcases e with rfl | ⟨c, hc, rfl⟩ | ⟨p, hp, rfl⟩
    · exact hs
    · exact hf c hc
    · exact ha p hp) fun w hw => by
    have : Is w s .scope := ⟨hw _ (.inl rfl)⟩
    have : Good w f := ⟨fun c hc => hw _ (.inr (.inl ⟨c, hc, rfl⟩))⟩
    have : Good w args := ⟨fun p hp => hw _ (.inr (.inr ⟨p, hp, rfl⟩))⟩
    infer_instance

/-! ## A new interpreter -/

theorem nothing_ok {L : Layout} {st : St} (h : StateOk L st) : StateOk (fun _ => none) st :=
  ⟨fun _ _ => rfl, h.blank, fun _ _ e => (by cases e), fun _ e => (by rcases e with e | e <;> cases e), fun _ e => (by cases e), fun _ e => (by cases e), fun _ e => (by cases e)⟩

/-- C89: creating an interpreter changes nothing that exists. -/
theorem C89_create {st : St} {l : List Nat} (h : Session st l) {s : Nat} {st' : St} (hc : createDefaultScope st = .ok s st') :
    st.next ≤ s ∧ ∀ i, i < st.next → Untouched st st' i := by
  obtain ⟨L, h1, _⟩ := C34_session h
  have h0 : Safe (layOf _ st (nothing_ok h1)) _ := create_safe
  generalize createDefaultScope = c at h0 hc
  have := safe_id h0 st (layOf_ok _)
  rw [hc] at this
  obtain ⟨w', a, b, c⟩ := this
  have hs := stays_of a b
  refine ⟨Nat.le_of_not_lt fun hl => ?_, fun i hi => (hs.same i hi rfl).2.2⟩
  have := (hs.same s hl rfl).2.1
  rw [c.ok] at this
  cases this

/-- C89: a script that runs in an interpreter of its own changes nothing that existed before. -/
theorem C89_save {st : St} {l : List Nat} (h : Session st l) (k : Nat) (stack : Str) (outp : Bool) (code module : Str) (verbose tracing onlyExpand : Bool) :
    ∀ i, i < st.next → Untouched st (Out.after (saveEval k stack outp code module verbose tracing onlyExpand st)) i := by
  obtain ⟨L, h1, _⟩ := C34_session h
  obtain ⟨L', h2⟩ := stays_safe (nothing_ok h1) (m := saveEval k stack outp code module verbose tracing onlyExpand) fun w _ => inferInstance
  exact fun i hi => (h2.same i hi rfl).2.2

/-- C89: the program `fuel`, with whatever arguments and input, changes nothing that existed before. -/
theorem C89_program {st : St} {l : List Nat} (h : Session st l) (k : Nat) (stack : Str) (hasDebugger : Bool) (args : List Str) :
    ∀ i, i < st.next → Untouched st (Out.after (mainExtended k stack hasDebugger args st)) i := by
  obtain ⟨L, h1, _⟩ := C34_session h
  obtain ⟨L', h2⟩ := stays_safe (nothing_ok h1) (m := mainExtended k stack hasDebugger args) fun w _ => inferInstance
  exact fun i hi => (h2.same i hi rfl).2.2

/-! ## Interpreters are independent -/

/-- Each interpreter has a part of the state for itself. -/
structure Parts (st : St) (l : List Nat) (P : Nat → Layout) : Prop where
  ok : ∀ s ∈ l, StateOk (P s) st
  scope : ∀ s ∈ l, P s s = some .scope
  apart : ∀ s ∈ l, ∀ t ∈ l, s ≠ t → ∀ i, P s i ≠ none → P t i = none

/-- A layout of another part stays valid. -/
theorem other_ok {L L' K : Layout} {st st' : St} (h : Stays L st L' st') (hk : StateOk K st) (hd : ∀ i, K i ≠ none → L i = none) : StateOk K st' := by
  have lt : ∀ i, K i ≠ none → i < st.next := fun i hi => Nat.lt_of_not_le fun hn => hi (hk.fresh i hn)
  have un : ∀ i, K i ≠ none → Untouched st st' i := fun i hi => (h.same i (lt i hi) (hd i hi)).2.2
  refine ⟨fun i hi => ?_, h.ok.blank, hk.objs, fun i hi => ?_, fun i hi => ?_, fun i hi => ?_, fun i hi => ?_⟩
  · cases e : K i with
    | none => rfl
    | some k =>
      have he : K i ≠ none := by rw [e]; simp
      have := (h.same i (lt i he) (hd i he)).1
      omega
  · rw [(un i (by rcases hi with hi | hi <;> simp [hi])).lists]; exact hk.lists i hi
  · rw [(un i (by simp [hi])).dicts]; exact hk.dicts i hi
  · rw [(un i (by simp [hi])).clos]; exact hk.clos i hi
  · rw [(un i (by simp [hi])).scopes]; exact hk.scopes i hi

/-- A step in one interpreter. -/
theorem Parts.step {st st' : St} {l : List Nat} {P : Nat → Layout} (h : Parts st l P) {s : Nat} (hs : s ∈ l) {L' : Layout} (hx : Stays (P s) st L' st') :
    Parts st' l (fun t => if t = s then L' else P t) := by
  have dis : ∀ t ∈ l, t ≠ s → ∀ i, P t i ≠ none → L' i = none := fun t ht hn i hi =>
    (hx.same i (Nat.lt_of_not_le fun hle => hi ((h.ok t ht).fresh i hle)) (h.apart t ht s hs hn i hi)).2.1
  refine ⟨fun t ht => ?_, fun t ht => ?_, fun t ht u hu hn i hi => ?_⟩
  · by_cases e : t = s
    · simp only [e, if_true]; exact hx.ok
    · simp only [e, if_false]; exact other_ok hx (h.ok t ht) fun i hi => h.apart t ht s hs e i hi
  · by_cases e : t = s
    · subst e; simp only [if_true]; exact hx.grows _ _ (h.scope t ht)
    · simp only [e, if_false]; exact h.scope t ht
  · by_cases e : t = s
    · subst e
      have e' : u ≠ t := fun e => hn e.symm
      simp only [if_true] at hi
      simp only [e', if_false]
      exact Classical.byContradiction fun hu' => hi (dis u hu e' i hu')
    · simp only [e, if_false] at hi
      by_cases e' : u = s
      · simp only [e', if_true]; exact dis t ht e i hi
      · simp only [e', if_false]; exact h.apart t ht u hu hn i hi

/-- A step outside of the interpreters. -/
theorem Parts.outer {st st' : St} {l : List Nat} {P : Nat → Layout} (h : Parts st l P) {L' : Layout} (hx : Stays (fun _ => none) st L' st') : Parts st' l P :=
  ⟨fun t ht => other_ok hx (h.ok t ht) fun _ _ => rfl, h.scope, h.apart⟩

theorem parts_session {st : St} {l : List Nat} (h : Session st l) : ∃ P, Parts st l P := by
  induction h with
  | init h1 h2 h3 => exact ⟨fun _ _ => none, ⟨by simp, by simp, by simp⟩⟩
  | @create st l s st' hss hc ih =>
    obtain ⟨P, hp⟩ := ih
    obtain ⟨L, h1, _⟩ := C34_session hss
    have h0 : Safe (layOf _ st (nothing_ok h1)) _ := create_safe
    generalize createDefaultScope = c at h0 hc
    have := safe_id h0 st (layOf_ok _)
    rw [hc] at this
    obtain ⟨w', a, b, c⟩ := this
    have hx := stays_of a b
    have hp' := hp.outer hx
    have dis : ∀ t ∈ l, ∀ i, P t i ≠ none → w'.k i = none := fun t ht i hi =>
      (hx.same i (Nat.lt_of_not_le fun hle => hi ((hp.ok t ht).fresh i hle)) rfl).2.1
    have hne : ∀ t ∈ l, t ≠ s := fun t ht e => by
      subst e
      have := dis t ht t (by rw [hp.scope t ht]; simp)
      rw [c.ok] at this
      cases this
    refine ⟨fun t => if t = s then w'.k else P t, fun t ht => ?_, fun t ht => ?_, fun t ht u hu hn i hi => ?_⟩
    · rcases List.mem_cons.1 ht with rfl | ht
      · simp only [if_true]; exact hx.ok
      · simp only [hne t ht, if_false]; exact hp'.ok t ht
    · rcases List.mem_cons.1 ht with rfl | ht
      · simp only [if_true]; exact c.ok
      · simp only [hne t ht, if_false]; exact hp'.scope t ht
    · rcases List.mem_cons.1 ht with rfl | ht'
      · rcases List.mem_cons.1 hu with rfl | hu'
        · exact (hn rfl).elim
        · simp only [if_true] at hi
          simp only [hne u hu', if_false]
          exact Classical.byContradiction fun he => hi (dis u hu' i he)
      · simp only [hne t ht', if_false] at hi
        rcases List.mem_cons.1 hu with rfl | hu'
        · simp only [if_true]; exact dis t ht' i hi
        · simp only [hne u hu', if_false]; exact hp.apart t ht' u hu' hn i hi
  | @script _ _ s k code module tracing onlyExpand _ hs ih =>
    obtain ⟨P, hp⟩ := ih
    obtain ⟨L', hx⟩ := stays_safe (hp.ok _ hs) (m := lispEval (run k) code s module tracing onlyExpand) fun w e => by
      have : Is w _ .scope := ⟨by rw [e]; exact hp.scope _ hs⟩
      infer_instance
    exact ⟨_, hp.step hs hx⟩
  | save k stack outp code module verbose tracing onlyExpand hss ih =>
    obtain ⟨P, hp⟩ := ih
    obtain ⟨L, h1, _⟩ := C34_session hss
    obtain ⟨L', hx⟩ := stays_safe (nothing_ok h1) (m := saveEval k stack outp code module verbose tracing onlyExpand) fun w _ => inferInstance
    exact ⟨P, hp.outer hx⟩
  | @debug _ _ s k code module tracing onlyExpand _ hs ih =>
    obtain ⟨P, hp⟩ := ih
    obtain ⟨L', hx⟩ := stays_safe (hp.ok _ hs) (m := lispEval (runD k) code s module tracing onlyExpand) fun w e => by
      have : Is w _ .scope := ⟨by rw [e]; exact hp.scope _ hs⟩
      infer_instance
    exact ⟨_, hp.step hs hx⟩
  | program k stack hasDebugger args hss ih =>
    obtain ⟨P, hp⟩ := ih
    obtain ⟨L, h1, _⟩ := C34_session hss
    obtain ⟨L', hx⟩ := stays_safe (nothing_ok h1) (m := mainExtended k stack hasDebugger args) fun w _ => inferInstance
    exact ⟨P, hp.outer hx⟩
  | outside input files clock dbg _ ih =>
    obtain ⟨P, hp⟩ := ih
    exact ⟨P, ⟨fun s hs => ⟨(hp.ok s hs).fresh, (hp.ok s hs).blank, (hp.ok s hs).objs, (hp.ok s hs).lists, (hp.ok s hs).dicts, (hp.ok s hs).clos, (hp.ok s hs).scopes⟩,
      hp.scope, hp.apart⟩⟩

/-- C89: nothing can be reached from two interpreters. -/
theorem C89_disjoint {st : St} {l : List Nat} (h : Session st l) {s t : Nat} (hs : s ∈ l) (ht : t ∈ l) (hn : s ≠ t) {x y : Place}
    (hx : Reach st (· = .scope s) x) (hy : Reach st (· = .scope t) y) {i : Nat} (hi : x.num = some i) : y.num ≠ some i := by
  obtain ⟨P, hp⟩ := parts_session h
  have h1 := placeOk_known (reach_ok (hp.ok s hs) (fun x e => by subst e; exact hp.scope s hs) hx) hi
  exact fun hj => placeOk_known (reach_ok (hp.ok t ht) (fun x e => by subst e; exact hp.scope t ht) hy) hj (hp.apart s hs t ht hn i h1)

theorem reach_lt {st : St} {l : List Nat} (h : Session st l) {t : Nat} (ht : t ∈ l) {x : Place} (hx : Reach st (· = .scope t) x) {i : Nat} (hi : x.num = some i) :
    i < st.next := by
  obtain ⟨L, h1, h2⟩ := C34_session h
  exact Nat.lt_of_not_le fun hle => placeOk_known (reach_ok h1 (fun x e => by subst e; exact h2 t ht) hx) hi (h1.fresh i hle)

/-- C89: a script that runs in one interpreter changes nothing that another interpreter can see: no variable, list, dictionary, function, macro or module. -/
theorem C89_interpreters {st : St} {l : List Nat} (h : Session st l) {s t : Nat} (hs : s ∈ l) (ht : t ∈ l) (hn : s ≠ t) (k : Nat) (code module : Str)
    (tracing onlyExpand : Bool) : LooksSame st (· = .scope t) (Out.after (lispEval (run k) code s module tracing onlyExpand st)) :=
  looksSame_of fun x i hx hi => C89_script h hs k code module tracing onlyExpand i (reach_lt h ht hx hi) fun y hy hj => C89_disjoint h hs ht hn hy hx hj hi

/-- C89: the same for a script that runs under the debugger. -/
theorem C89_interpreters_debug {st : St} {l : List Nat} (h : Session st l) {s t : Nat} (hs : s ∈ l) (ht : t ∈ l) (hn : s ≠ t) (k : Nat) (code module : Str)
    (tracing onlyExpand : Bool) : LooksSame st (· = .scope t) (Out.after (lispEval (runD k) code s module tracing onlyExpand st)) :=
  looksSame_of fun x i hx hi => C89_debug h hs k code module tracing onlyExpand i (reach_lt h ht hx hi) fun y hy hj => C89_disjoint h hs ht hn hy hx hj hi

end

section
attribute [local instance] demoWorld

/-- Two interpreters, the second one with a list of two elements; a script that changes this list. -/
def sessTwo : Bool :=
  match createDefaultScope {} with
  | .ok s st =>
    match createDefaultScope st with
    | .ok t st1 =>
      let st2 := Out.after (lispEval (run 60) c!"(def l (list 1 2))" t [] false false st1)
      let st3 := Out.after (lispEval (run 60) c!"(push 3 l)" t [] false false st2)
      s != t && (st2.scopes t).vars.any fun e => match e.2 with
        | .mk _ (.var v) => match v.value with
          | .mk i .list => decide (e.1 = c!"l") && (st2.lists i).length == 2 && (st3.lists i).length == 3
          | _ => false
        | _ => false
    | _ => false
  | _ => false

set_option maxRecDepth 20000 in
theorem sessTwo_true : sessTwo = true := by decide +kernel

/-- The hypotheses of `C89_script`, `C89_disjoint` and `C89_interpreters`: two interpreters.  A list can be reached from the second one; a script in the second
interpreter changes it, and so a script in the first one does not (`C89_interpreters`). -/
example : ∃ st s t i, Session st [t, s] ∧ s ≠ t ∧ Reach st (· = .scope t) (.ref (.mk i .list)) ∧ (st.lists i).length = 2 ∧
    ¬ Untouched st (Out.after (lispEval (run 60) c!"(push 3 l)" t [] false false st)) i := by
  have h := sessTwo_true
  unfold sessTwo at h
  cases hc : createDefaultScope {} with
  | fail f s => rw [hc] at h; cases h
  | ok s st =>
    rw [hc] at h
    simp only at h
    cases hd : createDefaultScope st with
    | fail f s => rw [hd] at h; cases h
    | ok t st1 =>
      rw [hd] at h
      have hs : Session st1 [t, s] := .create (.create (.init rfl (fun _ => rfl) (fun _ => rfl)) hc) hd
      have hs2 := Session.script 60 c!"(def l (list 1 2))" [] false false hs (List.mem_cons_self ..)
      simp only at h
      generalize Out.after (lispEval (run 60) c!"(def l (list 1 2))" t [] false false st1) = st2 at h hs2
      rw [Bool.and_eq_true, List.any_eq_true] at h
      obtain ⟨h0, ⟨n, p⟩, he, h1⟩ := h
      simp only at h1
      split at h1
      · rename_i j v
        split at h1
        · rename_i i hv
          simp only [Bool.and_eq_true, decide_eq_true_eq, beq_iff_eq] at h1
          refine ⟨st2, s, t, i, hs2, by simpa using h0, ?_, h1.1.2, fun hu => ?_⟩
          · have := Reach.step (Reach.step (.root rfl) (Leads.variable he)) Leads.value (st := st2) (roots := (· = .scope t))
            rw [hv] at this
            exact this
          · have := hu.lists
            rw [this] at h1
            omega
        · cases h1
      · cases h1

/-- The hypotheses of `C89_eval` and `C89_call` are met in every state of an application. -/
example {st : St} {s : Nat} (h : Session st [s]) : ∃ L, StateOk L st ∧ L s = some .scope ∧ RefOk L .null ∧ ∀ p ∈ [Ptr.null], RefOk L p := by
  obtain ⟨L, h1, h2⟩ := C34_session h
  exact ⟨L, h1, h2 s (List.mem_cons_self ..), trivial, by simp [RefOk]⟩

end

end Fuel
