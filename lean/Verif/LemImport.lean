import Verif.LemInput
/-!
# `import`: the interpreter executes it as the reference semantics says
-/

set_option linter.unusedSectionVars false
set_option linter.unusedSimpArgs false

namespace Fuel

open Spec Spec.Core

section
variable [World]

variable {o : Origin} {st : St} {μ : Emb} {R : Conf}

/-! ## New frames -/

/-- The configuration with one more frame. -/
def Spec.Core.Conf.addFrame (R : Conf) (F : Frame) : Conf := { R.withFrame R.count F with count := R.count + 1 }

/-- A scope that exists is the scope of a new frame. -/
theorem Sim.framed (h : Sim o st μ R) {child : Nat} (hc : child < st.next) (hne : ∀ i, i < R.count → μ i ≠ child)
    (hm1 : ∀ j m, binding st (μ 0) c!"###macros###" = some (.mk j (.scope m)) → child ≠ m)
    (hm2 : ∀ j m, binding st (μ 0) c!"###modules###" = some (.mk j (.scope m)) → child ≠ m) {F : Frame}
    (hg : (st.scopes child).global = μ 0) (hp : (st.scopes child).needsLValue = false) (hr : (st.scopes child).isInReturn = F.ret)
    (hcl : (st.scopes child).closure = F.parent.map μ.scope) (hbl : ∀ p, F.parent = some p → p < R.count)
    (hu : ∀ n, n ∉ hidden → F.vars n = none → binding st child n = none)
    (hb : ∀ n, n ∉ hidden → ∀ v, F.vars n = some v → ∃ p, binding st child n = some p ∧ Holds p (IsVal st μ R.count · v))
    (hbuf : binding st child c!"###traceon###" = none ∨ ∃ i t, binding st child c!"###tracebuffer###" = some (.mk i (.str t)))
    (hmac : binding st child c!"###macros###" = none) :
    Res o st μ R.count st (μ.enter R.count child) (R.addFrame F) := by
  have gr : Grow st μ R.count st (μ.enter R.count child) (R.addFrame F).count :=
    ⟨Nat.le_refl _, fun _ _ => rfl, fun _ _ => rfl, Nat.le_succ _, fun i hi => by simp [Spec.Core.Emb.enter, fset, Nat.ne_of_lt hi], fun _ _ h => h⟩
  refine ⟨?_, gr⟩
  have hμ : ∀ i, i < R.count → μ.enter R.count child i = μ i := gr.same
  have hμ' : μ.enter R.count child R.count = child := by simp [Spec.Core.Emb.enter, fset]
  have hframe : ∀ i, i < R.count → (R.addFrame F).frames i = R.frames i := fun i hi => by simp [Conf.addFrame, Conf.withFrame, Nat.ne_of_lt hi]
  have hframe' : (R.addFrame F).frames R.count = F := by simp [Conf.addFrame, Conf.withFrame]
  have hcase : ∀ i, i < (R.addFrame F).count → i < R.count ∨ i = R.count := fun i hi => by
    have : i < R.count + 1 := hi
    omega
  have h0 : μ.enter R.count child 0 = μ 0 := hμ 0 h.pos
  refine ⟨h.links, Nat.succ_pos _, fun i hi => ?_, fun i j hi hj e => ?_, fun i hi => ?_, fun i hi => ?_, fun i hi => ?_, fun i hi => ?_, fun i hi p hp => ?_,
    fun i hi m hm hv => ?_, fun i hi m hm x hx => ?_, fun i hi => ?_, ?_, ?_, h.names, fun i hi hi0 => ?_, ?_, h.out, h.input,
    h.dicts.keep gr rfl fun _ _ => rfl, h.lib⟩
  · rcases hcase i hi with hi | rfl
    · rw [hμ i hi]; exact h.old i hi
    · rw [hμ']; exact hc
  · rcases hcase i hi with hi | rfl <;> rcases hcase j hj with hj | rfl
    · rw [hμ i hi, hμ j hj] at e; exact h.inj i j hi hj e
    · rw [hμ i hi, hμ'] at e; exact absurd e (hne i hi)
    · rw [hμ j hj, hμ'] at e; exact absurd e.symm (hne j hj)
    · rfl
  · rw [h0]
    rcases hcase i hi with hi | rfl
    · rw [hμ i hi, h.global i hi]
    · rw [hμ', hg]
  · rcases hcase i hi with hi | rfl
    · rw [hμ i hi, h.place i hi]
    · rw [hμ', hp]
  · rcases hcase i hi with hi | rfl
    · rw [hμ i hi, h.ret i hi, hframe i hi]
    · rw [hμ', hr, hframe']
  · rcases hcase i hi with hi | rfl
    · rw [hμ i hi, h.parent i hi, hframe i hi]
      cases hp : (R.frames i).parent with
      | none => rfl
      | some p => simp [hμ p (h.below i hi p hp)]
    · rw [hμ', hcl, hframe']
      cases hp : F.parent with
      | none => rfl
      | some p => simp [hμ p (hbl p hp)]
  · rcases hcase i hi with hi | rfl
    · rw [hframe i hi] at hp; exact Nat.lt_succ_of_lt (h.below i hi p hp)
    · rw [hframe'] at hp; exact Nat.lt_succ_of_lt (hbl p hp)
  · rcases hcase i hi with hi | rfl
    · rw [hμ i hi]
      rw [hframe i hi] at hv
      exact h.unbound i hi m hm hv
    · rw [hframe'] at hv
      rw [hμ']
      exact hu m hm hv
  · rcases hcase i hi with hi | rfl
    · rw [hμ i hi]
      rw [hframe i hi] at hx
      obtain ⟨p, h1, j, u, rfl, h2⟩ := h.bound i hi m hm x hx
      exact ⟨_, h1, j, u, rfl, isVal_grow gr h2⟩
    · rw [hframe'] at hx
      rw [hμ']
      obtain ⟨p, h1, j, u, rfl, h2⟩ := hb m hm x hx
      exact ⟨_, h1, j, u, rfl, isVal_grow gr h2⟩
  · rcases hcase i hi with hi | rfl
    · rw [hμ i hi]; exact h.buffer i hi
    · rw [hμ']; exact hbuf
  · obtain ⟨j, m, h1, h2, h3, h4⟩ := h.macros
    rw [h0]
    refine ⟨j, m, h1, h2, fun i hi => ?_, fun x => macroAt_grow gr (h4 x)⟩
    rcases hcase i hi with hi | rfl
    · rw [hμ i hi]; exact h3 i hi
    · rw [hμ']; exact hm1 j m h1
  · obtain ⟨j, m, h1, h2, h3, h4, h5⟩ := h.modules
    rw [h0]
    refine ⟨j, m, h1, h2, fun i hi => ?_, h4, isModules_mono (Nat.le_succ _) hμ h5⟩
    rcases hcase i hi with hi | rfl
    · rw [hμ i hi]; exact h3 i hi
    · rw [hμ']; exact hm2 j m h1
  · rcases hcase i hi with hi | rfl
    · rw [hμ i hi]; exact h.inner i hi hi0
    · rw [hμ']; exact hmac
  · rw [h0]; exact h.tracing

/-! ## The table of modules -/

theorem all2_cut {α β : Type} {P : α → β → Prop} : ∀ {a : List β} {b : List β} {l : List α}, All2 P l (a ++ b) → ∃ x y, l = x ++ y ∧ All2 P x a ∧ All2 P y b
  | [], _, l, h => ⟨[], l, rfl, .nil, h⟩
  | _ :: a, _, _, h => by
    cases h with
    | cons h t =>
      obtain ⟨x, y, rfl, h1, h2⟩ := all2_cut t
      exact ⟨_ :: x, y, rfl, .cons h h1, h2⟩

theorem all2_glue {α β : Type} {P : α → β → Prop} {x : List α} {a : List β} (h : All2 P x a) {y : List α} {b : List β} (g : All2 P y b) : All2 P (x ++ y) (a ++ b) := by
  induction h with
  | nil => exact g
  | cons h _ ih => exact .cons h ih

theorem lexLt_ne {a b : Str} (h : LexLt a b) : a ≠ b := by
  rintro rfl
  have := (strLt_iff a a).2 h
  rw [strLt_irrefl] at this
  cases this

theorem lexLt_asymm {a b : Str} (h : LexLt a b) : strLt b a = false := by
  cases hb : strLt b a with
  | false => rfl
  | true => have := strLt_trans ((strLt_iff a b).2 h) hb; rw [strLt_irrefl] at this; cases this

theorem mapSet_after {α : Type} {file : Str} {v : α} : ∀ {x y : List (Str × α)}, (∀ e ∈ x, LexLt e.1 file) → mapSet file v (x ++ y) = x ++ mapSet file v y
  | [], _, _ => rfl
  | (k, w) :: x, y, h => by
    have h1 := h (k, w) (by simp)
    rw [List.cons_append, mapSet, if_neg (lexLt_ne h1), lexLt_asymm h1]
    simp [mapSet_after (x := x) (y := y) fun e he => h e (by simp [he])]

/-- The table after a module was entered. -/
theorem isModules_set {N : Nat} {file : Str} {g j : Nat} (hf : file ∉ hidden) (hg : g < N) {l : List (Str × Ptr)} {ms ms' : List (Str × Nat)}
    (h : All2 (IsModule μ N) l ms) (hi : Inserted file g ms ms') : All2 (IsModule μ N) (mapSet file (.mk j (.scope (μ g))) l) ms' := by
  have hn : IsModule μ N (file, .mk j (.scope (μ g))) (file, g) := ⟨rfl, hf, hg, j, rfl⟩
  have hlt : ∀ {x : List (Str × Ptr)} {a : List (Str × Nat)}, All2 (IsModule μ N) x a → (∀ y ∈ a, LexLt y.1 file) → ∀ e ∈ x, LexLt e.1 file := by
    intro x a h
    induction h with
    | nil => intro _ e he; cases he
    | cons h _ ih =>
      intro ha e he
      rcases List.mem_cons.1 he with rfl | he
      · rw [h.1]; exact ha _ (by simp)
      · exact ih (fun y hy => ha y (by simp [hy])) e he
  cases hi with
  | @new a b ha hb =>
    obtain ⟨x, y, rfl, h1, h2⟩ := all2_cut h
    rw [mapSet_after (hlt h1 ha)]
    refine all2_glue h1 ?_
    cases h2 with
    | nil => exact .cons hn .nil
    | @cons e z y b h3 h4 =>
      obtain ⟨k, w⟩ := e
      have := hb z (by simp)
      rw [← h3.1] at this
      rw [mapSet, if_neg (Ne.symm (lexLt_ne this)), if_pos ((strLt_iff _ _).2 this)]
      exact .cons hn (.cons h3 h4)
  | @again a b h' ha =>
    obtain ⟨x, y, rfl, h1, h2⟩ := all2_cut h
    rw [mapSet_after (hlt h1 ha)]
    refine all2_glue h1 ?_
    cases h2 with
    | @cons e z y b h3 h4 =>
      obtain ⟨k, w⟩ := e
      obtain ⟨h5, -⟩ := h3
      simp only at h5
      rw [mapSet, if_pos h5]
      exact .cons hn h4

/-- A module is entered into the table. -/
theorem Sim.tabled (h : Sim o st μ R) {i m : Nat} (hm : binding st (μ 0) c!"###modules###" = some (.mk i (.scope m))) {file : Str} (hf : file ∉ hidden) {g j : Nat}
    (hg : g < R.count) {ms : List (Str × Nat)} (hi : Inserted file g R.modules ms) {st' : St}
    (hst : st' = { st with scopes := fset st.scopes m { st.scopes m with vars := mapSet file (.mk j (.scope (μ g))) (st.scopes m).vars } }) :
    Res o st μ R.count st' μ { R with modules := ms } := by
  obtain ⟨i', m', hm', hlt, hne, hap, hall⟩ := h.modules
  rw [hm] at hm'
  cases hm'
  have gr : Grow st μ R.count st' μ R.count := by
    subst hst; exact ⟨Nat.le_refl _, fun _ _ => rfl, fun _ _ => rfl, Nat.le_refl _, fun _ _ => rfl, fun _ _ h => h⟩
  have hk : ∀ s, s ≠ m → st'.scopes s = st.scopes s := fun s hs => by subst hst; simp [fset, hs]
  have hb : ∀ s, s ≠ m → ∀ x, binding st' s x = binding st s x := fun s hs x => by simp only [binding, hk s hs]
  have hnx : st'.next = st.next := by subst hst; rfl
  refine ⟨⟨?_, h.pos, fun f hf => by rw [hnx]; exact h.old f hf, h.inj, fun f hf => ?_, fun f hf => ?_, fun f hf => ?_, fun f hf => ?_, h.below,
    fun f hf x hx hv => ?_, fun f hf x hx v hv => ?_, fun f hf => ?_, ?_, ?_, h.names, fun f hf h0 => ?_, ?_, ?_, ?_, ?_, ?_⟩, gr⟩
  · subst hst
    exact links_modScope (s := st) (j := m) rfl (fun p hp => .inl hp) h.links
  · rw [hk _ (hne f hf), h.global f hf]
  · rw [hk _ (hne f hf), h.place f hf]
  · rw [hk _ (hne f hf), h.ret f hf]
  · rw [hk _ (hne f hf), h.parent f hf]
  · rw [hb _ (hne f hf)]; exact h.unbound f hf x hx hv
  · rw [hb _ (hne f hf)]
    obtain ⟨p, h1, i, u, rfl, h2⟩ := h.bound f hf x hx v hv
    exact ⟨_, h1, i, u, rfl, isVal_grow gr h2⟩
  · rw [hb _ (hne f hf), hb _ (hne f hf)]; exact h.buffer f hf
  · obtain ⟨j, q, g1, g2, g3, g4⟩ := h.macros
    exact ⟨j, q, by rw [hb _ (hne 0 h.pos), g1], by rw [hnx]; exact g2, g3, fun x => by rw [hb _ (hap _ _ g1)]; exact macroAt_grow gr (g4 x)⟩
  · refine ⟨i, m, by rw [hb _ (hne 0 h.pos), hm], by rw [hnx]; exact hlt, hne, fun j' m' => ?_, ?_⟩
    · rw [hb _ (hne 0 h.pos)]; exact hap j' m'
    · have : (st'.scopes m).vars = mapSet file (.mk j (.scope (μ g))) (st.scopes m).vars := by subst hst; simp [fset]
      rw [this]
      exact isModules_set hf hg hall hi
  · rw [hb _ (hne f hf)]; exact h.inner f hf h0
  · rw [hk _ (hne 0 h.pos), h.tracing]
  · subst hst; exact h.out
  · subst hst; exact h.input
  · exact h.dicts.keep gr rfl fun _ _ => by subst hst; rfl
  · exact fun name file xs hx => (h.lib name file xs hx).congr (by subst hst; rfl) (by subst hst; rfl)

/-! ## Modules -/

theorem firstFile_unique {l : List Str} {f g t u : Str} (h : FirstFile st l f t) (h' : FirstFile st l g u) : f = g ∧ t = u := by
  obtain ⟨a, b, rfl, h1, h2⟩ := h
  obtain ⟨a', b', e, h3, h4⟩ := h'
  induction a generalizing a' with
  | nil =>
    cases a' with
    | nil => cases e; rw [h2] at h4; cases h4; exact ⟨rfl, rfl⟩
    | cons x a' => cases e; rw [h3 f (by simp)] at h2; cases h2
  | cons x a ih =>
    cases a' with
    | nil => cases e; rw [h1 g (by simp)] at h4; cases h4
    | cons y a' =>
      simp only [List.cons_append, List.cons.injEq] at e
      exact ih (fun c hc => h1 c (by simp [hc])) a' e.2 fun c hc => h3 c (by simp [hc])

theorem firstFile_found {name file text : Str} (h : FirstFile st (moduleFiles st.libPath name) file text) :
    findModule st.files st.libPath name = file ∧ mapFind file st.files = some text := by
  rcases findModule_spec st name with ⟨t, h1, h2⟩ | ⟨-, h2, -⟩
  · obtain ⟨rfl, rfl⟩ := firstFile_unique h h2
    exact ⟨rfl, h1⟩
  · obtain ⟨a, b, e, -, h3⟩ := h
    rw [h2 file (by rw [e]; simp)] at h3
    cases h3

theorem stringValue_named {v : Variant} {w : Val} {name : Str} (hw : Named w name) {N : Nat} (hv : IsVal st μ N v w) (k : Nat) : v.stringValue st (k + 1) = .ok name := by
  cases hw with
  | str => obtain ⟨-, i, h⟩ := isVal_str_inv hv; simp [Variant.stringValue, h, ptrStr]
  | sym => obtain ⟨-, i, h⟩ := isVal_sym_inv hv; simp [Variant.stringValue, h, ptrStr]

theorem same_importing (st : St) (s : Nat) (file : Str) : Same st [] (importing st s file) := by
  have hs : ∀ i, i < st.next → key ((importing st s file).scopes i) = key (st.scopes i) ∧ ((importing st s file).scopes i).vars = (st.scopes i).vars := by
    intro i hi
    have := Nat.ne_of_lt hi
    by_cases h : i = s
    · subst h; simp [importing, fset, this, Fuel.key]
    · simp [importing, fset, this, h, Fuel.key]
  refine ⟨Nat.le_succ _, fun _ _ => rfl, fun _ _ => rfl, fun i hi => (hs i hi).1, fun i hi n _ => ?_, fun i hi hb => ?_, fun i hi _ => (hs i hi).2, by simp [importing], rfl, fun _ _ => rfl, rfl, rfl⟩
  · simp only [binding, (hs i hi).2]
  · simpa only [binding, (hs i hi).2] using hb

theorem links_importing {s : Nat} (h : Links st) (hs : s < st.next) (file : Str) : Links (importing st s file) := by
  have hc : ∀ i, ((importing st s file).scopes i).closure = if i = st.next then none else (st.scopes i).closure := by
    intro i
    by_cases e : i = st.next
    · subst e; simp [importing, fset]
    · by_cases h : i = s
      · subst h; simp [importing, fset, e]
      · simp [importing, fset, e, h]
  have hp : ∀ i, ((importing st s file).scopes i).prev = if i = st.next then some s else (st.scopes i).prev := by
    intro i
    by_cases e : i = st.next
    · subst e; simp [importing, fset]
    · by_cases h : i = s
      · subst h; simp [importing, fset, e]
      · simp [importing, fset, e, h]
  refine ⟨fun i => (h.clos i).imp id fun h => Nat.lt_succ_of_lt h, fun i c hi => ?_, fun i hi => ?_, fun i p hi => ?_⟩
  · rw [hc] at hi
    split at hi
    · cases hi
    · exact h.old i c hi
  · rw [hc]
    split
    · rfl
    · exact h.fresh i (Nat.le_of_succ_le hi)
  · rw [hp] at hi
    show p < i ∧ i < st.next + 1
    split at hi
    · cases hi; omega
    · have := h.callers i p hi; omega

theorem same_copied (st : St) (s : Nat) : Same st [] { st with next := st.next + 2, scopes := fset st.scopes st.next (st.scopes s) } := by
  have hs : ∀ i, i < st.next → fset st.scopes st.next (st.scopes s) i = st.scopes i := fun i hi => by simp [fset, Nat.ne_of_lt hi]
  refine ⟨Nat.le_add_right _ _, fun _ _ => rfl, fun _ _ => rfl, fun i hi => congrArg key (hs i hi), fun i hi n _ => ?_, fun i hi hb => ?_, fun i hi _ => ?_, by simp, rfl, fun _ _ => rfl, rfl, rfl⟩
  · simp only [binding, hs i hi]
  · simpa only [binding, hs i hi] using hb
  · simp only [hs i hi]

theorem links_copied {s : Nat} (h : Links st) (hs : s < st.next) : Links { st with next := st.next + 2, scopes := fset st.scopes st.next (st.scopes s) } := by
  refine ⟨fun i => (h.clos i).imp id fun h => Nat.lt_of_lt_of_le h (Nat.le_add_right _ 2), fun i c hi => ?_, fun i hi => ?_, fun i p hi => ?_⟩
  · simp only [fset] at hi
    split at hi
    · have := h.old s c hi; omega
    · exact h.old i c hi
  · have hi : st.next + 2 ≤ i := hi
    simp only [fset, if_neg (show i ≠ st.next by omega)]
    exact h.fresh i (by omega)
  · show p < i ∧ i < st.next + 2
    simp only [fset] at hi
    split at hi
    · have := h.callers s p hi; omega
    · have := h.callers i p hi; omega

theorem apply_import {f : Nat} {w : Val} {name file : Str} {xs : List Sexp} {v : Val} {R' : Conf} {ms : List (Str × Nat)} (hw : Named w name)
    (hl : R.lib name = some (file, xs)) (hf' : file ∉ hidden) (hq : Literal R.openModule R.count (.list (.sym c!"do" :: xs)))
    (hE : ExecOk R.count (.list (.sym c!"do" :: xs)) R.openModule v R') (hi : Inserted file R'.count R'.modules ms) :
    ApplyOk f (.prim c!"import") [w] R v (R'.closeModule R.count ms) := by
  intro o st μ u args hs hf hu ha
  obtain ⟨e, he, hne, hfn⟩ := isVal_prim_inv hu
  obtain ⟨h5, h6⟩ := core_entry he (c!"import", .import_, false) (by decide) hne
  obtain ⟨i, y, rfl, hy⟩ := args_one ha
  obtain ⟨text, ht1, ht2, ht3, ht4⟩ := hs.lib _ _ _ hl
  have hlt := hs.old f hf
  -- the module is opened
  have hl1 := links_importing hs.links hlt file
  have hs1 := same_importing st (μ f) file
  have r1 := Res.of_same hs hs1 hl1
  have hsc : (importing st (μ f) file).scopes st.next = { name := c!"import " ++ file, global := (st.scopes (μ f)).global, module := if file = [] then (st.scopes (st.scopes (μ f)).global).module else file, prev := some (μ f) } := by
    simp [importing, fset]
  have hbn : ∀ n, binding (importing st (μ f) file) st.next n = none := fun n => by simp [binding, hsc]
  obtain ⟨jm, mm, m1, m2, -⟩ := hs.macros
  obtain ⟨jt, mt, t1, t2, -⟩ := hs.modules
  have r2 := r1.sim.framed (child := st.next) (F := ⟨fun _ => none, none, false⟩) (Nat.lt_succ_self _) (fun i hi => Nat.ne_of_lt (hs.old i hi))
    (fun j m hj => by rw [hs1.vars _ (hs.old 0 hs.pos) _ (by decide), m1] at hj; cases hj; omega)
    (fun j m hj => by rw [hs1.vars _ (hs.old 0 hs.pos) _ (by decide), t1] at hj; cases hj; omega)
    (by rw [hsc]; exact hs.global f hf) (by rw [hsc]) (by rw [hsc]) (by rw [hsc]; rfl) (fun _ h => (nomatch h)) (fun n _ _ => hbn n) (fun _ _ _ h => (nomatch h))
    (.inl (hbn _)) (hbn _)
  -- the module is executed
  have hμ : μ.enter R.count st.next R.count = st.next := by simp [Spec.Core.Emb.enter, fset]
  obtain ⟨x, st1, μ1, g1, g2, g3⟩ := runsIn_ok ht4 ht3 hq hE r2.sim (Nat.lt_succ_self R.count) file
  rw [hμ] at g1
  have hμ1 : μ1 R.count = st.next := by rw [g3.grow.same R.count (Nat.lt_succ_self _), hμ]
  have hN : R.count < R'.count := g3.lt (Nat.lt_succ_self _)
  have hi1 : st.next < st1.next := by have := g3.sim.old _ hN; rwa [hμ1] at this
  have hμ0 : μ1 0 = μ 0 := by
    rw [g3.grow.same 0 (Nat.succ_pos _)]
    simp [Spec.Core.Emb.enter, fset, Nat.ne_of_lt hs.pos]
  -- a copy of its scope
  have hs3 := same_copied st1 st.next
  have hl3 := links_copied g3.sim.links hi1
  have r3 := Res.of_same g3.sim hs3 hl3
  generalize hA : ({ st1 with next := st1.next + 2, scopes := fset st1.scopes st1.next (st1.scopes st.next) } : St) = stA at hs3 hl3 r3
  have hcopy : stA.scopes st1.next = st1.scopes st.next := by subst hA; simp [fset]
  have hcb : ∀ n, binding stA st1.next n = binding st1 (μ1 R.count) n := fun n => by simp only [binding, hcopy, hμ1]
  obtain ⟨jm, mm, m1, m2, -⟩ := g3.sim.macros
  obtain ⟨jt, mt, t1, t2, t3, t4, -⟩ := g3.sim.modules
  have hz := g3.sim.old 0 g3.sim.pos
  have r4 := r3.sim.framed (child := st1.next) (F := R'.frames R.count) (by subst hA; show _ < st1.next + 2; omega) (fun i hi => Nat.ne_of_lt (g3.sim.old i hi))
    (fun j m hj => by rw [hs3.vars _ hz _ (by decide), m1] at hj; cases hj; omega)
    (fun j m hj => by rw [hs3.vars _ hz _ (by decide), t1] at hj; cases hj; omega)
    (by rw [hcopy, ← hμ1]; exact g3.sim.global _ hN) (by rw [hcopy, ← hμ1]; exact g3.sim.place _ hN) (by rw [hcopy, ← hμ1]; exact g3.sim.ret _ hN)
    (by rw [hcopy, ← hμ1]; exact g3.sim.parent _ hN) (g3.sim.below _ hN) (fun n hn hv => by rw [hcb]; exact g3.sim.unbound _ hN n hn hv)
    (fun n hn v hv => by
      rw [hcb]
      obtain ⟨p, h1, j, u, rfl, h2⟩ := g3.sim.bound _ hN n hn v hv
      exact ⟨_, h1, j, u, rfl, isVal_grow r3.grow h2⟩)
    (by rw [hcb, hcb]; exact g3.sim.buffer _ hN) (by rw [hcb]; exact g3.sim.inner _ hN (Nat.ne_of_gt hs.pos))
  -- the copy is entered into the table
  have hμ2 : μ1.enter R'.count st1.next R'.count = st1.next := by simp [Spec.Core.Emb.enter, fset]
  have hμ3 : μ1.enter R'.count st1.next 0 = μ1 0 := r4.grow.same 0 g3.sim.pos
  generalize hB : ({ stA with scopes := fset stA.scopes mt { stA.scopes mt with vars := mapSet file (.mk (st1.next + 1) (.scope st1.next)) (stA.scopes mt).vars } } : St) = stB
  have r5 := r4.sim.tabled (i := jt) (m := mt) (by rw [hμ3, hs3.vars _ hz _ (by decide)]; exact t1) hf' (g := R'.count) (j := st1.next + 1) (Nat.lt_succ_self _) hi
    (st' := stB) (by rw [← hB, hμ2])
  -- back to the caller
  have hs6 := same_popped stB (μ f) st.next
  have hne1 : μ f ≠ st.next := Nat.ne_of_lt hlt
  have hend : closeModule st1 (μ f) st.next mt file = popped (μ f) st.next stB := by
    subst hB hA
    simp only [closeModule, popped]
    congr 1
    simp [fset, hne1]
  have hone : ∃ k, importOne (run (k + 1)) (μ f) file text st = .ok (some x) (closeModule st1 (μ f) st.next mt file) := by
    obtain ⟨K, hK⟩ := Lim.stable (monoSeq_lispEval text st.next file false false _) g1
    have hK := hK (K + 1) (Nat.le_succ _)
    refine ⟨K, ?_⟩
    rw [importOne_eq hlt]
    simp only [importBody, M.bind_apply]
    rw [hK]
    have hp : Pres2 st.next (lispEval (run (K + 1)) text st.next file false false) := inferInstance
    have hstep := (hp.ok hK).toStep
    have hn : st.next < (importing st (μ f) file).next := by simp [importing]
    have hn' : μ f < (importing st (μ f) file).next := by simp [importing]; omega
    have hsc : (importing st (μ f) file).scopes (μ f) = { st.scopes (μ f) with next := some st.next } := by simp [importing, fset, hne1]
    have hnx : (st1.scopes (μ f)).next = some st.next := by
      have := hstep.other hn _ hn' hne1
      unfold SameButVars at this
      have := congrArg Scope.next this
      simp only [hsc] at this
      simpa using this.symm
    have hj' : mapFind modulesKey (st1.scopes (st.scopes (μ f)).global).vars = some (.mk jt (.scope mt)) := by
      rw [hs.global f hf, mapFind_eq_lookup, ← hμ0]; exact t1
    have a1 : μ f ≠ st1.next := by omega
    have hnx' : (fset (fset st1.scopes st1.next (st1.scopes st.next)) mt
        { fset st1.scopes st1.next (st1.scopes st.next) mt with vars := mapSet file (.mk (st1.next + 1) (.scope st1.next)) (fset st1.scopes st1.next (st1.scopes st.next) mt).vars } (μ f)).next = some st.next := by
      by_cases h : μ f = mt
      · rw [h] at hnx a1 ⊢; simp [fset, a1, hnx]
      · simp [fset, h, a1, hnx]
    simp only [M.get, hj', M.bind_apply, allocScope, allocObj, setVar, modScope, M.modify, M.pure_apply, popNext, hnx']
    rfl
  obtain ⟨k, hone⟩ := hone
  obtain ⟨q1, q2⟩ := firstFile_found ht1
  have hC : Calls e.wrapper [.mk i (.var y)] (μ f) st (.ok (some x) (popped (μ f) st.next stB)) :=
    (calls_prim rfl).2 (lim_of (ends_ok _ _) (k + 1) (by
      rw [h5, ← hend]
      simp only [callPrim, bImport, importLoop, M.bind_apply, M.lift_apply, toVariant_var, M.rd_apply, run_n, stringValue_named hw hy, replace_slashes, M.get, q1, q2, M.pure_apply]
      cases text with
      | nil => exact absurd rfl ht2
      | cons c text => simp [hone]))
  have r6 := Res.of_same r5.sim hs6 (calls_links hC hs.links hlt)
  have r := (((((r1.trans r2).trans g3).trans r3).trans r4).trans r5).trans r6
  exact ⟨_, hfn, h6, x, _, _, hC, isVal_grow (((r3.trans r4).trans r5).trans r6).grow g2, r⟩

end

end Fuel
