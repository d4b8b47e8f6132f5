import Verif.LemDebug
import Verif.SpecDebug
import Verif.PropsListing
/-!
# The two comparisons of a debugged run with a plain run
-/

set_option linter.unusedSectionVars false
set_option linter.unusedSimpArgs false
set_option linter.unusedVariables false

namespace Fuel

open Spec

variable [World] {α β : Type}

/-- The line leads to a command that evaluates nothing. -/
def Harmless (l : Str) : Prop :=
  dcmd (trim l) ≠ .doc ∧ dcmd (trim l) ≠ .searchdoc ∧ dcmd (trim l) ≠ .eval ∧
  (dcmd (trim l) = .brk → ∀ cur b, parseBreak (trim l) cur = .ok (some b) → b.cond = [])

theorem Spec.Passive.harmless {l : Str} (h : Passive l) : Harmless l := by
  cases h with
  | plain h =>
    have : ∀ c ∈ plainCommands, dcmd c ≠ .doc ∧ dcmd c ≠ .searchdoc ∧ dcmd c ≠ .eval ∧ dcmd c ≠ .brk := by decide +kernel
    obtain ⟨h1, h2, h3, h4⟩ := this _ h
    exact ⟨h1, h2, h3, fun e => absurd e h4⟩
  | @clear num no h hn =>
    have : dcmd (trim l) = .clear := by rw [h]; exact dcmd_clear (' ' :: num)
    rw [Harmless, this]
    simp
  | @brk name text h hname ht =>
    have hd : dcmd (trim l) = .brk := by rw [h]; rcases hname with rfl | rfl <;> simp [dcmd, startsWith]
    refine ⟨by simp [hd], by simp [hd], by simp [hd], fun _ cur b hb => ?_⟩
    obtain ⟨no, module, hno, hx⟩ := ht cur
    rw [h, parseBreak_ok hname hx hno] at hb
    cases hb
    rfl

/-! ## What the debugger does to the state -/

/-- Text was written and lines were read. -/
def Talk (s t : St) : Prop := ∃ w i, t = s.seen (s.out ++ w) i s.dbg ∧ i <:+ s.input

theorem Talk.refl (s : St) : Talk s s := ⟨[], s.input, by simp [St.seen], List.suffix_refl _⟩
theorem Talk.trans {a b c : St} (h : Talk a b) (g : Talk b c) : Talk a c := by
  obtain ⟨w, i, rfl, hi⟩ := h
  obtain ⟨v, j, rfl, hj⟩ := g
  exact ⟨w ++ v, j, by simp [St.seen], List.IsSuffix.trans hj hi⟩

/-- The computation writes text and reads lines only, and its result has the property. -/
def Talks (P : α → Prop) (m : M α) : Prop := ∀ s, Talk s (m s).st ∧ ∀ a t, m s = .ok a t → P a

theorem Talks.pure {P : α → Prop} {a : α} (h : P a) : Talks P (Pure.pure a : M α) := fun s => ⟨.refl s, fun b t e => by cases e; exact h⟩
theorem Talks.fail {P : α → Prop} {f : Fail} : Talks P (M.fail f : M α) := fun s => ⟨.refl s, fun b t e => by cases e⟩
theorem Talks.ub {P : α → Prop} {u : UB} : Talks P (Fuel.ub u : M α) := fun s => ⟨.refl s, fun b t e => by cases e⟩
theorem Talks.rd {g : St → R α} : Talks (fun _ => True) (M.rd g) := fun s => ⟨by
  rw [M.rd_apply]; cases g s <;> exact .refl s, fun _ _ _ => trivial⟩
theorem Talks.lift {a : R α} : Talks (fun x => a = .ok x) (M.lift a) := fun s => ⟨by
  rw [M.lift_apply]; cases a <;> exact .refl s, fun x t h => by
  rw [M.lift_apply] at h; cases a <;> cases h; rfl⟩
theorem Talks.get {g : St → α} : Talks (fun _ => True) (M.get g) := fun s => ⟨.refl s, fun _ _ _ => trivial⟩
theorem Talks.bind {P : β → Prop} {Q : α → Prop} {m : M α} {k : α → M β} (h : Talks Q m) (hk : ∀ a, Q a → Talks P (k a)) : Talks P (m >>= k) := fun s => by
  obtain ⟨h1, h2⟩ := h s
  rw [M.bind_apply]
  cases hm : m s with
  | ok a t =>
    rw [hm] at h1
    obtain ⟨h3, h4⟩ := hk a (h2 a t hm) t
    exact ⟨h1.trans h3, h4⟩
  | fail f t => rw [hm] at h1; exact ⟨h1, fun _ _ e => by cases e⟩
theorem Talks.write (w : Str) : Talks (fun _ => True) (write w) := fun s => ⟨⟨w, s.input, rfl, List.suffix_refl _⟩, fun _ _ _ => trivial⟩
theorem Talks.writeLine (w : Str) : Talks (fun _ => True) (writeLine w) := Talks.write _
theorem Talks.weak {P : α → Prop} {m : M α} (h : Talks P m) : Talks (fun _ => True) m := fun s => ⟨(h s).1, fun _ _ _ => trivial⟩

/-- Proves `Talks` goals without information on results. -/
macro "talks" : tactic => `(tactic| repeat' (first
  | assumption
  | exact Talks.pure trivial
  | exact Talks.fail
  | exact Talks.ub
  | exact Talks.rd
  | exact Talks.lift
  | exact Talks.get
  | exact Talks.write _
  | exact Talks.writeLine _
  | exact Talks.lift.weak
  | with_reducible refine Talks.bind (Q := fun _ => True) ?_ fun _ _ => ?_
  | split
  | dsimp only))

theorem talks_writeLines (l) : Talks (fun _ => True) (writeLines l) := by
  induction l with
  | nil => unfold writeLines; talks
  | cons a l ih => unfold writeLines; talks
theorem talks_dumpVars (n l) : Talks (fun _ => True) (dumpVars n l) := by
  induction l with
  | nil => unfold dumpVars; talks
  | cons a l ih => unfold dumpVars; talks
theorem talks_dumpFns (n a b l) : Talks (fun _ => True) (dumpFns n a b l) := by
  induction l with
  | nil => unfold dumpFns; talks
  | cons e l ih => unfold dumpFns; talks
theorem talks_dumpFunctions_go (n f l) : Talks (fun _ => True) (dumpFunctions.go n f l) := by
  induction l with
  | nil => unfold dumpFunctions.go; talks
  | cons e l ih =>
    unfold dumpFunctions.go
    talks
    all_goals exact talks_dumpFns _ _ _ _
theorem talks_dumpFunctions (n g) : Talks (fun _ => True) (dumpFunctions n g) := by
  unfold dumpFunctions
  talks
  · exact talks_dumpFns _ _ _ _
  · exact talks_dumpFunctions_go _ _ _
theorem talks_showBreakpoints (n l) : Talks (fun _ => True) (showBreakpoints n l) := by
  induction l generalizing n with
  | nil => unfold showBreakpoints; talks
  | cons a l ih =>
    unfold showBreakpoints; talks
    exact ih _
theorem talks_showSource (a b c i l) : Talks (fun _ => True) (showSource a b c i l) := by
  induction l generalizing i with
  | nil => unfold showSource; talks
  | cons e l ih =>
    unfold showSource; talks
    all_goals exact ih _
theorem talks_readLine : Talks (fun _ => True) readLine := fun s => by
  unfold readLine
  rw [M.bind_apply, M.get_apply]
  cases h : s.input with
  | nil => exact ⟨.refl s, fun _ _ _ => trivial⟩
  | cons l ls => exact ⟨⟨[], ls, by simp [St.seen, Out.st], by rw [h]; exact ⟨[l], rfl⟩⟩, fun _ _ _ => trivial⟩
theorem talks_askClear (k) : Talks (fun _ => True) (askClear k) := by
  induction k with
  | zero => unfold askClear; talks
  | succ k ih => unfold askClear; talks; exact talks_readLine

theorem noCondition_add {d : Dbg} (h : NoCondition d) (line : Nat) (module : Str) : NoCondition (d.addBreakpoint line module []) := by
  unfold NoCondition Dbg.addBreakpoint at *
  simp only
  generalize d.bps = l at h
  induction l with
  | nil => simp [replaceOrAdd]
  | cons b l ih =>
    unfold replaceOrAdd
    split
    · intro x hx
      rcases List.mem_cons.1 hx with rfl | hx
      · rfl
      · exact h _ (List.mem_cons_of_mem _ hx)
    · intro x hx
      rcases List.mem_cons.1 hx with rfl | hx
      · exact h _ List.mem_cons_self
      · exact ih (fun y hy => h y (List.mem_cons_of_mem _ hy)) x hx
theorem talks_clearCommand {d : Dbg} (h : NoCondition d) (cmd) : Talks NoCondition (clearCommand d cmd) := by
  unfold clearCommand
  refine Talks.bind Talks.lift fun rest _ => ?_
  dsimp only
  split
  · refine Talks.bind (Talks.writeLine _) fun _ _ => Talks.bind Talks.get fun _ _ => Talks.bind (talks_askClear _) fun _ _ => ?_
    split
    · exact Talks.pure (by simp [NoCondition, Dbg.clearAll])
    · exact Talks.pure h
  · refine Talks.bind Talks.lift fun no _ => Talks.bind Talks.lift fun x hx => ?_
    obtain ⟨d', ok⟩ := x
    have hd : NoCondition d' := by
      unfold Dbg.clearBreakpoint at hx
      revert hx
      cases chk32 (no - 1) with
      | error e => simp
      | ok i =>
        simp only [bind_ok_R]
        split
        · intro hx
          cases hx
          exact fun b hb => h b (List.mem_of_mem_eraseIdx hb)
        · intro hx; cases hx; exact h
    dsimp only
    split
    · exact Talks.pure hd
    · exact Talks.bind (Talks.writeLine _) fun _ _ => Talks.pure hd

/-- A harmless command only talks, and sets no conditions. -/
theorem talks_dbgCommand {r : Rec} {top : Nat} {fm : Bool} {l : Str} {d : DS} (hl : Harmless l) (hd : NoCondition d.dbg) :
    Talks (fun x => NoCondition x.1.dbg) (dbgCommand r top fm (trim l) d) := by
  obtain ⟨h1, h2, h3, h4⟩ := hl
  unfold dbgCommand
  refine Talks.bind Talks.get fun gid _ => ?_
  generalize hc : dcmd (trim l) = c at *
  cases c
  case doc => exact absurd rfl h1
  case searchdoc => exact absurd rfl h2
  case eval => exact absurd rfl h3
  case exit => exact Talks.pure hd
  case help => exact Talks.bind (talks_writeLines _) fun _ _ => Talks.pure hd
  case about => exact Talks.bind (Q := fun _ => True) (by unfold showAbout showVersion; exact Talks.bind (talks_writeLines _) fun _ _ => talks_writeLines _) fun _ _ => Talks.pure hd
  case funcs => exact Talks.bind (talks_dumpFunctions _ _) fun _ _ => Talks.pure hd
  case macros => exact Talks.bind Talks.get fun _ _ => Talks.bind (talks_writeLines _) fun _ _ => Talks.pure hd
  case builtins => exact Talks.bind Talks.get fun _ _ => Talks.bind (talks_dumpFns _ _ _ _) fun _ _ => Talks.pure hd
  case modules => exact Talks.bind Talks.get fun _ _ => Talks.bind (talks_writeLines _) fun _ _ => Talks.pure hd
  case clear => exact Talks.bind (talks_clearCommand hd _) fun _ h => Talks.pure h
  case stack => exact Talks.bind Talks.rd fun _ _ => Talks.bind Talks.rd fun _ _ => Talks.bind Talks.rd fun _ _ => Talks.bind (Talks.writeLine _) fun _ _ => Talks.pure hd
  case code =>
    exact Talks.bind Talks.get fun _ _ => Talks.bind Talks.rd fun _ _ => Talks.bind Talks.lift fun _ _ => Talks.bind (talks_showSource _ _ _ _ _) fun _ _ => Talks.pure hd
  case list => exact Talks.bind (Talks.writeLine _) fun _ _ => Talks.bind (talks_showBreakpoints _ _) fun _ _ => Talks.pure hd
  case brk =>
    refine Talks.bind Talks.get fun m _ => Talks.bind Talks.lift fun b hb => ?_
    cases b with
    | none => exact Talks.bind (Talks.writeLine _) fun _ _ => Talks.pure hd
    | some b =>
      have := h4 rfl m b hb
      dsimp only
      rw [this]
      exact Talks.pure (noCondition_add hd _ _)
  case up =>
    refine Talks.bind Talks.get fun x _ => ?_
    cases x <;> exact Talks.pure hd
  case down =>
    refine Talks.bind Talks.get fun x _ => ?_
    cases x <;> exact Talks.pure hd
  case step => exact Talks.pure hd
  case over => exact Talks.bind Talks.rd fun _ _ => Talks.pure hd
  case out => exact Talks.bind Talks.rd fun _ _ => Talks.pure hd
  case run => exact Talks.pure hd
  case locals => exact Talks.bind Talks.get fun _ _ => Talks.bind (talks_dumpVars _ _) fun _ _ => Talks.pure hd
  case globals => exact Talks.bind Talks.get fun _ _ => Talks.bind (talks_dumpVars _ _) fun _ _ => Talks.pure hd
  case restart => exact Talks.pure hd
  case version => exact Talks.bind (by unfold showVersion; exact talks_writeLines _) fun _ _ => Talks.pure hd

/-! ## The first comparison -/

/-- The states of a plain and a debugged run. -/
structure Sees (s s' : St) : Prop where
  same : s' = s.seen s'.out s'.input s'.dbg
  out : Shown s.out s'.out
  input : ∀ l ∈ s'.input, Harmless l
  cond : NoCondition s'.dbg

theorem Sees.talk {s s' t' : St} (h : Sees s s') (g : Talk s' t') : Sees s t' := by
  obtain ⟨w, i, rfl, hi⟩ := g
  refine ⟨?_, ?_, ?_, ?_⟩
  · rw [h.same]; simp [St.seen]
  · exact .debugger w h.out
  · intro l hl; exact h.input l (hi.subset hl)
  · exact h.cond
theorem Sees.dbg {s s' : St} (h : Sees s s') {d : Dbg} (hd : NoCondition d) : Sees s { s' with dbg := d } := by
  refine ⟨?_, h.out, h.input, hd⟩
  rw [h.same]; simp [St.seen]

/-- The computation of the debugger does nothing that concerns the program. -/
def Quiet (m : M α) : Prop := ∀ s s' a t', Sees s s' → m s' = .ok a t' → Sees s t'

theorem Quiet.talks {P : α → Prop} {m : M α} (h : Talks P m) : Quiet m := fun s s' a t' hs e => by
  have := (h s').1; rw [e] at this; exact hs.talk this
theorem Quiet.bind {m : M α} {k : α → M β} (h : Quiet m) (hk : ∀ a, Quiet (k a)) : Quiet (m >>= k) := fun s s' b u' hs e => by
  rw [M.bind_apply] at e
  cases hm : m s' with
  | ok a t' => rw [hm] at e; exact hk a s t' b u' (h s s' a t' hs hm) e
  | fail f t' => rw [hm] at e; cases e

theorem quiet_dbgCommandD {r : Rec} {top : Nat} {fm : Bool} {l : Str} {cur : Nat} {script : Str} (hl : Harmless l) :
    Quiet (dbgCommandD r top fm (trim l) cur script) := fun s s' a t' hs e => by
  unfold dbgCommandD at e
  rw [M.bind_apply, M.get_apply] at e
  dsimp only at e
  rw [M.bind_apply] at e
  obtain ⟨h1, h2⟩ := talks_dbgCommand (r := r) (top := top) (fm := fm) (d := { dbg := s'.dbg, cur := cur, script := script }) hl hs.cond s'
  revert e
  cases hm : dbgCommand r top fm (trim l) { dbg := s'.dbg, cur := cur, script := script } s' with
  | fail f u => intro e; cases e
  | ok x u =>
    rw [hm] at h1
    have h3 := h2 x u hm
    obtain ⟨d, c⟩ := x
    dsimp only
    have hu := hs.talk h1
    obtain ⟨n1, n2, n3, _⟩ := hl
    generalize dcmd (trim l) = q at *
    cases q
    case doc => exact absurd rfl n1
    case searchdoc => exact absurd rfl n2
    case eval => exact absurd rfl n3
    all_goals
      intro e
      cases e
      exact hu.dbg h3

theorem harmless_nil : Harmless [] := Passive.harmless (.plain (by decide))

theorem quiet_dbgLoopD (r : Rec) (top : Nat) (fm : Bool) (k : Nat) : ∀ cur script, Quiet (dbgLoopD r top fm k cur script) := by
  induction k with
  | zero => intro _ _ s s' a t' _ e; cases e
  | succ k ih =>
    intro cur script s s' a t' hs e
    unfold dbgLoopD at e
    rw [M.bind_apply] at e
    have hw : Sees s { s' with out := s'.out ++ c!"FUEL(isp)-DBG> " } := (Quiet.talks (Talks.write c!"FUEL(isp)-DBG> ")) s s' () _ hs rfl
    rw [show write c!"FUEL(isp)-DBG> " s' = .ok () { s' with out := s'.out ++ c!"FUEL(isp)-DBG> " } from rfl] at e
    dsimp only at e
    generalize { s' with out := s'.out ++ c!"FUEL(isp)-DBG> " } = s1 at e hw
    rw [M.bind_apply] at e
    cases hm : readLine s1 with
    | fail f u => rw [hm] at e; cases e
    | ok l u =>
      rw [hm] at e
      have hu := (Quiet.talks talks_readLine) s s1 l u hw hm
      have hl : Harmless l := by
        unfold readLine at hm
        rw [M.bind_apply, M.get_apply] at hm
        revert hm
        cases hi : s1.input with
        | nil => intro hm; cases hm; exact harmless_nil
        | cons x xs => intro hm; cases hm; exact hw.input _ (by rw [hi]; exact List.mem_cons_self)
      dsimp only at e
      rw [M.bind_apply] at e
      cases hc : dbgCommandD r top fm (trim l) cur script u with
      | fail f v => rw [hc] at e; cases e
      | ok x v =>
        rw [hc] at e
        have hv := quiet_dbgCommandD hl s u x v hu hc
        obtain ⟨d, c⟩ := x
        cases c with
        | again => exact ih _ _ s v a t' hv e
        | leave b => cases e; exact hv
        | stop => cases e

theorem quiet_interactD (r : Rec) (top : Nat) (fm : Bool) : Quiet (interactD r top fm) := by
  unfold interactD
  refine Quiet.bind (Quiet.talks Talks.get) fun x => ?_
  cases x with
  | none => exact Quiet.talks (P := fun _ => True) Talks.ub
  | some b => exact Quiet.bind (Quiet.talks Talks.get) fun n => quiet_dbgLoopD _ _ _ _ _ _

theorem quiet_stopAt (r : Rec) (sid : Nat) (ast : List Ptr) : Quiet (stopAt r sid ast) := by
  unfold stopAt
  cases ast with
  | nil => exact Quiet.talks (P := fun _ => True) Talks.ub
  | cons h t =>
    refine Quiet.bind (Quiet.talks Talks.get) fun sc => ?_
    cases sc.curTok with
    | none => exact Quiet.talks (P := fun _ => True) Talks.ub
    | some t =>
      exact Quiet.bind (Quiet.talks Talks.rd) fun _ => Quiet.bind (Quiet.talks (Talks.writeLine _)) fun _ => Quiet.bind (quiet_interactD _ _ _) fun _ =>
        Quiet.talks (P := fun _ => True) (Talks.pure trivial)

theorem talks_hits {n : Nat} {ev : Str → M (Option Variant)} {line : Nat} {module : Str} {l : List Bp} (h : ∀ b ∈ l, b.cond = []) :
    Talks (fun _ => True) (hitsBreakpoint n ev line module l) := by
  induction l with
  | nil => unfold hitsBreakpoint; talks
  | cons b l ih =>
    have := ih fun x hx => h x (List.mem_cons_of_mem _ hx)
    unfold hitsBreakpoint
    rw [h b List.mem_cons_self]
    simp only [List.isEmpty_nil, if_true]
    talks

theorem quiet_beforeCall (r : Rec) (ast : List Ptr) (tok : Option Token) (sid : Nat) : Quiet (beforeCall r ast tok sid) := fun s s' a t' hs e => by
  unfold beforeCall at e
  rw [M.bind_apply, M.get_apply] at e
  dsimp only at e
  rw [M.bind_apply, M.get_apply] at e
  dsimp only at e
  rw [M.bind_apply] at e
  have hn : Talks (fun _ => True) (needsBreak r.n (fun c => lispEval r c sid (s'.scopes sid).module false false) s'.dbg sid (posLine tok)) := by
    unfold needsBreak stopsHere
    have h1 := fun module => talks_hits (n := r.n) (ev := fun c => lispEval r c sid (s'.scopes sid).module false false) (line := posLine tok) (module := module) hs.cond
    talks
    all_goals exact h1 _
  revert e
  cases hm : needsBreak r.n (fun c => lispEval r c sid (s'.scopes sid).module false false) s'.dbg sid (posLine tok) s' with
  | fail f u => intro e; cases e
  | ok x u =>
    have hu := Quiet.talks hn s s' x u hs hm
    obtain ⟨d, hit⟩ := x
    cases hit with
    | false => intro e; cases e; exact hu
    | true =>
      intro e
      simp only [if_true] at e
      rw [M.bind_apply, M.modify_apply] at e
      exact quiet_stopAt r sid ast s _ a t' (hu.dbg (d := { u.dbg with stop := false }) hu.cond) e

/-- The program reads nothing. -/
def sees : Watch where
  fwd := false
  rel := Sees
  step s t := t.input.length ≤ s.input.length
  good s t := s.input ≠ [] ∧ t.input.length = s.input.length

instance : IsWatch sees where
  refl s := Nat.le_refl _
  trans h g := Nat.le_trans g h
  split := by
    intro a b c h g g'
    obtain ⟨h1, h2⟩ := h
    have g1 : b.input.length ≤ a.input.length := g
    have g2 : c.input.length ≤ b.input.length := g'
    refine ⟨⟨h1, by omega⟩, ⟨fun e => ?_, by omega⟩⟩
    have := List.length_pos_iff.2 h1
    rw [e] at g2
    simp at g2
    rw [g2] at h2
    simp at h2
    omega
  seen h := h.same
  upd := by
    intro s s' t h h1 h2 h3
    exact ⟨rfl, by rw [h1]; exact h.out, h.input, h.cond⟩
  stepUpd h1 h2 := by show _ ≤ _; rw [h2]; exact Nat.le_refl _
  write := by
    intro s s' w h
    refine ⟨?_, .program w h.out, h.input, h.cond⟩
    rw [h.same]; simp [St.seen]
  stepWrite s w := Nat.le_refl _

theorem sim_insert {k k' : M α} {q : M β} (hq : Quiet q) (h : DSim sees k k') : DSim sees k (q >>= fun _ => k') := ⟨h.step, fun s s' hr hg => by
  unfold Watch.Ans
  simp only [sees, Bool.false_eq_true, if_false]
  intro a t' e
  rw [M.bind_apply] at e
  cases hm : q s' with
  | fail f u => rw [hm] at e; cases e
  | ok x u =>
    rw [hm] at e
    have := h.sim s u (hq s s' x u hr hm) hg
    unfold Watch.Ans at this
    simp only [sees, Bool.false_eq_true, if_false] at this
    exact this a t' e⟩

theorem sim_warning {k k' : M α} {q : M β} (hq : Quiet q) (h : DSim sees k k') : DSim sees (write breakWarning >>= fun _ => k) (q >>= fun _ => k') :=
  ⟨fun s => h.step _, fun s s' hr hg => by
  unfold Watch.Ans
  simp only [sees, Bool.false_eq_true, if_false]
  intro a t' e
  rw [M.bind_apply] at e
  cases hm : q s' with
  | fail f u => rw [hm] at e; cases e
  | ok x u =>
    rw [hm] at e
    have hu : Sees { s with out := s.out ++ breakWarning } u := by
      have hu := hq s s' x u hr hm
      refine ⟨?_, .noWarning hu.out, hu.input, hu.cond⟩
      rw [hu.same]; simp [St.seen]
    have := h.sim _ u hu hg
    unfold Watch.Ans at this
    simp only [sees, Bool.false_eq_true, if_false] at this
    exact this a t' e⟩

instance : DbgWatch sees where
  readline args sid := by
    unfold bReadLine
    refine DSim.bind inferInstance fun _ => ⟨fun s => ?_, fun s s' hr hg => ?_⟩
    · rw [M.bind_apply, M.get_apply]
      show (Out.st _).input.length ≤ _
      cases h : s.input with
      | nil => simp [h, Out.st]
      | cons l ls => simp [Out.st]
    · exfalso
      obtain ⟨h1, h2⟩ := hg
      rw [M.bind_apply, M.get_apply] at h2
      cases h : s.input with
      | nil => exact h1 h
      | cons l ls => simp [h, Out.st] at h2
  before r ast tok sid k k' h := sim_insert (quiet_beforeCall r ast tok sid) h
  brk r sid := by
    unfold bBreak bBreakD
    refine DSim.bind inferInstance fun _ => DSim.bind (DSim.rd fun _ _ _ _ => by simp only [seen]) fun _ =>
      DSim.bind (DSim.rd fun _ _ _ _ => by simp only [seen]) fun _ => DSim.bind inferInstance fun _ => ?_
    exact sim_warning (quiet_interactD r sid false) inferInstance

/-! ## The second comparison -/

/-- The program runs freely and does not call `break`. -/
def free : Watch where
  fwd := true
  rel s s' := s' = s ∧ RunsFree s.dbg
  step s t := s.out <+: t.out
  good _ t := ¬ breakWarning <:+: t.out

instance : IsWatch free where
  refl s := List.prefix_refl _
  trans h g := List.IsPrefix.trans h g
  split := by
    intro a b c h g g'
    exact ⟨fun hb => h (hb.trans (List.IsPrefix.isInfix g')), h⟩
  seen h := by rw [h.1]; rfl
  upd := by
    intro s s' t h h1 h2 h3
    obtain ⟨rfl, h⟩ := h
    refine ⟨?_, by rw [h3]; exact h⟩
    cases t; cases h1; cases h2; cases h3; rfl
  stepUpd h1 h2 := by show _ <+: _; rw [h1]; exact List.prefix_refl _
  write := by
    intro s s' w h
    obtain ⟨rfl, h⟩ := h
    exact ⟨rfl, h⟩
  stepWrite s w := List.prefix_append _ _

theorem sim_free {m : M α} (h : ∀ s, s.out <+: (m s).st.out) (hd : ∀ s, (m s).st.dbg = s.dbg) : DSim free m m := ⟨h, fun s s' hr hg => by
  obtain ⟨rfl, hr⟩ := hr
  unfold Watch.Ans
  simp only [free, if_true]
  intro a t e
  have := hd s'
  rw [e] at this
  exact ⟨t, e, rfl, by rw [show t.dbg = s'.dbg from this]; exact hr⟩⟩

theorem beforeCall_free {r : Rec} {ast : List Ptr} {tok : Option Token} {sid : Nat} {s : St} (h : RunsFree s.dbg) :
    beforeCall r ast tok sid s = .ok () s := by
  obtain ⟨h1, h2⟩ := h
  simp [beforeCall, needsBreak, h1, h2, hitsBreakpoint]

instance : DbgWatch free where
  readline args sid := by
    unfold bReadLine
    refine DSim.bind inferInstance fun _ => sim_free (fun s => ?_) fun s => ?_
    · rw [M.bind_apply, M.get_apply]
      cases h : s.input <;> exact List.prefix_refl _
    · rw [M.bind_apply, M.get_apply]
      cases h : s.input <;> rfl
  before r ast tok sid k k' h := ⟨h.step, fun s s' hr hg => by
    have := h.sim s s' hr hg
    obtain ⟨rfl, hf⟩ := hr
    rw [M.bind_apply, beforeCall_free hf]
    exact this⟩
  brk r sid := by
    refine ⟨fun s => ?_, fun s s' hr hg => ?_⟩
    · have : DSim free (bBreak sid) (bBreak sid) := by unfold bBreak; sim
      exact this.step s
    · unfold Watch.Ans
      simp only [free, if_true]
      intro a t e
      exfalso
      rw [e] at hg
      refine hg ?_
      unfold bBreak at e
      simp only [M.bind_apply, M.rd_apply] at e
      rw [show writeLine c!"break -> call stack:" s = .ok () { s with out := s.out ++ (c!"break -> call stack:" ++ ['\n']) } from rfl] at e
      dsimp only at e
      generalize { s with out := s.out ++ (c!"break -> call stack:" ++ ['\n']) } = s1 at e
      cases h1 : callStackSize s1 (sid + 1) sid with
      | error f => rw [h1] at e; cases e
      | ok k =>
        rw [h1] at e
        dsimp only at e
        cases h2 : dumpStack s1 k (sid + 1) sid k with
        | error f => rw [h2] at e; cases e
        | ok w =>
          rw [h2] at e
          cases e
          exact ⟨s1.out ++ (w ++ ['\n']), [], by
            show s1.out ++ (w ++ ['\n']) ++ breakWarning ++ [] = s1.out ++ (w ++ ['\n']) ++ (_ ++ ['\n'])
            rw [List.append_nil]
            rfl⟩

end Fuel
