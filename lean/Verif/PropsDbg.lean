import Verif.SpecDbg
import Verif.PropsPlace
/-!
# The debugger (C49-C52)
-/

set_option linter.unusedSectionVars false
set_option linter.unusedSimpArgs false

namespace Fuel

open Spec

section
variable [World]

/-! ## C49 -/

theorem at_iff {b : Bp} {line : Nat} {module : Str} : (b.line == line && b.module == module) = true ↔ At b line module := by
  simp [At]

theorem replaceOrAdd_effect (line : Nat) (module cond : Str) (l : List Bp) :
    Effect (.add line module cond) l (replaceOrAdd (fun e => e.line == line && e.module == module) ⟨line, module, cond⟩ l) := by
  induction l with
  | nil => exact .added (by simp)
  | cons b t ih =>
    simp only [replaceOrAdd]
    by_cases h : (b.line == line && b.module == module) = true
    · rw [if_pos h]; exact .changed (a := []) (at_iff.mp h)
    · rw [if_neg h]
      generalize replaceOrAdd (fun e => e.line == line && e.module == module) ⟨line, module, cond⟩ t = t' at ih
      cases ih with
      | added h' => exact .added (l := b :: t) (by
          intro c hc
          rcases List.mem_cons.mp hc with rfl | hc
          · exact fun e => h (at_iff.mpr e)
          · exact h' c hc)
      | @changed _ _ _ a c t h' => exact .changed (a := b :: a) h'

theorem sizeT_neg {i : Int} (h : IsInt32 i) (hn : i < 0) : 18446744071562067968 ≤ sizeT i := by
  unfold sizeT IsInt32 at *; omega

theorem clear_effect {d : Dbg} {no : Int} (hr : IsInt32 no) (hm : no ≠ -2147483648) (hl : IsInt32 d.bps.length) :
    ∃ l ok, d.clearBreakpoint no = .ok ({ d with bps := l }, ok) ∧ Effect (.clear no) d.bps l ∧ (ok = true ↔ 1 ≤ no ∧ no ≤ d.bps.length) := by
  have h32 : IsInt32 (no - 1) := by unfold IsInt32 at *; omega
  have hchk : chk32 (no - 1) = .ok (no - 1) := by simp [chk32, h32]
  by_cases h : 1 ≤ no ∧ no ≤ d.bps.length
  · obtain ⟨i, hi⟩ : ∃ i : Nat, no - 1 = i := ⟨(no - 1).toNat, by omega⟩
    have hs : sizeT (no - 1) = i := by rw [hi]; exact sizeT_ofNat (hi ▸ h32)
    have hlt : i < d.bps.length := by omega
    refine ⟨d.bps.eraseIdx i, true, by simp [Dbg.clearBreakpoint, hchk, hs, hlt], ?_, by simp [h]⟩
    have e1 : d.bps = d.bps.take i ++ d.bps[i] :: d.bps.drop (i + 1) := by simp
    have := Effect.removed (no := no) (a := d.bps.take i) (b := d.bps[i]) (t := d.bps.drop (i + 1)) (by simp; omega)
    rw [← e1] at this
    rwa [List.eraseIdx_eq_take_drop_succ]
  · have hs : ¬ sizeT (no - 1) < d.bps.length := by
      rcases Int.lt_or_le (no - 1) 0 with hn | hn
      · have := sizeT_neg h32 hn; unfold IsInt32 at hl; omega
      · obtain ⟨i, hi⟩ : ∃ i : Nat, no - 1 = i := ⟨(no - 1).toNat, by omega⟩
        rw [hi, sizeT_ofNat (hi ▸ h32)]; omega
    exact ⟨d.bps, false, by simp [Dbg.clearBreakpoint, hchk, hs], .kept (by omega), by simp [h]⟩

theorem effect_length {o : BpOp} {l m : List Bp} (h : Effect o l m) : m.length ≤ l.length + 1 := by
  cases h <;> simp <;> omega

theorem effect_distinct {o : BpOp} {l m : List Bp} (h : Effect o l m) (hd : Distinct l) : Distinct m := by
  unfold Distinct at *
  cases h with
  | added h =>
    rw [List.pairwise_append]
    exact ⟨hd, by simp, fun b hb c hc => by simp at hc; subst hc; exact h b hb⟩
  | changed h =>
    rw [List.pairwise_append, List.pairwise_cons] at *
    obtain ⟨h1, ⟨h2, h3⟩, h4⟩ := hd
    refine ⟨h1, ⟨fun c hc e => h2 c hc ?_, h3⟩, fun b hb c hc => ?_⟩
    · exact ⟨h.1.trans e.1, h.2.trans e.2⟩
    · rcases List.mem_cons.mp hc with rfl | hc
      · exact fun e => h4 b hb _ (by simp) ⟨e.1.trans h.1.symm, e.2.trans h.2.symm⟩
      · exact h4 b hb c (by simp [hc])
  | removed h =>
    rw [List.pairwise_append, List.pairwise_cons] at hd
    rw [List.pairwise_append]
    exact ⟨hd.1, hd.2.1.2, fun b hb c hc => hd.2.2 b hb c (by simp [hc])⟩
  | kept h => exact hd
  | all => exact .nil

/-- C49: after every history of changes the debugger has the list of breakpoints that the history describes, with at most one
breakpoint for each line of a module; nothing else of the debugger is changed.  (The number of breakpoints has to fit in an `int`.) -/
theorem C49_history (d : Dbg) (ops : List BpOp) (hr : InRange ops) (hl : IsInt32 (d.bps.length + ops.length : Nat)) (hd : Distinct d.bps) :
    ∃ l, BpOp.callAll d ops = .ok { d with bps := l } ∧ Effects ops d.bps l ∧ Distinct l := by
  induction ops generalizing d with
  | nil => exact ⟨d.bps, rfl, .nil, hd⟩
  | cons o t ih =>
    obtain ⟨m, hm, he⟩ : ∃ m, o.call d = .ok { d with bps := m } ∧ Effect o d.bps m := by
      cases o with
      | add line module cond => exact ⟨_, rfl, replaceOrAdd_effect line module cond d.bps⟩
      | clear no =>
        have hn := hr no (by simp)
        obtain ⟨l, ok, h1, h2, _⟩ := clear_effect (d := d) hn.1 hn.2 (by unfold IsInt32 at *; simp at hl; omega)
        exact ⟨l, by simp [BpOp.call, h1]; rfl, h2⟩
      | clearAll => exact ⟨[], rfl, .all⟩
    have hlen := effect_length he
    obtain ⟨l, h1, h2, h3⟩ := ih { d with bps := m } (fun no h => hr no (by simp [h])) (by unfold IsInt32 at *; simp at hl ⊢; omega)
      (effect_distinct he hd)
    exact ⟨l, by simp [BpOp.callAll, hm, h1], .cons he h2, h3⟩

/-- The effect of a change on a list with distinct positions is determined. -/
theorem C49_determined {o : BpOp} {l m n : List Bp} (hd : Distinct l) (h1 : Effect o l m) (h2 : Effect o l n) : m = n := by
  cases o with
  | clearAll => cases h1; cases h2; rfl
  | clear no =>
    generalize hl : l = l' at h2
    cases h1 with
    | removed h =>
      cases h2 with
      | removed h' =>
        obtain ⟨rfl, hh⟩ := List.append_inj hl (by omega)
        cases hh; rfl
      | kept h' => subst hl; simp at h'; omega
    | kept h =>
      cases h2 with
      | removed h' => subst hl; simp at h; omega
      | kept h' => exact hl
  | add line module cond =>
    have key : ∀ {a t : List Bp} {b : Bp} {a' t' : List Bp} {b' : Bp}, a ++ b :: t = a' ++ b' :: t' → Distinct (a ++ b :: t) → At b line module →
        At b' line module → a = a' ∧ t = t' := by
      intro a
      induction a with
      | nil =>
        intro t b a' t' b' e hd hb hb'
        cases a' with
        | nil => cases e; exact ⟨rfl, rfl⟩
        | cons c a' =>
          cases e
          exact absurd (show At b b'.line b'.module from ⟨hb.1.trans hb'.1.symm, hb.2.trans hb'.2.symm⟩)
            ((List.pairwise_cons.mp hd).1 b' (by simp))
      | cons c a ih =>
        intro t b a' t' b' e hd hb hb'
        cases a' with
        | nil =>
          cases e
          exact absurd (show At c b.line b.module from ⟨hb'.1.trans hb.1.symm, hb'.2.trans hb.2.symm⟩)
            ((List.pairwise_cons.mp hd).1 b (by simp))
        | cons c' a' =>
          injection e with e1 e
          subst e1
          obtain ⟨rfl, rfl⟩ := ih e (List.pairwise_cons.mp hd).2 hb hb'
          exact ⟨rfl, rfl⟩
    generalize hl : l = l' at h2
    cases h1 with
    | added h =>
      cases h2 with
      | added _ => rw [hl]
      | changed h' => subst hl; exact absurd h' (h _ (by simp))
    | changed h =>
      cases h2 with
      | added h' => subst hl; exact absurd h (h' _ (by simp))
      | changed h' => obtain ⟨rfl, rfl⟩ := key hl hd h h'; rfl

/-- All results of the computation have the property. -/
class Post {α : Type} (m : M α) (P : α → Prop) : Prop where
  post : ∀ s a s', m s = .ok a s' → P a

theorem Post.bind {α β : Type} {m : M α} {k : α → M β} {Q : α → Prop} {P : β → Prop} (h : Post m Q) (hk : ∀ a, Q a → Post (k a) P) : Post (m >>= k) P :=
  ⟨fun s b s' e => by
    rw [M.bind_apply] at e
    cases hm : m s with
    | ok a s1 => rw [hm] at e; exact (hk a (h.post s a s1 hm)).post s1 b s' e
    | fail f s1 => rw [hm] at e; cases e⟩
theorem Post.true {α : Type} (m : M α) : Post m fun _ => True := ⟨fun _ _ _ _ => trivial⟩
theorem Post.pure {α : Type} {a : α} {P : α → Prop} (h : P a) : Post (pure a : M α) P := ⟨fun _ _ _ e => by cases e; exact h⟩

theorem post_clearCommand {d : Dbg} (hd : Distinct d.bps) (cmd : Str) : Post (clearCommand d cmd) fun d' => Distinct d'.bps := by
  unfold clearCommand
  refine Post.bind (Post.true _) fun _ _ => ?_
  dsimp only
  split
  · refine Post.bind (Post.true _) fun _ _ => Post.bind (Post.true _) fun _ _ => Post.bind (Post.true _) fun _ _ => ?_
    split
    · exact .pure .nil
    · exact .pure hd
  · refine Post.bind (Post.true _) fun no _ => ?_
    refine Post.bind (Q := fun x => Distinct x.1.bps) ⟨fun s a s' e => ?_⟩ fun a ha => ?_
    · simp only [M.lift_apply, Dbg.clearBreakpoint] at e
      cases hc : chk32 (no - 1) with
      | error f => rw [hc] at e; cases e
      | ok i =>
        rw [hc] at e
        simp only [bind_ok_R] at e
        split at e
        · rename_i a' e'; cases e
          split at e'
          · cases e'; exact hd.sublist (List.eraseIdx_sublist _ _)
          · cases e'; exact hd
        · cases e
    · obtain ⟨d', ok⟩ := a
      dsimp only
      split
      · exact .pure ha
      · exact Post.bind (Post.true _) fun _ _ => .pure ha

/-- C49: no command of the interactive loop leads to two breakpoints for the same line of a module. -/
theorem C49_command (k top : Nat) (fromMain : Bool) (cmd : Str) (d : DS) (hd : Distinct d.dbg.bps) {st st' : St} {d' : DS} {c : Ctl}
    (h : dbgCommand (run k) top fromMain cmd d st = .ok (d', c) st') : Distinct d'.dbg.bps := by
  have key : Post (dbgCommand (run k) top fromMain cmd d) fun x => Distinct x.1.dbg.bps := by
    unfold dbgCommand
    refine Post.bind (Post.true _) fun gid _ => ?_
    split
    case h_10 =>
      exact Post.bind (post_clearCommand hd cmd) fun _ h => .pure h
    case h_14 =>
      refine Post.bind (Post.true _) fun _ _ => Post.bind (Post.true _) fun b _ => ?_
      split
      · exact .pure (effect_distinct (replaceOrAdd_effect ..) hd)
      · exact Post.bind (Post.true _) fun _ _ => .pure hd
    case h_25 =>
      refine Post.bind (Q := fun x => Distinct x.dbg.bps) ?_ fun _ h => .pure h
      unfold evalCommand
      refine Post.bind (Post.true _) fun x _ => ?_
      split
      · exact .pure hd
      · exact Post.bind (Post.true _) fun _ _ => .pure hd
      · exact Post.bind (Post.true _) fun _ _ => .pure hd
    all_goals
      repeat' (first
        | with_reducible exact .pure hd
        | with_reducible refine Post.bind (Post.true _) fun _ _ => ?_
        | split
        | dsimp only)
    all_goals exact Post.pure hd
  exact key.post st (d', c) st' h

/-- C49: whatever the user types, the interactive loop never has two breakpoints for the same line of a module. -/
theorem C49_loop (k top : Nat) (fromMain : Bool) (n : Nat) (d : DS) (hd : Distinct d.dbg.bps) {st st' : St} {d' : DS} {c : Ctl}
    (h : dbgLoop (run k) top fromMain n d st = .ok (d', c) st') : Distinct d'.dbg.bps := by
  have key : Post (dbgLoop (run k) top fromMain n d) fun x => Distinct x.1.dbg.bps := by
    clear h
    induction n generalizing d with
    | zero => exact ⟨fun _ _ _ e => by cases e⟩
    | succ n ih =>
      unfold dbgLoop
      refine Post.bind (Post.true _) fun _ _ => Post.bind (Post.true _) fun line _ => ?_
      refine Post.bind (Q := fun x => Distinct x.1.dbg.bps) ⟨fun s a s' e => C49_command k top fromMain _ d hd (d' := a.1) (c := a.2) e⟩ fun a ha => ?_
      split
      · exact ih _ ha
      · exact .pure ha
  exact key.post st (d', c) st' h

/-! ## C50 -/

/-- C50: `ClearBreakpoint(no)` removes exactly the breakpoint with number `no` (counted from 1) and reports success exactly if there
is one; otherwise nothing is changed. -/
theorem C50_clear {d : Dbg} {no : Int} (hr : IsInt32 no) (hm : no ≠ -2147483648) (hl : IsInt32 d.bps.length) :
    ∃ l ok, d.clearBreakpoint no = .ok ({ d with bps := l }, ok) ∧ (ok = true ↔ 1 ≤ no ∧ no ≤ d.bps.length) ∧
      (ok = false → l = d.bps) ∧
      (∀ i : Nat, no = i + 1 → ok = true → l.take i = d.bps.take i ∧ l.drop i = d.bps.drop (i + 1)) := by
  obtain ⟨l, ok, h1, h2, h3⟩ := clear_effect hr hm hl
  refine ⟨l, ok, h1, h3, fun ho => ?_, fun i hi ho => ?_⟩
  · generalize hb : d.bps = b at h2 h3
    cases h2 with
    | removed h => simp [ho] at h3; omega
    | kept _ => rfl
  · generalize hb : d.bps = b at h2 h3
    cases h2 with
    | @removed _ a c t h =>
      have : i = a.length := by omega
      subst this
      simp
    | kept h => have := h3.mp ho; omega

/-- C50, negative part: for the smallest integer the computation of the index overflows. -/
theorem C50_smallest_wrong (d : Dbg) : d.clearBreakpoint (-2147483648) = .error (.ub .overflow) := by
  simp [Dbg.clearBreakpoint, chk32, IsInt32, R.ub]

theorem atoi_numeral {s : Str} {i : Int} (hn : Numeral s i) (h : IsInt32 i) : atoi s = .ok i := by
  have := strtol_numeral (ws := []) (rest := []) (by simp) hn (by simp)
  simp at this
  simp [atoi, cStr_eq (numeral_no_nul hn), this, h]

theorem numeral_tight {s : Str} {i : Int} (hn : Numeral s i) : Tight s ∧ s ≠ [] := by
  obtain ⟨ds, h1, h2, h3⟩ := hn
  have hw : ∀ c, Digit c → ¬ White c := fun c h => digit_not_white h
  have key : (∀ c ∈ s, ¬ White c) ∧ s ≠ [] := by
    rcases h3 with ⟨rfl, _⟩ | ⟨rfl, _⟩ | ⟨rfl, _⟩
    · exact ⟨fun c hc => hw c (h2 c hc), h1⟩
    · refine ⟨fun c hc => ?_, by simp⟩
      rcases List.mem_cons.mp hc with rfl | hc
      · decide
      · exact hw c (h2 c hc)
    · refine ⟨fun c hc => ?_, by simp⟩
      rcases List.mem_cons.mp hc with rfl | hc
      · decide
      · exact hw c (h2 c hc)
  exact ⟨⟨fun c hc => key.1 c (List.mem_of_mem_head? hc), fun c hc => key.1 c (List.mem_of_getLast? hc)⟩, key.2⟩

theorem dcmd_clear (s : Str) : dcmd (c!"clear" ++ s) = .clear := by
  simp [dcmd, startsWith]

/-- C50: the command `clear n` of the interactive loop removes exactly the breakpoint with number `n`; if there is none, it
writes a warning and changes nothing. -/
theorem C50_command (k top : Nat) (fromMain : Bool) (d : DS) {s : Str} {no : Int} (hs : Numeral s no) (hr : IsInt32 no) (hm : no ≠ -2147483648)
    (hl : IsInt32 d.dbg.bps.length) (st : St) :
    ∃ l st', dbgCommand (run k) top fromMain (c!"clear " ++ s) d st = .ok ({ d with dbg := { d.dbg with bps := l } }, .again) st' ∧
      Effect (.clear no) d.dbg.bps l ∧
      ((1 ≤ no ∧ no ≤ d.dbg.bps.length) → st' = st) ∧
      (¬ (1 ≤ no ∧ no ≤ d.dbg.bps.length) → st' = { st with out := st.out ++ c!"Warning: no breakpoint cleared\n" }) := by
  obtain ⟨l, ok, h1, h2, h3⟩ := clear_effect hr hm hl
  have hc : dcmd (c!"clear " ++ s) = .clear := dcmd_clear (' ' :: s)
  have ht : trim (' ' :: s) = s := by
    have := trim_of_decomp (a := c!" ") (b := []) (o := s) (by decide) (by simp) (numeral_tight hs).1
    simpa using this
  have hsub : substrFrom (c!"clear " ++ s) 5 = .ok (' ' :: s) := by simp [substrFrom]
  have hne : s.isEmpty = false := by cases s with | nil => exact absurd rfl (numeral_tight hs).2 | cons => rfl
  simp only [dbgCommand, M.bind_apply, M.get_apply, hc, clearCommand, M.lift_apply, hsub, ht, hne, Bool.false_eq_true, if_false, atoi_numeral hs hr, h1]
  cases ok with
  | true => exact ⟨l, st, by simp, h2, by simp, fun h => absurd (h3.mp rfl) h⟩
  | false => exact ⟨l, _, by simp [writeLine, write]; rfl, h2, fun h => absurd (h3.mpr h) (by simp), fun _ => by simp⟩

/-! ## C51 -/

theorem matches_iff {b : Bp} {line : Nat} {module : Str} : (sameModule b.module module && line == b.line) = true ↔ Matches b line module := by
  simp only [sameModule, Bool.and_eq_true, Bool.or_eq_true, List.isEmpty_iff, beq_iff_eq, Matches]
  constructor
  · rintro ⟨h1, h2⟩; exact ⟨h2.symm, by rcases h1 with (h | h) | h <;> simp [h]⟩
  · rintro ⟨h1, h2⟩; exact ⟨by rcases h2 with h | h | h <;> simp [h], h1.symm⟩

theorem hits_skip {n : Nat} {ev : Str → M (Option Variant)} {line : Nat} {module : Str} {a l : List Bp} (ha : ∀ b ∈ a, ¬ Matches b line module) :
    hitsBreakpoint n ev line module (a ++ l) = hitsBreakpoint n ev line module l := by
  induction a with
  | nil => rfl
  | cons b t ih =>
    have hb := ha b (by simp)
    rw [← matches_iff] at hb
    simp only [List.cons_append, hitsBreakpoint, if_neg hb]
    exact ih fun c hc => ha c (by simp [hc])

/-- C51: a breakpoint without condition for the position stops the program if no earlier breakpoint is for the same position. -/
theorem C51_unconditional (n : Nat) (ev : Str → M (Option Variant)) {line : Nat} {module : Str} {a t : List Bp} {b : Bp}
    (ha : ∀ c ∈ a, ¬ Matches c line module) (hb : Matches b line module) (hc : b.cond = []) (st : St) :
    hitsBreakpoint n ev line module (a ++ b :: t) st = .ok true st := by
  rw [hits_skip ha]
  simp only [hitsBreakpoint, if_pos (matches_iff.mpr hb)]
  simp [hc]

/-- C51: without a breakpoint for the position the program is not stopped. -/
theorem C51_none (n : Nat) (ev : Str → M (Option Variant)) {line : Nat} {module : Str} {l : List Bp} (hl : ∀ c ∈ l, ¬ Matches c line module) (st : St) :
    hitsBreakpoint n ev line module l st = .ok false st := by
  have := hits_skip (n := n) (ev := ev) (l := []) hl
  rw [List.append_nil] at this
  rw [this]; rfl

/-- C51: the first breakpoint for the position decides alone: if its condition evaluates to a truth value, this is the answer. -/
theorem C51_condition (n : Nat) (ev : Str → M (Option Variant)) {line : Nat} {module : Str} {a t : List Bp} {b : Bp}
    (ha : ∀ c ∈ a, ¬ Matches c line module) (hb : Matches b line module) (hc : b.cond ≠ []) {st st' : St} {v : Variant} {x : Bool}
    (he : ev b.cond st = .ok (some v) st') (hv : IsBool v x) :
    hitsBreakpoint n ev line module (a ++ b :: t) st = .ok x st' := by
  rw [hits_skip ha]
  simp only [hitsBreakpoint, if_pos (matches_iff.mpr hb)]
  simp [hc, condHolds, tryM, he, derefV, M.rd_apply, boolValue_bool hv]

theorem format_condition {s n : Str} (hs : BraceFree s) (hs' : s ≠ c!"##<NULL>##") (hn : BraceFree n) (hn' : n ≠ c!"##<NULL>##") :
    format c!"Error: bad condition for line {0}: {1}" s n = .ok (c!"Error: bad condition for line " ++ s ++ c!": " ++ n) := by
  have := format_pieces (args := [s, n])
    (ps := [.lit c!"Error: bad condition for line ", .hole 0, .lit c!": ", .hole 1])
    (by simp [BraceFree]) (by simp [nullString, BraceFree] at *; exact ⟨⟨hs, hs'⟩, hn, hn'⟩) (by simp [holes]) (by simp [holes])
  simpa [argOr, sources, Piece.source, fill, nullString] using this

/-- C51: if the condition of the first breakpoint for the position raises an exception, a message is written and the program is
not stopped.  (Curly brackets in the condition are excluded because the message is made with `Format`.) -/
theorem C51_bad_condition (n : Nat) (ev : Str → M (Option Variant)) {line : Nat} {module : Str} {a t : List Bp} {b : Bp}
    (ha : ∀ c ∈ a, ¬ Matches c line module) (hb : Matches b line module) (hc : b.cond ≠ []) (hf : BraceFree b.cond) (hf' : b.cond ≠ c!"##<NULL>##")
    {st st' : St} {e : Exn} (he : ev b.cond st = .fail (.exn e) st') :
    hitsBreakpoint n ev line module (a ++ b :: t) st =
      .ok false { st' with out := st'.out ++ c!"Error: bad condition for line " ++ natStr line ++ c!": " ++ b.cond ++ c!"\n" } := by
  rw [hits_skip ha]
  simp only [hitsBreakpoint, if_pos (matches_iff.mpr hb)]
  have := format_condition (natStr_text line).1 (natStr_text line).2 hf hf'
  obtain ⟨rfl, _⟩ := hb
  have hx : b.cond.isEmpty = false := by simpa using hc
  simp only [hx, Bool.false_eq_true, if_false, condHolds, tryM, he, M.bind_apply, M.lift_apply, writeLine, write, M.modify_apply, M.pure_apply]
  rw [this]
  simp only [List.append_assoc]

/-! ## C52 -/

theorem callStackSize_depth {st : St} (hl : Links st) {s n : Nat} (h : Depth st s n) : ∀ k, s < k → callStackSize st k s = .ok n := by
  induction h with
  | main h => intro k hk; cases k with | zero => omega | succ k => simp [callStackSize, h]
  | call h _ ih =>
    intro k hk
    cases k with
    | zero => omega
    | succ k =>
      have := (hl.callers _ _ h).1
      simp [callStackSize, h, ih k (by omega)]

/-- Every scope has a call depth. -/
theorem depth_exists {st : St} (hl : Links st) (s : Nat) : ∃ n, Depth st s n := by
  induction s using Nat.strongRecOn with
  | _ s ih =>
    cases h : (st.scopes s).prev with
    | none => exact ⟨1, .main h⟩
    | some p =>
      obtain ⟨n, hn⟩ := ih p (hl.callers s p h).1
      exact ⟨n + 1, .call h hn⟩

theorem stopsHere_eq {st : St} (hl : Links st) {sid n : Nat} (hd : Depth st sid n) (m : StepMode) :
    stopsHere m sid st = .ok (m.stops n) st := by
  cases m with
  | always => rfl
  | atMost x => simp [stopsHere, M.rd_apply, callStackSize_depth hl hd (sid + 1) (by omega)]

theorem needsBreak_stop {st : St} (hl : Links st) {sid n : Nat} (hd : Depth st sid n) {d : Dbg} (h1 : d.stop = true) (h2 : d.mode.stops n = true)
    (k : Nat) (ev : Str → M (Option Variant)) (line : Nat) : needsBreak k ev d sid line st = .ok ({ d with stop := false }, true) st := by
  simp [needsBreak, stopsHere_eq hl hd, h1, h2]

theorem needsBreak_run {st : St} (hl : Links st) {sid n : Nat} (hd : Depth st sid n) {d : Dbg} (h : d.stop = false ∨ d.mode.stops n = false)
    (k : Nat) (ev : Str → M (Option Variant)) (line : Nat) {st' : St} {x : Bool} (hx : hitsBreakpoint k ev line (st.scopes sid).module d.bps st = .ok x st') :
    needsBreak k ev d sid line st = .ok (if x then { d with stop := false } else d, x) st' := by
  have hs := stopsHere_eq hl hd d.mode
  unfold needsBreak
  cases hd' : d.stop with
  | false => simp [hd', hx]; cases x <;> rfl
  | true =>
    have hm : d.mode.stops n = false := by simpa [hd'] using h
    rw [hm] at hs
    simp [hd', hx, hs]; cases x <;> rfl

/-- C52: after `step` the debugger stops at the next position, whatever it is. -/
theorem C52_step {st : St} (hl : Links st) (sid : Nat) (d : Dbg) (k : Nat) (ev : Str → M (Option Variant)) (line : Nat) :
    ∃ d', needsBreak k ev d.doStep sid line st = .ok (d', true) st ∧ d'.bps = d.bps := by
  obtain ⟨n, hn⟩ := depth_exists hl sid
  exact ⟨_, needsBreak_stop hl hn rfl rfl k ev line, rfl⟩

/-- C52: after `over` at depth `m` the debugger stops at the next position whose depth is not greater. -/
theorem C52_over {st : St} (hl : Links st) {sid n : Nat} (hd : Depth st sid n) (d : Dbg) {m : Nat} (h : n ≤ m) (k : Nat) (ev : Str → M (Option Variant))
    (line : Nat) : ∃ d', needsBreak k ev (d.doStepOver m) sid line st = .ok (d', true) st ∧ d'.bps = d.bps :=
  ⟨_, needsBreak_stop hl hd rfl (by simp [Dbg.doStepOver, StepMode.stops]; omega) k ev line, rfl⟩

/-- C52: after `over` at depth `m` the debugger stops at deeper positions at breakpoints only, and stays in this mode if there is none. -/
theorem C52_over_deeper {st : St} (hl : Links st) {sid n : Nat} (hd : Depth st sid n) (d : Dbg) {m : Nat} (h : m < n) (k : Nat)
    (ev : Str → M (Option Variant)) (line : Nat) {st' : St} {x : Bool} (hx : hitsBreakpoint k ev line (st.scopes sid).module d.bps st = .ok x st') :
    ∃ d', needsBreak k ev (d.doStepOver m) sid line st = .ok (d', x) st' ∧ (x = false → d' = d.doStepOver m) :=
  ⟨_, needsBreak_run hl hd (.inr (by simp [Dbg.doStepOver, StepMode.stops]; omega)) k ev line hx, fun e => by simp [e]⟩

/-- C52: after `out` at depth `m` the debugger stops at the next position with a smaller depth. -/
theorem C52_out {st : St} (hl : Links st) {sid n : Nat} (hd : Depth st sid n) (d : Dbg) {m : Nat} (h : n < m) (k : Nat) (ev : Str → M (Option Variant))
    (line : Nat) : ∃ d', needsBreak k ev (d.doStepOut m) sid line st = .ok (d', true) st ∧ d'.bps = d.bps :=
  ⟨_, needsBreak_stop hl hd rfl (by simp [Dbg.doStepOut, StepMode.stops]; omega) k ev line, rfl⟩

/-- C52: after `out` at depth `m` the debugger stops at positions that are not less deep at breakpoints only, and stays in this mode if
there is none. -/
theorem C52_out_deeper {st : St} (hl : Links st) {sid n : Nat} (hd : Depth st sid n) (d : Dbg) {m : Nat} (h : m ≤ n) (k : Nat)
    (ev : Str → M (Option Variant)) (line : Nat) {st' : St} {x : Bool} (hx : hitsBreakpoint k ev line (st.scopes sid).module d.bps st = .ok x st') :
    ∃ d', needsBreak k ev (d.doStepOut m) sid line st = .ok (d', x) st' ∧ (x = false → d' = d.doStepOut m) :=
  ⟨_, needsBreak_run hl hd (.inr (by simp [Dbg.doStepOut, StepMode.stops]; omega)) k ev line hx, fun e => by simp [e]⟩

/-- C52: after `run` the debugger stops at breakpoints only. -/
theorem C52_run {st : St} (hl : Links st) (sid : Nat) (d : Dbg) (k : Nat)
    (ev : Str → M (Option Variant)) (line : Nat) {st' : St} {x : Bool} (hx : hitsBreakpoint k ev line (st.scopes sid).module d.bps st = .ok x st') :
    ∃ d', needsBreak k ev d.doRun sid line st = .ok (d', x) st' ∧ (x = false → d' = d.doRun) := by
  obtain ⟨n, hn⟩ := depth_exists hl sid
  exact ⟨_, needsBreak_run hl hn (.inl rfl) k ev line hx, fun e => by simp [e]⟩

/-- C52: the commands of the interactive loop choose these modes for the scope that is shown and leave the loop. -/
theorem C52_commands (k top : Nat) (fromMain : Bool) (d : DS) {st : St} (hl : Links st) {m : Nat} (hm : Depth st d.cur m) {cmd : Str} :
    (cmd ∈ [c!"step", c!"s"] → dbgCommand (run k) top fromMain cmd d st = .ok ({ d with dbg := d.dbg.doStep }, .leave false) st) ∧
    (cmd ∈ [c!"over", c!"v"] → dbgCommand (run k) top fromMain cmd d st = .ok ({ d with dbg := d.dbg.doStepOver m }, .leave false) st) ∧
    (cmd ∈ [c!"out", c!"o"] → dbgCommand (run k) top fromMain cmd d st = .ok ({ d with dbg := d.dbg.doStepOut m }, .leave false) st) ∧
    (cmd ∈ [c!"run", c!"r"] → dbgCommand (run k) top fromMain cmd d st = .ok ({ d with dbg := d.dbg.doRun }, .leave false) st) := by
  have hs := callStackSize_depth hl hm (d.cur + 1) (by omega)
  refine ⟨fun h => ?_, fun h => ?_, fun h => ?_, fun h => ?_⟩
  · have : dcmd cmd = .step := by simp at h; rcases h with rfl | rfl <;> decide
    simp [dbgCommand, this]
  · have : dcmd cmd = .over := by simp at h; rcases h with rfl | rfl <;> decide
    simp [dbgCommand, this, M.rd_apply, hs]
  · have : dcmd cmd = .out := by simp at h; rcases h with rfl | rfl <;> decide
    simp [dbgCommand, this, M.rd_apply, hs]
  · have : dcmd cmd = .run := by simp at h; rcases h with rfl | rfl <;> decide
    simp [dbgCommand, this]

end

/-! ## Examples -/

section
attribute [local instance] demoWorld

/-- Three breakpoints, two of them for the same line. -/
def demoBps : List Bp := [⟨3, c!"m", []⟩, ⟨5, c!"m", c!"(= a 1)"⟩, ⟨3, c!"n", []⟩]

example : Distinct demoBps ∧ IsInt32 (demoBps.length + 4 : Nat) ∧
    InRange [.add 3 c!"m" c!"(> a 2)", .clear 2, .add 7 c!"n" [], .clear 9] := by
  refine ⟨by unfold Distinct demoBps At; simp, by decide, ?_⟩
  intro no h
  simp at h
  rcases h with rfl | rfl <;> decide

example : BpOp.callAll { bps := demoBps } [.add 3 c!"m" c!"(> a 2)", .clear 2, .add 7 c!"n" [], .clear 9] =
    .ok { bps := [⟨3, c!"m", c!"(> a 2)"⟩, ⟨3, c!"n", []⟩, ⟨7, c!"n", []⟩] } := rfl

example : Matches ⟨3, c!"n", []⟩ 3 c!"n" ∧ ∀ c ∈ [⟨3, c!"m", []⟩, ⟨5, c!"m", c!"(= a 1)"⟩], ¬ Matches c 3 c!"n" := by
  simp [Matches]

/-- A session with the interactive loop: `break` twice for the same line, `list`, `clear`, and stepping. -/
def demoLoop (lines : List Str) : Option (List Bp × StepMode × Str) :=
  match createDefaultScope { input := lines } with
  | .ok sid st => match interactiveLoop (run 60) {} sid true st with
    | .ok (d, _) st => some (d.dbg.bps, d.dbg.mode, st.out)
    | .fail _ _ => none
  | .fail _ _ => none

example : demoLoop [c!"break 3", c!"b 5 (= a 1)", c!"b 3 (= a 2)", c!"clear 7", c!"clear 2", c!"(+ 1 2)", c!"over"] =
    some ([⟨3, [], c!"(= a 2)"⟩], .atMost 1, c!"FUEL(isp)-DBG> FUEL(isp)-DBG> FUEL(isp)-DBG> FUEL(isp)-DBG> Warning: no breakpoint cleared
FUEL(isp)-DBG> FUEL(isp)-DBG> result=3
FUEL(isp)-DBG> ") := by decide +kernel

/-- In the scope of a call of a function that is called by another one the depth is 3 (`f` raises an exception, so the calls stay on the stack). -/
example : ∃ st sid, Reachable st ∧ Links st ∧ Depth st sid 3 := by
  obtain ⟨st, h, hx⟩ := demoAfter_of (code := c!"(defn f (a) (throw a)) (defn g (b) (f b)) (g 1)") (P := fun st =>
    match (List.range st.next).find? fun s => (binding st s c!"a").isSome with
    | some s => match (st.scopes s).prev with
      | some p => match (st.scopes p).prev with
        | some q => decide ((st.scopes q).prev = none)
        | none => false
      | none => false
    | none => false) (by decide +kernel)
  split at hx
  · rename_i s _
    split at hx
    · rename_i p hp
      split at hx
      · rename_i q hq
        exact ⟨st, s, h, h.links, .call hp (.call hq (.main (of_decide_eq_true hx)))⟩
      · cases hx
    · cases hx
  · cases hx

end

end Fuel
