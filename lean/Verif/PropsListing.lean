import Verif.PropsDoc
import Verif.SpecListing
import Verif.PropsFormat
import Verif.PropsDbg
/-!
# Listings and the `break` command of the debugger (C73, C74)
-/

set_option linter.unusedSectionVars false
set_option linter.unusedSimpArgs false
set_option linter.unusedVariables false

namespace Fuel

open Spec

variable [World]

theorem findSub_occurs {needle txt : Str} (h : ¬ Occurs needle txt) : findSub needle txt = none :=
  findSub_eq_none fun k hk => by
    obtain ⟨a, b, e, _⟩ := hk
    exact h ⟨a, b, e⟩

theorem occurs_after {x y : Char} {a l : Str} (ha : BraceFree a) (h : Occurs ['{', x, y] (a ++ l)) : Occurs ['{', x, y] l := by
  induction a with
  | nil => exact h
  | cons c a ih =>
    obtain ⟨u, v, e⟩ := h
    cases u with
    | nil =>
      simp at e
      obtain ⟨rfl, _⟩ := e
      exact absurd rfl (ha '{' (by simp)).1
    | cons d u =>
      simp at e
      exact ih (fun c hc => ha c (by simp [hc])) ⟨u, v, by simpa using e.2⟩

/-- The last step of a listing: the text of the last column may contain curly brackets. -/
theorem format_last {ps : List Slot} (hs : ∀ p ∈ ps, SlotOk p) {args : List Str} (hl : args.length = 3) (harg : ∀ a ∈ args, BraceFree a ∧ a ≠ nullString)
    (hh : ∀ i ∈ slotNums ps, i < 3) (hd : (slotNums ps).Nodup) {l : Str} (hlast : LastColumn l) :
    format (slotSources (ps ++ [.hole 3])) (argOr args 0) (argOr args 1) (argOr args 2) l = .ok (slotFill args ps ++ l) := by
  have hA : ∀ i, BraceFree (argOr args i) := argOr_free fun a ha => (harg a ha).1
  have hN : ∀ i, i < 3 → argOr args i ≠ nullString := fun i hi => by
    have h1 : i < args.length := by omega
    have e : args[i]? = some args[i] := List.getElem?_eq_getElem h1
    simp only [argOr, e]
    exact (harg _ (List.getElem_mem h1)).2
  have hnum : slotNums (ps ++ [.hole 3]) = slotNums ps ++ [3] := by rw [slotNums_append]; rfl
  have hf0 : SlotsOk (ps ++ [.hole 3]) := by
    refine ⟨fun p hp => ?_, fun i hi => ?_⟩
    · simp at hp
      rcases hp with hp | rfl
      · exact hs p hp
      · trivial
    · rw [hnum] at hi
      simp at hi
      rcases hi with hi | rfl
      · have := hh i hi; omega
      · omega
  have hd0 : (slotNums (ps ++ [.hole 3])).Nodup := by
    rw [hnum, List.nodup_append]
    exact ⟨hd, by simp, fun a ha b hb => by simp at hb; subst hb; have := hh a ha; omega⟩
  have hf1 := slotPlug_ok (i := 0) hf0 (hA 0)
  have hf2 := slotPlug_ok (i := 1) hf1 (hA 1)
  have hf3 := slotPlug_ok (i := 2) hf2 (hA 2)
  have nd : ∀ {j : Nat} {a : Str} {qs : List Slot}, (slotNums qs).Nodup → (slotNums (slotPlug j a qs)).Nodup := fun h => by rw [slotNums_plug]; exact h.filter _
  have s0 := fun err => formatArg_slots hf0 hd0 (i := 0) (by omega) (hA 0) err fun _ => hN 0 (by omega)
  have s1 := fun err => formatArg_slots hf1 (nd hd0) (i := 1) (by omega) (hA 1) err fun _ => hN 1 (by omega)
  have s2 := fun err => formatArg_slots hf2 (nd (nd hd0)) (i := 2) (by omega) (hA 2) err fun _ => hN 2 (by omega)
  have hfill : slotSources (slotPlug 2 (argOr args 2) (slotPlug 1 (argOr args 1) (slotPlug 0 (argOr args 0) (ps ++ [.hole 3])))) =
      slotFill args ps ++ c!"{3}" := by
    clear s0 s1 s2 hf1 hf2 hf3 hd0 hf0 hnum hs hd
    induction ps with
    | nil => rfl
    | cons p ps ih =>
      have hi : ∀ j, j ∈ slotNums (p :: ps) → args[j]? = some (argOr args j) ∧ (j = 0 ∨ j = 1 ∨ j = 2) := fun j hj => by
        have := hh j hj
        have h1 : j < args.length := by omega
        have e : args[j]? = some args[j] := List.getElem?_eq_getElem h1
        exact ⟨by simp only [argOr, e], by omega⟩
      have := ih fun i h => hh i (by cases p <;> simp only [slotNums, List.mem_cons] <;> first | exact h | exact .inr h)
      simp only [slotSources, slotPlug, List.map_append, List.map_cons, List.map_nil, List.flatten_append, List.flatten_cons, slotFill, List.cons_append, List.append_assoc] at this ⊢
      rw [this]
      congr 1
      cases p with
      | lit s => rfl
      | hole j =>
        obtain ⟨e, h⟩ := hi j (by simp [slotNums])
        simp only [Slot.filled, e]
        rcases h with rfl | rfl | rfl <;> simp [Slot.source]
      | wide j t w =>
        obtain ⟨e, h⟩ := hi j (by simp [slotNums])
        simp only [Slot.filled, e]
        rcases h with rfl | rfl | rfl <;> simp [Slot.source]
  have hfree : BraceFree (slotFill args ps) := by
    intro c hc
    simp only [slotFill, List.mem_flatten, List.mem_map] at hc
    obtain ⟨x, ⟨p, hp, rfl⟩, hc⟩ := hc
    have hg : ∀ j, BraceFree (match args[j]? with | some a => a | none => []) := fun j => by
      split
      · rename_i a h; exact (harg a (List.mem_of_getElem? h)).1
      · intro c hc; simp at hc
    cases p with
    | lit s => exact hs _ hp c hc
    | hole j => exact hg j c hc
    | wide j t w => exact pad_free (hg j) w c hc
  have hfind : findSub c!"{3}" (slotFill args ps ++ c!"{3}") = some (slotFill args ps).length := by
    apply findSub_eq_some
    refine ⟨⟨_, [], by simp, rfl⟩, fun j hj ho => ?_⟩
    have := (occursAt_get ho).1
    rw [List.getElem?_append_left hj] at this
    exact (hfree _ (List.mem_of_getElem? this)).1 rfl
  obtain ⟨h1, h2, h3, h4⟩ := hlast
  have n1 := findSub_occurs fun h => h2 (occurs_after hfree h)
  have n2 := findSub_occurs fun h => h3 (occurs_after hfree h)
  have n3 := findSub_occurs fun h => h4 (occurs_after hfree h)
  have c0 : Char.ofNat (48 + 0) = '0' := rfl
  have c1 : Char.ofNat (48 + 1) = '1' := rfl
  have c2 : Char.ofNat (48 + 2) = '2' := rfl
  rw [c0] at s0; rw [c1] at s1; rw [c2] at s2
  have hsp : spliceStr (slotFill args ps ++ c!"{3}") (slotFill args ps).length 3 l = slotFill args ps ++ l := by
    simp [spliceStr, List.drop_append]
  have h1' : (l == nullString) = false := by simpa [nullString] using h1
  have s3 : ∀ err, formatArg err '3' l (slotFill args ps ++ c!"{3}") = .ok (slotFill args ps ++ l) := fun err => by
    simp only [formatArg, replaceIn, hfind, List.length_cons, List.length_nil, hsp, replaceInWithFill, n1, bind_ok_R, h1']
    simp
  have s4 : ∀ err, formatArg err '4' nullString (slotFill args ps ++ l) = .ok (slotFill args ps ++ l) := fun err => by
    simp only [formatArg, replaceIn, n2, replaceInWithFill, n3, bind_ok_R]
    simp
  unfold format
  simp only [s0, s1, s2, bind_ok_R, hfill, s3, s4]

theorem bp_format {no : Nat} {b : Bp} (hm : BraceFree b.module ∧ b.module ≠ c!"##<NULL>##") (hc : LastColumn b.cond) :
    format c!"#{0,-3} line={1,-5} module={2,-25} condition={3}" (natStr no) (natStr b.line) b.module b.cond =
      .ok (c!"#" ++ pad (-3) (natStr no) ++ c!" line=" ++ pad (-5) (natStr b.line) ++ c!" module=" ++ pad (-25) b.module ++ c!" condition=" ++ b.cond) := by
  have := format_last (ps := [.lit c!"#", .wide 0 c!"-3" (-3), .lit c!" line=", .wide 1 c!"-5" (-5), .lit c!" module=", .wide 2 c!"-25" (-25), .lit c!" condition="])
    (args := [natStr no, natStr b.line, b.module]) (l := b.cond)
    (by
      intro s hs
      simp only [List.mem_cons, List.not_mem_nil, or_false] at hs
      rcases hs with rfl | rfl | rfl | rfl | rfl | rfl | rfl
      · simp [SlotOk, BraceFree]
      · exact ⟨⟨c!"3", by simp, by simp [Digit], .inr (.inr ⟨rfl, by decide⟩)⟩, by decide, by decide⟩
      · simp [SlotOk, BraceFree]
      · exact ⟨⟨c!"5", by simp, by simp [Digit], .inr (.inr ⟨rfl, by decide⟩)⟩, by decide, by decide⟩
      · simp [SlotOk, BraceFree]
      · exact ⟨⟨c!"25", by simp, by simp [Digit], .inr (.inr ⟨rfl, by decide⟩)⟩, by decide, by decide⟩
      · simp [SlotOk, BraceFree])
    rfl
    (by
      simp only [List.mem_cons, List.not_mem_nil, or_false]
      rintro a (rfl | rfl | rfl)
      · exact natStr_text _
      · exact natStr_text _
      · exact hm)
    (by simp [slotNums]) (by simp [slotNums]) hc
  simpa [argOr, slotSources, Slot.source, slotFill, Slot.filled] using this

theorem showBreakpoints_ok (l : List Bp) (no : Nat) (st : St) (h : ∀ b ∈ l, (BraceFree b.module ∧ b.module ≠ c!"##<NULL>##") ∧ LastColumn b.cond) :
    showBreakpoints no l st = .ok () { st with out := st.out ++ bpLines no l } := by
  induction l generalizing no st with
  | nil => simp [showBreakpoints, bpLines]
  | cons b t ih =>
    obtain ⟨h1, h2⟩ := h b (by simp)
    have := ih (no + 1) { st with out := st.out ++ bpLine no b } fun b hb => h b (by simp [hb])
    simp only [showBreakpoints, M.bind_apply, M.lift_apply, bp_format h1 h2, writeLine, write, M.modify_apply]
    simp only [bpLine] at this
    simp only [List.append_assoc] at this ⊢
    rw [this]
    simp [bpLines, bpLine]

/-- C74: the command `list` (or `t`) writes the breakpoints in their order with the numbers that `clear` uses and changes
nothing else.  (The module names have no curly brackets; the conditions have no placeholder `{3,`, `{4}` or `{4,`.) -/
theorem C74_list (k top : Nat) (fromMain : Bool) (d : DS) (st : St) {cmd : Str} (hc : cmd = c!"list" ∨ cmd = c!"t")
    (h : ∀ b ∈ d.dbg.bps, (BraceFree b.module ∧ b.module ≠ c!"##<NULL>##") ∧ LastColumn b.cond) :
    dbgCommand (run k) top fromMain cmd d st =
      .ok (d, .again) { st with out := st.out ++ c!"Breakpoints:\n" ++ bpLines 1 d.dbg.bps } := by
  have hd : dcmd cmd = .list := by rcases hc with rfl | rfl <;> rfl
  have := showBreakpoints_ok d.dbg.bps 1 { st with out := st.out ++ c!"Breakpoints:\n" } h
  simp only [dbgCommand, hd, M.bind_apply, M.get_apply, writeLine, write, M.modify_apply, M.pure_apply]
  simp at this ⊢
  rw [this]

theorem code_format {no : Nat} {mark arrow l : Str} (hm : mark = c!"B " ∨ mark = c!"  ") (ha : arrow = c!"-->" ∨ arrow = []) (hl : LastColumn l) :
    format c!"{0,3} {1,2} {2,3} {3}" (natStr no) mark arrow l = .ok (pad 3 (natStr no) ++ c!" " ++ mark ++ c!" " ++ pad 3 arrow ++ c!" " ++ l) := by
  have := format_last (ps := [.wide 0 c!"3" 3, .lit c!" ", .wide 1 c!"2" 2, .lit c!" ", .wide 2 c!"3" 3, .lit c!" "])
    (args := [natStr no, mark, arrow]) (l := l)
    (by
      intro s hs
      simp only [List.mem_cons, List.not_mem_nil, or_false] at hs
      rcases hs with rfl | rfl | rfl | rfl | rfl | rfl
      · exact ⟨⟨c!"3", by simp, by simp [Digit], .inl ⟨rfl, by decide⟩⟩, by decide, by decide⟩
      · simp [SlotOk, BraceFree]
      · exact ⟨⟨c!"2", by simp, by simp [Digit], .inl ⟨rfl, by decide⟩⟩, by decide, by decide⟩
      · simp [SlotOk, BraceFree]
      · exact ⟨⟨c!"3", by simp, by simp [Digit], .inl ⟨rfl, by decide⟩⟩, by decide, by decide⟩
      · simp [SlotOk, BraceFree])
    rfl
    (by
      simp only [List.mem_cons, List.not_mem_nil, or_false]
      rintro a (rfl | rfl | rfl)
      · exact natStr_text _
      · rcases hm with rfl | rfl <;> simp [BraceFree, nullString]
      · rcases ha with rfl | rfl <;> simp [BraceFree, nullString])
    (by simp [slotNums]) (by simp [slotNums]) hl
  have hp : pad 2 mark = mark := by rcases hm with rfl | rfl <;> rfl
  simpa [argOr, slotSources, Slot.source, slotFill, Slot.filled, hp] using this

theorem hasBreakpoint_iff {bps : List Bp} {line : Nat} {module : Str} : hasBreakpointAt line module bps = true ↔ ∃ b ∈ bps, Matches b line module := by
  simp only [hasBreakpointAt, List.any_eq_true, matches_iff]

theorem showSource_ok {bps : List Bp} {module : Str} {cur : Nat} {current : Option Int} (lines : List Str) (no : Nat) (st : St)
    (hc : ∀ i, no ≤ i → i < no + lines.length → (cur = i ↔ current = some (i : Int))) (hl : ∀ l ∈ lines, LastColumn l) :
    ∃ out, Listing bps module current no lines out ∧ showSource bps module cur no lines st = .ok () { st with out := st.out ++ out } := by
  induction lines generalizing no st with
  | nil => exact ⟨[], .nil, by simp [showSource]⟩
  | cons l ls ih =>
    have h0 := hc no (Nat.le_refl _) (by simp)
    obtain ⟨mark, hm, hm'⟩ : ∃ mark, (if hasBreakpointAt no module bps then c!"B " else c!"  ") = mark ∧
        ((mark = c!"B " ∧ ∃ b ∈ bps, Matches b no module) ∨ (mark = c!"  " ∧ ∀ b ∈ bps, ¬ Matches b no module)) := by
      by_cases h : hasBreakpointAt no module bps = true
      · exact ⟨_, if_pos h, .inl ⟨rfl, hasBreakpoint_iff.1 h⟩⟩
      · exact ⟨_, if_neg h, .inr ⟨rfl, fun b hb hx => h (hasBreakpoint_iff.2 ⟨b, hb, hx⟩)⟩⟩
    obtain ⟨arrow, ha, ha', ha''⟩ : ∃ arrow, (if cur = no then c!"-->" else []) = arrow ∧ (arrow = c!"-->" ∨ arrow = []) ∧
        ((pad 3 arrow = c!"-->" ∧ current = some (no : Int)) ∨ (pad 3 arrow = c!"   " ∧ current ≠ some (no : Int))) := by
      by_cases h : cur = no
      · exact ⟨_, if_pos h, .inl rfl, .inl ⟨rfl, h0.1 h⟩⟩
      · exact ⟨_, if_neg h, .inr rfl, .inr ⟨rfl, fun e => h (h0.2 e)⟩⟩
    have hf := code_format (no := no) (mark := mark) (arrow := arrow) (l := l) (by rcases hm' with h | h <;> simp [h.1]) ha' (hl l (by simp))
    obtain ⟨outs, h1, h2⟩ := ih (no + 1) { st with out := st.out ++ (pad 3 (natStr no) ++ c!" " ++ mark ++ c!" " ++ pad 3 arrow ++ c!" " ++ l ++ c!"\n") }
      (fun i h h' => hc i (by omega) (by simp at h' ⊢; omega)) fun l h => hl l (by simp [h])
    refine ⟨_, .cons ⟨mark, pad 3 arrow, rfl, hm', ha''⟩ h1, ?_⟩
    simp only [showSource, hm, ha, M.bind_apply, M.lift_apply, hf, writeLine, write, M.modify_apply]
    rw [h2]
    simp only [List.append_assoc]

theorem codeText_ok {st : St} {module entered given text : Str} (h : Source st entered given module text) : codeText st module entered given = .ok text := by
  have hsw : ¬ (∃ r, module = c!"<evalstr>:" ++ r) → startsWith module c!"<evalstr>:" = false := fun h => by
    cases e : startsWith module c!"<evalstr>:" with
    | false => rfl
    | true =>
      obtain ⟨r, hr⟩ := starts_iff.1 e
      exact absurd ⟨r, hr.symm⟩ h
  have ne : ∀ {s : Str}, s ≠ [] → s.isEmpty = false := fun h => by simpa using h
  cases h with
  | file h1 h2 h3 h4 => simp [codeText, ne h1, hsw h2, mapFind_eq_lookup, h3]; exact fun h => absurd h h4
  | missing h1 h2 h3 => rcases h3 with h3 | h3 <;> simp [codeText, ne h1, hsw h2, mapFind_eq_lookup, h3]
  | entered h1 => simp [codeText]; exact fun h => absurd h h1
  | given h1 => simp [codeText, h1]

/-- C74: the command `code` (or `c`) writes the lines of the current script with their numbers; exactly the lines with a breakpoint
are marked by `B` and exactly the current line is marked by an arrow.  Nothing else changes.  (The lines have no placeholder
`{3,`, `{4}` or `{4,`.) -/
theorem C74_code (k top : Nat) (fromMain : Bool) (d : DS) (st : St) {cmd : Str} (hc : cmd = c!"code" ∨ cmd = c!"c") {text : Str}
    (hs : Source st d.script d.dbg.script (st.scopes d.cur).module text) {lines : List Str} (hj : join '\n' lines = text) (hne : lines ≠ [])
    (hn : ∀ l ∈ lines, '\n' ∉ l) (hlen : lines.length < 2147483648) (hcur : ∀ t, (st.scopes d.cur).curTok = some t → IsInt32 t.line)
    (hlast : ∀ l ∈ lines, LastColumn l) :
    ∃ out, Listing d.dbg.bps (st.scopes d.cur).module ((st.scopes d.cur).curTok.map Token.line) 1 lines out ∧
      dbgCommand (run k) top fromMain cmd d st = .ok (d, .again) { st with out := st.out ++ out } := by
  have hd : dcmd cmd = .code := by rcases hc with rfl | rfl <;> rfl
  obtain ⟨ps, hp, hp1, hp2, hp3⟩ := split_spec text '\n'
  have : ps = lines := join_unique hp1 hne hp3 hn (hp2.trans hj.symm)
  subst this
  obtain ⟨out, h1, h2⟩ := showSource_ok (bps := d.dbg.bps) (module := (st.scopes d.cur).module)
    (cur := match (st.scopes d.cur).curTok with | some t => sizeT t.line | none => 18446744073709551615)
    (current := (st.scopes d.cur).curTok.map Token.line) ps 1 st
    (by
      intro i h1 h2
      cases ht : (st.scopes d.cur).curTok with
      | none => simp; omega
      | some t =>
        have := hcur t ht
        simp only [Option.map_some, Option.some.injEq, sizeT]
        unfold IsInt32 at this
        omega) hlast
  refine ⟨out, h1, ?_⟩
  simp only [dbgCommand, hd, M.bind_apply, M.get_apply, M.rd_apply, codeText_ok hs, M.lift_apply, hp, M.pure_apply]
  cases ht : (st.scopes d.cur).curTok with
  | none => simp only [ht] at h2 ⊢; rw [h2]
  | some t => simp only [ht] at h2 ⊢; rw [h2]

/-! ## The `break` command -/

theorem split_first {a : Str} (ha : ' ' ∉ a) : split a c!" " = .ok [a] := by
  obtain ⟨ps, hp, hp1, hp2, hp3⟩ := split_spec a ' '
  have := join_unique (ps := ps) (qs := [a]) hp1 (by simp) hp3 (by simpa using ha) hp2
  rw [hp, this]

theorem split_first_of {a r : Str} (ha : ' ' ∉ a) : ∃ qs, split (a ++ ' ' :: r) c!" " = .ok (a :: qs) := by
  obtain ⟨ps, hp, hp1, hp2, hp3⟩ := split_spec (a ++ ' ' :: r) ' '
  obtain ⟨qs, hq, hq1, hq2, hq3⟩ := split_spec r ' '
  have := join_unique (ps := ps) (qs := a :: qs) hp1 (by simp) hp3 (by intro q h; simp at h; rcases h with rfl | h; exact ha; exact hq3 q h)
    (by
      rw [hp2]
      cases qs with
      | nil => exact absurd rfl hq1
      | cons q qs => rw [join, hq2])
  exact ⟨qs, by rw [hp, this]⟩

theorem lastIndexOf_last {a b : Str} {c : Char} (h : c ∉ b) : lastIndexOf c (a ++ c :: b) = some a.length := by
  have : (b.reverse ++ c :: a.reverse).findIdx? (· == c) = some b.length := by
    have hb : ∀ x ∈ b.reverse, (x == c) = false := fun x hx => by
      simp at hx; simp; rintro rfl; exact h hx
    rw [List.findIdx?_append, List.findIdx?_eq_none_iff.2 hb]
    simp [List.findIdx?_cons]
  simp only [lastIndexOf, List.reverse_append, List.reverse_cons, List.append_assoc, List.cons_append, List.nil_append, this]
  simp

theorem lastIndexOf_none {b : Str} {c : Char} (h : c ∉ b) : lastIndexOf c b = none := by
  have hb : ∀ x ∈ b.reverse, (x == c) = false := fun x hx => by
    simp at hx; simp; rintro rfl; exact h hx
  simp only [lastIndexOf, List.findIdx?_eq_none_iff.2 hb]

theorem numeral_no {s : Str} {i : Int} (h : Numeral s i) : ' ' ∉ s ∧ ':' ∉ s ∧ '"' ∉ s := by
  obtain ⟨ds, _, hd, hs⟩ := h
  have : ∀ c ∈ ds, c ≠ ' ' ∧ c ≠ ':' ∧ c ≠ '"' := fun c hc => by
    have := hd c hc
    refine ⟨?_, ?_, ?_⟩ <;> (rintro rfl; simp [Digit] at this)
  have h1 : ' ' ∉ ds := fun h => (this _ h).1 rfl
  have h2 : ':' ∉ ds := fun h => (this _ h).2.1 rfl
  have h3 : '"' ∉ ds := fun h => (this _ h).2.2 rfl
  rcases hs with ⟨rfl, _⟩ | ⟨rfl, _⟩ | ⟨rfl, _⟩ <;> simp [h1, h2, h3]

theorem tight_end {a b : Str} (ha : ∀ c, a.head? = some c → ¬ White c) (h1 : a ≠ []) (hb : Tight b) (h2 : b ≠ []) : Tight (a ++ b) := by
  constructor
  · intro c hc
    cases a with
    | nil => exact absurd rfl h1
    | cons x a => exact ha c (by simpa using hc)
  · intro c hc
    rw [List.getLast?_append] at hc
    cases hl : b.getLast? with
    | none => exact absurd (List.getLast?_eq_none_iff.1 hl) h2
    | some x => rw [hl] at hc; simp at hc; subst hc; exact hb.2 x hl

theorem find_space {a r : Str} (ha : ' ' ∉ a) : findSub c!" " (a ++ ' ' :: r) = some a.length := find_char_at ha

theorem no_space {a : Str} (ha : ' ' ∉ a) : findSub c!" " a = none := by rw [findSub_char, if_neg ha]

theorem trim_blank {c : Str} (h : Tight c) : trim (' ' :: c) = c := by
  have := trim_of_decomp (a := c!" ") (o := c) (b := []) (by simp [White]) (by simp) h
  simpa using this

theorem sizeT_nat {no : Nat} (h : no < 2147483648) : sizeT (no : Int) = no := by unfold sizeT; omega

/-- The text that `AddBreakpoint` takes for the break point, after the command name. -/
theorem parseBreak_ok {current t name : Str} (hname : name = c!"b" ∨ name = c!"break") {no : Nat} {module cond : Str} (h : BreakText current t no module cond)
    (hno : no < 2147483648) : parseBreak (name ++ c!" " ++ t) current = .ok (some ⟨no, module, cond⟩) := by
  have hr : IsInt32 (no : Int) := by unfold IsInt32; omega
  have hn : ' ' ∉ name := by rcases hname with rfl | rfl <;> decide
  have h0 : findSub c!" " (name ++ c!" " ++ t) = some name.length := by
    rw [List.append_assoc]; exact find_space hn
  have h1 : substrFrom (name ++ c!" " ++ t) name.length = .ok (' ' :: t) := by
    rw [substrFrom, if_pos (by simp)]; simp
  -- without a quoted module
  have plain : ∀ {a c x : Str}, Tight t → t.head? ≠ some '"' → ' ' ∉ a → (t = a ∧ c = [] ∨ t = a ++ ' ' :: c ∧ Tight c) → c = cond →
      (match lastIndexOf ':' a with | some j => (a.take j, a.drop (j + 1)) | none => (current, a)) = (module, x) → Numeral x (no : Int) →
      parseBreak (name ++ c!" " ++ t) current = .ok (some ⟨no, module, cond⟩) := by
    intro a c x ht hq ha hc hcond hm hx
    subst hcond
    have hsw : startsWith t c!"\"" = false := by
      cases t with
      | nil => rfl
      | cons d t =>
        have : d ≠ '"' := fun e => hq (by rw [e]; rfl)
        simp [startsWith, this]
    unfold parseBreak
    rw [h0]
    simp only [h1, bind_ok_R, trim_blank ht, hsw, Bool.false_eq_true, if_false]
    rcases hc with ⟨rfl, rfl⟩ | ⟨rfl, hc⟩
    · simp only [split_first ha, bind_ok_R, no_space ha]
      generalize lastIndexOf ':' t = y at hm ⊢
      cases y with
      | none => cases hm; simp [atoi_numeral hx hr, sizeT_nat hno]
      | some j => cases hm; simp [atoi_numeral hx hr, sizeT_nat hno]
    · obtain ⟨qs, hqs⟩ := split_first_of (r := c) ha
      have hsub : substrFrom (a ++ ' ' :: c) a.length = .ok (' ' :: c) := by rw [substrFrom, if_pos (by simp)]; simp
      simp only [hqs, bind_ok_R, find_space ha, hsub, trim_blank hc]
      generalize lastIndexOf ':' a = y at hm ⊢
      cases y with
      | none => cases hm; simp [atoi_numeral hx hr, sizeT_nat hno]
      | some j => cases hm; simp [atoi_numeral hx hr, sizeT_nat hno]
  -- with a quoted module
  have quoted : ∀ {num c r : Str}, t = '"' :: (module ++ '"' :: ':' :: r) → '"' ∉ module → (r = num ∧ c = [] ∨ r = num ++ ' ' :: c ∧ Tight c) → c = cond →
      Tight t → Numeral num (no : Int) → parseBreak (name ++ c!" " ++ t) current = .ok (some ⟨no, module, cond⟩) := by
    intro num c r ht hm hc hcond htight hx
    subst hcond
    unfold parseBreak
    rw [h0]
    have hlit : getStringLiteral (module ++ '"' :: ':' :: r) = (module, module.length) := by
      have : (module ++ '"' :: ':' :: r).takeWhile (· != '"') = module := by
        rw [List.takeWhile_append_of_pos (by intro x hx; simp; rintro rfl; exact hm hx)]; simp
      simp [getStringLiteral, this]
    have hs1 : startsWith t c!"\"" = true := by rw [ht]; rfl
    have hs2 : t.drop 1 = module ++ '"' :: ':' :: r := by rw [ht]; rfl
    have hs3 : substrFrom t (module.length + 2) = .ok (':' :: r) := by
      rw [ht, substrFrom, if_pos (by simp)]
      simp
    obtain ⟨n1, n2, n3⟩ := numeral_no hx
    have n4 : ' ' ∉ ':' :: num := by simp [n1]
    simp only [h1, bind_ok_R, trim_blank htight, hs1, if_true, hs2, hlit, hs3]
    have hs4 : startsWith (':' :: r) c!":" = true := by rfl
    simp only [hs4, if_true, List.drop_one, List.tail_cons]
    rcases hc with ⟨rfl, rfl⟩ | ⟨rfl, hc⟩
    · simp only [split_first n1, bind_ok_R, no_space n4, lastIndexOf_none n2, atoi_numeral hx hr, sizeT_nat hno]
    · obtain ⟨qs, hqs⟩ := split_first_of (r := c) n1
      have hf : findSub c!" " (':' :: (num ++ ' ' :: c)) = some (num.length + 1) := find_space (a := ':' :: num) n4
      have hsub : substrFrom (':' :: (num ++ ' ' :: c)) (num.length + 1) = .ok (' ' :: c) := by rw [substrFrom, if_pos (by simp)]; simp
      simp only [hqs, bind_ok_R, hf, hsub, trim_blank hc, lastIndexOf_none n2, atoi_numeral hx hr, sizeT_nat hno]
  have white_colon : ¬ White ':' := by simp [White]
  have white_quote : ¬ White '"' := by simp [White]
  cases h with
  | line hx =>
    obtain ⟨n1, n2, n3⟩ := numeral_no hx
    obtain ⟨ht, _⟩ := numeral_tight hx
    exact plain ht (fun e => n3 (List.mem_of_mem_head? e)) n1 (.inl ⟨rfl, rfl⟩) rfl (by rw [lastIndexOf_none n2]) hx
  | @cond num _ _ hx hc hc' =>
    obtain ⟨n1, n2, n3⟩ := numeral_no hx
    obtain ⟨ht, hne⟩ := numeral_tight hx
    refine plain (a := num) (c := cond) ?_ ?_ n1 (.inr ⟨by simp, hc⟩) rfl (by rw [lastIndexOf_none n2]) hx
    · exact tight_end (fun c h => ht.1 c (by cases num with | nil => exact absurd rfl hne | cons x num => simpa using h)) (by simp) hc hc'
    · intro e
      cases num with
      | nil => exact absurd rfl hne
      | cons x num => simp at e; exact n3 (by simp [e])
  | @module num _ _ hx hm htm hq =>
    obtain ⟨n1, n2, n3⟩ := numeral_no hx
    obtain ⟨ht, hne⟩ := numeral_tight hx
    refine plain (a := module ++ c!":" ++ num) (c := []) (x := num) ?_ ?_ (by simp [hm, n1]) (.inl ⟨rfl, rfl⟩) rfl ?_ hx
    · refine tight_end (fun c h => ?_) (by simp) ht hne
      cases module with
      | nil => simp at h; subst h; exact white_colon
      | cons y m => exact htm.1 c (by simpa using h)
    · intro e
      cases module with
      | nil => simp at e
      | cons y m => simp at e; exact hq (by simp [e])
    · rw [List.append_assoc, show c!":" ++ num = ':' :: num from rfl, lastIndexOf_last n2]; simp
  | @moduleCond num _ _ _ hx hm htm hq hc hc' =>
    obtain ⟨n1, n2, n3⟩ := numeral_no hx
    obtain ⟨ht, hne⟩ := numeral_tight hx
    refine plain (a := module ++ c!":" ++ num) (c := cond) (x := num) ?_ ?_ (by simp [hm, n1]) (.inr ⟨by simp, hc⟩) rfl ?_ hx
    · refine tight_end (fun c h => ?_) (by simp) hc hc'
      cases module with
      | nil => simp at h; subst h; exact white_colon
      | cons y m => exact htm.1 c (by simpa using h)
    · intro e
      cases module with
      | nil => simp at e
      | cons y m => simp at e; exact hq (by simp [e])
    · rw [List.append_assoc, show c!":" ++ num = ':' :: num from rfl, lastIndexOf_last n2]; simp
  | @quoted num _ _ hx hm =>
    obtain ⟨ht, hne⟩ := numeral_tight hx
    refine quoted (num := num) (r := num) (c := []) (by simp) hm (.inl ⟨rfl, rfl⟩) rfl ?_ hx
    exact tight_end (fun c h => by simp at h; subst h; exact white_quote) (by simp) ht hne
  | @quotedCond num _ _ _ hx hm hc hc' =>
    refine quoted (num := num) (r := num ++ ' ' :: cond) (c := cond) (by simp) hm (.inr ⟨rfl, hc⟩) rfl ?_ hx
    exact tight_end (fun c h => by simp at h; subst h; exact white_quote) (by simp) hc hc'

/-- C74: the command `break` (or `b`) with a line number, optionally a module (the text before the last colon or a text in quotation
marks) and a condition, sets this breakpoint and changes nothing else. -/
theorem C74_break (k top : Nat) (fromMain : Bool) (d : DS) (st : St) {name t module cond : Str} {no : Nat} (hname : name = c!"b" ∨ name = c!"break")
    (ht : BreakText (st.scopes d.cur).module t no module cond) (hno : no < 2147483648) :
    ∃ l, Effect (.add no module cond) d.dbg.bps l ∧
      dbgCommand (run k) top fromMain (name ++ c!" " ++ t) d st = .ok ({ d with dbg := { d.dbg with bps := l } }, .again) st := by
  refine ⟨_, replaceOrAdd_effect no module cond d.dbg.bps, ?_⟩
  have hd : dcmd (name ++ c!" " ++ t) = .brk := by rcases hname with rfl | rfl <;> simp [dcmd, startsWith]
  simp only [dbgCommand, hd, M.bind_apply, M.get_apply, M.lift_apply, parseBreak_ok hname ht hno, M.pure_apply]
  rfl

/-- C74, negative part: a script given to `evalstr` in module `m` is listed without its first nine characters. -/
theorem C74_evalstr_wrong (st : St) {m code entered given : Str} (hm : ':' ∉ m) (hc : 9 < code.length) :
    codeText st (c!"<evalstr>:" ++ m ++ c!":" ++ code) entered given = .ok (code.drop 9) := by
  have h1 : findFrom (c!"<evalstr>:" ++ m ++ c!":" ++ code) c!":" 10 = some (10 + m.length) := by
    rw [findFrom, if_pos (by simp), show (c!"<evalstr>:" ++ m ++ c!":" ++ code).drop 10 = m ++ ':' :: code by simp, find_char_at hm]
    simp; omega
  have h2 : substrFrom (c!"<evalstr>:" ++ m ++ c!":" ++ code) (10 + (10 + m.length)) = .ok (code.drop 9) := by
    rw [substrFrom, if_pos (by simp; omega), show 10 + (10 + m.length) = (c!"<evalstr>:" ++ m ++ c!":").length + 9 by simp; omega, ← List.drop_drop, List.drop_left]
  have h3 : (c!"<evalstr>:" ++ m ++ c!":" ++ code).isEmpty = false := rfl
  have h4 : startsWith (c!"<evalstr>:" ++ m ++ c!":" ++ code) c!"<evalstr>:" = true := starts_iff.2 ⟨m ++ c!":" ++ code, by simp⟩
  have h5 : (code.drop 9).isEmpty = false := by
    cases h : code.drop 9 with
    | nil => have := congrArg List.length h; simp at this; omega
    | cons _ _ => rfl
  simp only [codeText, h3, h4, Bool.false_eq_true, if_false, if_true, h1, h2, bind_ok_R, h5]

/-- C74, negative part: if a script given to `evalstr` is shorter than nine characters, the listing raises a native exception. -/
theorem C74_evalstr_short_wrong (st : St) {m code entered given : Str} (hm : ':' ∉ m) (hc : code.length < 9) :
    codeText st (c!"<evalstr>:" ++ m ++ c!":" ++ code) entered given = .error (.exn .outOfRange) := by
  have h1 : findFrom (c!"<evalstr>:" ++ m ++ c!":" ++ code) c!":" 10 = some (10 + m.length) := by
    rw [findFrom, if_pos (by simp), show (c!"<evalstr>:" ++ m ++ c!":" ++ code).drop 10 = m ++ ':' :: code by simp, find_char_at hm]
    simp; omega
  have h2 : substrFrom (c!"<evalstr>:" ++ m ++ c!":" ++ code) (10 + (10 + m.length)) = .error (.exn .outOfRange) := by
    rw [substrFrom, if_neg (by simp; omega)]
  have h3 : (c!"<evalstr>:" ++ m ++ c!":" ++ code).isEmpty = false := rfl
  have h4 : startsWith (c!"<evalstr>:" ++ m ++ c!":" ++ code) c!"<evalstr>:" = true := starts_iff.2 ⟨m ++ c!":" ++ code, by simp⟩
  simp only [codeText, h3, h4, Bool.false_eq_true, if_false, if_true, h1, h2]
  rfl

/-- C74, negative part: a script line with the text `{4}` cannot be listed; the command raises an exception. -/
theorem C74_brace_wrong (st : St) : showSource [] [] 0 1 [c!"(format \"{4}\" 1 2 3 4 5)"] st =
    .fail (.exn (.base c!"Not enough items for format string: {0,3} {1,2} {2,3} {3}")) st := by
  have : format c!"{0,3} {1,2} {2,3} {3}" c!"1" c!"  " [] c!"(format \"{4}\" 1 2 3 4 5)" = .error (.exn (.base c!"Not enough items for format string: {0,3} {1,2} {2,3} {3}")) := by
    decide +kernel
  have h2 : hasBreakpointAt 1 [] [] = false := rfl
  have h3 : natStr 1 = c!"1" := by decide
  simp only [showSource, M.bind_apply, M.lift_apply, h2, h3, Bool.false_eq_true, if_false, this, show ¬ 0 = 1 by decide]

/-- C74, negative part: a module name without its closing quotation mark raises a native exception. -/
theorem C74_quote_wrong (current : Str) : parseBreak c!"b \"mod" current = .error (.exn .outOfRange) := by
  have h1 : findSub c!" " c!"b \"mod" = some 1 := by decide
  have h2 : trim c!" \"mod" = c!"\"mod" := by decide
  simp [parseBreak, h1, substrFrom, h2, startsWith, getStringLiteral]

/-- Example for C74: a list of two breakpoints. -/
example : bpLines 1 [⟨3, c!"m", []⟩, ⟨12, [], c!"(> x 1)"⟩] =
    c!"#1   line=3     module=m                         condition=\n#2   line=12    module=                          condition=(> x 1)\n" := by
  decide +kernel

/-- Example for C74: the listing of a script with a breakpoint in line 2, stopped in line 3. -/
example : Listing [⟨2, c!"m", []⟩] c!"m" (some 3) 1 [c!"(do", c!"  (f {0})", c!"  (g))"] c!"  1        (do\n  2 B        (f {0})\n  3    -->   (g))\n" := by
  have h : ∀ (no : Nat), no ≠ 2 → ∀ b ∈ [(⟨2, c!"m", []⟩ : Bp)], ¬ Matches b no c!"m" := by
    intro no h b hb; simp at hb; subst hb; rintro ⟨h1, _⟩; exact h h1.symm
  exact .cons (out := c!"  1        (do\n") ⟨c!"  ", c!"   ", by decide +kernel, .inr ⟨rfl, h 1 (by decide)⟩, .inr ⟨rfl, by decide⟩⟩
    (.cons (out := c!"  2 B        (f {0})\n") ⟨c!"B ", c!"   ", by decide +kernel, .inl ⟨rfl, ⟨2, c!"m", []⟩, by simp, rfl, .inr (.inr rfl)⟩, .inr ⟨rfl, by decide⟩⟩
    (.cons (out := c!"  3    -->   (g))\n") (outs := []) ⟨c!"  ", c!"-->", by decide +kernel, .inr ⟨rfl, h 3 (by decide)⟩, .inl ⟨rfl, rfl⟩⟩ .nil))

/-- Example for C74: texts after `break`. -/
example : BreakText c!"cur" c!"lib/a.fuel:12 (= x 1)" 12 c!"lib/a.fuel" c!"(= x 1)" :=
  .moduleCond (num := c!"12") (m := c!"lib/a.fuel") (c := c!"(= x 1)") ⟨c!"12", by simp, by simp [Digit], .inl ⟨rfl, by decide⟩⟩
    (by decide) (by simp [Tight, White]) (by decide) (by simp [Tight, White]) (by simp)

example : BreakText c!"cur" c!"\"C:\\my files\\a.fuel\":7" 7 c!"C:\\my files\\a.fuel" [] :=
  .quoted (num := c!"7") (m := c!"C:\\my files\\a.fuel") ⟨c!"7", by simp, by simp [Digit], .inl ⟨rfl, by decide⟩⟩ (by decide)

example : LastColumn c!"(println (format \"{0} {1}\" a b))" := by
  have key : ∀ {needle t : Str}, findSub needle t = none → ¬ Occurs needle t := fun h ⟨a, b, e⟩ => findSub_none h a.length ⟨a, b, e, rfl⟩
  exact ⟨by decide, key (by decide +kernel), key (by decide +kernel), key (by decide +kernel)⟩

end Fuel
