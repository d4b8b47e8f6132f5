import Verif.SpecInspect
import Verif.PropsListing
import Verif.PropsDisplay
import Verif.PropsConv
import Verif.LemSeen
import Verif.PropsShell
/-!
# What the debugger shows of a stopped program (C88)
-/

set_option linter.unusedSectionVars false
set_option linter.unusedSimpArgs false
set_option linter.unusedVariables false

namespace Fuel

open Spec

section
variable [World]

/-! ## The call stack -/

theorem lineText_column (sc : Scope) : Column (lineText sc) := by
  unfold lineText
  split
  · exact intStr_text _
  · exact ⟨by simp [BraceFree], by decide⟩

theorem stack_format {selected no : Nat} {sc : Scope} (hn : Column sc.name) (hm : Column sc.module) :
    format c!"{0,3}{1,5} name={2,-35} lineno={3,-4} module={4}\n" (if (selected : Int) = (no : Int) then c!"-->" else c!"   ") (intStr no) sc.name (lineNoStr sc.curTok) sc.module =
      .ok (stackLine selected no sc) := by
  have hi : ∃ arrow, (if (selected : Int) = (no : Int) then c!"-->" else c!"   ") = arrow ∧ (if selected = no then c!"-->" else c!"   ") = arrow ∧ (arrow = c!"-->" ∨ arrow = c!"   ") := by
    by_cases h : selected = no
    · exact ⟨_, if_pos (by rw [h]), if_pos h, .inl rfl⟩
    · exact ⟨_, if_neg (by omega), if_neg h, .inr rfl⟩
  obtain ⟨arrow, h1, h2, h3⟩ := hi
  have hl : lineNoStr sc.curTok = lineText sc := by unfold lineNoStr lineText; cases sc.curTok <;> rfl
  have := format_slots (ps := [.wide 0 c!"3" 3, .wide 1 c!"5" 5, .lit c!" name=", .wide 2 c!"-35" (-35), .lit c!" lineno=", .wide 3 c!"-4" (-4), .lit c!" module=", .hole 4, .lit c!"\n"])
    (args := [arrow, intStr no, sc.name, lineText sc, sc.module])
    (by
      intro s hs
      simp only [List.mem_cons, List.not_mem_nil, or_false] at hs
      rcases hs with rfl | rfl | rfl | rfl | rfl | rfl | rfl | rfl | rfl
      · exact ⟨⟨c!"3", by simp, by simp [Digit], .inl ⟨rfl, by decide⟩⟩, by decide, by decide⟩
      · exact ⟨⟨c!"5", by simp, by simp [Digit], .inl ⟨rfl, by decide⟩⟩, by decide, by decide⟩
      · simp [SlotOk, BraceFree]
      · exact ⟨⟨c!"35", by simp, by simp [Digit], .inr (.inr ⟨rfl, by decide⟩)⟩, by decide, by decide⟩
      · simp [SlotOk, BraceFree]
      · exact ⟨⟨c!"4", by simp, by simp [Digit], .inr (.inr ⟨rfl, by decide⟩)⟩, by decide, by decide⟩
      · simp [SlotOk, BraceFree]
      · trivial
      · simp [SlotOk, BraceFree])
    (by
      simp only [List.mem_cons, List.not_mem_nil, or_false]
      rintro a (rfl | rfl | rfl | rfl | rfl)
      · rcases h3 with rfl | rfl <;> simp [BraceFree, nullString]
      · exact intStr_text _
      · exact hn
      · exact lineText_column sc
      · exact hm)
    (by simp [slotNums]) (by simp [slotNums])
  have hp : pad 3 arrow = arrow := by rcases h3 with rfl | rfl <;> rfl
  rw [h1, hl]
  refine (show _ = format _ _ _ _ _ _ from ?_).trans (this.trans ?_)
  · simp [argOr, slotSources, Slot.source]
  · simp [slotFill, Slot.filled, hp, stackLine, h2]
    rfl

theorem stackLines_append (selected : Nat) (l : List Scope) (sc : Scope) (no : Nat) :
    stackLines selected no (l ++ [sc]) = stackLines selected no l ++ stackLine selected (no + l.length) sc := by
  induction l generalizing no with
  | nil => simp [stackLines]
  | cons a l ih => simp [stackLines, ih, Nat.add_comm, Nat.add_left_comm]

theorem callStack_depth {st : St} {s : Nat} {l : List Nat} (h : CallStack st s l) : Depth st s l.length := by
  induction h with
  | main h => exact .main h
  | call h _ ih => simpa using Depth.call h ih

theorem dumpStack_ok {st : St} (hl : Links st) {s : Nat} {l : List Nat} (h : CallStack st s l) (hc : ∀ x ∈ l, Column (st.scopes x).name ∧ Column (st.scopes x).module)
    (selected : Nat) : ∀ k, s < k → dumpStack st selected k s l.length = .ok (stackLines selected 1 (l.map st.scopes)) := by
  induction h with
  | @main s h =>
    intro k hk
    obtain ⟨k, rfl⟩ : ∃ m, k = m + 1 := ⟨k - 1, by omega⟩
    have := stack_format (selected := selected) (no := 1) (hc s (by simp)).1 (hc s (by simp)).2
    simp only [dumpStack, h, List.length_cons, List.length_nil, Nat.zero_add, this, bind_ok_R, List.map_cons, List.map_nil, stackLines, List.append_nil]
  | @call s p l h _ ih =>
    intro k hk
    obtain ⟨k, rfl⟩ : ∃ m, k = m + 1 := ⟨k - 1, by omega⟩
    have hp := (hl.callers _ _ h).1
    have e := ih (fun x hx => hc x (by simp [hx])) k (by omega)
    have := stack_format (selected := selected) (no := l.length + 1) (hc s (by simp)).1 (hc s (by simp)).2
    simp only [dumpStack, h, List.length_append, List.length_cons, List.length_nil, Nat.zero_add, this, bind_ok_R, Nat.add_sub_cancel, e, List.map_append, List.map_cons, List.map_nil,
      stackLines_append, List.length_map]
    rw [Nat.add_comm 1]

/-- C88: `stack` (or `k`) shows the active calls, the main program first, with their numbers, and an arrow at the selected one.  Nothing else changes. -/
theorem C88_stack (k top : Nat) (fromMain : Bool) (d : DS) {st : St} (hl : Links st) {l : List Nat} (hs : CallStack st top l) {m : Nat} (hm : Depth st d.cur m)
    (hc : ∀ x ∈ l, Column (st.scopes x).name ∧ Column (st.scopes x).module) {cmd : Str} (h : cmd = c!"stack" ∨ cmd = c!"k") :
    dbgCommand (run k) top fromMain cmd d st = .ok (d, .again) { st with out := st.out ++ (stackLines m 1 (l.map st.scopes) ++ c!"\n") } := by
  have hd : dcmd cmd = .stack := by rcases h with rfl | rfl <;> decide
  have h1 := callStackSize_depth hl hm (d.cur + 1) (by omega)
  have h2 := callStackSize_depth hl (callStack_depth hs) (top + 1) (by omega)
  have h3 := dumpStack_ok hl hs hc m (top + 1) (by omega)
  simp only [dbgCommand, hd, M.bind_apply, M.get_apply, M.rd_apply, h1, h2, h3, writeLine, write, M.modify_apply, M.pure_apply]

/-- Every scope has a call stack. -/
theorem C88_stack_exists {st : St} (hl : Links st) (s : Nat) : ∃ l, CallStack st s l := by
  induction s using Nat.strongRecOn with
  | _ s ih =>
    cases h : (st.scopes s).prev with
    | none => exact ⟨[s], .main h⟩
    | some p =>
      obtain ⟨l, hl'⟩ := ih p (hl.callers s p h).1
      exact ⟨l ++ [s], .call h hl'⟩

/-- C88: `down` selects the caller of the selected call and `up` the call made from it, if there is one; nothing else changes. -/
theorem C88_up_down (k top : Nat) (fromMain : Bool) (d : DS) (st : St) {cmd : Str} :
    (cmd = c!"down" ∨ cmd = c!"d" →
      (∀ p, (st.scopes d.cur).prev = some p → dbgCommand (run k) top fromMain cmd d st = .ok ({ d with cur := p }, .again) st) ∧
      ((st.scopes d.cur).prev = none → dbgCommand (run k) top fromMain cmd d st = .ok (d, .again) st)) ∧
    (cmd = c!"up" ∨ cmd = c!"u" →
      (∀ n, (st.scopes d.cur).next = some n → dbgCommand (run k) top fromMain cmd d st = .ok ({ d with cur := n }, .again) st) ∧
      ((st.scopes d.cur).next = none → dbgCommand (run k) top fromMain cmd d st = .ok (d, .again) st)) := by
  refine ⟨fun h => ?_, fun h => ?_⟩
  · have hd : dcmd cmd = .down := by rcases h with rfl | rfl <;> decide
    refine ⟨fun p hp => ?_, fun hp => ?_⟩ <;> simp [dbgCommand, hd, hp]
  · have hd : dcmd cmd = .up := by rcases h with rfl | rfl <;> decide
    refine ⟨fun p hp => ?_, fun hp => ?_⟩ <;> simp [dbgCommand, hd, hp]

/-! ## Variables -/

theorem entry_format {n shown type e : Str} (hn : Column n) (hs : Column shown) (ht : Column type) (he : Column e) :
    format c!"{0,20} --> {1,-40} : {2} {3}" n shown type e = .ok (pad 20 n ++ c!" --> " ++ pad (-40) shown ++ c!" : " ++ type ++ c!" " ++ e) := by
  have := format_slots (ps := [.wide 0 c!"20" 20, .lit c!" --> ", .wide 1 c!"-40" (-40), .lit c!" : ", .hole 2, .lit c!" ", .hole 3])
    (args := [n, shown, type, e])
    (by
      intro s hs
      simp only [List.mem_cons, List.not_mem_nil, or_false] at hs
      rcases hs with rfl | rfl | rfl | rfl | rfl | rfl | rfl
      · exact ⟨⟨c!"20", by simp, by simp [Digit], .inl ⟨rfl, by decide⟩⟩, by decide, by decide⟩
      · simp [SlotOk, BraceFree]
      · exact ⟨⟨c!"40", by simp, by simp [Digit], .inr (.inr ⟨rfl, by decide⟩)⟩, by decide, by decide⟩
      · simp [SlotOk, BraceFree]
      · trivial
      · simp [SlotOk, BraceFree]
      · trivial)
    (by
      simp only [List.mem_cons, List.not_mem_nil, or_false]
      rintro a (rfl | rfl | rfl | rfl)
      · exact hn
      · exact hs
      · exact ht
      · exact he)
    (by simp [slotNums]) (by simp [slotNums])
  simpa [argOr, slotSources, Slot.source, slotFill, Slot.filled] using this

theorem type_column {v : Variant} {no : Int} {type : Str} (h : HasType v no type) : Column type := by
  cases h <;> exact ⟨by simp [BraceFree], by decide⟩

theorem own_iff {n : Str} : startsWith n c!"###" = true ↔ Own n := by
  rw [starts_iff]
  exact ⟨fun ⟨r, h⟩ => ⟨r, h.symm⟩, fun ⟨r, h⟩ => ⟨r, h.symm⟩⟩

theorem not_own {n : Str} (h : ¬ Own n) : startsWith n c!"###" = false := by
  cases e : startsWith n c!"###" with
  | false => rfl
  | true => exact absurd (own_iff.1 e) h

theorem inspected_ok {st : St} {v : Variant} {t : Str} (h : Inspected st v t) {no : Int} {type : Str} (ht : HasType v no type) : ∃ K, ∀ n, K ≤ n → v.toStrDebugger st n = .ok t := by
  cases h with
  | @text s h =>
    refine ⟨1, fun n hn => ?_⟩
    obtain ⟨n, rfl⟩ : ∃ m, n = m + 1 := ⟨n - 1, by omega⟩
    obtain ⟨h1, i, h2⟩ := h
    simp [Variant.toStrDebugger, h1, Variant.stringValue, h2, ptrStr]
  | value h1 h2 =>
    obtain ⟨K, hK⟩ := display_ok h2
    refine ⟨K, fun n hn => ?_⟩
    have : v.type ≠ .string := by
      intro e
      cases ht <;> rename_i g <;> first | exact h1 _ g | (simp only [IsUndef, IsNil] at g; rw [e] at g; cases g) | (have := g.1; rw [e] at this; cases this)
    simp only [Variant.toStrDebugger, this, if_false, hK n hn]

theorem isFn_value {st : St} {v : Variant} {f : FnW} (h : IsFn v f) (n : Nat) : v.functionValue st n = .ok f := by
  obtain ⟨h1, i, h2⟩ := h
  simp [Variant.functionValue, h1, h2]

theorem dumpVars_ok {st : St} {l : List (Str × Ptr)} {out : Str} (h : Table st OfProgram NoExtra l out) :
    ∃ K, ∀ n, K ≤ n → ∀ o, dumpVars n l { st with out := o } = .ok () { st with out := o ++ out } := by
  induction h with
  | nil => exact ⟨0, fun n _ o => by simp [dumpVars]⟩
  | own hn _ ih =>
    obtain ⟨K, hK⟩ := ih
    exact ⟨K, fun n hk o => by simp only [dumpVars, own_iff.2 hn, if_true, hK n hk]⟩
  | @other n i v l out hn hs hf _ ih =>
    obtain ⟨K, hK⟩ := ih
    refine ⟨K, fun k hk o => ?_⟩
    have hb : v.type = .function ∧ ∃ f, IsFn v f ∧ f.builtin = true := by
      by_cases ht : v.type = .function
      · obtain ⟨f, h⟩ := hf ht
        refine ⟨ht, f, h, ?_⟩
        cases hb : f.builtin with
        | true => rfl
        | false => exact absurd (fun g hg => by obtain ⟨_, a, h1⟩ := h; obtain ⟨_, b, h2⟩ := hg; rw [h1] at h2; cases h2; exact hb) hs
      · exact absurd (fun g hg => absurd hg.1 ht) hs
    obtain ⟨ht, f, h1, h2⟩ := hb
    simp only [dumpVars, not_own hn, Bool.false_eq_true, if_false, M.bind_apply, toVariant, M.lift_ok, ht, if_true, M.rd_apply, isFn_value h1, M.pure_apply, h2, Bool.not_true, hK k hk]
  | @entry n i v l out shown no type e hn hs hi ht he hc1 hc2 hc3 _ ih =>
    obtain ⟨K, hK⟩ := ih
    obtain ⟨K1, hK1⟩ := inspected_ok hi ht
    refine ⟨max K K1, fun k hk o => ?_⟩
    cases he
    have hf := entry_format hc1 hc2 (type_column ht) hc3
    have hd : v.toStrDebugger { st with out := o } k = .ok shown := by
      rw [show v.toStrDebugger { st with out := o } k = v.toStrDebugger st k from seen_toStrDebugger st o st.input st.dbg k v]
      exact hK1 k (by omega)
    have hr := hK k (by omega) (o ++ (pad 20 n ++ c!" --> " ++ pad (-40) shown ++ c!" : " ++ type ++ c!" " ++ [] ++ c!"\n"))
    by_cases hx : v.type = .function
    · have : ∃ f, IsFn v f := by
        cases ht <;> rename_i g <;> first | exact ⟨_, g⟩ | (simp only [IsUndef, IsNil] at g; rw [hx] at g; cases g) | (have := g.1; rw [hx] at this; cases this)
      obtain ⟨f, hf'⟩ := this
      simp only [dumpVars, not_own hn, Bool.false_eq_true, if_false, M.bind_apply, toVariant, M.lift_ok, hx, if_true, M.rd_apply, isFn_value hf', hs f hf', M.pure_apply, Bool.not_false, hd,
        (hasType_code ht).2, hf, writeLine, write, M.modify_apply, hr]
      simp [entryLine]
    · simp only [dumpVars, not_own hn, Bool.false_eq_true, if_false, M.bind_apply, toVariant, M.lift_ok, hx, if_true, M.rd_apply, M.pure_apply, hd,
        (hasType_code ht).2, hf, writeLine, write, M.modify_apply, hr]
      simp [entryLine]

/-- C88: `(vars)` lists the variables of the current scope: every variable that is not a built-in function, in the order of the names, with its value and its type. -/
theorem C88_vars {st : St} {sid : Nat} {out : Str} (h : Table st OfProgram NoExtra (st.scopes sid).vars out) (args : List Ptr) :
    ∃ K, ∀ k, K ≤ k → Returns (callPrim (run k) .vars args sid) st fun v st' => IsUndef v ∧ st' = { st with out := st.out ++ (c!"variables:\n" ++ out) } := by
  obtain ⟨K, hK⟩ := dumpVars_ok h
  refine ⟨K, fun k hk => ⟨undefinedV, _, ?_, rfl, rfl⟩⟩
  have := hK k hk (st.out ++ c!"variables:\n")
  simp only [callPrim, ret, bVars, M.bind_apply, writeLine, write, M.modify_apply, M.get_apply, run_n, List.cons_append, List.nil_append, M.pure_apply, List.append_assoc] at this ⊢
  rw [this]

/-- C88: `locals` (or `l`) lists the variables of the selected call and `globals` (or `g`) those of the main program. -/
theorem C88_locals (top : Nat) (fromMain : Bool) (d : DS) {st : St} {out : Str} {cmd : Str} :
    (cmd = c!"locals" ∨ cmd = c!"l" → Table st OfProgram NoExtra (st.scopes d.cur).vars out →
      ∃ K, ∀ k, K ≤ k → dbgCommand (run k) top fromMain cmd d st = .ok (d, .again) { st with out := st.out ++ out }) ∧
    (cmd = c!"globals" ∨ cmd = c!"g" → Table st OfProgram NoExtra (st.scopes (st.scopes top).global).vars out →
      ∃ K, ∀ k, K ≤ k → dbgCommand (run k) top fromMain cmd d st = .ok (d, .again) { st with out := st.out ++ out }) := by
  refine ⟨fun h ht => ?_, fun h ht => ?_⟩
  · have hd : dcmd cmd = .locals := by rcases h with rfl | rfl <;> decide
    obtain ⟨K, hK⟩ := dumpVars_ok ht
    refine ⟨K, fun k hk => ?_⟩
    have := hK k hk st.out
    simp only [dbgCommand, hd, M.bind_apply, M.get_apply, run_n, M.pure_apply]
    rw [this]
  · have hd : dcmd cmd = .globals := by rcases h with rfl | rfl <;> decide
    obtain ⟨K, hK⟩ := dumpVars_ok ht
    refine ⟨K, fun k hk => ?_⟩
    have := hK k hk st.out
    simp only [dbgCommand, hd, M.bind_apply, M.get_apply, run_n, M.pure_apply]
    rw [this]

/-! ## Functions, macros and modules -/

theorem hasType_fn {v : Variant} {no : Int} {type : Str} (ht : HasType v no type) (hx : v.type = .function) : ∃ f, IsFn v f := by
  cases ht <;> rename_i g <;> first | exact ⟨_, g⟩ | (simp only [IsUndef, IsNil] at g; rw [hx] at g; cases g) | (have := g.1; rw [hx] at this; cases this)

theorem dumpFns_ok {st : St} {S : Variant → Prop} {E : Variant → Str → Prop} {sel : FnW → Bool} {info : FnW → R Str} (h1 : ∀ v, S v ↔ ∃ f, IsFn v f ∧ sel f = true)
    (h2 : ∀ v f e, IsFn v f → E v e → info f = .ok e) {l : List (Str × Ptr)} {out : Str} (h : Table st S E l out) :
    ∃ K, ∀ n, K ≤ n → ∀ o, dumpFns n sel info l { st with out := o } = .ok () { st with out := o ++ out } := by
  induction h with
  | nil => exact ⟨0, fun n _ o => by simp [dumpFns]⟩
  | own hn _ ih =>
    obtain ⟨K, hK⟩ := ih
    exact ⟨K, fun n hk o => by simp only [dumpFns, own_iff.2 hn, if_true, hK n hk]⟩
  | @other n i v l out hn hs hf _ ih =>
    obtain ⟨K, hK⟩ := ih
    refine ⟨K, fun k hk o => ?_⟩
    have hr := hK k hk o
    by_cases hx : v.type = .function
    · obtain ⟨f, hf'⟩ := hf hx
      have hb : sel f = false := by
        cases e : sel f with
        | false => rfl
        | true => exact absurd ((h1 v).2 ⟨f, hf', e⟩) hs
      simp only [dumpFns, not_own hn, Bool.false_eq_true, if_false, M.bind_apply, toVariant, M.lift_ok, hx, if_true, M.rd_apply, isFn_value hf', hb, M.pure_apply, hr]
    · simp only [dumpFns, not_own hn, Bool.false_eq_true, if_false, M.bind_apply, toVariant, M.lift_ok, hx, M.pure_apply, hr]
  | @entry n i v l out shown no type e hn hs hi ht he hc1 hc2 hc3 _ ih =>
    obtain ⟨K, hK⟩ := ih
    obtain ⟨K1, hK1⟩ := inspected_ok hi ht
    refine ⟨max K K1, fun k hk o => ?_⟩
    obtain ⟨f, hf', hb⟩ := (h1 v).1 hs
    have hf := entry_format hc1 hc2 (type_column ht) hc3
    have hd : v.toStrDebugger { st with out := o } k = .ok shown := by
      rw [show v.toStrDebugger { st with out := o } k = v.toStrDebugger st k from seen_toStrDebugger st o st.input st.dbg k v]
      exact hK1 k (by omega)
    have hr := hK k (by omega) (o ++ (pad 20 n ++ c!" --> " ++ pad (-40) shown ++ c!" : " ++ type ++ c!" " ++ e ++ c!"\n"))
    simp only [dumpFns, not_own hn, Bool.false_eq_true, if_false, M.bind_apply, toVariant, M.lift_ok, hf'.1, if_true, M.rd_apply, isFn_value hf', hb, h2 v f e hf' he, hd,
      (hasType_code ht).2, hf, writeLine, write, M.modify_apply, hr]
    simp [entryLine]

/-- C88: `builtins` lists the built-in functions. -/
theorem C88_builtins (top : Nat) (fromMain : Bool) (d : DS) {st : St} {out : Str} (h : Table st IsBuiltin NoExtra (st.scopes (st.scopes top).global).vars out) :
    ∃ K, ∀ k, K ≤ k → dbgCommand (run k) top fromMain c!"builtins" d st = .ok (d, .again) { st with out := st.out ++ out } := by
  have hd : dcmd c!"builtins" = .builtins := by decide
  obtain ⟨K, hK⟩ := dumpFns_ok (sel := FnW.builtin) (info := fun _ => .ok []) (fun v => Iff.rfl) (fun v f e _ he => by cases he; rfl) h
  refine ⟨K, fun k hk => ?_⟩
  have := hK k hk st.out
  simp only [dbgCommand, hd, M.bind_apply, M.get_apply, run_n, M.pure_apply]
  rw [this]

theorem extractModule_ok {m t : Str} (h : ModuleName m t) : extractModule m = .ok t := by
  cases h with
  | plain h =>
    have : startsWith m c!"<evalstr>:" = false := by
      cases e : startsWith m c!"<evalstr>:" with
      | false => rfl
      | true =>
        obtain ⟨r, hr⟩ := starts_iff.1 e
        exact absurd ⟨r, hr.symm⟩ h
    simp only [extractModule, this, Bool.false_eq_true, if_false]
  | @evalstr _ code hm =>
    have h1 : findFrom (c!"<evalstr>:" ++ t ++ c!":" ++ code) c!":" 10 = some (10 + t.length) := by
      rw [findFrom, if_pos (by simp), show (c!"<evalstr>:" ++ t ++ c!":" ++ code).drop 10 = t ++ ':' :: code by simp, find_char_at hm]
      simp; omega
    have h4 : startsWith (c!"<evalstr>:" ++ t ++ c!":" ++ code) c!"<evalstr>:" = true := starts_iff.2 ⟨t ++ c!":" ++ code, by simp⟩
    simp only [extractModule, h4, if_true, h1]
    simp [substr]

theorem showModule_ok {v : Variant} {f : FnW} {e : Str} (hf : IsFn v f) (he : InModule v e) :
    (do .ok (c!" : module=" ++ (← extractModule f.moduleName)) : R Str) = .ok e := by
  obtain ⟨g, m, h1, h2, rfl⟩ := he
  cases isFn_unique hf h1
  simp only [extractModule_ok h2, bind_ok_R]

theorem isFunction_iff (v : Variant) : IsFunction v ↔ ∃ f, IsFn v f ∧ (fun _ : FnW => true) f = true := by simp [IsFunction]

theorem dumpModules_ok {st : St} {l : List (Str × Ptr)} {out : Str} (h : ModuleTables st l out) :
    ∃ K, ∀ n, K ≤ n → ∀ o, dumpFunctions.go n (fun f => do .ok (c!" : module=" ++ (← extractModule f.moduleName))) l { st with out := o } = .ok () { st with out := o ++ out } := by
  induction h with
  | nil => exact ⟨0, fun n _ o => by simp [dumpFunctions.go]⟩
  | cons h _ ih =>
    obtain ⟨K, hK⟩ := ih
    obtain ⟨K1, hK1⟩ := dumpFns_ok (sel := fun _ => true) (info := fun f => do .ok (c!" : module=" ++ (← extractModule f.moduleName))) isFunction_iff (fun v f e hf he => showModule_ok hf he) h
    refine ⟨max K K1, fun k hk o => ?_⟩
    simp only [dumpFunctions.go, M.bind_apply, M.get_apply, hK1 k (by omega) o, hK k (by omega), List.append_assoc]

theorem metaEntries_ok {st : St} {g : Nat} {key : Str} {l : List (Str × Ptr)} (h : MetaTable st g key l) : metaEntries st key g = l := by
  cases h with
  | none h => simp only [metaEntries, mapFind_eq_lookup, h]
  | some h => simp only [metaEntries, mapFind_eq_lookup, h]

/-- C88: `funcs` lists the functions with the modules in which they were defined: those of the main program, which include the built-in functions, and then those of the
modules. -/
theorem C88_funcs (top : Nat) (fromMain : Bool) (d : DS) {st : St} {l : List (Str × Ptr)} {out outs : Str}
    (h : Table st IsFunction InModule (st.scopes (st.scopes top).global).vars out) (hl : MetaTable st (st.scopes top).global c!"###modules###" l) (hm : ModuleTables st l outs) :
    ∃ K, ∀ k, K ≤ k → dbgCommand (run k) top fromMain c!"funcs" d st = .ok (d, .again) { st with out := st.out ++ (out ++ outs) } := by
  have hd : dcmd c!"funcs" = .funcs := by decide
  obtain ⟨K, hK⟩ := dumpFns_ok (sel := fun _ => true) (info := fun f => do .ok (c!" : module=" ++ (← extractModule f.moduleName))) isFunction_iff (fun v f e hf he => showModule_ok hf he) h
  obtain ⟨K1, hK1⟩ := dumpModules_ok hm
  refine ⟨max K K1, fun k hk => ?_⟩
  have e1 := hK k (by omega) st.out
  have e2 := hK1 k (by omega) (st.out ++ out)
  have e3 : metaEntries { st with out := st.out ++ out } modulesKey (st.scopes top).global = l := (show _ = metaEntries st c!"###modules###" _ from rfl).trans (metaEntries_ok hl)
  simp only [dbgCommand, hd, M.bind_apply, M.get_apply, run_n, M.pure_apply, dumpFunctions]
  rw [e1]
  simp only [e3, e2, List.append_assoc]

theorem writeLines_names (l : List (Str × Ptr)) (st : St) : writeLines (l.map Prod.fst) st = .ok () { st with out := st.out ++ nameLines l } := by
  induction l generalizing st with
  | nil => simp [writeLines, nameLines]
  | cons e l ih =>
    simp only [List.map_cons, writeLines, M.bind_apply, writeLine, write, M.modify_apply, ih, nameLines, List.flatten_cons, List.append_assoc]

/-- C88: `macros` lists the names of the macros and `modules` the names of the modules that were imported. -/
theorem C88_macros (k top : Nat) (fromMain : Bool) (d : DS) {st : St} {l : List (Str × Ptr)} :
    (MetaTable st (st.scopes top).global c!"###macros###" l → dbgCommand (run k) top fromMain c!"macros" d st = .ok (d, .again) { st with out := st.out ++ nameLines l }) ∧
    (MetaTable st (st.scopes top).global c!"###modules###" l → dbgCommand (run k) top fromMain c!"modules" d st = .ok (d, .again) { st with out := st.out ++ nameLines l }) := by
  refine ⟨fun h => ?_, fun h => ?_⟩
  · have hd : dcmd c!"macros" = .macros := by decide
    simp only [dbgCommand, hd, M.bind_apply, M.get_apply, M.pure_apply, macrosKey, metaEntries_ok h, writeLines_names]
  · have hd : dcmd c!"modules" = .modules := by decide
    simp only [dbgCommand, hd, M.bind_apply, M.get_apply, M.pure_apply, modulesKey, metaEntries_ok h, writeLines_names]

theorem help_format {n sig : Str} (hn : Column n) (hs : Column sig) : format c!"{0,20} --> {1}" n sig = .ok (pad 20 n ++ c!" --> " ++ sig) := by
  have := format_slots (ps := [.wide 0 c!"20" 20, .lit c!" --> ", .hole 1]) (args := [n, sig])
    (by
      intro s hs
      simp only [List.mem_cons, List.not_mem_nil, or_false] at hs
      rcases hs with rfl | rfl | rfl
      · exact ⟨⟨c!"20", by simp, by simp [Digit], .inl ⟨rfl, by decide⟩⟩, by decide, by decide⟩
      · simp [SlotOk, BraceFree]
      · trivial)
    (by
      simp only [List.mem_cons, List.not_mem_nil, or_false]
      rintro a (rfl | rfl)
      · exact hn
      · exact hs)
    (by simp [slotNums]) (by simp [slotNums])
  simpa [argOr, slotSources, Slot.source, slotFill, Slot.filled] using this

theorem help_format2 {n sig : Str} (hn : Column n) (hs : Column sig) : format c!"{0,20}     {1}" n sig = .ok (pad 20 n ++ c!"     " ++ sig) := by
  have := format_slots (ps := [.wide 0 c!"20" 20, .lit c!"     ", .hole 1]) (args := [n, sig])
    (by
      intro s hs
      simp only [List.mem_cons, List.not_mem_nil, or_false] at hs
      rcases hs with rfl | rfl | rfl
      · exact ⟨⟨c!"20", by simp, by simp [Digit], .inl ⟨rfl, by decide⟩⟩, by decide, by decide⟩
      · simp [SlotOk, BraceFree]
      · trivial)
    (by
      simp only [List.mem_cons, List.not_mem_nil, or_false]
      rintro a (rfl | rfl)
      · exact hn
      · exact hs)
    (by simp [slotNums]) (by simp [slotNums])
  simpa [argOr, slotSources, Slot.source, slotFill, Slot.filled] using this

theorem dumpHelp_ok {n : Nat} {l : List (Str × Ptr)} {out : Str} (h : HelpTable l out) : ∀ st : St, dumpHelp n l st = .ok () { st with out := st.out ++ out } := by
  induction h with
  | nil => intro st; simp [dumpHelp]
  | own hn _ ih => intro st; simp only [dumpHelp, own_iff.2 hn, if_true, ih]
  | @other n i v l out hn hs hf _ ih =>
    intro st
    by_cases hx : v.type = .function
    · obtain ⟨f, hf'⟩ := hf hx
      have hb : f.builtin = false := by
        cases e : f.builtin with
        | false => rfl
        | true => exact absurd ⟨f, hf', e⟩ hs
      simp only [dumpHelp, not_own hn, Bool.false_eq_true, if_false, M.bind_apply, toVariant, M.lift_ok, hx, if_true, M.rd_apply, isFn_value hf', hb, M.pure_apply, ih]
    · simp only [dumpHelp, not_own hn, Bool.false_eq_true, if_false, M.bind_apply, toVariant, M.lift_ok, hx, M.pure_apply, ih]
  | @plain n i v l out f hn hf hb hc1 hc2 he _ ih =>
    intro st
    simp only [dumpHelp, not_own hn, Bool.false_eq_true, if_false, M.bind_apply, toVariant, M.lift_ok, hf.1, if_true, M.rd_apply, isFn_value hf, hb, help_format hc1 hc2, he, List.isEmpty_nil,
      writeLine, write, M.modify_apply, M.pure_apply, ih, List.append_assoc]
  | @doc n i v l out f hn hf hb hc1 hc2 he hc3 _ ih =>
    intro st
    have hne : f.doc.isEmpty = false := by simpa using he
    simp only [dumpHelp, not_own hn, Bool.false_eq_true, if_false, M.bind_apply, toVariant, M.lift_ok, hf.1, if_true, M.rd_apply, isFn_value hf, hb, help_format hc1 hc2, hne,
      help_format2 (n := c!" ") ⟨by simp [BraceFree], by decide⟩ hc3, writeLine, write, M.modify_apply, M.pure_apply, ih, List.append_assoc]

/-- C88: `doc` without a name shows the signatures and the documentation of the built-in functions. -/
theorem C88_doc (k top : Nat) (fromMain : Bool) (d : DS) {st : St} {out : Str} (h : HelpTable (st.scopes (st.scopes top).global).vars out) {cmd : Str} (hc : cmd = c!"doc" ∨ cmd = c!"searchdoc") :
    dbgCommand (run k) top fromMain cmd d st = .ok (d, .again) { st with out := st.out ++ out } := by
  rcases hc with rfl | rfl
  · have hd : dcmd c!"doc" = .doc := by decide
    have hs : split c!"doc" c!" " = .ok [c!"doc"] := by decide
    simp only [dbgCommand, hd, M.bind_apply, M.get_apply, docCommand, hs, M.lift_ok, dumpHelp_ok h, M.pure_apply]
  · have hd : dcmd c!"searchdoc" = .searchdoc := by decide
    have hs : split c!"searchdoc" c!" " = .ok [c!"searchdoc"] := by decide
    simp only [dbgCommand, hd, M.bind_apply, M.get_apply, docCommand, hs, M.lift_ok, dumpHelp_ok h, M.pure_apply]

/-- C88: a line that starts with a bracket is never taken for a command. -/
theorem C88_expression (t : Str) : dcmd ('(' :: t) = .eval := by
  simp [dcmd, startsWith]

/-- C88: `exit`, `quit`, `q` and an empty line leave the debugger: in the interactive shell the loop ends, otherwise the program is stopped.  `restart` leaves the loop with the wish to
start again. -/
theorem C88_exit (k top : Nat) (fromMain : Bool) (d : DS) (st : St) {cmd : Str} :
    (cmd ∈ [c!"exit", c!"quit", c!"q", []] → dbgCommand (run k) top fromMain cmd d st = .ok (d, if fromMain then .leave false else .stop) st) ∧
    dbgCommand (run k) top fromMain c!"restart" d st = .ok (d, .leave true) st := by
  refine ⟨fun h => ?_, ?_⟩
  · have hd : dcmd cmd = .exit := by
      simp at h
      rcases h with rfl | rfl | rfl | rfl <;> decide
    simp only [dbgCommand, hd, M.bind_apply, M.get_apply, M.pure_apply]
  · have hd : dcmd c!"restart" = .restart := by decide
    simp only [dbgCommand, hd, M.bind_apply, M.get_apply, M.pure_apply]

/-- C88, negative part: a placeholder in the text of a variable is filled in, so `{2}` is shown as the type. -/
theorem C88_brace_wrong : format c!"{0,20} --> {1,-40} : {2} {3}" c!"x" c!"\"{2}\"" c!"String" [] =
    .ok (c!"                   x --> \"String\"                                    : {2} ") := by decide +kernel

end

/-! ## The hypotheses are met -/

section
attribute [local instance] demoWorld

/-- The variables of a scope with an entry of the interpreter, a built-in function, a number and a text. -/
def demoVars : List (Str × Ptr) :=
  [(c!"###macros###", .mk 1 (.scope 0)), (c!"len", .mk 2 (.var ⟨.function, .mk 3 (.fn ⟨.prim .len, c!"(len list)", c!"Returns the length.", c!"global", true, false, false⟩), .none, none⟩)),
   (c!"n", .mk 4 (.var ⟨.int, .mk 5 (.int 5), .none, none⟩)), (c!"s", .mk 6 (.var ⟨.string, .mk 7 (.str c!"hi"), .none, none⟩))]

example (st : St) : Table st OfProgram NoExtra demoVars (c!"                   n --> 5                                        : Int \n" ++
    c!"                   s --> \"hi\"                                     : String \n") := by
  have h1 : Table st OfProgram NoExtra demoVars (entryLine c!"n" (intStr 5) c!"Int" [] ++ (entryLine c!"s" (c!"\"" ++ c!"hi" ++ c!"\"") c!"String" [] ++ [])) :=
    .own ⟨c!"macros###", rfl⟩ (.other (by rintro ⟨r, h⟩; simp at h) (fun h => by have := h _ ⟨rfl, 3, rfl⟩; cases this) (fun _ => ⟨_, rfl, 3, rfl⟩)
      (.entry (by rintro ⟨r, h⟩; simp at h) (fun f h => by cases h.1) (.value (fun s h => by cases h.1) (.int ⟨rfl, 5, rfl⟩)) (.int ⟨rfl, 5, rfl⟩) rfl
        ⟨by simp [BraceFree], by decide⟩ ⟨by simp [BraceFree, show intStr 5 = c!"5" from by decide], by decide⟩ ⟨by simp [BraceFree], by decide⟩
        (.entry (by rintro ⟨r, h⟩; simp at h) (fun f h => by cases h.1) (.text ⟨rfl, 7, rfl⟩) (.string ⟨rfl, 7, rfl⟩) rfl
          ⟨by simp [BraceFree], by decide⟩ ⟨by simp [BraceFree], by decide⟩ ⟨by simp [BraceFree], by decide⟩ .nil)))
  exact h1

/-- A session in which the variables, the call stack and the modules are shown. -/
example : demoShell [c!"(def n 5)", c!"(defn f (a) (+ a n))", c!"l", c!"k", c!"modules", c!"exit"] = some (c!"FUEL(isp)-DBG> result=5
FUEL(isp)-DBG> result=function (f a)
FUEL(isp)-DBG>                    f --> function (f a)                           : Function " ++ c!"
                   n --> 5                                        : Int " ++ c!"
FUEL(isp)-DBG> -->    1 name=<main>                              lineno=1    module=

FUEL(isp)-DBG> FUEL(isp)-DBG> ") := by decide +kernel

/-- In a call of `f` in a call of `g` the call stack has three calls. -/
example : ∃ st sid l, Links st ∧ CallStack st sid l ∧ l.length = 3 := by
  obtain ⟨st, h, hx⟩ := demoAfter_of (code := c!"(defn f (a) (throw a)) (defn g (b) (f b)) (g 1)") (P := fun st =>
    match (List.range st.next).find? fun s => (binding st s c!"a").isSome with
    | some s => match (st.scopes s).prev with
      | some p => match (st.scopes p).prev with
        | some q => decide ((st.scopes q).prev = none)
        | none => false
      | none => false
    | none => false) (by decide +kernel)
  split at hx
  · rename_i s _
    split at hx
    · rename_i p hp
      split at hx
      · rename_i q hq
        exact ⟨st, s, _, h.links, .call hp (.call hq (.main (of_decide_eq_true hx))), rfl⟩
      · cases hx
    · cases hx
  · cases hx

end

end Fuel
