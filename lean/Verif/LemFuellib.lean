import Verif.SpecFuellib
import Verif.LemNotation
import Verif.LemLib
/-!
# The text of the standard library and its import
-/

set_option linter.unusedSectionVars false

namespace Fuel

open Spec Spec.Core

/-- The text of the file is a notation of the program. -/
theorem lib_written : Written libProgram libText := written_of_check (n := 4000) (by decide +kernel)

theorem lib_wf [World] : Sexp.WFs libProgram := isWFs_ok (by decide +kernel)

variable [World]

/-- The definitions are executed in frame `g`. -/
def runItems (g : Nat) (R : Conf) : List LibItem → Conf
  | [] => R
  | .fn n ps body :: l => runItems g (R.set g n (.clo ps body g)) l
  | .mac n ps body :: l => runItems g (R.defMacro n ps body) l

/-- The variables of the frame after these definitions. -/
def itemVars (g : Nat) (acc : List (Str × Val)) : List LibItem → List (Str × Val)
  | [] => acc
  | .fn n ps body :: l => itemVars g ((n, .clo ps body g) :: acc) l
  | .mac _ _ _ :: l => itemVars g acc l

/-- The macros after these definitions. -/
def itemMacros (acc : Str → Option (List Str × List Sexp)) : List LibItem → Str → Option (List Str × List Sexp)
  | [] => acc
  | .fn _ _ _ :: l => itemMacros acc l
  | .mac n ps body :: l => itemMacros (fun m => if m = n then some (ps, body) else acc m) l

theorem runItems_other {g : Nat} : ∀ (l : List LibItem) (R : Conf), (runItems g R l).count = R.count ∧ (∀ i, i ≠ g → (runItems g R l).frames i = R.frames i) ∧
    (runItems g R l).out = R.out ∧ (runItems g R l).input = R.input ∧ (runItems g R l).dicts = R.dicts ∧ (runItems g R l).lib = R.lib ∧ (runItems g R l).modules = R.modules
  | [], _ => ⟨rfl, fun _ _ => rfl, rfl, rfl, rfl, rfl, rfl⟩
  | .fn n ps body :: l, R => by
    obtain ⟨h1, h2, h3⟩ := runItems_other l (R.set g n (.clo ps body g))
    exact ⟨h1, fun i hi => by rw [runItems, h2 i hi]; simp [Conf.set, Conf.withFrame, hi], h3⟩
  | .mac n ps body :: l, R => runItems_other l (R.defMacro n ps body)

theorem runItems_vars {g : Nat} {p : Option Nat} {r : Bool} : ∀ (l : List LibItem) {R : Conf} {acc : List (Str × Val)}, R.frames g = ⟨locals acc, p, r⟩ →
    (runItems g R l).frames g = ⟨locals (itemVars g acc l), p, r⟩
  | [], _, _, h => h
  | .fn n ps body :: l, R, acc, h => by
    rw [runItems, itemVars]
    refine runItems_vars l ?_
    simp only [Conf.set, Conf.withFrame, if_true, h]
    rfl
  | .mac n ps body :: l, R, acc, h => runItems_vars l h

theorem runItems_macros {g : Nat} : ∀ (l : List LibItem) (R : Conf), (runItems g R l).macros = itemMacros R.macros l
  | [], _ => rfl
  | .fn _ _ _ :: l, _ => runItems_macros l _
  | .mac _ _ _ :: l, _ => runItems_macros l _

/-- The conditions under which the definitions can be executed. -/
structure Loading (g : Nat) (R : Conf) : Prop where
  pos : g ≠ 0
  std : Standard R libNames
  free : ∀ n ∈ libNames, (R.frames g).vars n = none
  ret : (R.frames g).ret = false

theorem Loading.head {g : Nat} {R : Conf} (h : Loading g R) {n : Str} (hn : n ∈ libNames) (hh : n ∉ hidden) : Head R g n (.prim n) :=
  ⟨h.std.macros n hn, .globally hh (h.free n hn) (h.std.vars n hn)⟩

theorem Loading.set {g : Nat} {R : Conf} (h : Loading g R) {n : Str} (hn : n ∉ libNames) (v : Val) : Loading g (R.set g n v) := by
  have h0 : (R.set g n v).frames 0 = R.frames 0 := by simp [Conf.set, Conf.withFrame, h.pos.symm]
  refine ⟨h.pos, ⟨h.std.count, fun m hm => by rw [h0]; exact h.std.vars m hm, h.std.macros⟩, fun m hm => ?_, ?_⟩
  · have : m ≠ n := fun e => hn (e ▸ hm)
    simp [Conf.set, Conf.withFrame, this, h.free m hm]
  · simp [Conf.set, Conf.withFrame, h.ret]

theorem Loading.defMacro {g : Nat} {R : Conf} (h : Loading g R) {n : Str} (hn : n ∉ libNames) (ps : List Str) (body : List Sexp) : Loading g (R.defMacro n ps body) := by
  refine ⟨h.pos, ⟨h.std.count, h.std.vars, fun m hm => ?_⟩, h.free, h.ret⟩
  have : m ≠ n := fun e => hn (e ▸ hm)
  simp [Conf.defMacro, this, h.std.macros m hm]

theorem items_seq {g : Nat} {rest : List Sexp} {v : Val} {R' : Conf} : ∀ (l : List LibItem) {R : Conf} {r : Option Val}, Loading g R →
    (∀ x ∈ l, x.name ∉ hidden ∧ x.name ∉ libNames) → (Loading g (runItems g R l) → ∀ r, Seq g r rest (runItems g R l) v R') →
    Seq g r (l.map LibItem.code ++ rest) R v R'
  | [], _, _, h, _, hk => hk h _
  | .fn n ps body :: l, R, r, h, hn, hk => by
    have h1 := hn _ (List.mem_cons_self ..)
    refine .next ⟨_, _, .list⟩ (.defn .list (h.head (n := c!"defn") (by decide) (by decide)) h1.1 (h.std.vars _ (by decide)) (h.std.vars _ (by decide))) (h.set h1.2 _).ret ?_
    exact items_seq l (h.set h1.2 _) (fun x hx => hn x (List.mem_cons_of_mem _ hx)) hk
  | .mac n ps body :: l, R, r, h, hn, hk => by
    have h1 := hn _ (List.mem_cons_self ..)
    refine .macro_ .list (h.head (n := c!"define-macro-eval") (by decide) (by decide)) (by simp) h1.1 h.ret ?_
    exact items_seq l (h.defMacro h1.2 _ _) (fun x hx => hn x (List.mem_cons_of_mem _ hx)) hk

theorem libItems_names : ∀ x ∈ libItems, x.name ∉ hidden ∧ x.name ∉ libNames := by decide +kernel

/-- `(== (nth 1 (platform)) s)` in a call of a function without parameters. -/
theorem exec_isPlatform {R : Conf} {F : Nat} (hS : Standard R [c!"==", c!"nth", c!"platform"]) (hF : (R.frames F).vars = locals []) (s : Str) :
    Exec F (ap c!"==" [ap c!"nth" [.int 1, ap c!"platform" []], .str s]) R (.bool (decide (c!"C++" = s))) R := by
  have hh : ∀ n ∈ [c!"==", c!"nth", c!"platform"], n ∉ hidden → Head R F n (.prim n) := fun n hn h =>
    ⟨hS.macros n hn, .globally h (by rw [hF]; rfl) (hS.vars n hn)⟩
  exact .call .list (hh c!"==" (by simp) (by decide)) (.other (by simp [ap]) (.platform (i := 1) .list (hh c!"nth" (by simp) (by decide)) .list (hh c!"platform" (by simp) (by decide)) rfl)
    (.other (by simp) .str .nil)) (.fn (.eq (by simp) .str))

theorem lib_vars (g : Nat) : (∀ n ps body, LibItem.fn n ps body ∈ libItems → locals (itemVars g [] libItems) n = some (.clo ps body g)) ∧
    (∀ n, (∀ ps body, LibItem.fn n ps body ∉ libItems) → locals (itemVars g [] libItems) n = none) := by
  constructor
  · intro n ps body h
    simp only [libItems, List.mem_cons, List.not_mem_nil, or_false, LibItem.fn.injEq, reduceCtorEq, false_or] at h
    rcases h with ⟨rfl, rfl, rfl⟩ | ⟨rfl, rfl, rfl⟩ | ⟨rfl, rfl, rfl⟩ | ⟨rfl, rfl, rfl⟩ | ⟨rfl, rfl, rfl⟩ | ⟨rfl, rfl, rfl⟩ | ⟨rfl, rfl, rfl⟩ | ⟨rfl, rfl, rfl⟩ | ⟨rfl, rfl, rfl⟩ |
      ⟨rfl, rfl, rfl⟩ | ⟨rfl, rfl, rfl⟩ | ⟨rfl, rfl, rfl⟩ | ⟨rfl, rfl, rfl⟩ | ⟨rfl, rfl, rfl⟩ <;> rfl
  · intro n h
    have key : ∀ (l : List LibItem) (acc : List (Str × Val)), (∀ ps body, LibItem.fn n ps body ∉ l) → locals acc n = none → locals (itemVars g acc l) n = none := by
      intro l
      induction l with
      | nil => intro acc _ h; exact h
      | cons x l ih =>
        intro acc hl ha
        cases x with
        | fn m ps body =>
          refine ih _ (fun ps body hm => hl ps body (List.mem_cons_of_mem _ hm)) ?_
          have : n ≠ m := fun e => hl ps body (e ▸ List.mem_cons_self ..)
          simp [locals, this, ha]
        | mac m ps body => exact ih _ (fun ps body hm => hl ps body (List.mem_cons_of_mem _ hm)) ha
    exact key _ _ h rfl

theorem lib_macros (M : Str → Option (List Str × List Sexp)) : (∀ n ps body, LibItem.mac n ps body ∈ libItems → itemMacros M libItems n = some (ps, body)) ∧
    (∀ n, (∀ ps body, LibItem.mac n ps body ∉ libItems) → itemMacros M libItems n = M n) := by
  constructor
  · intro n ps body h
    simp only [libItems, List.mem_cons, List.not_mem_nil, or_false, LibItem.mac.injEq, reduceCtorEq, false_or] at h
    rcases h with ⟨rfl, rfl, rfl⟩ | ⟨rfl, rfl, rfl⟩ | ⟨rfl, rfl, rfl⟩ <;> rfl
  · intro n h
    have key : ∀ (l : List LibItem) (acc : Str → Option (List Str × List Sexp)), (∀ ps body, LibItem.mac n ps body ∉ l) → itemMacros acc l n = acc n := by
      intro l
      induction l with
      | nil => intro acc _; rfl
      | cons x l ih =>
        intro acc hl
        cases x with
        | fn m ps body => exact ih _ (fun ps body hm => hl ps body (List.mem_cons_of_mem _ hm))
        | mac m ps body =>
          rw [itemMacros, ih _ (fun ps body hm => hl ps body (List.mem_cons_of_mem _ hm))]
          have : n ≠ m := fun e => hl ps body (e ▸ List.mem_cons_self ..)
          simp [this]
    exact key _ _ h

theorem lib_heads {R : Conf} {g : Nat} (h : ∀ n v, (R.frames g).vars n = some v → Passive v) : Literal R g (.list (.sym c!"do" :: libProgram)) :=
  haveHeads_ok (p := fun n => !hidden.contains n) (fun n hn => ⟨by simpa using hn, h n⟩) (by decide +kernel)

/-- The import of the library. -/
theorem lib_import {f : Nat} {R : Conf} {file : Str} {w : Val} (hw : Named w c!"fuellib") (hl : R.lib c!"fuellib" = some (file, libProgram)) (hf : file ∉ hidden)
    (hS : Standard R libNames) (hm : R.macros c!"isNET" = none) {ms : List (Str × Nat)} (hi : Inserted file (R.count + 2) R.modules ms) :
    ∃ R', Apply f (.prim c!"import") [w] R .undef R' ∧ Loaded file R R' ∧ R'.modules = ms := by
  have hc := hS.count
  let g := R.count
  let R0 := R.openModule
  have hg : R0.frames g = ⟨locals [], none, false⟩ := by simp [R0, g, Conf.openModule, Conf.withFrame]; rfl
  have hlow : ∀ i, i < R.count → R0.frames i = R.frames i := fun i h => by simp [R0, Conf.openModule, Conf.withFrame, Nat.ne_of_lt h]
  have h0 : Loading g R0 := ⟨Nat.ne_of_gt hc, ⟨Nat.succ_pos _, fun n hn => by rw [hlow 0 hc]; exact hS.vars n hn, hS.macros⟩, fun n _ => by rw [hg]; rfl, by rw [hg]⟩
  let R1 := runItems g R0 libItems
  obtain ⟨a1, a2, a3, a4, a5, a6, a7⟩ := runItems_other (g := g) libItems R0
  have a8 : R1.frames g = ⟨locals (itemVars g [] libItems), none, false⟩ := runItems_vars libItems hg
  have a9 : R1.macros = itemMacros R.macros libItems := runItems_macros libItems R0
  have a1' : R1.count = R.count + 1 := a1
  let R2 := R1.enter [] [] g
  have hlow2 : ∀ i, i < R.count + 1 → R2.frames i = R1.frames i := fun i h => by
    have : i ≠ R1.count := by omega
    simp [R2, Conf.enter, Conf.withFrame, this]
  have eseq : Loading g R1 → ∀ r, Seq g r [ap c!"if" [ap c!"isNET" [], netItems], ap c!"nop" []] R1 .undef R2 := by
    intro h1 r
    have hnet : Head R1 g c!"isNET" (.clo [] isNETBody g) :=
      ⟨by rw [a9, (lib_macros R.macros).2 _ (by simp [libItems])]; exact hm, .locally (by decide) (by rw [a8]; exact (lib_vars g).1 c!"isNET" [] isNETBody (by simp [libItems]))⟩
    have hS2 : Standard R2 [c!"==", c!"nth", c!"platform"] := by
      refine ⟨Nat.succ_pos _, fun n hn => ?_, fun n hn => h1.std.macros n (by revert n; decide)⟩
      rw [hlow2 0 (by omega)]
      exact h1.std.vars n (by revert n; decide)
    have e1 : Exec g (ap c!"isNET" []) R1 (.bool (decide (c!"C++" = c!".NET"))) R2 :=
      .call .list hnet .nil (.clo (by decide) (by simp) (exec_isPlatform hS2 (by simp [R2, Conf.enter, Conf.withFrame]; rfl) c!".NET"))
    have hR2 : (R2.frames g).ret = false := by rw [hlow2 g (Nat.lt_succ_self _)]; exact h1.ret
    have h2 : Head R2 g c!"nop" (.prim c!"nop") :=
      ⟨h1.std.macros c!"nop" (by decide), .globally (by decide) (by rw [hlow2 g (Nat.lt_succ_self _)]; exact h1.free _ (by decide)) (by rw [hlow2 0 (by omega)]; exact h1.std.vars _ (by decide))⟩
    exact .skip .list (h1.head (by decide) (by decide)) e1 hR2 (.next ⟨_, _, .list⟩ (.call .list h2 .nil (.fn .nop)) hR2 .done)
  have e2 : Exec g (.list (.sym c!"do" :: (libItems.map LibItem.code ++ [ap c!"if" [ap c!"isNET" [], netItems], ap c!"nop" []]))) R0 .undef R2 :=
    .block (d := c!"do") .list (h0.head (by decide) (by decide)) (by simp) (items_seq libItems h0 libItems_names eseq)
  have hret : (R2.frames g).ret = false := by rw [hlow2 g (Nat.lt_succ_self _), a8]
  have e3 : Exec g (.list (.sym c!"do" :: libProgram)) R0 .undef R2 :=
    .block (d := c!"do") .list (h0.head (by decide) (by decide)) (by simp) (.next ⟨_, _, .list⟩ e2 hret .done)
  have hcount : R2.count = R.count + 2 := congrArg (· + 1) a1'
  have hmods : R2.modules = R.modules := a7
  refine ⟨_, .import hw hl hf (lib_heads fun n v h => ?_) e3 (by rw [hcount, hmods]; exact hi), ?_, rfl⟩
  · have hv : (R0.frames g).vars n = none := by rw [hg]; rfl
    cases hv.symm.trans h
  · have hfr : ∀ i, i < R.count + 2 → (R2.closeModule g ms).frames i = R2.frames i := fun i h => by
      have : i ≠ R2.count := by omega
      simp [Conf.closeModule, Conf.withFrame, this]
    have hgg : (R2.closeModule g ms).frames g = ⟨locals (itemVars g [] libItems), none, false⟩ := by rw [hfr g (by show R.count < _; omega), hlow2 g (Nat.lt_succ_self _), a8]
    refine ⟨congrArg (· + 1) hcount, fun i h => ?_, ?_, fun n ps body h => ?_, fun n h => ?_, by rw [hgg], fun n ps body h => ?_, fun n h => ?_, hi, a3, a4, a5, a6⟩
    · rw [hfr i (by omega), hlow2 i (by omega)]
      exact (a2 i (Nat.ne_of_lt h)).trans (hlow i h)
    · show (R2.closeModule g ms).frames (R.count + 2) = (R2.closeModule g ms).frames g
      rw [hfr g (by show R.count < _; omega), ← hcount]
      simp [Conf.closeModule, Conf.withFrame]
    · show ((R2.closeModule g ms).frames g).vars n = _
      rw [hgg]
      exact (lib_vars g).1 n ps body h
    · show ((R2.closeModule g ms).frames g).vars n = _
      rw [hgg]
      exact (lib_vars g).2 n h
    · exact (congrFun a9 n).trans ((lib_macros R.macros).1 n ps body h)
    · exact (congrFun a9 n).trans ((lib_macros R.macros).2 n h)

end Fuel
