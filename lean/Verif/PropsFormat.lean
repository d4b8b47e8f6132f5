import Verif.SpecFormat
import Verif.PropsText
import Verif.PropsTok
import Verif.SpecEval
/-!
# `format` with field widths (C13)
-/

set_option linter.unusedSectionVars false
set_option linter.unusedSimpArgs false
set_option linter.unusedVariables false

namespace Fuel

open Spec

variable [World]

theorem find_char_at {c : Char} {a b : Str} (h : c ∉ a) : findSub [c] (a ++ c :: b) = some a.length := by
  rw [findSub_char, if_pos (by simp)]
  congr 2
  induction a with
  | nil => simp
  | cons x a ih =>
    have hx : x ≠ c := fun e => h (by simp [e])
    simp only [List.cons_append]
    rw [List.takeWhile_cons_of_pos (by simpa using hx), ih (fun hm => h (by simp [hm]))]

theorem find_char_none {c : Char} {a : Str} (h : c ∉ a) : findSub [c] a = none := by rw [findSub_char, if_neg h]

/-- The pieces are fine and their numbers are digits. -/
def SlotsOk (ps : List Slot) : Prop := (∀ p ∈ ps, SlotOk p) ∧ ∀ i ∈ slotNums ps, i < 10

theorem SlotsOk.tail {p : Slot} {ps : List Slot} (h : SlotsOk (p :: ps)) : SlotsOk ps :=
  ⟨fun q hq => h.1 q (by simp [hq]), fun i hi => h.2 i (by cases p <;> simp [slotNums, hi])⟩

theorem slotNums_append (a b : List Slot) : slotNums (a ++ b) = slotNums a ++ slotNums b := by
  induction a with
  | nil => rfl
  | cons p a ih => cases p <;> simp [slotNums, ih]

theorem slotSources_append (a b : List Slot) : slotSources (a ++ b) = slotSources a ++ slotSources b := by simp [slotSources]

theorem slotSources_cons (a : Slot) (b : List Slot) : slotSources (a :: b) = a.source ++ slotSources b := by simp [slotSources]

theorem numeral_chars {s : Str} {i : Int} (h : Numeral s i) : BraceFree s := by
  obtain ⟨ds, _, hd, hs⟩ := h
  have : ∀ c ∈ ds, c ≠ '{' ∧ c ≠ '}' := fun c hc => by
    have := hd c hc
    constructor <;> (rintro rfl; simp [Digit] at this)
  intro c hc
  rcases hs with ⟨rfl, _⟩ | ⟨rfl, _⟩ | ⟨rfl, _⟩
  · exact this c hc
  · simp at hc; rcases hc with rfl | hc
    · decide
    · exact this c hc
  · simp at hc; rcases hc with rfl | hc
    · decide
    · exact this c hc

/-- The three characters a placeholder starts with. -/
def Slot.key : Slot → Option (Nat × Char)
  | .lit _ => none
  | .hole i => some (i, '}')
  | .wide i _ _ => some (i, ',')

theorem slot_starts {s : Slot} {i : Nat} {y : Char} (h : Slot.key s = some (i, y)) : ∃ r, s.source = '{' :: Char.ofNat (48 + i) :: y :: r := by
  cases s <;> simp [Slot.key] at h <;> obtain ⟨rfl, rfl⟩ := h <;> simp [Slot.source]

theorem occurs_slot {x y : Char} {ps : List Slot} (hf : SlotsOk ps) {k : Nat} (h : OccursAt ['{', x, y] (slotSources ps) k) :
    ∃ pre s post i, ps = pre ++ s :: post ∧ k = (slotSources pre).length ∧ x = Char.ofNat (48 + i) ∧ Slot.key s = some (i, y) := by
  have hg := occursAt_get h
  clear h
  induction ps generalizing k with
  | nil => simp [slotSources] at hg
  | cons p ps ih =>
    have hp := hf.1 p (by simp)
    rw [slotSources_cons] at hg
    by_cases hk : p.source.length ≤ k
    · have e : ∀ j, (p.source ++ slotSources ps)[k + j]? = (slotSources ps)[k - p.source.length + j]? := by
        intro j
        rw [List.getElem?_append_right (by omega)]
        congr 1; omega
      have e0 := e 0
      simp only [Nat.add_zero] at e0
      rw [e0, e 1, e 2] at hg
      obtain ⟨pre, s, post, i, h1, h2, h3, h4⟩ := ih hf.tail hg
      refine ⟨p :: pre, s, post, i, by simp [h1], ?_, h3, h4⟩
      rw [slotSources_cons, List.length_append]; omega
    · have hk : k < p.source.length := by omega
      obtain ⟨g0, g1, g2⟩ := hg
      rw [List.getElem?_append_left hk] at g0
      cases p with
      | lit s =>
        simp only [Slot.source, SlotOk] at g0 hp
        exact absurd rfl (hp _ (List.mem_of_getElem? g0)).1
      | hole i =>
        have hi := hf.2 i (by simp [slotNums])
        simp only [Slot.source] at g0 g1 g2 hk
        have hd : (Char.ofNat (48 + i)).toNat = 48 + i := toNat_ofNat (by omega)
        match k, hk with
        | 0, _ =>
          simp at g1 g2
          exact ⟨[], .hole i, ps, i, by simp, by simp [slotSources], g1.symm, by subst g2; rfl⟩
        | 1, _ =>
          simp at g0
          rw [g0] at hd
          simp at hd
          omega
        | 2, _ => simp at g0
      | wide i t w =>
        have hi := hf.2 i (by simp [slotNums])
        simp only [Slot.source] at g0 g1 g2 hk
        have hd : (Char.ofNat (48 + i)).toNat = 48 + i := toNat_ofNat (by omega)
        match k, hk with
        | 0, _ =>
          simp at g1 g2
          exact ⟨[], .wide i t w, ps, i, by simp, by simp [slotSources], g1.symm, by subst g2; rfl⟩
        | 1, _ =>
          simp at g0
          rw [g0] at hd
          simp at hd
          omega
        | 2, _ => simp at g0
        | k + 3, _ =>
          simp at g0
          have := List.mem_of_getElem? g0
          simp at this
          exact absurd rfl (numeral_chars hp.1 _ this).1

theorem key_num {s : Slot} {i : Nat} {y : Char} (h : Slot.key s = some (i, y)) (a b : List Slot) : i ∈ slotNums (a ++ s :: b) := by
  rw [slotNums_append]
  cases s <;> simp [Slot.key] at h <;> simp [slotNums, h]

theorem mem_slotNums {i : Nat} {ps : List Slot} (h : i ∈ slotNums ps) (hd : (slotNums ps).Nodup) :
    ∃ pre s post y, ps = pre ++ s :: post ∧ Slot.key s = some (i, y) ∧ i ∉ slotNums pre ∧ i ∉ slotNums post := by
  induction ps with
  | nil => simp [slotNums] at h
  | cons p ps ih =>
    have skip : ∀ (h : i ∈ slotNums ps) (hd : (slotNums ps).Nodup) (hp : i ∉ slotNums [p]), ∃ pre s post y, p :: ps = pre ++ s :: post ∧ Slot.key s = some (i, y) ∧ i ∉ slotNums pre ∧ i ∉ slotNums post := by
      intro h hd hp
      obtain ⟨pre, s, post, y, h1, h2, h3, h4⟩ := ih h hd
      refine ⟨p :: pre, s, post, y, by rw [h1]; rfl, h2, ?_, h4⟩
      rw [show p :: pre = [p] ++ pre from rfl, slotNums_append]
      simp [hp, h3]
    cases p with
    | lit s => exact skip h hd (by simp [slotNums])
    | hole j =>
      simp only [slotNums, List.nodup_cons] at hd
      simp only [slotNums, List.mem_cons] at h
      rcases h with rfl | h
      · exact ⟨[], .hole i, ps, '}', rfl, rfl, by simp [slotNums], hd.1⟩
      · exact skip h hd.2 (by simp [slotNums]; rintro rfl; exact hd.1 h)
    | wide j t w =>
      simp only [slotNums, List.nodup_cons] at hd
      simp only [slotNums, List.mem_cons] at h
      rcases h with rfl | h
      · exact ⟨[], .wide i t w, ps, ',', rfl, rfl, by simp [slotNums], hd.1⟩
      · exact skip h hd.2 (by simp [slotNums]; rintro rfl; exact hd.1 h)

/-- The first placeholder with a number is found where it stands. -/
theorem find_slot {pre post : List Slot} {s : Slot} {i : Nat} {y : Char} (hf : SlotsOk (pre ++ s :: post)) (hk : Slot.key s = some (i, y))
    (hpre : i ∉ slotNums pre) : findSub ['{', Char.ofNat (48 + i), y] (slotSources (pre ++ s :: post)) = some (slotSources pre).length := by
  apply findSub_eq_some
  obtain ⟨r, hr⟩ := slot_starts hk
  refine ⟨⟨slotSources pre, r ++ slotSources post, by rw [slotSources_append, slotSources_cons, hr]; simp, rfl⟩, fun j hj ho => ?_⟩
  obtain ⟨pre', s', post', i', h1, h2, h3, h4⟩ := occurs_slot hf ho
  have hii : i = i' := digit_inj (hf.2 i (key_num hk _ _)) (hf.2 i' (h1 ▸ key_num h4 _ _)) h3
  subst hii
  rcases Nat.lt_trichotomy pre'.length pre.length with h | h | h
  · have e1 : (pre ++ s :: post)[pre'.length]? = some s' := by rw [h1]; simp
    rw [List.getElem?_append_left h] at e1
    obtain ⟨a, b, rfl⟩ := List.append_of_mem (List.mem_of_getElem? e1)
    exact hpre (key_num h4 _ _)
  · have := List.append_inj_left h1 h.symm
    subst this; omega
  · obtain ⟨a, rfl⟩ : pre <+: pre' := List.prefix_of_prefix_length_le (l₃ := pre ++ s :: post) (List.prefix_append _ _) (h1 ▸ List.prefix_append _ _) (by omega)
    rw [slotSources_append, List.length_append] at h2
    omega

theorem no_slot {ps : List Slot} {i : Nat} {y : Char} (hf : SlotsOk ps) (hi : i < 10)
    (h : ∀ pre s post, ps = pre ++ s :: post → Slot.key s ≠ some (i, y)) : findSub ['{', Char.ofNat (48 + i), y] (slotSources ps) = none :=
  findSub_eq_none fun k hk => by
    obtain ⟨pre, s, post, i', h1, h2, h3, h4⟩ := occurs_slot hf hk
    have hii : i = i' := digit_inj hi (hf.2 i' (h1 ▸ key_num h4 _ _)) h3
    subst hii
    exact h _ _ _ h1 h4

/-- Replace placeholder `i` by its text. -/
def slotPlug (i : Nat) (a : Str) (ps : List Slot) : List Slot :=
  ps.map fun p => match p with | .hole j => if j = i then .lit a else .hole j | .wide j t w => if j = i then .lit (pad w a) else .wide j t w | .lit s => .lit s

theorem slotPlug_none {i : Nat} {a : Str} {ps : List Slot} (h : i ∉ slotNums ps) : slotPlug i a ps = ps := by
  induction ps with
  | nil => rfl
  | cons p ps ih =>
    cases p with
    | lit s => simp only [slotNums] at h; simp only [slotPlug, List.map_cons] at ih ⊢; rw [ih h]
    | hole j =>
      simp only [slotNums, List.mem_cons, not_or] at h
      simp only [slotPlug, List.map_cons] at ih ⊢
      rw [ih h.2, if_neg fun e => h.1 e.symm]
    | wide j t w =>
      simp only [slotNums, List.mem_cons, not_or] at h
      simp only [slotPlug, List.map_cons] at ih ⊢
      rw [ih h.2, if_neg fun e => h.1 e.symm]

theorem pad_free {a : Str} (h : BraceFree a) (w : Int) : BraceFree (pad w a) := by
  have hr : ∀ n, BraceFree (List.replicate n ' ') := fun n c hc => by rw [(List.mem_replicate.1 hc).2]; decide
  unfold pad
  split <;> (intro c hc; rcases List.mem_append.1 hc with hc | hc)
  · exact hr _ c hc
  · exact h c hc
  · exact h c hc
  · exact hr _ c hc

theorem slotNums_plug {i : Nat} {a : Str} {ps : List Slot} : slotNums (slotPlug i a ps) = (slotNums ps).filter (· ≠ i) := by
  induction ps with
  | nil => rfl
  | cons p ps ih =>
    simp only [slotPlug, List.map_cons] at ih ⊢
    cases p with
    | lit s => simp only [slotNums] at ih ⊢; exact ih
    | hole j => by_cases h : j = i <;> simp [h, slotNums, ih]
    | wide j t w => by_cases h : j = i <;> simp [h, slotNums, ih]

theorem slotPlug_ok {i : Nat} {a : Str} {ps : List Slot} (hf : SlotsOk ps) (ha : BraceFree a) : SlotsOk (slotPlug i a ps) := by
  constructor
  · intro p hp
    simp only [slotPlug, List.mem_map] at hp
    obtain ⟨q, hq, rfl⟩ := hp
    have := hf.1 q hq
    cases q with
    | lit s => exact this
    | hole j =>
      dsimp only; split
      · exact ha
      · exact this
    | wide j t w =>
      dsimp only; split
      · exact pad_free ha w
      · exact this
  · rw [slotNums_plug]
    exact fun j hj => hf.2 j (List.mem_filter.1 hj).1

theorem key_unique {pre post : List Slot} {s : Slot} {i : Nat} {y : Char} (hk : Slot.key s = some (i, y)) (hpre : i ∉ slotNums pre) (hpost : i ∉ slotNums post)
    {pre' post' : List Slot} {s' : Slot} {y' : Char} (h : pre ++ s :: post = pre' ++ s' :: post') (hk' : Slot.key s' = some (i, y')) : s' = s := by
  have : s' ∈ pre ++ s :: post := by rw [h]; simp
  simp only [List.mem_append, List.mem_cons] at this
  rcases this with h | rfl | h
  · obtain ⟨a, b, rfl⟩ := List.append_of_mem h
    exact absurd (key_num hk' a b) hpre
  · rfl
  · obtain ⟨a, b, rfl⟩ := List.append_of_mem h
    exact absurd (key_num hk' a b) hpost

theorem fill_width {pre post : List Slot} {i : Nat} {t : Str} {w : Int} (hf : SlotsOk (pre ++ .wide i t w :: post)) (hpre : i ∉ slotNums pre) (arg : Str) :
    replaceInWithFill (slotSources (pre ++ .wide i t w :: post)) ['{', Char.ofNat (48 + i), ','] arg =
      .ok (slotSources pre ++ pad w arg ++ slotSources post, true) := by
  have hfind := find_slot hf (s := .wide i t w) rfl hpre
  obtain ⟨hn, hw, hm⟩ : SlotOk (.wide i t w) := hf.1 _ (by simp)
  have hi := hf.2 i (key_num (s := .wide i t w) rfl _ _)
  have htxt : slotSources (pre ++ .wide i t w :: post) = slotSources pre ++ ('{' :: Char.ofNat (48 + i) :: ',' :: (t ++ '}' :: slotSources post)) := by
    simp [slotSources, Slot.source]
  have hclose : findFrom (slotSources (pre ++ .wide i t w :: post)) ['}'] ((slotSources pre).length + 1) = some ((slotSources pre).length + 3 + t.length) := by
    have hd : Char.ofNat (48 + i) ≠ '}' := by
      intro e
      have hd : (Char.ofNat (48 + i)).toNat = 48 + i := toNat_ofNat (by omega)
      rw [e] at hd
      simp at hd
      omega
    rw [htxt, findFrom, if_pos (by simp)]
    have e : (slotSources pre ++ ('{' :: Char.ofNat (48 + i) :: ',' :: (t ++ '}' :: slotSources post))).drop ((slotSources pre).length + 1) =
        (Char.ofNat (48 + i) :: ',' :: t) ++ '}' :: slotSources post := by
      rw [← List.drop_drop, List.drop_left]; rfl
    rw [e, find_char_at]
    · simp; omega
    · simp only [List.mem_cons, not_or]
      exact ⟨fun e => hd e.symm, by decide, fun h => (numeral_chars hn _ h).2 rfl⟩
  have hdrop : (slotSources (pre ++ .wide i t w :: post)).drop ((slotSources pre).length + 3) = t ++ '}' :: slotSources post := by
    rw [htxt, ← List.drop_drop, List.drop_left]; rfl
  have hsub : substr (slotSources (pre ++ .wide i t w :: post)) ((slotSources pre).length + 3) ((slotSources pre).length + 3 + t.length - (slotSources pre).length - 3) = .ok t := by
    rw [substr, if_pos (by rw [htxt]; simp), hdrop]
    rw [show (slotSources pre).length + 3 + t.length - (slotSources pre).length - 3 = t.length by omega]
    simp
  have hstoi : stoi t = .ok (w, t.length) := by rw [stoi_numeral hn, if_pos hw]
  have hrest : ∀ x, spliceStr (slotSources (pre ++ .wide i t w :: post)) (slotSources pre).length
      ((slotSources pre).length + 3 + t.length - (slotSources pre).length + 1) x = slotSources pre ++ x ++ slotSources post := fun x => by
    rw [spliceStr, show (slotSources pre).length + ((slotSources pre).length + 3 + t.length - (slotSources pre).length + 1) =
      (slotSources pre).length + 3 + (t.length + 1) by omega, ← List.drop_drop, hdrop, htxt, List.take_left]
    congr 1
    rw [← List.drop_drop, List.drop_left]; rfl
  simp only [replaceInWithFill, hfind, hclose, List.length_cons, List.length_nil, hsub, bind_ok_R, hstoi, hrest]
  by_cases h0 : w > 0
  · rw [if_pos h0, pad, if_pos h0, show (w - (arg.length : Int)).toNat = w.natAbs - arg.length by omega]
  · have hc : chk32 (-w) = .ok (-w) := by
      have : IsInt32 (-w) := by unfold IsInt32 at *; omega
      simp [chk32, this]
    rw [if_neg h0, hc, pad, if_neg h0]
    simp only [bind_ok_R]
    rw [show (-w - (arg.length : Int)).toNat = w.natAbs - arg.length by omega]

theorem no_fill {ps : List Slot} {i : Nat} (hf : SlotsOk ps) (hi : i < 10) (h : ∀ pre s post, ps = pre ++ s :: post → Slot.key s ≠ some (i, ',')) (arg : Str) :
    replaceInWithFill (slotSources ps) ['{', Char.ofNat (48 + i), ','] arg = .ok (slotSources ps, false) := by
  simp [replaceInWithFill, no_slot hf hi h]

theorem not_num {ps : List Slot} {i : Nat} {y : Char} (h : i ∉ slotNums ps) (pre : List Slot) (s : Slot) (post : List Slot) (e : ps = pre ++ s :: post) :
    Slot.key s ≠ some (i, y) := fun hk => h (e ▸ key_num hk _ _)

theorem plug_split {pre post : List Slot} {s : Slot} {i : Nat} (arg : Str) (hpre : i ∉ slotNums pre) (hpost : i ∉ slotNums post) :
    slotPlug i arg (pre ++ s :: post) = pre ++ slotPlug i arg [s] ++ post := by
  have h1 := slotPlug_none (a := arg) hpre
  have h2 := slotPlug_none (a := arg) hpost
  simp only [slotPlug] at h1 h2
  simp only [slotPlug, List.map_append, List.map_cons, h1, h2, List.map_nil, List.append_assoc, List.cons_append, List.nil_append]

/-- One step of `Format` on a text made of pieces. -/
theorem formatArg_slots {ps : List Slot} (hf : SlotsOk ps) (hd : (slotNums ps).Nodup) {i : Nat} (hi : i < 10) {arg : Str}
    (ha : BraceFree arg) (err : Str) (hnull : i ∈ slotNums ps → arg ≠ nullString) :
    formatArg err (Char.ofNat (48 + i)) arg (slotSources ps) = .ok (slotSources (slotPlug i arg ps)) := by
  by_cases hm : i ∈ slotNums ps
  · have hnull' := hnull hm
    have hf2 := slotPlug_ok (i := i) hf ha
    have hn2 : i ∉ slotNums (slotPlug i arg ps) := by rw [slotNums_plug]; simp
    obtain ⟨pre, s, post, y, rfl, hk, hpre, hpost⟩ := mem_slotNums hm hd
    have hp := plug_split (s := s) arg hpre hpost
    cases s with
    | lit s => cases hk
    | hole j =>
      obtain ⟨rfl, rfl⟩ : j = i ∧ '}' = y := by simpa [Slot.key] using hk
      have e1 : spliceStr (slotSources (pre ++ .hole j :: post)) (slotSources pre).length 3 arg = slotSources (slotPlug j arg (pre ++ .hole j :: post)) := by
        rw [hp]
        simp [spliceStr, slotSources, Slot.source, List.drop_append, slotPlug]
      simp only [formatArg, replaceIn, find_slot hf hk hpre, List.length_cons, List.length_nil, e1]
      rw [no_fill hf2 hi (not_num hn2)]
      simp [hnull', bind, Except.bind]
    | wide j t w =>
      obtain ⟨rfl, rfl⟩ : j = i ∧ ',' = y := by simpa [Slot.key] using hk
      have hno : findSub ['{', Char.ofNat (48 + j), '}'] (slotSources (pre ++ .wide j t w :: post)) = none :=
        no_slot hf hi fun pre' s' post' e hk' => by
          have := key_unique hk hpre hpost e hk'
          subst this
          simp [Slot.key] at hk'
      simp only [formatArg, replaceIn, hno, fill_width hf hpre]
      rw [hp]
      simp [hnull', bind, Except.bind, slotSources, slotPlug, Slot.source]
  · simp only [formatArg, replaceIn, no_slot hf hi (not_num hm), no_fill hf hi (not_num hm), slotPlug_none hm]
    simp [bind, Except.bind]

theorem sources_slotPlugs (args : List Str) (ps : List Slot) (h : ∀ i ∈ slotNums ps, i < args.length ∧ i < 5) :
    slotSources (slotPlug 4 (argOr args 4) (slotPlug 3 (argOr args 3) (slotPlug 2 (argOr args 2) (slotPlug 1 (argOr args 1)
      (slotPlug 0 (argOr args 0) ps))))) = slotFill args ps := by
  induction ps with
  | nil => rfl
  | cons p ps ih =>
    cases p with
    | lit s =>
      simp only [slotNums] at h
      have := ih h
      simp only [slotSources, slotPlug, List.map_cons, List.flatten_cons, slotFill, Slot.source, Slot.filled] at this ⊢
      rw [this]
    | hole j =>
      simp only [slotNums, List.mem_cons, forall_eq_or_imp] at h
      obtain ⟨⟨h1, h5⟩, h2⟩ := h
      have e : args[j]? = some args[j] := List.getElem?_eq_getElem h1
      have hj : argOr args j = args[j] := by simp [argOr, e]
      have := ih h2
      simp only [slotSources, slotPlug, List.map_cons, List.flatten_cons, slotFill, e, Slot.filled] at this ⊢
      rw [this]
      congr 1
      have : j = 0 ∨ j = 1 ∨ j = 2 ∨ j = 3 ∨ j = 4 := by omega
      rcases this with rfl | rfl | rfl | rfl | rfl <;> simp [Slot.source, hj]
    | wide j t w =>
      simp only [slotNums, List.mem_cons, forall_eq_or_imp] at h
      obtain ⟨⟨h1, h5⟩, h2⟩ := h
      have e : args[j]? = some args[j] := List.getElem?_eq_getElem h1
      have hj : argOr args j = args[j] := by simp [argOr, e]
      have := ih h2
      simp only [slotSources, slotPlug, List.map_cons, List.flatten_cons, slotFill, e, Slot.filled] at this ⊢
      rw [this]
      congr 1
      have : j = 0 ∨ j = 1 ∨ j = 2 ∨ j = 3 ∨ j = 4 := by omega
      rcases this with rfl | rfl | rfl | rfl | rfl <;> simp [Slot.source, hj]

/-- `Format` fills the placeholders of a text made of pieces. -/
theorem format_slots {args : List Str} {ps : List Slot} (hs : ∀ p ∈ ps, SlotOk p) (harg : ∀ a ∈ args, BraceFree a ∧ a ≠ nullString)
    (hh : ∀ i ∈ slotNums ps, i < args.length ∧ i < 5) (hd : (slotNums ps).Nodup) :
    format (slotSources ps) (argOr args 0) (argOr args 1) (argOr args 2) (argOr args 3) (argOr args 4) = .ok (slotFill args ps) := by
  have hf0 : SlotsOk ps := ⟨hs, fun i hi => by have := (hh i hi).2; omega⟩
  have hA : ∀ i, BraceFree (argOr args i) := argOr_free fun a ha => (harg a ha).1
  have hN : ∀ i, i ∈ slotNums ps → argOr args i ≠ nullString := fun i hi => by
    have h1 := (hh i hi).1
    have e : args[i]? = some args[i] := List.getElem?_eq_getElem h1
    simp only [argOr, e]
    exact (harg _ (List.getElem_mem h1)).2
  have hf1 := slotPlug_ok (i := 0) hf0 (hA 0)
  have hf2 := slotPlug_ok (i := 1) hf1 (hA 1)
  have hf3 := slotPlug_ok (i := 2) hf2 (hA 2)
  have hf4 := slotPlug_ok (i := 3) hf3 (hA 3)
  have nd : ∀ {j : Nat} {a : Str} {qs : List Slot}, (slotNums qs).Nodup → (slotNums (slotPlug j a qs)).Nodup := fun h => by rw [slotNums_plug]; exact h.filter _
  have m1 : ∀ {j i : Nat} {a : Str} {qs : List Slot}, i ∈ slotNums (slotPlug j a qs) → i ∈ slotNums qs := fun h => by
    rw [slotNums_plug] at h; exact (List.mem_filter.1 h).1
  have s0 := fun err => formatArg_slots hf0 hd (i := 0) (by omega) (hA 0) err (hN 0)
  have s1 := fun err => formatArg_slots hf1 (nd hd) (i := 1) (by omega) (hA 1) err fun h => hN 1 (m1 h)
  have s2 := fun err => formatArg_slots hf2 (nd (nd hd)) (i := 2) (by omega) (hA 2) err fun h => hN 2 (m1 (m1 h))
  have s3 := fun err => formatArg_slots hf3 (nd (nd (nd hd))) (i := 3) (by omega) (hA 3) err fun h => hN 3 (m1 (m1 (m1 h)))
  have s4 := fun err => formatArg_slots hf4 (nd (nd (nd (nd hd)))) (i := 4) (by omega) (hA 4) err fun h => hN 4 (m1 (m1 (m1 (m1 h))))
  rw [← sources_slotPlugs args ps hh]
  unfold format
  have c0 : Char.ofNat (48 + 0) = '0' := rfl
  have c1 : Char.ofNat (48 + 1) = '1' := rfl
  have c2 : Char.ofNat (48 + 2) = '2' := rfl
  have c3 : Char.ofNat (48 + 3) = '3' := rfl
  have c4 : Char.ofNat (48 + 4) = '4' := rfl
  rw [c0] at s0; rw [c1] at s1; rw [c2] at s2; rw [c3] at s3; rw [c4] at s4
  simp only [s0, s1, s2, s3, s4, bind, Except.bind]

theorem format_call {k : Nat} (hk : 3 ≤ k) {p : Ptr} {ps : List Ptr} {pieces : List Slot} {args : List Str}
    (sid : Nat) (st : St) (hp : Holds p (IsStr · (slotSources pieces))) (hn : args.length ≤ 5)
    (hps : All2 (fun q a => ptrStr st k q = .ok a) ps args)
    (hlit : ∀ s ∈ pieces, SlotOk s) (harg : ∀ a ∈ args, BraceFree a ∧ a ≠ c!"##<NULL>##")
    (hh : ∀ i ∈ slotNums pieces, i < args.length) (hd : (slotNums pieces).Nodup) :
    callPrim (run k) .format (p :: ps) sid st = ret (mkStr (slotFill args pieces)) st := by
  obtain ⟨k, rfl⟩ : ∃ m, k = m + 3 := ⟨k - 3, by omega⟩
  obtain ⟨i, v, rfl, hv⟩ := hp
  have hlen' : ps.length = args.length := by clear hh hd hlit harg hn; induction hps with | nil => rfl | cons _ _ ih => simp [ih]
  have hstrs : argStrs st (k + 3) ps = .ok args := by
    clear hh hd hlit harg hn hlen'
    induction hps with
    | nil => rfl
    | cons h _ ih => simp [argStrs, h, ih]
  have h0 : argStrs st (k + 3) (.mk i (.var v) :: ps) = .ok (slotSources pieces :: args) := by
    simp [argStrs, ptrStr_var, varStr_str hv, hstrs]
  have hf := format_slots hlit harg (fun i hi => ⟨hh i hi, by have := hh i hi; omega⟩) hd
  have hlen : 1 ≤ (Ptr.mk i (Obj.var v) :: ps).length ∧ (Ptr.mk i (Obj.var v) :: ps).length ≤ 6 := by simp; omega
  simp only [callPrim, ret, bFormat, checkOptionalArgs_ok hlen, run_n, M.bind_apply, M.pure_apply, M.rd_apply, h0]
  match args, hn with
  | [], _ => simp [argOr] at hf; simp [hf]
  | [a], _ => simp [argOr] at hf; simp [hf]
  | [a, b], _ => simp [argOr] at hf; simp [hf]
  | [a, b, c], _ => simp [argOr] at hf; simp [hf]
  | [a, b, c, d], _ => simp [argOr] at hf; simp [hf]
  | [a, b, c, d, e], _ => simp [argOr] at hf; simp [hf]

/-- C13: `(format text a0 a1 ...)` replaces the placeholders `{i}` by the display strings of the arguments and the placeholders
`{i,w}` by the display strings filled up with blanks to `w` characters (on the left for a positive width, on the right for a
negative one), if neither the literal parts nor the arguments contain curly brackets, every placeholder number occurs once and
has an argument. -/
theorem C13_format_width {k : Nat} (hk : 3 ≤ k) {p : Ptr} {ps : List Ptr} {pieces : List Slot} {args : List Str}
    (sid : Nat) (st : St) (hp : Holds p (IsStr · (slotSources pieces))) (hn : args.length ≤ 5)
    (hps : All2 (fun q a => ptrStr st k q = .ok a) ps args)
    (hlit : ∀ s ∈ pieces, SlotOk s) (harg : ∀ a ∈ args, BraceFree a ∧ a ≠ c!"##<NULL>##")
    (hh : ∀ i ∈ slotNums pieces, i < args.length) (hd : (slotNums pieces).Nodup) :
    Returns (callPrim (run k) .format (p :: ps) sid) st fun v st' => Extends st st' ∧ IsStr v (slotFill args pieces) := by
  exact ⟨⟨.string, .mk st.next (.str (slotFill args pieces)), .none, none⟩, { st with next := st.next + 1 },
    format_call hk sid st hp hn hps hlit harg hh hd, extends_next _ _ (Nat.le_succ _), isStr_mk _ _ _ _⟩

/-- A placeholder without argument is found. -/
theorem formatArg_missing {ps : List Slot} (hf : SlotsOk ps) (hd : (slotNums ps).Nodup) {i : Nat} (hi : i < 10) (hm : i ∈ slotNums ps) (err : Str) :
    formatArg err (Char.ofNat (48 + i)) nullString (slotSources ps) = throwBase err := by
  obtain ⟨pre, s, post, y, rfl, hk, hpre, hpost⟩ := mem_slotNums hm hd
  cases s with
  | lit s => cases hk
  | hole j =>
    obtain ⟨rfl, rfl⟩ : j = i ∧ '}' = y := by simpa [Slot.key] using hk
    simp only [formatArg, replaceIn, find_slot hf hk hpre]
    simp
  | wide j t w =>
    obtain ⟨rfl, rfl⟩ : j = i ∧ ',' = y := by simpa [Slot.key] using hk
    have hno : findSub ['{', Char.ofNat (48 + j), '}'] (slotSources (pre ++ .wide j t w :: post)) = none :=
      no_slot hf hi fun pre' s' post' e hk' => by
        have := key_unique hk hpre hpost e hk'
        subst this
        simp [Slot.key] at hk'
    simp only [formatArg, replaceIn, hno, fill_width hf hpre]
    simp [bind, Except.bind]

/-- The steps of `Format`. -/
def formatSteps (err : Str) (args : List Str) : List Nat → Str → R Str
  | [], t => .ok t
  | j :: js, t => do formatSteps err args js (← formatArg err (Char.ofNat (48 + j)) (argOr args j) t)

theorem format_steps (txt : Str) (args : List Str) :
    format txt (argOr args 0) (argOr args 1) (argOr args 2) (argOr args 3) (argOr args 4) =
      formatSteps (c!"Not enough items for format string: " ++ txt) args [0, 1, 2, 3, 4] txt := by
  have e (r : R Str) : (do let t ← r; Except.ok t) = r := by cases r <;> rfl
  simp only [formatSteps, format, e]

theorem formatSteps_missing {args : List Str} (harg : ∀ a ∈ args, BraceFree a ∧ a ≠ nullString) (err : Str) :
    ∀ (js : List Nat) {ps : List Slot}, (∀ j ∈ js, j < 10) → js.Nodup → SlotsOk ps → (slotNums ps).Nodup →
      (∃ j ∈ js, j ∈ slotNums ps ∧ args.length ≤ j) → formatSteps err args js (slotSources ps) = throwBase err
  | [], _, _, _, _, _, h => by obtain ⟨j, hj, _⟩ := h; cases hj
  | j :: js, ps, hl, hn, hf, hd, h => by
    have hA : ∀ i, BraceFree (argOr args i) := argOr_free fun a ha => (harg a ha).1
    by_cases hm : j ∈ slotNums ps ∧ args.length ≤ j
    · have : argOr args j = nullString := by simp [argOr, List.getElem?_eq_none hm.2]
      rw [formatSteps, this, formatArg_missing hf hd (hl j List.mem_cons_self) hm.1]
      rfl
    · have hN : j ∈ slotNums ps → argOr args j ≠ nullString := fun hj => by
        have h1 : j < args.length := by
          by_cases h1 : j < args.length
          · exact h1
          · exact absurd ⟨hj, by omega⟩ hm
        simp only [argOr, List.getElem?_eq_getElem h1]
        exact (harg _ (List.getElem_mem h1)).2
      rw [formatSteps, formatArg_slots hf hd (hl j List.mem_cons_self) (hA j) err hN]
      refine formatSteps_missing harg err js (fun i hi => hl i (List.mem_cons_of_mem _ hi)) (List.nodup_cons.1 hn).2 (slotPlug_ok hf (hA j))
        (by rw [slotNums_plug]; exact hd.filter _) ?_
      obtain ⟨i, hi, h1, h2⟩ := h
      rcases List.mem_cons.1 hi with rfl | hi
      · exact absurd ⟨h1, h2⟩ hm
      · refine ⟨i, hi, ?_, h2⟩
        rw [slotNums_plug]
        have hne : i ≠ j := fun e => (List.nodup_cons.1 hn).1 (e ▸ hi)
        exact List.mem_filter.2 ⟨h1, by simpa using hne⟩

/-- C13: a placeholder `{i}` or `{i,w}` with `i` below 5 that has no argument raises an exception with the format text, whatever the other
placeholders are. -/
theorem C13_format_missing {k : Nat} (hk : 3 ≤ k) {p : Ptr} {ps : List Ptr} {pieces : List Slot} {args : List Str}
    (sid : Nat) (st : St) (hp : Holds p (IsStr · (slotSources pieces))) (hn : args.length ≤ 5)
    (hps : All2 (fun q a => ptrStr st k q = .ok a) ps args)
    (hlit : ∀ s ∈ pieces, SlotOk s) (harg : ∀ a ∈ args, BraceFree a ∧ a ≠ c!"##<NULL>##") (hh : ∀ i ∈ slotNums pieces, i < 10)
    (hd : (slotNums pieces).Nodup) {i : Nat} (hi : i ∈ slotNums pieces) (h1 : args.length ≤ i) (h5 : i < 5) :
    callPrim (run k) .format (p :: ps) sid st = .fail (.exn (.base (c!"Not enough items for format string: " ++ slotSources pieces))) st := by
  obtain ⟨k, rfl⟩ : ∃ m, k = m + 3 := ⟨k - 3, by omega⟩
  obtain ⟨_, v, rfl, hv⟩ := hp
  have hlen' : ps.length = args.length := by clear hh hd hlit harg hn h1; induction hps with | nil => rfl | cons _ _ ih => simp [ih]
  have hstrs : argStrs st (k + 3) ps = .ok args := by
    clear hh hd hlit harg hn hlen' h1
    induction hps with
    | nil => rfl
    | cons h _ ih => simp [argStrs, h, ih]
  rename_i i0
  have h0 : argStrs st (k + 3) (.mk i0 (.var v) :: ps) = .ok (slotSources pieces :: args) := by
    simp [argStrs, ptrStr_var, varStr_str hv, hstrs]
  have hf := formatSteps_missing harg (c!"Not enough items for format string: " ++ slotSources pieces) [0, 1, 2, 3, 4] (ps := pieces) (by decide) (by decide)
    ⟨hlit, hh⟩ hd ⟨i, by simp; omega, hi, h1⟩
  rw [← format_steps] at hf
  have hlen : 1 ≤ (Ptr.mk i0 (Obj.var v) :: ps).length ∧ (Ptr.mk i0 (Obj.var v) :: ps).length ≤ 6 := by simp; omega
  simp only [callPrim, ret, bFormat, checkOptionalArgs_ok hlen, run_n, M.bind_apply, M.pure_apply, M.rd_apply, h0]
  match args, hn with
  | [], _ => simp [argOr] at hf; simp [hf, throwBase]
  | [a], _ => simp [argOr] at hf; simp [hf, throwBase]
  | [a, b], _ => simp [argOr] at hf; simp [hf, throwBase]
  | [a, b, c], _ => simp [argOr] at hf; simp [hf, throwBase]
  | [a, b, c, d], _ => simp [argOr] at hf; simp [hf, throwBase]
  | [a, b, c, d, e], _ => simp at h1; omega

/-- Example for C13: `(format "{1} {0}" "x")`. -/
example [World] (st : St) : callPrim (run 3) .format [strArg 0 c!"{1} {0}", strArg 2 c!"x"] 0 st =
    .fail (.exn (.base c!"Not enough items for format string: {1} {0}")) st :=
  C13_format_missing (pieces := [.hole 1, .lit c!" ", .hole 0]) (args := [c!"x"]) (i := 1) (Nat.le_refl 3) 0 st (strArg_holds 0 c!"{1} {0}") (by decide) (.cons rfl .nil)
    (by simp [SlotOk, BraceFree]) (by simp [BraceFree]) (by simp [slotNums]) (by simp [slotNums]) (by simp [slotNums]) (by decide) (by decide)

/-- Example for C13: `(format "{1,5}|{0,-3}|" "x" 7)`. -/
example [World] (st : St) : Returns (callPrim (run 3) .format [strArg 0 c!"{1,5}|{0,-3}|", strArg 2 c!"x", intArg 4 7] 0) st
    fun v _ => IsStr v c!"    7|x  |" := by
  obtain ⟨v, st', h, _, h2⟩ := C13_format_width (pieces := [.wide 1 c!"5" 5, .lit c!"|", .wide 0 c!"-3" (-3), .lit c!"|"]) (args := [c!"x", c!"7"])
    (ps := [strArg 2 c!"x", intArg 4 7]) (Nat.le_refl 3) 0 st (strArg_holds 0 c!"{1,5}|{0,-3}|") (by decide) (.cons rfl (.cons rfl .nil))
    (by
      intro s hs
      simp only [List.mem_cons, List.not_mem_nil, or_false] at hs
      rcases hs with rfl | rfl | rfl | rfl
      · exact ⟨⟨c!"5", by simp, by simp [Digit], .inl ⟨rfl, by decide⟩⟩, by decide, by decide⟩
      · simp [SlotOk, BraceFree]
      · exact ⟨⟨c!"3", by simp, by simp [Digit], .inr (.inr ⟨rfl, by decide⟩)⟩, by decide, by decide⟩
      · simp [SlotOk, BraceFree])
    (by simp [BraceFree]) (by simp [slotNums]) (by simp [slotNums])
  exact ⟨v, st', h, h2⟩

/-- C13, negative part: a width that is no number raises a native exception instead of a message of the interpreter. -/
theorem C13_format_width_wrong (a : Str) : format c!"{0,x}" a = .error (.exn .invalidArgument) := by
  have h1 : findSub c!"{0}" c!"{0,x}" = none := by decide
  have h2 : findSub c!"{0," c!"{0,x}" = some 0 := by decide
  have h3 : findFrom c!"{0,x}" c!"}" 1 = some 4 := by decide
  simp [format, formatArg, replaceIn, h1, replaceInWithFill, h2, h3, substr, stoi, cStr, strtol]
  rfl

end Fuel
