import Verif.SpecCli
import Verif.PropsDbg
/-!
# The command line (C53)
-/

set_option linter.unusedSectionVars false
set_option linter.unusedSimpArgs false

namespace Fuel

open Spec

section
variable [World]

/-- C53: an option is found wherever it stands, and exactly this argument is removed. -/
theorem C53_option_found (a b : List Str) (opt : Str) (h : opt ∉ a) : takeOption (a ++ opt :: b) opt = (a ++ b, true) := by
  simp [takeOption, List.erase_append_right _ h]

/-- C53: without the option nothing is removed. -/
theorem C53_option_missing (args : List Str) (opt : Str) (h : opt ∉ args) : takeOption args opt = (args, false) := by
  simp [takeOption, List.erase_of_not_mem h, h]

theorem startsWith_dash (a : Str) : startsWith a c!"-" = decide (IsOption a) := by
  cases a with
  | nil => decide
  | cons c t => simp [startsWith, IsOption]; rfl

/-- C53: the script files are the arguments that do not start with a minus sign, in their order. -/
theorem C53_files (args : List Str) : scriptFiles args = files args := by
  simp [scriptFiles, files, startsWith_dash]

/-- All the elements removed, each one once. -/
def eraseAll (args l : List Str) : List Str := l.foldl List.erase args

theorem eraseAll_count (args l : List Str) (a : Str) : (eraseAll args l).count a = args.count a - l.count a := by
  induction l generalizing args with
  | nil => simp [eraseAll]
  | cons x t ih =>
    show (eraseAll (args.erase x) t).count a = _
    rw [ih, List.count_erase, List.count_cons]
    split <;> omega

theorem eraseAll_sublist (args l : List Str) : (eraseAll args l).Sublist args := by
  induction l generalizing args with
  | nil => exact List.Sublist.refl _
  | cons x t ih => exact (ih (args.erase x)).trans List.erase_sublist

theorem eraseAll_append (args l m : List Str) : eraseAll args (l ++ m) = eraseAll (eraseAll args l) m := by
  simp [eraseAll]

theorem mem_erase_of {args : List Str} {a b : Str} (h : a ≠ b) : (args.erase b).contains a = args.contains a := by
  simp [List.mem_erase_of_ne h]

theorem script_of (args : List Str) (he : c!"-e" ∈ args → files args ≠ []) :
    (if args.contains c!"-e" then (match files args with | s :: _ => .ok s | [] => R.ub .index : R Str)
      else .ok (if args.contains c!"--html" then c!"(htmldoc)" else if args.contains c!"--doc" then c!"(doc)" else [])) =
      .ok (scriptText args) := by
  unfold scriptText
  by_cases h : c!"-e" ∈ args
  · have h' := he h
    cases hf : files args with
    | nil => exact absurd hf h'
    | cons x t => simp [h]
  · simp [h]

theorem startsWith_iff (a b : Str) : startsWith a b = true ↔ b <+: a := by
  simp only [startsWith, beq_iff_eq]
  constructor
  · intro h; rw [← h]; exact List.take_prefix _ _
  · rintro ⟨t, rfl⟩; simp

theorem libArgs_none {args : List Str} (h : NoLib args) : libArgs args = [] := by
  unfold libArgs
  induction args with
  | nil => rfl
  | cons x t ih =>
    have := h x (List.mem_cons_self ..)
    rw [← startsWith_iff, Bool.not_eq_true] at this
    rw [List.dropWhile_cons, this]
    exact ih fun a ha => h a (List.mem_cons_of_mem _ ha)

theorem libArgs_last {a : List Str} {p : Str} (h : NoLib a) : libArgs (a ++ [c!"-l=" ++ p]) = [c!"-l=" ++ p] := by
  have h0 := libArgs_none h
  unfold libArgs at *
  rw [List.dropWhile_append, h0]
  have : startsWith (c!"-l=" ++ p) c!"-l=" = true := (startsWith_iff _ _).2 ⟨p, rfl⟩
  rw [List.dropWhile_cons, this]; rfl

/-- The options in the order in which they are removed. -/
def removed (hasDebugger : Bool) (lib : List Str) (args : List Str) : List Str :=
  [c!"-m", c!"--doc", c!"--html", c!"--macro-expand", c!"-x", c!"-t", c!"-e"] ++ lib ++
    (if hasDebugger then [c!"-i", c!"-d"] else []) ++ files args

theorem decide_rest (hasDebugger : Bool) (args : List Str) (hne : args ≠ []) (hv : c!"-v" ∉ args) (hh : c!"-h" ∉ args)
    (lib : Option Str) (hl : LibLast args lib) (he : c!"-e" ∈ args → files args ≠ []) :
    decideArgs hasDebugger args =
      if (eraseAll args (removed hasDebugger (libArgs args) args)).isEmpty then .ok (.run (plan hasDebugger args lib))
      else .ok (.unknown (eraseAll args (removed hasDebugger (libArgs args) args))) := by
  have h0 : args.isEmpty = false := by simpa using hne
  have e1 : (args.erase c!"-m").erase c!"-v" = args.erase c!"-m" := List.erase_of_not_mem fun h => hv (List.mem_of_mem_erase h)
  have e2 : (args.erase c!"-m").erase c!"-h" = args.erase c!"-m" := List.erase_of_not_mem fun h => hh (List.mem_of_mem_erase h)
  have c1 : (args.erase c!"-m").contains c!"-v" = false := by simpa using hv
  have c2 : (args.erase c!"-m").contains c!"-h" = false := by simpa using hh
  have hs := script_of args he
  have hc : ∀ {a b : Str} {l : List Str}, a ≠ b → (l.erase b).contains a = l.contains a := fun h => mem_erase_of h
  have hp : ∀ b, plan b args lib = ⟨args.contains c!"-m", args.contains c!"-t" || args.contains c!"--doc" || args.contains c!"--html",
      args.contains c!"--macro-expand", args.contains c!"-x", b && args.contains c!"-i", b && args.contains c!"-d",
      !(args.contains c!"--doc" || args.contains c!"--html" || args.contains c!"-e"), scriptText args, files args, lib⟩ := by
    intro b; simp [plan, Bool.or_assoc]
  generalize hscr : scriptText args = script at hs hp
  have hll : (libArgs args = [] ∧ lib = none) ∨ (∃ p, libArgs args = [c!"-l=" ++ p] ∧ lib = some p) := by
    cases hl with
    | none h => exact .inl ⟨libArgs_none h, rfl⟩
    | @last a p e h => subst e; exact .inr ⟨p, libArgs_last h, rfl⟩
  have hd : ∀ p : Str, (c!"-l=" ++ p).drop 3 = p := fun p => rfl
  rw [hp]
  have hni : ∀ p : Str, c!"-i" ≠ c!"-l=" ++ p := fun p h => by cases h
  have hnd : ∀ p : Str, c!"-d" ≠ c!"-l=" ++ p := fun p h => by cases h
  rcases hll with ⟨hl', rfl⟩ | ⟨p, hl', rfl⟩ <;> cases hasDebugger <;>
    simp (decide := true) only [decideArgs, h0, takeOption, e1, e2, c1, c2, hl', Bool.false_eq_true, if_true, if_false, C53_files, hd,
      hc, hc (hni _), hc (hnd _), ne_eq, not_false_eq_true, bind_ok_R] <;>
    · by_cases hee : args.contains c!"-e" = true
      · simp only [hee, if_true] at hs ⊢
        cases hf : files args with
        | nil => rw [hf] at hs; cases hs
        | cons x t => rw [hf] at hs; cases hs; simp only [removed, hf]; rfl
      · simp only [hee, Bool.false_eq_true, if_false] at hs ⊢
        cases hs; rfl

theorem files_count (args : List Str) (a : Str) : (files args).count a = if IsOption a then 0 else args.count a := by
  unfold files
  by_cases h : IsOption a
  · rw [if_pos h, List.count_eq_zero]
    intro hm
    simp [h] at hm
  · rw [if_neg h, List.count_filter]
    simpa using h

theorem removed_count (hasDebugger : Bool) (args : List Str) (lib : Option Str) (hl : LibLast args lib) (a : Str) :
    (removed hasDebugger (libArgs args) args).count a = (known hasDebugger lib a) + (files args).count a := by
  have hll : (libArgs args = [] ∧ lib = none) ∨ (∃ p, libArgs args = [c!"-l=" ++ p] ∧ lib = some p) := by
    cases hl with
    | none h => exact .inl ⟨libArgs_none h, rfl⟩
    | @last a p e h => subst e; exact .inr ⟨p, libArgs_last h, rfl⟩
  have hf : (flags hasDebugger).count a = if a ∈ flags hasDebugger then 1 else 0 := by
    have : (flags hasDebugger).Nodup := by cases hasDebugger <;> decide
    exact this.count
  have hr : (removed hasDebugger (libArgs args) args).count a =
      (flags hasDebugger).count a + (libArgs args).count a + (files args).count a := by
    simp only [removed, flags, List.count_append]; omega
  rw [hr, hf]
  rcases hll with ⟨hl', rfl⟩ | ⟨p, hl', rfl⟩
  · simp [hl', known]
  · simp only [hl', known, List.count_cons, List.count_nil, beq_iff_eq, Nat.zero_add, eq_comm (a := a)]

theorem rest_unknown (hasDebugger : Bool) (args : List Str) (lib : Option Str) (hl : LibLast args lib) :
    Unknown hasDebugger lib args (eraseAll args (removed hasDebugger (libArgs args) args)) := by
  refine ⟨eraseAll_sublist _ _, fun a => ?_⟩
  rw [eraseAll_count, removed_count _ _ _ hl, files_count]
  split <;> omega

/-- C53: if every option is known and given once, the program runs with the settings asked for. -/
theorem C53_plan (hasDebugger : Bool) (args : List Str) (hne : args ≠ []) (hv : c!"-v" ∉ args) (hh : c!"-h" ∉ args)
    (lib : Option Str) (hl : LibLast args lib) (he : c!"-e" ∈ args → files args ≠ [])
    (hk : ∀ a, IsOption a → args.count a ≤ known hasDebugger lib a) :
    decideArgs hasDebugger args = .ok (.run (plan hasDebugger args lib)) := by
  rw [decide_rest hasDebugger args hne hv hh lib hl he]
  have hu := rest_unknown hasDebugger args lib hl
  generalize eraseAll args _ = rest at *
  rw [if_pos]
  rw [List.isEmpty_iff]
  cases rest with
  | nil => rfl
  | cons a t =>
    have hc := hu.count a
    rw [List.count_cons_self] at hc
    by_cases ho : IsOption a
    · have := hk a ho
      rw [if_pos ho] at hc
      omega
    · rw [if_neg ho] at hc; omega

/-- C53: options that are unknown or given twice are reported, all of them, and nothing runs. -/
theorem C53_unknown (hasDebugger : Bool) (args : List Str) (hv : c!"-v" ∉ args) (hh : c!"-h" ∉ args)
    (lib : Option Str) (hl : LibLast args lib) (he : c!"-e" ∈ args → files args ≠ [])
    (hk : ∃ a, IsOption a ∧ known hasDebugger lib a < args.count a) :
    ∃ rest, rest ≠ [] ∧ Unknown hasDebugger lib args rest ∧ decideArgs hasDebugger args = .ok (.unknown rest) := by
  obtain ⟨a, ho, hlt⟩ := hk
  have hne : args ≠ [] := by rintro rfl; simp at hlt
  have hu := rest_unknown hasDebugger args lib hl
  have hr := decide_rest hasDebugger args hne hv hh lib hl he
  generalize eraseAll args _ = rest at *
  have hn : rest ≠ [] := by
    rintro rfl
    have := hu.count a
    rw [if_pos ho] at this
    simp at this
    omega
  refine ⟨rest, hn, hu, ?_⟩
  rw [hr, if_neg]
  simpa using hn

/-- C53: with such options the program only writes the error message. -/
theorem C53_unknown_output (k : Nat) (stack : Str) (hasDebugger : Bool) (args : List Str) (hv : c!"-v" ∉ args) (hh : c!"-h" ∉ args)
    (lib : Option Str) (hl : LibLast args lib) (he : c!"-e" ∈ args → files args ≠ [])
    (hk : ∃ a, IsOption a ∧ known hasDebugger lib a < args.count a) (st : St) :
    ∃ rest, rest ≠ [] ∧ Unknown hasDebugger lib args rest ∧
      mainExtended k stack hasDebugger args st =
        .ok () { st with out := st.out ++ (c!"Error: unknown option(s) " ++ (rest.map fun o => o ++ c!" ").flatten ++ c!"\n") } := by
  obtain ⟨rest, h1, h2, h3⟩ := C53_unknown hasDebugger args hv hh lib hl he hk
  refine ⟨rest, h1, h2, ?_⟩
  simp only [mainExtended, h3, M.bind_apply, M.lift]
  rfl

/-- C53: `-v` shows the version, whatever else is given. -/
theorem C53_version (hasDebugger : Bool) (args : List Str) (hv : c!"-v" ∈ args) : decideArgs hasDebugger args = .ok .version := by
  have h0 : args.isEmpty = false := by cases args <;> simp_all
  have c1 : (args.erase c!"-m").contains c!"-v" = true := by rw [mem_erase_of (by decide)]; simpa using hv
  simp only [decideArgs, h0, takeOption, c1, if_true, Bool.false_eq_true, if_false]

/-- C53: `-h` shows the help, if `-v` is not given; so does a call without arguments. -/
theorem C53_help (hasDebugger : Bool) (args : List Str) (hv : c!"-v" ∉ args) (hh : c!"-h" ∈ args ∨ args = []) :
    decideArgs hasDebugger args = .ok .usage := by
  rcases hh with hh | rfl
  · have h0 : args.isEmpty = false := by cases args <;> simp_all
    have e1 : (args.erase c!"-m").erase c!"-v" = args.erase c!"-m" := List.erase_of_not_mem fun h => hv (List.mem_of_mem_erase h)
    have c1 : (args.erase c!"-m").contains c!"-v" = false := by simpa using hv
    have c2 : (args.erase c!"-m").contains c!"-h" = true := by rw [mem_erase_of (by decide)]; simpa using hh
    simp only [decideArgs, h0, takeOption, e1, c1, c2, if_true, Bool.false_eq_true, if_false]
  · rfl

/-- The negation of C53 for the library path: it is refused if another argument follows, although only one is given. -/
theorem C53_lib_wrong (p : Str) (f : Str) (hv : f ≠ c!"-v") (hh : f ≠ c!"-h") (he : f ≠ c!"-e") :
    decideArgs true [c!"-l=" ++ p, f] = .ok .libError := by
  have hl : libArgs [c!"-l=" ++ p, f] = [c!"-l=" ++ p, f] := by
    have : startsWith (c!"-l=" ++ p) c!"-l=" = true := (startsWith_iff _ _).2 ⟨p, rfl⟩
    unfold libArgs; rw [List.dropWhile_cons, this]; rfl
  have hn : ∀ {o : Str}, o ≠ c!"-l=" ++ p → f ≠ o → [c!"-l=" ++ p, f].contains o = false := by
    intro o h1 h2; simp only [List.contains_cons, List.contains_nil, beq_eq_false_iff_ne.2 h1, beq_eq_false_iff_ne.2 (Ne.symm h2), Bool.or_self]
  have hc : ∀ {a b : Str} {l : List Str}, a ≠ b → (l.erase b).contains a = l.contains a := fun h => mem_erase_of h
  have c1 := hn (o := c!"-v") (by intro h; cases h) hv
  have c2 := hn (o := c!"-h") (by intro h; cases h) hh
  have c3 := hn (o := c!"-e") (by intro h; cases h) he
  simp (decide := true) only [decideArgs, takeOption, hc, hl, c1, c2, c3, ne_eq, not_false_eq_true, List.isEmpty_cons, Bool.false_eq_true, if_false,
    bind_ok_R]

/-- `-e` without a script is undefined behaviour. -/
theorem C53_no_script_wrong : decideArgs true [c!"-e"] = .error (.ub .index) := by decide

/-- With `-e` the first argument that is no option is the script, also if it stands before `-e`. -/
theorem C53_script_position_wrong :
    decideArgs true [c!"a.fuel", c!"-e", c!"(print 1)"] =
      .ok (.run ⟨false, false, false, false, false, false, false, c!"a.fuel", [c!"a.fuel", c!"(print 1)"], none⟩) := by decide

/-- A command line with options before and after the script files. -/
example : decideArgs true [c!"a.fuel", c!"-m", c!"b.fuel", c!"-x", c!"-l=lib"] =
    .ok (.run ⟨true, false, false, true, false, false, true, [], [c!"a.fuel", c!"b.fuel"], some c!"lib"⟩) := by
  have h := C53_plan true [c!"a.fuel", c!"-m", c!"b.fuel", c!"-x", c!"-l=lib"] (by decide) (by decide) (by decide) (some c!"lib")
    (.last (a := [c!"a.fuel", c!"-m", c!"b.fuel", c!"-x"]) rfl (by unfold NoLib; decide)) (by decide) (by
      intro a ha
      by_cases hm : a ∈ [c!"a.fuel", c!"-m", c!"b.fuel", c!"-x", c!"-l=lib"]
      · revert ha; revert a; decide
      · rw [List.count_eq_zero.2 hm]; exact Nat.zero_le _)
  rw [h]; decide

/-- An unknown option and an option given twice. -/
example : ∃ rest, rest ≠ [] ∧ Unknown true none [c!"-z", c!"a.fuel", c!"-m", c!"-m"] rest ∧
    decideArgs true [c!"-z", c!"a.fuel", c!"-m", c!"-m"] = .ok (.unknown rest) :=
  C53_unknown true _ (by decide) (by decide) none (.none (by unfold NoLib; decide)) (by decide) ⟨c!"-z", by decide, by decide⟩

example : decideArgs true [c!"-z", c!"a.fuel", c!"-m", c!"-m"] = .ok (.unknown [c!"-z", c!"-m"]) := by decide

end

end Fuel
