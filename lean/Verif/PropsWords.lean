import Verif.PropsProg
/-!
# C84: programs with dictionaries
-/

set_option linter.unusedSectionVars false
set_option linter.unusedSimpArgs false

namespace Fuel

open Spec Spec.Core

namespace Spec.Core

/-- `(dict-set d w (if (dict-contains-key d w) (+ (dict-get d w) 1) 1))`. -/
def tallyBody : Sexp :=
  .list [.sym c!"dict-set", .sym c!"d", .sym c!"w",
    .list [.sym c!"if", .list [.sym c!"dict-contains-key", .sym c!"d", .sym c!"w"],
      .list [.sym c!"+", .list [.sym c!"dict-get", .sym c!"d", .sym c!"w"], .int 1],
      .int 1]]

/-- The program that counts words:
`(def d (make-dict)) (defn tally (w) ...) (map tally (list "..." ...)) (println (dict-get d "...")) (println (len d))`. -/
def wordsProgram (ws : List Str) (w : Str) : List Sexp :=
  [.list [.sym c!"def", .sym c!"d", .list [.sym c!"make-dict"]],
   .list [.sym c!"defn", .sym c!"tally", .list [.sym c!"w"], tallyBody],
   .list [.sym c!"map", .sym c!"tally", .list (.sym c!"list" :: ws.map .str)],
   .list [.sym c!"println", .list [.sym c!"dict-get", .sym c!"d", .str w]],
   .list [.sym c!"println", .list [.sym c!"len", .sym c!"d"]]]

/-- `(def d (make-dict)) (defn put (x v) (dict-set x "..." v)) (def e d) (put e ...) (println (dict-get d "..."))`. -/
def sharedProgram (k : Str) (i : Int) : List Sexp :=
  [.list [.sym c!"def", .sym c!"d", .list [.sym c!"make-dict"]],
   .list [.sym c!"defn", .sym c!"put", .list [.sym c!"x", .sym c!"v"], .list [.sym c!"dict-set", .sym c!"x", .str k, .sym c!"v"]],
   .list [.sym c!"def", .sym c!"e", .sym c!"d"],
   .list [.sym c!"put", .sym c!"e", .int i],
   .list [.sym c!"println", .list [.sym c!"dict-get", .sym c!"d", .str k]]]

end Spec.Core

section
variable [World]

/-! ## The entries of a dictionary -/

/-- The entries are in the order of the keys. -/
def Sorted (d : List (Key × Val)) : Prop := d.Pairwise fun a b => a.1.Lt b.1

/-- C84: for every key of the kind of the keys of a dictionary there is exactly one answer. -/
theorem C84_located {d : List (Key × Val)} (hd : Sorted d) {k : Key} (hk : ∀ e ∈ d, e.1.kind = k.kind) : ∃ a hit b, Located k d a hit b := by
  induction d with
  | nil => exact ⟨[], none, [], rfl, by simp, by simp⟩
  | cons e d ih =>
    obtain ⟨h1, h2⟩ := List.pairwise_cons.1 hd
    obtain ⟨j, v⟩ := e
    rcases key_total (hk (j, v) (by simp)) with h | h | h
    · obtain ⟨a, hit, b, h3⟩ := ih h2 fun e he => hk e (by simp [he])
      refine ⟨(j, v) :: a, hit, b, by rw [h3.all]; simp, fun e he => ?_, h3.greater⟩
      rcases List.mem_cons.1 he with rfl | he
      · exact h
      · exact h3.less e he
    · simp only at h
      subst h
      exact ⟨[], some v, d, rfl, by simp, fun e he => h1 e he⟩
    · refine ⟨[], none, (j, v) :: d, rfl, by simp, fun e he => ?_⟩
      rcases List.mem_cons.1 he with rfl | he
      · exact h
      · exact key_trans h (h1 e he)

/-- C84: what is found is the value of the key. -/
theorem C84_hit {d a b : List (Key × Val)} {k : Key} {hit : Option Val} (h : Located k d a hit b) (v : Val) : hit = some v ↔ (k, v) ∈ d := by
  constructor
  · rintro rfl
    rw [h.all]; simp
  · intro hm
    rw [h.all] at hm
    simp only [List.mem_append, Option.mem_toList, Option.map_eq_some_iff] at hm
    rcases hm with (hm | ⟨u, hu, he⟩) | hm
    · exact absurd (h.less _ hm) (key_irrefl _)
    · cases he; exact hu
    · exact absurd (h.greater _ hm) (key_irrefl _)

/-- C84: after `dict-set` the key has the new value and all other keys have the values they had. -/
theorem C84_set {d a b : List (Key × Val)} {k : Key} {hit : Option Val} (h : Located k d a hit b) (w : Val) (j : Key) (v : Val) :
    (j, v) ∈ a ++ (k, w) :: b ↔ if j = k then v = w else (j, v) ∈ d := by
  have hless : ∀ e ∈ a, e.1 ≠ k := fun e he h' => key_irrefl _ (h' ▸ h.less e he)
  have hgreater : ∀ e ∈ b, e.1 ≠ k := fun e he h' => key_irrefl _ (h' ▸ h.greater e he)
  have hd := h.all
  by_cases hj : j = k
  · subst hj
    simp only [List.mem_append, List.mem_cons, if_true, Prod.mk.injEq, true_and]
    constructor
    · rintro (h | h | h)
      · exact absurd rfl (hless _ h)
      · exact h
      · exact absurd rfl (hgreater _ h)
    · rintro rfl; exact .inr (.inl rfl)
  · simp only [hd, List.mem_append, List.mem_cons, if_neg hj, Prod.mk.injEq, hj, false_and, false_or, Option.mem_toList, Option.map_eq_some_iff]
    constructor
    · rintro (h | h)
      · exact .inl (.inl h)
      · exact .inr h
    · rintro ((h | ⟨u, _, he⟩) | h)
      · exact .inl h
      · exact absurd he.1.symm hj
      · exact .inr h

/-- C84: after `dict-remove` the key is gone and all other keys have the values they had. -/
theorem C84_remove {d a b : List (Key × Val)} {k : Key} {hit : Option Val} (h : Located k d a hit b) (j : Key) (v : Val) :
    (j, v) ∈ a ++ b ↔ j ≠ k ∧ (j, v) ∈ d := by
  have hless : ∀ e ∈ a, e.1 ≠ k := fun e he h' => key_irrefl _ (h' ▸ h.less e he)
  have hgreater : ∀ e ∈ b, e.1 ≠ k := fun e he h' => key_irrefl _ (h' ▸ h.greater e he)
  have hd := h.all
  simp only [hd, List.mem_append, Option.mem_toList, Option.map_eq_some_iff]
  constructor
  · rintro (h | h)
    · exact ⟨hless _ h, .inl (.inl h)⟩
    · exact ⟨hgreater _ h, .inr h⟩
  · rintro ⟨hj, (h | ⟨u, _, he⟩) | h⟩
    · exact .inl h
    · cases he; exact absurd rfl hj
    · exact .inr h

/-! ## Counting words -/

/-- The words that are counted are those of `ws`. -/
structure Tally (ws : List Str) (d : List (Key × Val)) : Prop where
  order : Sorted d
  keys : ∀ e ∈ d, e.1.kind = .str
  entries : ∀ w v, (Key.str w, v) ∈ d ↔ w ∈ ws ∧ v = .int (ws.count w : Nat)

theorem tally_nil : Tally [] [] := ⟨.nil, by simp, by simp⟩

theorem tally_next {ws : List Str} {d : List (Key × Val)} (h : Tally ws d) (w : Str) : ∃ a b, Located (.str w) d a (if w ∈ ws then some (.int (ws.count w : Nat)) else none) b ∧
    Tally (ws ++ [w]) (a ++ (.str w, .int (ws.count w + 1 : Nat)) :: b) := by
  obtain ⟨a, hit, b, h1⟩ := C84_located h.order (k := .str w) fun e he => h.keys e he
  have hhit : hit = if w ∈ ws then some (.int (ws.count w : Nat)) else none := by
    split
    · rename_i hw
      exact (C84_hit h1 _).2 ((h.entries _ _).2 ⟨hw, rfl⟩)
    · rename_i hw
      cases hit with
      | none => rfl
      | some v => exact absurd ((h.entries _ _).1 ((C84_hit h1 v).1 rfl)).1 hw
  rw [← hhit]
  refine ⟨a, b, h1, located_order_set h1 h.order _, fun e he => ?_, fun x v => ?_⟩
  · rcases List.mem_append.1 he with he | he
    · exact h.keys e (by rw [h1.all]; simp [he])
    · rcases List.mem_cons.1 he with rfl | he
      · rfl
      · exact h.keys e (by rw [h1.all]; simp [he])
  · rw [C84_set h1]
    by_cases hx : x = w
    · subst hx
      simp
    · have : ¬ (Key.str x = Key.str w) := fun e => hx (by cases e; rfl)
      rw [if_neg this, h.entries]
      simp [hx, List.count_append, List.count_cons, Ne.symm hx]

/-- The number of entries is the number of different words. -/
theorem tally_length {ws : List Str} {d : List (Key × Val)} (h : Tally ws d) : ∃ us : List Str, us.Nodup ∧ (∀ w, w ∈ us ↔ w ∈ ws) ∧ us.length = d.length := by
  refine ⟨d.map fun e => match e.1 with | .str s => s | .int _ => [], ?_, fun w => ?_, by simp⟩
  · have h1 := h.order
    have h2 := h.keys
    unfold List.Nodup
    rw [List.pairwise_map]
    refine List.Pairwise.imp_of_mem (fun {a b} ha hb hab he => ?_) h1
    obtain ⟨ka, va⟩ := a
    obtain ⟨kb, vb⟩ := b
    have g1 := h2 _ ha
    have g2 := h2 _ hb
    cases ka <;> cases kb <;> simp only [Key.kind, reduceCtorEq] at g1 g2
    simp only at he
    subst he
    exact key_irrefl _ hab
  · rw [List.mem_map]
    constructor
    · rintro ⟨⟨k, v⟩, he, hk⟩
      have := h.keys _ he
      cases k with
      | int => simp [Key.kind] at this
      | str s => simp only at hk; subst hk; exact ((h.entries _ _).1 he).1
    · intro hw
      exact ⟨(.str w, _), (h.entries _ _).2 ⟨hw, rfl⟩, rfl⟩

/-- The state of the program while words are counted. -/
structure WordsAt (R : Conf) (ws : List Str) : Prop where
  count : 0 < R.count
  names : ∀ n ∈ [c!"if", c!"+", c!"dict-set", c!"dict-get", c!"dict-contains-key", c!"println", c!"len", c!"map", c!"list"], (R.frames 0).vars n = some (.prim n)
  d : (R.frames 0).vars c!"d" = some (.dict 0)
  tally : (R.frames 0).vars c!"tally" = some (.clo [c!"w"] tallyBody 0)
  macros : R.macros = Conf.start.macros
  ret : (R.frames 0).ret = false
  out : R.out = []
  dict : ∃ e, R.dicts = [e] ∧ Tally ws e

theorem words_step {R : Conf} {ws : List Str} (h : WordsAt R ws) {w : Str} (hw : NoZero w) (hc : IsInt32 (ws.count w + 1 : Nat)) (f : Nat) :
    ∃ v R', Apply f (.clo [c!"w"] tallyBody 0) [.str w] R v R' ∧ WordsAt R' (ws ++ [w]) := by
  obtain ⟨e, he, ht⟩ := h.dict
  obtain ⟨a, b, hl, ht'⟩ := tally_next ht w
  have h0 : (0 : Nat) ≠ R.count := Nat.ne_of_lt h.count
  let S := R.enter [c!"w"] [.str w] 0
  have hS0 : S.frames 0 = R.frames 0 := by simp only [S, Conf.enter, Conf.withFrame, if_neg h0]
  have hSd : S.dicts = [e] := he
  have hSd0 : S.dicts[0]? = some e := by rw [hSd]; rfl
  have vw : Value S R.count c!"w" (.str w) := .locally (by decide) (by simp [S, Conf.enter, Conf.withFrame, paramVal])
  have vg : ∀ n v, n ∉ hidden → n ≠ c!"w" → (R.frames 0).vars n = some v → Value S R.count n v := fun n v hn hne hv =>
    .globally hn (by simp [S, Conf.enter, Conf.withFrame, paramVal, hne]) (by rw [hS0]; exact hv)
  have hd : Value S R.count c!"d" (.dict 0) := vg _ _ (by decide) (by decide) h.d
  have hh : ∀ n ∈ [c!"if", c!"+", c!"dict-set", c!"dict-get", c!"dict-contains-key"], Head S R.count n (.prim n) := fun n hn =>
    ⟨congrFun h.macros _, vg _ _ (by revert n; decide) (by revert n; decide) (h.names n (by
      simp only [List.mem_cons, List.not_mem_nil, or_false] at hn ⊢
      rcases hn with h | h | h | h | h <;> simp [h]))⟩
  have hif : Exec R.count (.list [.sym c!"if", .list [.sym c!"dict-contains-key", .sym c!"d", .sym c!"w"],
      .list [.sym c!"+", .list [.sym c!"dict-get", .sym c!"d", .sym c!"w"], .int 1], .int 1]) S (.int (ws.count w + 1 : Nat)) S := by
    have hcond : Exec R.count (.list [.sym c!"dict-contains-key", .sym c!"d", .sym c!"w"]) S (.bool (decide (w ∈ ws))) S := by
      have := Apply.asks (f := R.count) (R := S) (.has hSd0 (.str hw) hl)
      have hb : (if w ∈ ws then some (Val.int (ws.count w : Nat)) else none).isSome = decide (w ∈ ws) := by by_cases h : w ∈ ws <;> simp [h]
      rw [hb] at this
      exact .call .list (hh _ (by decide)) (.name hd (.name vw .nil)) this
    refine .if_ (t := decide (w ∈ ws)) .list (hh _ (by decide)) hcond ?_
    by_cases hm : w ∈ ws
    · rw [decide_eq_true hm, if_pos rfl]
      have hg : Exec R.count (.list [.sym c!"dict-get", .sym c!"d", .sym c!"w"]) S (.int (ws.count w : Nat)) S := by
        have := Apply.asks (f := R.count) (R := S) (.get hSd0 (.str hw) hl)
        rw [if_pos hm] at this
        exact .call .list (hh _ (by decide)) (.name hd (.name vw .nil)) this
      have hv : ((ws.count w : Nat) : Int) + 1 = (ws.count w + 1 : Nat) := by omega
      refine .call .list (hh _ (by decide)) (.other (by simp) hg (.other (by simp) .int .nil)) (.fn (.add (l := [1]) (by simp) (.cons ?_ ?_)))
      · rw [hv]; exact hc
      · rw [hv]; exact .nil
    · rw [decide_eq_false hm, if_neg (by simp)]
      have : ws.count w = 0 := List.count_eq_zero.2 hm
      rw [this]
      exact .int
  have hset : Exec R.count tallyBody S (.int (ws.count w + 1 : Nat)) { S with dicts := S.dicts.set 0 (a ++ (.str w, .int (ws.count w + 1 : Nat)) :: b) } :=
    .call .list (hh _ (by decide)) (.name hd (.name vw (.other (by simp) hif .nil))) (.changes (.set hSd0 (.str hw) .int hl))
  refine ⟨_, _, .clo (by decide) (by decide) hset, Nat.succ_pos _, ?_, ?_, ?_, h.macros, ?_, h.out, _, ?_, ht'⟩
  · show ∀ n ∈ _, (S.frames 0).vars n = _
    rw [hS0]; exact h.names
  · show (S.frames 0).vars _ = _
    rw [hS0]; exact h.d
  · show (S.frames 0).vars _ = _
    rw [hS0]; exact h.tally
  · show (S.frames 0).ret = _
    rw [hS0]; exact h.ret
  · rw [hSd]; rfl

theorem words_all {f : Nat} : ∀ (todo : List Str) {R : Conf} {ws : List Str}, WordsAt R ws → (∀ w ∈ todo, NoZero w) → (∀ w, IsInt32 ((ws ++ todo).count w : Nat)) →
    ∃ vs R', Calls1 f (.clo [c!"w"] tallyBody 0) (todo.map .str) R vs R' ∧ WordsAt R' (ws ++ todo)
  | [], R, ws, h, _, _ => ⟨_, _, .nil, by simpa using h⟩
  | w :: todo, R, ws, h, hz, hc => by
    have h1 := hc w
    obtain ⟨v, R1, h2, h3⟩ := words_step h (hz w (by simp)) (by
      simp only [List.count_append, List.count_cons_self] at h1
      unfold IsInt32 at *
      omega) f
    obtain ⟨vs, R2, h4, h5⟩ := words_all todo h3 (fun x hx => hz x (by simp [hx])) (by simpa using hc)
    exact ⟨_, _, .cons trivial h2 h4, by simpa using h5⟩

theorem operands_str {f : Nat} {R0 R : Conf} : ∀ ws : List Str, Operands f R0 (ws.map .str) R (ws.map .str) R
  | [] => .nil
  | _ :: t => .other (by simp) .str (operands_str t)

theorem nodup_length {α : Type} [DecidableEq α] : ∀ {us ws : List α}, us.Nodup → (∀ x ∈ us, x ∈ ws) → us.length ≤ ws.length
  | [], _, _, _ => Nat.zero_le _
  | u :: us, ws, hn, h => by
    obtain ⟨h1, h2⟩ := List.nodup_cons.1 hn
    have h3 : u ∈ ws := h u (by simp)
    have h4 := nodup_length (ws := ws.erase u) h2 fun x hx => by
      have hne : x ≠ u := by rintro rfl; exact h1 hx
      exact (List.mem_erase_of_ne hne).2 (h x (by simp [hx]))
    rw [List.length_erase_of_mem h3] at h4
    have := List.length_pos_of_mem h3
    simp only [List.length_cons]
    omega

theorem wfs_str : ∀ ws : List Str, Sexp.WFs (ws.map .str)
  | [] => trivial
  | _ :: t => ⟨trivial, wfs_str t⟩

theorem headsAll_str {P : Str → Prop} : ∀ ws : List Str, Sexp.HeadsAll P (ws.map .str)
  | [] => trivial
  | _ :: t => ⟨trivial, headsAll_str t⟩

theorem wordsProgram_wf (ws : List Str) (w : Str) : Sexp.WFs (wordsProgram ws w) := by
  have h1 := wfs_str ws
  simp [wordsProgram, tallyBody, Sexp.WFs, Sexp.WF, h1, SymbolName, Spec.Plain, White, NumberLike, dropSign, Digit, reserved]
  decide

/-- C84: the program that counts words with a dictionary prints for each of the words how often it occurs, and the number of different
words. -/
theorem C84_words {ws : List Str} {w : Str} (hm : w ∈ ws) (hz : ∀ x ∈ ws, NoZero x) (hc : IsInt32 ws.length) {text : Str}
    (hw : Written (wordsProgram ws w) text) {st : St} (hr : Reachable st) (module : Str) :
    ∃ us : List Str, us.Nodup ∧ (∀ x, x ∈ us ↔ x ∈ ws) ∧ ∃ r st', Runs text module st (.ok (some r) st') ∧
      st'.out = st.out ++ (intStr (ws.count w : Nat) ++ c!"\n" ++ (intStr us.length ++ c!"\n")) := by
  let R1 : Conf := { Conf.start with dicts := [[]] }
  let R2 := R1.set 0 c!"d" (.dict 0)
  let R3 := R2.set 0 c!"tally" (.clo [c!"w"] tallyBody 0)
  have e1 : Exec 0 (.list [.sym c!"def", .sym c!"d", .list [.sym c!"make-dict"]]) Conf.start (.dict 0) R2 :=
    .def_ .list (value_start 0 (b := .def_) (s := true) (by decide) (by decide)) (by decide)
      (.call .list (value_start 0 (b := .makeDict) (s := false) (by decide) (by decide)) .nil (.changes .make))
  have hR2 : ∀ n, n ≠ c!"d" → (R2.frames 0).vars n = (Conf.start.frames 0).vars n := fun n hn => by
    simp only [R2, R1, Conf.set, Conf.withFrame, if_pos trivial, if_neg hn]
  have hR3 : ∀ n, n ≠ c!"d" → n ≠ c!"tally" → (R3.frames 0).vars n = (Conf.start.frames 0).vars n := fun n hn ht => by
    rw [← hR2 n hn]
    simp only [R3, Conf.set, Conf.withFrame, if_pos trivial, if_neg ht]
  have e2 : Exec 0 (.list [.sym c!"defn", .sym c!"tally", .list [.sym c!"w"], tallyBody]) R2 (.clo [c!"w"] tallyBody 0) R3 :=
    .defn (ps := [c!"w"]) .list ⟨rfl, .locally (by decide) (by rw [hR2 _ (by decide)]; exact start_vars (b := .defn) (s := true) (by decide))⟩ (by decide)
      (by rw [hR2 _ (by decide)]; exact start_vars (b := .fn) (s := true) (by decide))
      (by rw [hR2 _ (by decide)]; exact start_vars (b := .def_) (s := true) (by decide))
  have hW : WordsAt R3 [] := by
    refine ⟨Nat.one_pos, fun n hn => ?_, ?_, ?_, rfl, rfl, rfl, [], rfl, tally_nil⟩
    · rw [hR3 n (by revert n; decide) (by revert n; decide)]
      simp only [List.mem_cons, List.not_mem_nil, or_false] at hn
      rcases hn with rfl | rfl | rfl | rfl | rfl | rfl | rfl | rfl | rfl
      · exact start_vars (b := .if_) (s := true) (by decide)
      · exact start_vars (b := .add) (s := false) (by decide)
      · exact start_vars (b := .dictSet) (s := false) (by decide)
      · exact start_vars (b := .dictGet) (s := false) (by decide)
      · exact start_vars (b := .dictContainsKey) (s := false) (by decide)
      · exact start_vars (b := .println) (s := false) (by decide)
      · exact start_vars (b := .len) (s := false) (by decide)
      · exact start_vars (b := .map) (s := false) (by decide)
      · exact start_vars (b := .list) (s := false) (by decide)
    · simp [R3, R2, R1, Conf.set, Conf.withFrame]
    · simp [R3, Conf.set, Conf.withFrame]
  have hcount : ∀ x, IsInt32 (ws.count x : Nat) := fun x => by
    have := List.count_le_length (a := x) (l := ws)
    unfold IsInt32 at *
    omega
  obtain ⟨vs, R4, h4, g⟩ := words_all (f := 0) ws hW hz (by simpa using hcount)
  simp only [List.nil_append] at g
  have e3 : Exec 0 (.list [.sym c!"map", .sym c!"tally", .list (.sym c!"list" :: ws.map .str)]) R3 (.list vs) R4 :=
    .call .list ⟨rfl, .locally (by decide) (hW.names _ (by decide))⟩
      (.name (.locally (by decide) hW.tally) (.other (by simp) (.call .list ⟨rfl, .locally (by decide) (hW.names _ (by decide))⟩ (operands_str ws) (.fn .list)) .nil))
      (.map trivial h4)
  obtain ⟨e, he, ht⟩ := g.dict
  have he0 : R4.dicts[0]? = some e := by rw [he]; rfl
  obtain ⟨a, b, hl, -⟩ := tally_next ht w
  rw [if_pos hm] at hl
  obtain ⟨us, hu1, hu2, hu3⟩ := tally_length ht
  have hulen : us.length ≤ ws.length := nodup_length hu1 fun x hx => (hu2 x).1 hx
  have hp1 := Prints.println (ShownAll.cons (Shown.int (i := (ws.count w : Nat))) .nil)
  rw [intStr_shown] at hp1
  have e4 : Exec 0 (.list [.sym c!"println", .list [.sym c!"dict-get", .sym c!"d", .str w]]) R4 (.str (intStr (ws.count w : Nat))) (R4.write (intStr (ws.count w : Nat) ++ c!"\n")) :=
    .call .list ⟨congrFun g.macros _, .locally (by decide) (g.names _ (by decide))⟩
      (.other (by simp) (.call .list ⟨congrFun g.macros _, .locally (by decide) (g.names _ (by decide))⟩
        (.name (.locally (by decide) g.d) (.other (by simp) .str .nil)) (.asks (.get he0 (.str (hz w hm)) hl))) .nil) (.prints hp1)
  have hp2 := Prints.println (ShownAll.cons (Shown.int (i := (e.length : Nat))) .nil)
  rw [intStr_shown] at hp2
  have e5 : Exec 0 (.list [.sym c!"println", .list [.sym c!"len", .sym c!"d"]]) (R4.write (intStr (ws.count w : Nat) ++ c!"\n")) (.str (intStr (e.length : Nat)))
      ((R4.write (intStr (ws.count w : Nat) ++ c!"\n")).write (intStr (e.length : Nat) ++ c!"\n")) :=
    .call .list ⟨congrFun g.macros _, .locally (by decide) (g.names _ (by decide))⟩
      (.other (by simp) (.call .list ⟨congrFun g.macros _, .locally (by decide) (g.names _ (by decide))⟩
        (.name (.locally (by decide) g.d) .nil) (.asks (.len (a := 0) he0 (by unfold IsInt32 at *; omega)))) .nil) (.prints hp2)
  obtain ⟨r, st', μ, g1, g2, g3⟩ := C55_core (xs := wordsProgram ws w) (wordsProgram_wf ws w) hw
    (by simp [wordsProgram, tallyBody, Sexp.Heads, Sexp.HeadsAll, Sexp.text, hidden, headsAll_str]) hr module
    (.next ⟨_, _, .list⟩ e1 rfl (.next ⟨_, _, .list⟩ e2 rfl (.next ⟨_, _, .list⟩ e3 g.ret (.next ⟨_, _, .list⟩ e4 g.ret (.next ⟨_, _, .list⟩ e5 g.ret .done)))))
  refine ⟨us, hu1, hu2, r, st', g1, ?_⟩
  rw [g3, hu3]
  show st.out ++ (R4.out ++ _ ++ _) = _
  rw [g.out]
  simp

theorem sharedProgram_wf (k : Str) {i : Int} (hi : IsInt32 i) : Sexp.WFs (sharedProgram k i) := by
  simp [sharedProgram, Sexp.WFs, Sexp.WF, hi, SymbolName, Spec.Plain, White, NumberLike, dropSign, Digit, reserved]

/-- C84: a dictionary is shared, not copied: what a function stores in its parameter is seen by every other variable with this dictionary. -/
theorem C84_shared {k : Str} (hk : NoZero k) {i : Int} (hi : IsInt32 i) {text : Str} (hw : Written (sharedProgram k i) text) {st : St} (hr : Reachable st) (module : Str) :
    ∃ r st', Runs text module st (.ok (some r) st') ∧ st'.out = st.out ++ (intStr i ++ c!"\n") := by
  let put : Val := .clo [c!"x", c!"v"] (.list [.sym c!"dict-set", .sym c!"x", .str k, .sym c!"v"]) 0
  let R1 : Conf := { Conf.start with dicts := [[]] }
  let R2 := R1.set 0 c!"d" (.dict 0)
  let R3 := R2.set 0 c!"put" put
  let R4 := R3.set 0 c!"e" (.dict 0)
  let S := R4.enter [c!"x", c!"v"] [.dict 0, .int i] 0
  let R5 : Conf := { S with dicts := [[(.str k, .int i)]] }
  have hR2 : ∀ n, n ≠ c!"d" → (R2.frames 0).vars n = (Conf.start.frames 0).vars n := fun n hn => by
    simp only [R2, R1, Conf.set, Conf.withFrame, if_pos trivial, if_neg hn]
  have hR3 : ∀ n, n ≠ c!"d" → n ≠ c!"put" → (R3.frames 0).vars n = (Conf.start.frames 0).vars n := fun n hn ht => by
    rw [← hR2 n hn]
    simp only [R3, Conf.set, Conf.withFrame, if_pos trivial, if_neg ht]
  have hR4 : ∀ n, n ≠ c!"d" → n ≠ c!"put" → n ≠ c!"e" → (R4.frames 0).vars n = (Conf.start.frames 0).vars n := fun n hn ht he => by
    rw [← hR3 n hn ht]
    simp only [R4, Conf.set, Conf.withFrame, if_pos trivial, if_neg he]
  have hS0 : S.frames 0 = R4.frames 0 := by simp [S, R4, R3, R2, R1, Conf.enter, Conf.withFrame, Conf.set, Conf.start]
  have e1 : Exec 0 (.list [.sym c!"def", .sym c!"d", .list [.sym c!"make-dict"]]) Conf.start (.dict 0) R2 :=
    .def_ .list (value_start 0 (b := .def_) (s := true) (by decide) (by decide)) (by decide)
      (.call .list (value_start 0 (b := .makeDict) (s := false) (by decide) (by decide)) .nil (.changes .make))
  have e2 : Exec 0 (.list [.sym c!"defn", .sym c!"put", .list [.sym c!"x", .sym c!"v"], .list [.sym c!"dict-set", .sym c!"x", .str k, .sym c!"v"]]) R2 put R3 :=
    .defn (ps := [c!"x", c!"v"]) .list ⟨rfl, .locally (by decide) (by rw [hR2 _ (by decide)]; exact start_vars (b := .defn) (s := true) (by decide))⟩ (by decide)
      (by rw [hR2 _ (by decide)]; exact start_vars (b := .fn) (s := true) (by decide))
      (by rw [hR2 _ (by decide)]; exact start_vars (b := .def_) (s := true) (by decide))
  have e3 : Exec 0 (.list [.sym c!"def", .sym c!"e", .sym c!"d"]) R3 (.dict 0) R4 :=
    .def_ .list ⟨rfl, .locally (by decide) (by rw [hR3 _ (by decide) (by decide)]; exact start_vars (b := .def_) (s := true) (by decide))⟩ (by decide)
      (.var (.locally (by decide) (by simp [R3, R2, R1, Conf.set, Conf.withFrame])))
  have e4 : Exec 0 (.list [.sym c!"put", .sym c!"e", .int i]) R4 (.int i) R5 := by
    have hput : (R4.frames 0).vars c!"put" = some put := by simp [R4, R3, Conf.set, Conf.withFrame]
    have he : (R4.frames 0).vars c!"e" = some (.dict 0) := by simp [R4, Conf.set, Conf.withFrame]
    have hset : (S.frames 0).vars c!"dict-set" = some (.prim c!"dict-set") := by
      rw [hS0, hR4 _ (by decide) (by decide) (by decide)]
      exact start_vars (b := .dictSet) (s := false) (by decide)
    have hx : (S.frames R4.count).vars c!"x" = some (.dict 0) := by simp [S, Conf.enter, Conf.withFrame, paramVal]
    have hv : (S.frames R4.count).vars c!"v" = some (.int i) := by simp [S, Conf.enter, Conf.withFrame, paramVal]
    have hn : (S.frames R4.count).vars c!"dict-set" = none := by simp [S, Conf.enter, Conf.withFrame, paramVal]
    have hb : Exec R4.count (.list [.sym c!"dict-set", .sym c!"x", .str k, .sym c!"v"]) S (.int i) R5 :=
      .call .list ⟨rfl, .globally (by decide) hn hset⟩ (.name (.locally (by decide) hx) (.other (by simp) .str (.name (.locally (by decide) hv) .nil)))
        (.changes (.set (a := 0) (d := []) (x := []) (y := []) (hit := none) rfl (.str hk) .int ⟨rfl, by simp, by simp⟩))
    exact .call .list ⟨rfl, .locally (by decide) hput⟩ (.name (.locally (by decide) he) (.other (by simp) .int .nil)) (.clo (by decide) (by decide) hb)
  have hp := Prints.println (ShownAll.cons (Shown.int (i := i)) .nil)
  rw [intStr_shown] at hp
  have hglob : ∀ n v, (R4.frames 0).vars n = some v → (R5.frames 0).vars n = some v := fun n v h => by
    show (S.frames 0).vars n = _
    rw [hS0]; exact h
  have hd : (R5.frames 0).vars c!"d" = some (.dict 0) := hglob _ _ (by simp [R4, R3, R2, R1, Conf.set, Conf.withFrame])
  have e5 : Exec 0 (.list [.sym c!"println", .list [.sym c!"dict-get", .sym c!"d", .str k]]) R5 (.str (intStr i)) (R5.write (intStr i ++ c!"\n")) :=
    .call .list ⟨rfl, .locally (by decide) (hglob _ _ (by rw [hR4 _ (by decide) (by decide) (by decide)]; exact start_vars (b := .println) (s := false) (by decide)))⟩
      (.other (by simp) (.call .list ⟨rfl, .locally (by decide) (hglob _ _ (by rw [hR4 _ (by decide) (by decide) (by decide)]; exact start_vars (b := .dictGet) (s := false) (by decide)))⟩
        (.name (.locally (by decide) hd) (.other (by simp) .str .nil))
        (.asks (.get (hit := some (.int i)) (x := []) (y := []) rfl (.str hk) ⟨rfl, by simp, by simp⟩))) .nil) (.prints hp)
  have hret : (R5.frames 0).ret = false := by
    show (S.frames 0).ret = _
    rw [hS0]; rfl
  obtain ⟨r, st', μ, g1, g2, g3⟩ := C55_core (xs := sharedProgram k i) (sharedProgram_wf k hi) hw
    (by simp [sharedProgram, Sexp.Heads, Sexp.HeadsAll, Sexp.text, hidden]) hr module
    (.next ⟨_, _, .list⟩ e1 rfl (.next ⟨_, _, .list⟩ e2 rfl (.next ⟨_, _, .list⟩ e3 rfl (.next ⟨_, _, .list⟩ e4 hret (.next ⟨_, _, .list⟩ e5 hret .done)))))
  exact ⟨r, st', g1, g3⟩

end

/-! ## The hypotheses are met -/

section
attribute [local instance] demoWorld

/-- Three words, one of them twice. -/
example : ∃ us : List Str, us.Nodup ∧ (∀ x, x ∈ us ↔ x ∈ [c!"to", c!"be", c!"or", c!"not", c!"to", c!"be"]) ∧ ∃ r st',
    Runs (Sexp.sources (wordsProgram [c!"to", c!"be", c!"or", c!"not", c!"to", c!"be"] c!"be")) c!"demo" ({} : St) (.ok (some r) st') ∧
      st'.out = c!"2\n" ++ (intStr us.length ++ c!"\n") := by
  obtain ⟨us, h1, h2, r, st', h3, h4⟩ := C84_words (ws := [c!"to", c!"be", c!"or", c!"not", c!"to", c!"be"]) (w := c!"be") (by decide) (by simp [NoZero]) (by decide)
    (written_sources (wordsProgram_wf _ _)) (st := {}) (.init rfl (fun _ => rfl) (fun _ => rfl) (fun _ => rfl) (fun _ => rfl)) c!"demo"
  exact ⟨us, h1, h2, r, st', h3, h4.trans rfl⟩

example : Sexp.sources (wordsProgram [c!"to", c!"be"] c!"be") =
    c!"(def d (make-dict)) (defn tally (w) (dict-set d w (if (dict-contains-key d w) (+ (dict-get d w) 1) 1))) (map tally (list \"to\" \"be\")) (println (dict-get d \"be\")) (println (len d))" := by
  decide +kernel

/-- The model itself runs the text. -/
example : demoScripts [Sexp.sources (wordsProgram [c!"to", c!"be", c!"or", c!"not", c!"to", c!"be"] c!"be")] = c!"2\n4\n" := by decide +kernel

example : ∃ r st', Runs (Sexp.sources (sharedProgram c!"key" 5)) c!"demo" ({} : St) (.ok (some r) st') ∧ st'.out = c!"5\n" := by
  obtain ⟨r, st', h3, h4⟩ := C84_shared (k := c!"key") (i := 5) (by simp [NoZero]) (by decide)
    (written_sources (sharedProgram_wf _ (by decide))) (st := {}) (.init rfl (fun _ => rfl) (fun _ => rfl) (fun _ => rfl) (fun _ => rfl)) c!"demo"
  exact ⟨r, st', h3, h4.trans rfl⟩

/-- The places of a key in a dictionary with two entries. -/
example : Located (.int 2) [(.int 1, .bool true), (.int 3, .nil)] [(.int 1, .bool true)] none [(.int 3, .nil)] :=
  ⟨rfl, by simp [Key.Lt], by simp [Key.Lt]⟩

end

end Fuel
