import Verif.SpecScript
/-!
# Recognising notations

A procedure that finds the lexical elements of a text, and checks that are decided by evaluation.
-/

namespace Fuel

open Spec

/-- The text of a literal up to its closing double quote, and the rest. -/
def lexLiteral : Str → Option (Str × Str)
  | [] => none
  | '"' :: t => some ([], t)
  | '\\' :: c :: t => if c = '\\' ∨ c = '"' then (lexLiteral t).map fun r => (c :: r.1, r.2) else none
  | '\\' :: [] => none
  | c :: t => (lexLiteral t).map fun r => (c :: r.1, r.2)

/-- Is there an `@` at the beginning? -/
def startsAt : Str → Bool
  | '@' :: _ => true
  | _ => false

/-- Does the text start with something that ends a word? -/
def endsWord : Str → Bool
  | [] => true
  | c :: _ => decide (White c) || c == '(' || c == ')' || c == ';'

/-- The first lexical element of a text that does not start with white space, and the rest. -/
def lexOne : Str → Option (Lexeme × Str)
  | [] => none
  | '(' :: t => some (.opening, t)
  | ')' :: t => some (.closing, t)
  | '\'' :: t => if startsAt t then none else some (.quote, t)
  | '`' :: t => if startsAt t then none else some (.quasi, t)
  | ',' :: '@' :: t => some (.splice, t)
  | ',' :: t => some (.unquote, t)
  | '"' :: t => (lexLiteral t).map fun r => (.str r.1, r.2)
  | ';' :: t =>
    match t.dropWhile (· != '\n') with
    | [] => none
    | _ :: r => if t.takeWhile (· != '\n') = [] then none else some (.comment (t.takeWhile (· != '\n')), r)
  | c :: t =>
    if Plain c ∧ endsWord (t.dropWhile (decide <| Plain ·)) then some (.word (c :: t.takeWhile (decide <| Plain ·)), t.dropWhile (decide <| Plain ·)) else none

theorem lexLiteral_ok : ∀ {t s r : Str}, lexLiteral t = some (s, r) → t = escape s ++ '"' :: r := by
  intro t
  induction t using lexLiteral.induct with
  | case1 => intro s r h; cases h
  | case2 t => intro s r h; simp only [lexLiteral, Option.some.injEq, Prod.mk.injEq] at h; obtain ⟨rfl, rfl⟩ := h; rfl
  | case3 c t hc ih =>
    intro s r h
    simp only [lexLiteral, if_pos hc, Option.map_eq_some_iff] at h
    obtain ⟨⟨a, b⟩, h1, h2⟩ := h
    cases h2
    simp [escape, if_pos hc, ih h1]
  | case4 c t hc => intro s r h; simp [lexLiteral, hc] at h
  | case5 => intro s r h; cases h
  | case6 c t h1 h2 h3 ih =>
    intro s r h
    rw [lexLiteral] at h
    · simp only [Option.map_eq_some_iff] at h
      obtain ⟨⟨a, b⟩, g1, g2⟩ := h
      cases g2
      have hc : ¬ (c = '\\' ∨ c = '"') := by
        rintro (rfl | rfl)
        · cases t with
          | nil => exact h3 rfl rfl
          | cons d t => exact h2 d t rfl rfl
        · exact h1 rfl
      simp [escape, if_neg hc, ih g1]
    · exact h1
    · exact h2
    · exact h3

theorem takeWhile_only {p : Char → Bool} : ∀ {t : Str}, ∀ c ∈ t.takeWhile p, p c = true
  | [], _, h => (nomatch h)
  | d :: t, c, h => by
    rw [List.takeWhile_cons] at h
    split at h
    · rename_i hd
      rcases List.mem_cons.1 h with rfl | h
      · exact hd
      · exact takeWhile_only c h
    · cases h

theorem dropWhile_first {p : Char → Bool} : ∀ {t : Str} {c : Char} {r : Str}, t.dropWhile p = c :: r → p c = false
  | [], _, _, h => by cases h
  | d :: t, c, r, h => by
    rw [List.dropWhile_cons] at h
    split at h
    · exact dropWhile_first h
    · rename_i hd
      cases h
      simpa using hd

theorem startsAt_ok {t : Str} (h : ¬ startsAt t = true) : t.head? ≠ some '@' := by
  cases t with
  | nil => simp
  | cons c t =>
    intro e
    simp only [List.head?_cons, Option.some.injEq] at e
    subst e
    exact h rfl

theorem endsWord_ok {t : Str} (h : endsWord t = true) : ∀ c, t.head? = some c → White c ∨ c ∈ ['(', ')', ';'] := by
  intro c hc
  cases t with
  | nil => cases hc
  | cons d t =>
    simp only [List.head?_cons, Option.some.injEq] at hc
    subst hc
    simpa [endsWord, or_assoc] using h

theorem lexOne_ok {t : Str} {l : Lexeme} {r : Str} (h : lexOne t = some (l, r)) : t = l.source ++ r ∧ l.WF ∧ l.Before r := by
  unfold lexOne at h
  split at h
  · cases h
  · cases h; exact ⟨rfl, trivial, trivial⟩
  · cases h; exact ⟨rfl, trivial, trivial⟩
  · split at h
    · cases h
    · rename_i hs; cases h; exact ⟨rfl, trivial, startsAt_ok hs⟩
  · split at h
    · cases h
    · rename_i hs; cases h; exact ⟨rfl, trivial, startsAt_ok hs⟩
  · cases h; exact ⟨rfl, trivial, trivial⟩
  · rename_i t' hn
    cases h
    refine ⟨rfl, trivial, fun e => ?_⟩
    cases r with
    | nil => cases e
    | cons c r =>
      simp only [List.head?_cons, Option.some.injEq] at e
      subst e
      exact hn r rfl
  · simp only [Option.map_eq_some_iff] at h
    obtain ⟨⟨a, b⟩, h1, h2⟩ := h
    cases h2
    exact ⟨by simp [Lexeme.source, lexLiteral_ok h1], trivial, trivial⟩
  · rename_i t'
    split at h
    · cases h
    · rename_i d r' hd
      split at h
      · cases h
      · rename_i hne
        cases h
        have h1 : d = '\n' := by simpa using dropWhile_first hd
        subst h1
        refine ⟨?_, ⟨hne, fun hm => ?_⟩, trivial⟩
        · show ';' :: t' = ';' :: (t'.takeWhile (· != '\n') ++ ['\n'] ++ r)
          rw [List.append_assoc, List.singleton_append, ← hd, List.takeWhile_append_dropWhile]
        · simpa using takeWhile_only _ hm
  · split at h
    · rename_i hw
      cases h
      rename_i c t' _ _ _ _ _ _ _ _
      refine ⟨?_, ⟨by simp, ?_⟩, endsWord_ok hw.2⟩
      · show c :: t' = c :: (t'.takeWhile (decide <| Plain ·) ++ t'.dropWhile (decide <| Plain ·))
        rw [List.takeWhile_append_dropWhile]
      · intro d hd
        rcases List.mem_cons.1 hd with rfl | hd
        · exact hw.1
        · simpa using takeWhile_only _ hd
    · cases h

/-! ## Checks -/

/-- Are the lexical elements the same? -/
def sameLexeme : Lexeme → Lexeme → Bool
  | .opening, .opening => true
  | .closing, .closing => true
  | .word a, .word b => a == b
  | .str a, .str b => a == b
  | .quote, .quote => true
  | .quasi, .quasi => true
  | .unquote, .unquote => true
  | .splice, .splice => true
  | _, _ => false

theorem sameLexeme_ok {a b : Lexeme} (h : sameLexeme a b = true) : a = b := by
  cases a <;> cases b <;> simp_all [sameLexeme]

/-- Is the text a notation of these lexical elements, which are no comments?  (`n` is greater than the number of lexical elements and comments.) -/
def isNotation : Nat → Str → List Lexeme → Bool
  | 0, _, _ => false
  | n + 1, s, ls =>
    match s.dropWhile (decide <| White ·) with
    | [] => ls.isEmpty
    | c :: t =>
      match lexOne (c :: t) with
      | none => false
      | some (l, r) =>
        if l.isComment then isNotation n r ls
        else
          match ls with
          | [] => false
          | b :: ls => if sameLexeme l b then isNotation n r ls else false

theorem isNotation_ok : ∀ {n : Nat} {s : Str} {ls : List Lexeme}, isNotation n s ls = true →
    ∃ items trail, (∀ c ∈ trail, White c) ∧ Separated items trail ∧ (items.map Prod.snd).filter (fun l => !l.isComment) = ls ∧ s = render items ++ trail
  | 0, _, _, h => by cases h
  | n + 1, s, ls, h => by
    have hs := List.takeWhile_append_dropWhile (p := fun c => decide (White c)) (l := s)
    have hw : ∀ c ∈ s.takeWhile (fun c => decide (White c)), White c := fun c hc => by simpa using takeWhile_only c hc
    rw [isNotation] at h
    split at h
    · rename_i hd
      rw [hd, List.append_nil] at hs
      have : ls = [] := by simpa using h
      subst this
      exact ⟨[], s, by rw [← hs]; exact hw, trivial, rfl, rfl⟩
    · rename_i c t hd
      rw [hd] at hs
      split at h
      · cases h
      · rename_i l r hl
        obtain ⟨g1, g2, g3⟩ := lexOne_ok hl
        split at h
        · rename_i hc
          obtain ⟨items, trail, k1, k2, k3, k4⟩ := isNotation_ok h
          refine ⟨(s.takeWhile (fun c => decide (White c)), l) :: items, trail, k1, ⟨hw, g2, by rw [← k4]; exact g3, k2⟩, by simp [hc, k3], ?_⟩
          show s = s.takeWhile _ ++ l.source ++ render items ++ trail
          rw [List.append_assoc, ← k4, List.append_assoc, ← g1]
          exact hs.symm
        · rename_i hc
          split at h
          · cases h
          · rename_i b ls
            split at h
            · rename_i he
              have := sameLexeme_ok he
              subst this
              obtain ⟨items, trail, k1, k2, k3, k4⟩ := isNotation_ok h
              refine ⟨(s.takeWhile (fun c => decide (White c)), l) :: items, trail, k1, ⟨hw, g2, by rw [← k4]; exact g3, k2⟩, by simp [hc, k3], ?_⟩
              show s = s.takeWhile _ ++ l.source ++ render items ++ trail
              rw [List.append_assoc, ← k4, List.append_assoc, ← g1]
              exact hs.symm
            · cases h

theorem written_of_check {n : Nat} {xs : List Sexp} {code : Str} (h : isNotation n code (Sexp.lexemess xs) = true) : Written xs code := isNotation_ok h

/-- Does the text, without a sign, start like a number? -/
def numberStart : Str → Bool
  | [] => false
  | c :: t =>
    (decide ('0'.toNat ≤ c.toNat) && decide (c.toNat ≤ '9'.toNat)) ||
    (match t with
     | [] => false
     | d :: u => (c == '.' && (decide ('0'.toNat ≤ d.toNat) && decide (d.toNat ≤ '9'.toNat))) ||
       (match u with
        | [] => false
        | e :: _ => (['i', 'I'].contains c && (['n', 'N'].contains d && ['f', 'F'].contains e)) || (['n', 'N'].contains c && (['a', 'A'].contains d && ['n', 'N'].contains e))))

theorem numberStart_ok {s : Str} (h : numberStart (dropSign s) = false) : ¬ NumberLike s := by
  rintro ⟨c, t, h1, h2⟩
  rw [h1] at h
  rcases h2 with h2 | ⟨rfl, d, u, rfl, h2⟩ | ⟨h2, d, e, u, rfl, h3, h4⟩ | ⟨h2, d, e, u, rfl, h3, h4⟩
  · simp [numberStart] at h
    have h3 : c.toNat ≤ 57 := h2.2
    have := h.1 h2.1
    omega
  · simp [numberStart] at h
    have h3 : d.toNat ≤ 57 := h2.2
    have := h.1 h2.1
    omega
  · simp [numberStart] at h h2 h3 h4
    exact absurd h4 (by simpa using (h.2.2.1 h2 h3))
  · simp [numberStart] at h h2 h3 h4
    exact absurd h4 (by simpa using (h.2.2.2 h2 h3))

/-- Can the name be written as a symbol? -/
def isSymbolName (s : Str) : Bool := !s.isEmpty && s.all (decide <| Plain ·) && !numberStart (dropSign s) && !reserved.contains s

theorem isSymbolName_ok {s : Str} (h : isSymbolName s = true) : SymbolName s := by
  simp only [isSymbolName, Bool.and_eq_true, Bool.not_eq_true', List.isEmpty_eq_false_iff, List.all_eq_true, decide_eq_true_eq, List.contains_eq_mem, decide_eq_false_iff_not] at h
  exact ⟨h.1.1.1, h.1.1.2, numberStart_ok h.1.2, h.2⟩

/-- Can the s-expression follow a quote character? -/
def isQuotable : Sexp → Bool
  | .pre .quote _ => false
  | .pre .quasi _ => false
  | .sym s => !startsAt s
  | _ => true

theorem isQuotable_ok {x : Sexp} (h : isQuotable x = true) : x.Quotable := by
  unfold Sexp.Quotable
  split
  · simp [isQuotable] at h
  · simp [isQuotable] at h
  · simp [isQuotable, startsAt] at h
  · trivial

mutual
/-- Is the s-expression well-formed and without floating-point numbers? -/
def isWF : Sexp → Bool
  | .int i => decide (-2147483648 ≤ i) && decide (i ≤ 2147483647)
  | .sym s => isSymbolName s
  | .float _ => false
  | .pre _ x => isWF x && isQuotable x
  | .list l => isWFs l
  | _ => true
/-- The same for all elements. -/
def isWFs : List Sexp → Bool
  | [] => true
  | x :: l => isWF x && isWFs l
end

mutual
theorem isWF_ok [World] : ∀ {x : Sexp}, isWF x = true → x.WF
  | .int i, h => by
    simp only [isWF, Bool.and_eq_true, decide_eq_true_eq] at h
    unfold Sexp.WF IsInt32
    omega
  | .str _, _ => by unfold Sexp.WF; trivial
  | .sym s, h => by unfold Sexp.WF; exact isSymbolName_ok (by simpa [isWF] using h)
  | .bool _, _ => by unfold Sexp.WF; trivial
  | .nil, _ => by unfold Sexp.WF; trivial
  | .float _, h => by simp [isWF] at h
  | .pre _ x, h => by
    simp only [isWF, Bool.and_eq_true] at h
    unfold Sexp.WF
    exact ⟨isWF_ok h.1, isQuotable_ok h.2⟩
  | .list l, h => by
    unfold Sexp.WF
    exact isWFs_ok (by simpa [isWF] using h)
theorem isWFs_ok [World] : ∀ {l : List Sexp}, isWFs l = true → Sexp.WFs l
  | [], _ => by unfold Sexp.WFs; trivial
  | x :: l, h => by
    simp only [isWFs, Bool.and_eq_true] at h
    unfold Sexp.WFs
    exact ⟨isWF_ok h.1, isWFs_ok h.2⟩
end

/-- The condition for the first element of a list, which is a symbol. -/
def headOk (p : Str → Bool) : List Sexp → Bool
  | [] => true
  | .sym n :: _ => p n
  | _ => false

mutual
/-- Is the first element of every list a symbol with the property? -/
def haveHeads (p : Str → Bool) : Sexp → Bool
  | .list l => headOk p l && haveHeadsAll p l
  | .pre k x => p k.word && haveHeads p x
  | _ => true
/-- The same for all elements. -/
def haveHeadsAll (p : Str → Bool) : List Sexp → Bool
  | [] => true
  | x :: l => haveHeads p x && haveHeadsAll p l
end

mutual
theorem haveHeads_ok [World] {p : Str → Bool} {P : Str → Prop} (hp : ∀ n, p n = true → P n) : ∀ {x : Sexp}, haveHeads p x = true → x.Heads P
  | .int _, _ => by unfold Sexp.Heads; trivial
  | .str _, _ => by unfold Sexp.Heads; trivial
  | .sym _, _ => by unfold Sexp.Heads; trivial
  | .bool _, _ => by unfold Sexp.Heads; trivial
  | .nil, _ => by unfold Sexp.Heads; trivial
  | .float _, _ => by unfold Sexp.Heads; trivial
  | .pre _ x, h => by
    simp only [haveHeads, Bool.and_eq_true] at h
    unfold Sexp.Heads
    exact ⟨hp _ h.1, haveHeads_ok hp h.2⟩
  | .list l, h => by
    simp only [haveHeads, Bool.and_eq_true] at h
    unfold Sexp.Heads
    refine ⟨?_, haveHeadsAll_ok hp h.2⟩
    cases l with
    | nil => trivial
    | cons a l =>
      cases a with
      | sym n =>
        show P (Sexp.text (.sym n))
        simpa [Sexp.text] using hp n (by simpa [headOk] using h.1)
      | _ => simp [headOk] at h
theorem haveHeadsAll_ok [World] {p : Str → Bool} {P : Str → Prop} (hp : ∀ n, p n = true → P n) : ∀ {l : List Sexp}, haveHeadsAll p l = true → Sexp.HeadsAll P l
  | [], _ => by unfold Sexp.HeadsAll; trivial
  | x :: l, h => by
    simp only [haveHeadsAll, Bool.and_eq_true] at h
    unfold Sexp.HeadsAll
    exact ⟨haveHeads_ok hp h.1, haveHeadsAll_ok hp h.2⟩
end

end Fuel
