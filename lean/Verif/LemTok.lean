import Verif.LemText
import Verif.SpecTok
import Verif.Tokenizer
import Verif.LemM
/-!
# Lemmas about the tokenizer

`lx` is the tokenizer without positions and line numbers; `tokenize_kinds` shows that it agrees with the model.
-/

set_option linter.unusedSectionVars false
set_option linter.unusedSimpArgs false

namespace Fuel

open Spec

variable [World]

/-- Type and value of a token. -/
def Token.kind (t : Token) : TokType × TVal := (t.type, t.value)

/-- The local variables of the tokenizer without positions. -/
structure LS where
  cur : Str := []
  inStr : Bool := false
  inSym : Bool := false
  bs : Bool := false
deriving DecidableEq

/-- Forget positions. -/
def TS.ls (ts : TS) : LS := ⟨ts.cur, ts.inStr, ts.inSym, ts.bs⟩

/-- One step without positions. -/
def lxStep (ch : Char) (rest : Str) (ls : LS) : R (List (TokType × TVal) × LS × Nat) :=
  if isSpace ch then
    if ls.inStr then .ok ([], { ls with cur := ls.cur ++ [ch], bs := false }, 0)
    else if ls.inSym then do
      let t ← classify ls.cur
      .ok ([t], {}, 0)
    else .ok ([], { ls with bs := false }, 0)
  else if ch = '\\' then
    if ls.bs then .ok ([], { ls with cur := ls.cur ++ [ch], bs := false }, 0)
    else .ok ([], { ls with bs := true }, 0)
  else if ch = '(' ∨ ch = ')' then
    if ls.inStr then .ok ([], { ls with cur := ls.cur ++ [ch], bs := false }, 0)
    else if ls.inSym then do
      let t ← classify ls.cur
      let t2 ← classify [ch]
      .ok ([t, t2], {}, 0)
    else do
      let t2 ← classify [ch]
      .ok ([t2], {}, 0)
  else if ch = ';' then
    if ls.inStr then .ok ([], { ls with cur := ls.cur ++ [ch], bs := false }, 0)
    else if ls.inSym then do
      let t ← classify ls.cur
      let t2 ← classify (';' :: (restOfLine rest).1)
      .ok ([t, t2], {}, (restOfLine rest).2)
    else do
      let t2 ← classify (';' :: (restOfLine rest).1)
      .ok ([t2], {}, (restOfLine rest).2)
  else if ch = '\'' ∨ ch = '`' ∨ ch = ',' then
    if ls.inStr then .ok ([], { ls with cur := ls.cur ++ [ch], bs := false }, 0)
    else if rest.head? = some '@' then do
      let t ← classify [ch, '@']
      .ok ([t], {}, 1)
    else do
      let t ← classify [ch]
      .ok ([t], {}, 0)
  else if ch = '"' then
    if ls.bs then .ok ([], { ls with cur := ls.cur ++ [ch], bs := false }, 0)
    else if ls.inStr then do
      let t ← classify ('"' :: ls.cur ++ ['"'])
      .ok ([t], {}, 0)
    else .ok ([], { ls with inStr := true, cur := [], bs := false }, 0)
  else do
    let c ← if ls.bs then charAfterBackslash ch else .ok ch
    .ok ([], { ls with inSym := if !ls.inSym && !ls.inStr then true else ls.inSym, cur := ls.cur ++ [c], bs := false }, 0)

/-- The loop without positions. -/
def lxLoop : Nat → Str → LS → R (List (TokType × TVal))
  | 0, _, _ => .error .fuel
  | _ + 1, [], ls =>
    if ls.cur ≠ [] then do
      let t ← classify ls.cur
      .ok [t]
    else .ok []
  | n + 1, ch :: rest, ls => do
    let (out, ls, skip) ← lxStep ch rest ls
    let more ← lxLoop n (rest.drop skip) ls
    .ok (out ++ more)

theorem tokStep_erase (off i : Int) (ch : Char) (rest : Str) (ts : TS) :
    (tokStep off i ch rest ts).map (fun r => (r.1.map Token.kind, r.2.1.ls, r.2.2)) = lxStep ch rest ts.ls := by
  have hadd : ∀ (ts : TS) (text : Str) (pos line : Int), addToken off ts text pos line =
      (classify text).map fun tv => (⟨tv.1, tv.2, ts.startPos - off, pos - off, line⟩,
        { ts with inSym := false, inStr := false, cur := [], startPos := pos + 1 }) := by
    intro ts text pos line
    simp only [addToken, mkToken]
    cases classify text <;> rfl
  obtain ⟨cur, sp, ln, inStr, inSym, bs⟩ := ts
  unfold tokStep lxStep
  simp only [TS.ls]
  by_cases h1 : isSpace ch = true
  · rw [if_pos h1, if_pos h1]
    cases inStr
    · cases inSym
      · by_cases h : ch = '\n' <;> simp [h, Except.map, TS.ls]
      · simp only [hadd]
        cases classify cur <;> by_cases h : ch = '\n' <;> simp [h, Except.map, Token.kind, TS.ls]
    · by_cases h : ch = '\n' <;> simp [h, Except.map, TS.ls]
  rw [if_neg h1, if_neg h1]
  by_cases h2 : ch = '\\'
  · rw [if_pos h2, if_pos h2]
    cases bs <;> rfl
  rw [if_neg h2, if_neg h2]
  by_cases h3 : ch = '(' ∨ ch = ')'
  · rw [if_pos h3, if_pos h3]
    cases inStr
    · cases inSym
      · simp only [hadd]
        cases classify [ch] <;> simp [Except.map, Token.kind, TS.ls]
      · simp only [hadd]
        cases classify cur <;> cases classify [ch] <;> simp [Except.map, Token.kind, TS.ls]
    · rfl
  rw [if_neg h3, if_neg h3]
  by_cases h4 : ch = ';'
  · rw [if_pos h4, if_pos h4]
    cases inStr
    · cases inSym
      · simp only [processComment, hadd]
        cases classify (';' :: (restOfLine rest).1) <;> simp [Except.map, Token.kind, TS.ls]
      · simp only [processComment, hadd]
        cases classify cur <;> cases classify (';' :: (restOfLine rest).1) <;> simp [Except.map, Token.kind, TS.ls]
    · rfl
  rw [if_neg h4, if_neg h4]
  by_cases h5 : ch = '\'' ∨ ch = '`' ∨ ch = ','
  · rw [if_pos h5, if_pos h5]
    cases inStr
    · by_cases h6 : rest.head? = some '@'
      · simp only [h6, hadd]
        cases classify [ch, '@'] <;> simp [Except.map, Token.kind, TS.ls]
      · simp only [h6, hadd]
        cases classify [ch] <;> simp [Except.map, Token.kind, TS.ls]
    · rfl
  rw [if_neg h5, if_neg h5]
  by_cases h6 : ch = '"'
  · rw [if_pos h6, if_pos h6]
    cases bs
    · cases inStr
      · rfl
      · simp only [hadd]
        cases classify ('"' :: cur ++ ['"']) <;> simp [Except.map, Token.kind, TS.ls]
    · rfl
  rw [if_neg h6, if_neg h6]
  cases bs
  · cases inSym <;> cases inStr <;> rfl
  · simp only [if_true]
    cases charAfterBackslash ch <;> cases inSym <;> cases inStr <;> rfl

theorem tokLoop_erase (off : Int) (n : Nat) (i : Int) (s : Str) (ts : TS) :
    (tokLoop off n i s ts).map (fun l => l.map Token.kind) = lxLoop n s ts.ls := by
  induction n generalizing i s ts with
  | zero => rfl
  | succ n ih =>
    cases s with
    | nil =>
      simp only [tokLoop, lxLoop, addToken, mkToken, TS.ls]
      by_cases h : ts.cur = []
      · simp [h, Except.map]
      · cases classify ts.cur <;> simp [h, Except.map, Token.kind]
    | cons ch rest =>
      simp only [tokLoop, lxLoop]
      rw [← tokStep_erase off i]
      cases h : tokStep off i ch rest ts with
      | error f => rfl
      | ok r =>
        obtain ⟨out, ts', skip⟩ := r
        have := ih (i + 1 + skip) (rest.drop skip) ts'
        simp only [Except.map, bind_ok_R] at this ⊢
        rw [← this]
        cases tokLoop off n (i + 1 + skip) (rest.drop skip) ts' <;> simp

theorem lxLoop_mono (n m : Nat) (s : Str) (ls : LS) (hn : s.length < n) (hm : s.length < m) :
    lxLoop n s ls = lxLoop m s ls := by
  induction n generalizing m s ls with
  | zero => omega
  | succ n ih =>
    cases m with
    | zero => omega
    | succ m =>
      cases s with
      | nil => rfl
      | cons ch rest =>
        simp only [lxLoop]
        simp at hn hm
        congr 1
        funext ⟨out, ls', skip⟩
        have h := ih m (rest.drop skip) ls' (by simp; omega) (by simp; omega)
        simp [h]

/-- The tokenizer without positions, from a given state. -/
def lx (s : Str) (ls : LS) : R (List (TokType × TVal)) := lxLoop (s.length + 1) s ls

theorem lx_nil (ls : LS) : lx [] ls = if ls.cur ≠ [] then do
    let t ← classify ls.cur
    .ok [t]
  else .ok [] := rfl

theorem lx_cons (ch : Char) (rest : Str) (ls : LS) : lx (ch :: rest) ls = (do
    let (out, ls, skip) ← lxStep ch rest ls
    let more ← lx (rest.drop skip) ls
    .ok (out ++ more)) := by
  simp only [lx, lxLoop, List.length_cons]
  congr 1
  funext ⟨out, ls', skip⟩
  have h := lxLoop_mono (rest.length + 1) ((rest.drop skip).length + 1) (rest.drop skip) ls' (by simp; omega) (by omega)
  simp only [h]

theorem tokenize_kinds (code : Str) (off : Int) :
    (tokenize code off).map (fun l => l.map Token.kind) = lx code {} := tokLoop_erase _ _ _ _ _

/-! ## Lexemes -/

theorem plain_not_space {c : Char} (h : Plain c) : isSpace c = false := by
  cases hc : isSpace c
  · rfl
  · exact absurd ((isSpace_iff c).1 hc) h.1

theorem lxStep_plain {c : Char} (h : Plain c) (rest : Str) (ls : LS) (hb : ls.bs = false) (hs : ls.inStr = false) :
    lxStep c rest ls = .ok ([], { ls with inSym := true, cur := ls.cur ++ [c] }, 0) := by
  have h1 := plain_not_space h
  obtain ⟨-, h2⟩ := h
  simp at h2
  obtain ⟨cur, inStr, inSym, bs⟩ := ls
  simp at hb hs
  subst hb hs
  simp [lxStep, h1, h2]

theorem lx_word_acc {x : Str} (hx : ∀ c ∈ x, Plain c) (b a : Str) (hne : x ≠ [] ∨ i = true) :
    lx (x ++ b) ⟨a, false, i, false⟩ = lx b ⟨a ++ x, false, true, false⟩ := by
  induction x generalizing a i with
  | nil => simp at hne; simp [hne]
  | cons c x ih =>
    rw [List.cons_append, lx_cons, lxStep_plain (hx c (by simp)) _ _ rfl rfl]
    simp only [bind_ok_R, List.drop_zero, List.nil_append]
    rw [ih (fun c hc => hx c (by simp [hc])) _ (Or.inr rfl)]
    simp
    cases lx b ⟨a ++ c :: x, false, true, false⟩ <;> rfl

theorem lx_word_stop {b x : Str} (hx : x ≠ []) (hb : ∀ c, b.head? = some c → White c ∨ c ∈ ['(', ')', ';']) :
    lx b ⟨x, false, true, false⟩ = (do
      let t ← classify x
      let m ← lx b {}
      .ok (t :: m)) := by
  cases b with
  | nil =>
    simp [lx_nil, hx]
  | cons c b =>
    rw [lx_cons, lx_cons]
    rcases hb c rfl with h | h
    · have h := (isSpace_iff c).2 h
      simp [lxStep, h]
    · simp at h
      rcases h with rfl | rfl | rfl <;> simp [lxStep, show isSpace '(' = false from rfl, show isSpace ')' = false from rfl,
        show isSpace ';' = false from rfl]

theorem lx_word {x b : Str} (hx : x ≠ []) (hp : ∀ c ∈ x, Plain c)
    (hb : ∀ c, b.head? = some c → White c ∨ c ∈ ['(', ')', ';']) :
    lx (x ++ b) {} = (do
      let t ← classify x
      let m ← lx b {}
      .ok (t :: m)) := by
  have := lx_word_acc (i := false) hp b [] (Or.inl hx)
  rw [show ({} : LS) = ⟨[], false, false, false⟩ from rfl, this, List.nil_append, lx_word_stop hx hb]

theorem lx_white {w : Str} (hw : ∀ c ∈ w, White c) (b : Str) : lx (w ++ b) {} = lx b {} := by
  induction w with
  | nil => rfl
  | cons c w ih =>
    have h := (isSpace_iff c).2 (hw c (by simp))
    rw [List.cons_append, lx_cons]
    simp only [lxStep, h, if_true]
    simp
    rw [show ({ cur := [], inStr := false, inSym := false, bs := false } : LS) = {} from rfl,
      ih fun c hc => hw c (by simp [hc])]
    cases lx b {} <;> rfl

theorem lx_str_acc (s b a : Str) :
    lx (escape s ++ b) ⟨a, true, false, false⟩ = lx b ⟨a ++ s, true, false, false⟩ := by
  induction s generalizing a with
  | nil => simp [escape]
  | cons c s ih =>
    by_cases h : c = '\\' ∨ c = '"'
    · have hstep : lx (c :: (escape s ++ b)) ⟨a, true, false, true⟩ = lx (escape s ++ b) ⟨a ++ [c], true, false, false⟩ := by
        rw [lx_cons]
        rcases h with rfl | rfl
        · simp [lxStep, show isSpace '\\' = false from rfl]
          cases lx (escape s ++ b) ⟨a ++ ['\\'], true, false, false⟩ <;> rfl
        · simp [lxStep, show isSpace '"' = false from rfl]
          cases lx (escape s ++ b) ⟨a ++ ['"'], true, false, false⟩ <;> rfl
      simp only [escape, if_pos h, List.append_assoc, List.cons_append, List.nil_append]
      rw [lx_cons]
      simp [lxStep, show isSpace '\\' = false from rfl, hstep, ih]
      cases lx b ⟨a ++ c :: s, true, false, false⟩ <;> rfl
    · simp only [escape, if_neg h, List.append_assoc, List.cons_append, List.nil_append]
      rw [lx_cons]
      simp at h
      have : lxStep c (escape s ++ b) ⟨a, true, false, false⟩ = .ok ([], ⟨a ++ [c], true, false, false⟩, 0) := by
        unfold lxStep
        by_cases h1 : isSpace c = true
        · simp [h1]
        by_cases h3 : c = '(' ∨ c = ')'
        · simp [h1, h, h3]
        by_cases h4 : c = ';'
        · simp [h1, h, h3, h4]
        by_cases h5 : c = '\'' ∨ c = '`' ∨ c = ','
        · rw [if_neg h1, if_neg h.1, if_neg h3, if_neg h4, if_pos h5]
          rfl
        · rw [if_neg h1, if_neg h.1, if_neg h3, if_neg h4, if_neg h5, if_neg h.2]
          rfl
      simp [this, ih]
      cases lx b ⟨a ++ c :: s, true, false, false⟩ <;> rfl

theorem classify_string (s : Str) : classify ('"' :: s ++ ['"']) = .ok (.string, .str s) := by
  simp [classify, startsWith, substr]

theorem lx_str (s b : Str) : lx ('"' :: escape s ++ '"' :: b) {} = (do
    let m ← lx b {}
    .ok ((.string, .str s) :: m)) := by
  rw [List.cons_append, lx_cons]
  simp only [lxStep, show isSpace '"' = false from rfl]
  simp
  rw [lx_str_acc, lx_cons]
  have := classify_string s
  simp only [List.cons_append] at this
  simp [lxStep, show isSpace '"' = false from rfl, this]

theorem restOfLine_spec {s b : Str} (hs : s ≠ []) (hn : '\n' ∉ s) :
    restOfLine (s ++ '\n' :: b) = (s ++ ['\n'], s.length + 1) := by
  have h : findSub ['\n'] (s ++ '\n' :: b) = some s.length := by
    apply findSub_eq_some
    refine ⟨⟨s, b, by simp, rfl⟩, ?_⟩
    rintro j hj ⟨a, r, h1, rfl⟩
    have : (s ++ '\n' :: b)[a.length]? = some '\n' := by rw [h1]; simp
    rw [List.getElem?_append_left hj] at this
    exact hn (List.mem_of_getElem? this)
  unfold restOfLine
  rw [h]
  cases s with
  | nil => exact absurd rfl hs
  | cons c s => simp [List.take_append, List.take_of_length_le]

theorem classify_comment (s : Str) : classify (';' :: s) = .ok (.comment, .str (';' :: s)) := by
  have h1 : stoi (';' :: s) = .error (.exn .invalidArgument) := by
    simp [stoi, cStr, strtol, show isSpace ';' = false from rfl, show isDigit ';' = false from rfl]
  have h2 : stod (';' :: s) = .error (.exn .invalidArgument) := by
    simp [stod, cStr, strtodLen, show isSpace ';' = false from rfl, unsignedFloatLen, prefixCI, mantissaLen,
      show isDigit ';' = false from rfl, show toLowerC ';' = ';' from rfl]
  simp [classify, startsWith, int32TryParse, doubleTryParse, h1, h2, toUpper, show toUpperC ';' = ';' from rfl]

theorem lx_comment {s : Str} (hs : s ≠ []) (hn : '\n' ∉ s) (b : Str) : lx (';' :: s ++ '\n' :: b) {} = (do
    let m ← lx b {}
    .ok ((.comment, .str (';' :: s ++ ['\n'])) :: m)) := by
  rw [List.cons_append, lx_cons]
  simp only [lxStep, show isSpace ';' = false from rfl, restOfLine_spec hs hn, classify_comment]
  simp

theorem lx_lexeme {l : Lexeme} (h : l.WF) {b : Str} (hb : l.Before b) : lx (l.source ++ b) {} = (do
    let k ← lx l.source {}
    let m ← lx b {}
    .ok (k ++ m)) := by
  have hnil : lx [] {} = .ok [] := rfl
  cases l with
  | opening =>
    simp only [Lexeme.source, List.cons_append, List.nil_append]
    rw [lx_cons, lx_cons]
    simp [lxStep, show isSpace '(' = false from rfl]
    cases classify ['('] <;> simp [hnil]
  | closing =>
    simp only [Lexeme.source, List.cons_append, List.nil_append]
    rw [lx_cons, lx_cons]
    simp [lxStep, show isSpace ')' = false from rfl]
    cases classify [')'] <;> simp [hnil]
  | word s =>
    obtain ⟨h1, h2⟩ := h
    simp only [Lexeme.source]
    have h3 := lx_word (b := []) h1 h2 (by simp)
    rw [List.append_nil] at h3
    rw [lx_word h1 h2 hb, h3]
    cases classify s <;> simp [hnil]
  | str s =>
    simp only [Lexeme.source]
    rw [lx_str s []]
    rw [show ('"' :: escape s ++ ['"']) ++ b = '"' :: escape s ++ '"' :: b by simp, lx_str]
    simp [hnil]
  | quote =>
    simp only [Lexeme.source, List.cons_append, List.nil_append]
    rw [lx_cons, lx_cons]
    simp only [Lexeme.Before] at hb
    simp [lxStep, show isSpace '\'' = false from rfl, hb]
    cases classify ['\''] <;> simp [hnil]
  | quasi =>
    simp only [Lexeme.source, List.cons_append, List.nil_append]
    rw [lx_cons, lx_cons]
    simp only [Lexeme.Before] at hb
    simp [lxStep, show isSpace '`' = false from rfl, hb]
    cases classify ['`'] <;> simp [hnil]
  | unquote =>
    simp only [Lexeme.source, List.cons_append, List.nil_append]
    rw [lx_cons, lx_cons]
    simp only [Lexeme.Before] at hb
    simp [lxStep, show isSpace ',' = false from rfl, hb]
    cases classify [','] <;> simp [hnil]
  | splice =>
    simp only [Lexeme.source, List.cons_append, List.nil_append]
    rw [lx_cons, lx_cons]
    simp [lxStep, show isSpace ',' = false from rfl]
    cases classify [',', '@'] <;> simp [hnil]
  | comment s =>
    obtain ⟨h1, h2⟩ := h
    simp only [Lexeme.source]
    rw [lx_comment h1 h2 []]
    rw [show (';' :: s ++ ['\n']) ++ b = ';' :: s ++ '\n' :: b by simp, lx_comment h1 h2]
    simp [hnil]

theorem lx_render {items : List (Str × Lexeme)} {b : Str} (h : Separated items b) :
    lx (render items ++ b) {} = (do
      let k ← items.mapM fun it => lx it.2.source {}
      let m ← lx b {}
      .ok (k.flatten ++ m)) := by
  induction items with
  | nil =>
    simp [render]
    cases lx b {} <;> rfl
  | cons it items ih =>
    obtain ⟨w, l⟩ := it
    obtain ⟨h1, h2, h3, h4⟩ := h
    rw [render, List.append_assoc, List.append_assoc, lx_white h1, lx_lexeme h2 h3, ih h4, List.mapM_cons]
    cases lx l.source {} <;> simp

end Fuel
