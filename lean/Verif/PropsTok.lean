import Verif.LemTok
import Verif.Demo
/-!
# Properties of the tokenizer (C01 - C05, C08)
-/

set_option linter.unusedSectionVars false
set_option linter.unusedSimpArgs false

namespace Fuel

open Spec

variable [World]

/-! ## C01 totality -/

theorem stoi_err {s : Str} {f : Fail} (h : stoi s = .error f) : f = .exn .invalidArgument ∨ f = .exn .outOfRange := by
  unfold stoi at h
  split at h
  · simp at h; exact Or.inl h.symm
  · split at h
    · simp at h
    · simp at h; exact Or.inr h.symm

theorem stod_err {s : Str} {f : Fail} (h : stod s = .error f) : f = .exn .invalidArgument ∨ f = .exn .outOfRange := by
  simp only [stod] at h
  split at h
  · simp at h; exact Or.inl h.symm
  · split at h
    · simp at h
    · simp at h; exact Or.inr h.symm

theorem int32TryParse_err {s : Str} {f : Fail} (h : int32TryParse s = .error f) : f = .exn .outOfRange := by
  unfold int32TryParse at h
  split at h
  · split at h <;> simp at h
  · simp at h
  · rename_i h3 h4
    simp at h; subst h
    rcases stoi_err h4 with h | h
    · exact absurd h h3
    · exact h

theorem doubleTryParse_err {s : Str} {f : Fail} (h : doubleTryParse s = .error f) : f = .exn .outOfRange := by
  unfold doubleTryParse at h
  split at h
  · split at h <;> simp at h
  · simp at h
  · rename_i h3 h4
    simp at h; subst h
    rcases stod_err h4 with h | h
    · exact absurd h h3
    · exact h

theorem classify_err {s : Str} {f : Fail} (h : classify s = .error f) : f = .exn .outOfRange := by
  unfold classify at h
  by_cases h1 : startsWith s c!"\"" = true
  · rw [if_pos h1] at h
    have hl : 1 ≤ s.length := by
      cases s with
      | nil => simp [startsWith] at h1
      | cons _ _ => simp
    simp [substr, hl] at h
  rw [if_neg h1] at h
  have step : ∀ {b : Bool} {x : TokType × TVal} {y : R (TokType × TVal)},
      (if b = true then .ok x else y) = .error f → y = .error f := by
    intro b x y h
    cases b
    · simpa using h
    · simp at h
  have h := step (step (step (step (step (step h)))))
  cases h2 : int32TryParse s with
  | error e => rw [h2] at h; simp at h; subst h; exact int32TryParse_err h2
  | ok o =>
    rw [h2] at h
    cases o with
    | some i => simp at h
    | none =>
      cases h3 : doubleTryParse s with
      | error e => rw [h3] at h; simp at h; subst h; exact doubleTryParse_err h3
      | ok o =>
        rw [h3] at h
        cases o with
        | some i => simp at h
        | none =>
          have h := step (step (step (step h)))
          simp at h

theorem charAfterBackslash_err {c : Char} {f : Fail} (h : charAfterBackslash c = .error f) :
    f = .exn (.base (c!"Invalid character after backslash " ++ [c])) ∧ c ∉ ['n', 'r', 't', '\\'] := by
  have hfmt : format c!"Invalid character after backslash {0}" [c] =
      .ok (c!"Invalid character after backslash " ++ [c]) := by
    have h1 : replaceIn c!"Invalid character after backslash {0}" ['{', '0', '}'] [c] =
        (c!"Invalid character after backslash " ++ [c], true) := rfl
    have h2 : ∀ x : Char, findSub ['{', x, ','] (c!"Invalid character after backslash " ++ [c]) = none := by
      intro x; simp [findSub, List.isPrefixOf]
    have h3 : ∀ x : Char, findSub ['{', x, '}'] (c!"Invalid character after backslash " ++ [c]) = none := by
      intro x; simp [findSub, List.isPrefixOf]
    have h4 : ([c] == nullString) = false := by simp [nullString]
    have h5 : ∀ (x : Char) (e a : Str), formatArg e x a (c!"Invalid character after backslash " ++ [c]) =
        .ok (c!"Invalid character after backslash " ++ [c]) := by
      intro x e a
      simp only [formatArg, replaceIn, replaceInWithFill, h2, h3]
      rfl
    have h6 : ∀ e : Str, formatArg e '0' [c] c!"Invalid character after backslash {0}" =
        .ok (c!"Invalid character after backslash " ++ [c]) := by
      intro e
      simp only [formatArg, h1, h4, replaceInWithFill, h2]
      rfl
    simp only [format, h6, h5, bind_ok_R]
  unfold charAfterBackslash at h
  repeat (split at h; · simp at h)
  rename_i h1 h2 h3 h4
  rw [hfmt] at h
  simp [throwBase] at h
  exact ⟨h.symm, by simp [h1, h2, h3, h4]⟩

theorem lxStep_err {ch : Char} {rest : Str} {ls : LS} {f : Fail} (h : lxStep ch rest ls = .error f) :
    f = .exn .outOfRange ∨
      (f = .exn (.base (c!"Invalid character after backslash " ++ [ch])) ∧ ch ∉ ['n', 'r', 't', '\\']) := by
  have hc : ∀ {α β : Type} {x : R α} {g : α → β}, (x >>= fun a => (.ok (g a) : R β)) = .error f → x = .error f := by
    intro α β x g hx
    cases x with
    | error e => simpa using hx
    | ok a => simp at hx
  unfold lxStep at h
  split at h
  · split at h
    · simp at h
    · split at h
      · exact Or.inl (classify_err (hc h))
      · simp at h
  · split at h
    · split at h <;> simp at h
    · split at h
      · split at h
        · simp at h
        · split at h
          · cases h1 : classify ls.cur with
            | error e => rw [h1] at h; simp at h; subst h; exact Or.inl (classify_err h1)
            | ok a => rw [h1, bind_ok_R] at h; exact Or.inl (classify_err (hc h))
          · exact Or.inl (classify_err (hc h))
      · split at h
        · split at h
          · simp at h
          · split at h
            · cases h1 : classify ls.cur with
              | error e => rw [h1] at h; simp at h; subst h; exact Or.inl (classify_err h1)
              | ok a => rw [h1, bind_ok_R] at h; exact Or.inl (classify_err (hc h))
            · exact Or.inl (classify_err (hc h))
        · split at h
          · split at h
            · simp at h
            · split at h
              · exact Or.inl (classify_err (hc h))
              · exact Or.inl (classify_err (hc h))
          · split at h
            · split at h
              · simp at h
              · split at h
                · exact Or.inl (classify_err (hc h))
                · simp at h
            · cases hb : ls.bs
              · simp [hb] at h
              · simp only [hb, if_true] at h
                exact Or.inr (charAfterBackslash_err (hc h))

theorem lx_err (n : Nat) {s : Str} {ls : LS} {f : Fail} (hn : s.length ≤ n) (h : lx s ls = .error f) :
    f = .exn .outOfRange ∨ ∃ c ∈ s, c ∉ ['n', 'r', 't', '\\'] ∧
      f = .exn (.base (c!"Invalid character after backslash " ++ [c])) := by
  induction n generalizing s ls with
  | zero =>
    cases s with
    | nil =>
      rw [lx_nil] at h
      split at h
      · cases h1 : classify ls.cur with
        | error e => rw [h1] at h; simp at h; subst h; exact Or.inl (classify_err h1)
        | ok a => rw [h1] at h; simp at h
      · simp at h
    | cons c s => simp at hn
  | succ n ih =>
    cases s with
    | nil => exact ih (by simp) h
    | cons c s =>
      rw [lx_cons] at h
      cases h1 : lxStep c s ls with
      | error e =>
        rw [h1] at h; simp at h; subst h
        rcases lxStep_err h1 with h2 | h2
        · exact Or.inl h2
        · exact Or.inr ⟨c, by simp, h2.2, h2.1⟩
      | ok r =>
        obtain ⟨out, ls', skip⟩ := r
        rw [h1] at h
        simp only [bind_ok_R] at h
        cases h2 : lx (s.drop skip) ls' with
        | error e =>
          rw [h2] at h; simp at h; subst h
          rcases ih (by simp at hn ⊢; omega) h2 with h3 | ⟨d, h3, h4⟩
          · exact Or.inl h3
          · exact Or.inr ⟨d, by simp [List.mem_of_mem_drop h3], h4⟩
        | ok r => rw [h2] at h; simp at h

/-- C01: tokenizing any text with any offset ends with a token list, with the Lisp exception for an invalid escape
sequence (naming a character of the text), or with the library exception for a number that does not fit.  In particular there
is no undefined behaviour and the loop ends. -/
theorem C01_total (code : Str) (off : Int) :
    (∃ toks, tokenize code off = .ok toks) ∨
    (∃ c ∈ code, c ∉ ['n', 'r', 't', '\\'] ∧
      tokenize code off = .error (.exn (.base (c!"Invalid character after backslash " ++ [c])))) ∨
    tokenize code off = .error (.exn .outOfRange) := by
  have h := tokenize_kinds code off
  cases ht : tokenize code off with
  | ok toks => exact Or.inl ⟨toks, rfl⟩
  | error f =>
    rw [ht] at h
    simp [Except.map] at h
    rcases lx_err code.length (Nat.le_refl _) h.symm with h | ⟨c, h1, h2, h3⟩
    · exact Or.inr (Or.inr (by rw [h]))
    · exact Or.inr (Or.inl ⟨c, h1, h2, by rw [h3]⟩)

/-- C01: the three outcomes all occur. -/
theorem C01_outcomes :
    (∃ toks, tokenize c!"(+ a \"b\" 'c)" 0 = .ok toks) ∧
    tokenize c!"(a \\x)" 0 = .error (.exn (.base c!"Invalid character after backslash x")) ∧
    tokenize c!"12345678901" 0 = .error (.exn .outOfRange) :=
  ⟨⟨_, rfl⟩, rfl, rfl⟩

/-! ## C02 string literals -/

theorem tokenize_of_lx {code : Str} {ks : List (TokType × TVal)} (off : Int) (h : lx code {} = .ok ks) :
    ∃ toks, tokenize code off = .ok toks ∧ toks.map Token.kind = ks := by
  have h1 := tokenize_kinds code off
  rw [h] at h1
  cases ht : tokenize code off with
  | error f => rw [ht] at h1; simp [Except.map] at h1
  | ok toks => rw [ht] at h1; simp [Except.map] at h1; exact ⟨toks, rfl, h1⟩

theorem tokenize_of_lx_err {code : Str} {f : Fail} (off : Int) (h : lx code {} = .error f) :
    tokenize code off = .error f := by
  have h1 := tokenize_kinds code off
  rw [h] at h1
  cases ht : tokenize code off with
  | error f => rw [ht] at h1; simpa [Except.map] using h1
  | ok toks => rw [ht] at h1; simp [Except.map] at h1

/-- C02: the literal of any string is read as one string token with that value. -/
theorem C02_string_literal (s : Str) (off : Int) :
    ∃ t, tokenize ('"' :: escape s ++ ['"']) off = .ok [t] ∧ t.type = .string ∧ t.value = .str s := by
  obtain ⟨toks, h1, h2⟩ := tokenize_of_lx off (lx_str s [])
  obtain ⟨t, rfl, h2⟩ := List.map_eq_singleton_iff.1 h2
  simp [Token.kind] at h2
  exact ⟨t, h1, h2.1, h2.2⟩

theorem lx_plain_char {c : Char} {b a : Str} (h1 : c ≠ '\\') (h2 : c ≠ '"') :
    lx (c :: b) ⟨a, true, false, false⟩ = lx b ⟨a ++ [c], true, false, false⟩ := by
  have h := lx_str_acc [c] b a
  simpa [escape, h1, h2] using h

theorem lx_escaped {c d : Char} {b a : Str} (h : (c, d) ∈ [('n', '\n'), ('r', '\r'), ('t', '\t')]) :
    lx ('\\' :: c :: b) ⟨a, true, false, false⟩ = lx b ⟨a ++ [d], true, false, false⟩ := by
  have hstep : lx (c :: b) ⟨a, true, false, true⟩ = lx b ⟨a ++ [d], true, false, false⟩ := by
    rw [lx_cons]
    simp only [List.mem_cons, Prod.mk.injEq, List.not_mem_nil, or_false] at h
    rcases h with ⟨rfl, rfl⟩ | ⟨rfl, rfl⟩ | ⟨rfl, rfl⟩
    · simp [lxStep, show isSpace 'n' = false from rfl, charAfterBackslash]
      cases lx b ⟨a ++ ['\n'], true, false, false⟩ <;> rfl
    · simp [lxStep, show isSpace 'r' = false from rfl, charAfterBackslash]
      cases lx b ⟨a ++ ['\r'], true, false, false⟩ <;> rfl
    · simp [lxStep, show isSpace 't' = false from rfl, charAfterBackslash]
      cases lx b ⟨a ++ ['\t'], true, false, false⟩ <;> rfl
  rw [lx_cons]
  simp [lxStep, show isSpace '\\' = false from rfl, hstep]
  cases lx b ⟨a ++ [d], true, false, false⟩ <;> rfl

theorem lx_denotes {text s : Str} (h : StringText text s) (b : Str) : ∀ a : Str,
    lx (text ++ b) ⟨a, true, false, false⟩ = lx b ⟨a ++ s, true, false, false⟩ := by
  induction h with
  | nil => simp
  | plain h1 h2 _ ih => intro a; rw [List.cons_append, lx_plain_char h1 h2, ih]; simp
  | @backslash t s _ ih =>
    intro a
    have := lx_str_acc ['\\'] (t ++ b) a
    simp [escape] at this
    rw [List.cons_append, List.cons_append, this, ih]; simp
  | @quote t s _ ih =>
    intro a
    have := lx_str_acc ['"'] (t ++ b) a
    simp [escape] at this
    rw [List.cons_append, List.cons_append, this, ih]; simp
  | lineFeed _ ih => intro a; rw [List.cons_append, List.cons_append, lx_escaped (d := '\n') (by simp), ih]; simp
  | carriageReturn _ ih => intro a; rw [List.cons_append, List.cons_append, lx_escaped (d := '\r') (by simp), ih]; simp
  | tabulator _ ih => intro a; rw [List.cons_append, List.cons_append, lx_escaped (d := '\t') (by simp), ih]; simp

/-- C02: a literal, which may use the notations for line feed, carriage return and tabulator, is read as one string token with the string it
stands for as value. -/
theorem C02_escapes {text s : Str} (h : StringText text s) (off : Int) :
    ∃ t, tokenize ('"' :: text ++ ['"']) off = .ok [t] ∧ t.type = .string ∧ t.value = .str s := by
  have hl : lx ('"' :: text ++ ['"']) {} = .ok [(.string, .str s)] := by
    rw [List.cons_append, lx_cons]
    simp only [lxStep, show isSpace '"' = false from rfl]
    simp
    rw [lx_denotes h, lx_cons]
    have := classify_string s
    simp only [List.cons_append] at this
    simp [lxStep, show isSpace '"' = false from rfl, this]
    rfl
  obtain ⟨toks, h1, h2⟩ := tokenize_of_lx off hl
  obtain ⟨t, rfl, h2⟩ := List.map_eq_singleton_iff.1 h2
  simp [Token.kind] at h2
  exact ⟨t, h1, h2.1, h2.2⟩

example : StringText c!"a\\n\\\"\\r;" c!"a\n\"\r;" :=
  .plain (by decide) (by decide) <| .lineFeed <| .quote <| .carriageReturn <| .plain (by decide) (by decide) .nil

example : escape c!"a\";\\(\n" = c!"a\\\";\\\\(\n" := by decide

/-! ## C03 white space -/

/-- Types and values of the tokens of a text, the part of the result that does not depend on positions. -/
def kinds (code : Str) (off : Int) : R (List (TokType × TVal)) :=
  (tokenize code off).map fun l => l.map Token.kind

/-- C03: the token types and values of a text made of separated lexical elements are those of the elements one by one:
white space in front of them and at the end of the text does not matter (if an element raises an exception, the first
such exception is raised). -/
theorem C03_white_space {items : List (Str × Lexeme)} {trail : Str} (ht : ∀ c ∈ trail, White c)
    (h : Separated items trail) (off : Int) :
    kinds (render items ++ trail) off =
      (items.map Prod.snd).mapM (fun l => kinds l.source off) >>= fun ks => .ok ks.flatten := by
  have h1 : ∀ s, kinds s off = lx s {} := fun s => tokenize_kinds s off
  have h2 : lx trail {} = .ok [] := by
    have := lx_white ht []
    rw [List.append_nil] at this
    rw [this]; rfl
  have h3 : ∀ its : List (Str × Lexeme), (its.map Prod.snd).mapM (fun l => kinds l.source off) =
      its.mapM fun it => lx it.2.source {} := by
    intro its
    induction its with
    | nil => rfl
    | cons it its ih => simp [List.mapM_cons, ih, h1]; rfl
  rw [h1, lx_render h, h3, h2]
  cases (items.mapM fun it => lx it.2.source {}) <;> simp

/-- C03: two texts with the same lexical elements and different white space have the same token types and values. -/
theorem C03_same_tokens {items items' : List (Str × Lexeme)} {trail trail' : Str} (ht : ∀ c ∈ trail, White c)
    (ht' : ∀ c ∈ trail', White c) (h : Separated items trail) (h' : Separated items' trail')
    (hs : items.map Prod.snd = items'.map Prod.snd) (off off' : Int) :
    kinds (render items ++ trail) off = kinds (render items' ++ trail') off' := by
  have : kinds (render items' ++ trail') off' = kinds (render items' ++ trail') off := by
    unfold kinds; rw [tokenize_kinds, tokenize_kinds]
  rw [this, C03_white_space ht h, C03_white_space ht' h', hs]

example : Separated [(c!"", .opening), (c!"", .word c!"+"), (c!" ", .word c!"x"), (c!"", .closing)] c!"\n" := by
  simp [Separated, Lexeme.WF, Lexeme.Before, render, Lexeme.source, White, Plain]
example : Separated [(c!" ", .opening), (c!"\t", .word c!"+"), (c!"\n", .word c!"x"), (c!" ", .closing)] c!"" := by
  simp [Separated, Lexeme.WF, Lexeme.Before, render, Lexeme.source, White, Plain]

/-- C03, negative part: white space in front of a quote character does matter if a word precedes it: without it the
word is lost. -/
theorem C03_quote_after_word : kinds c!"a 'b" 0 = .ok [(.symbol, .str c!"a"), (.quote, .str c!"'"), (.symbol, .str c!"b")] ∧
    kinds c!"a'b" 0 = .ok [(.quote, .str c!"'"), (.symbol, .str c!"b")] := ⟨rfl, rfl⟩

/-! ## C04 comments -/

/-- C04: a non-empty comment that ends with a newline contributes one comment token; the tokens before and after it are
those of the text without it. -/
theorem C04_comment {items : List (Str × Lexeme)} {s : Str} (hs : s ≠ []) (hn : '\n' ∉ s) (rest : Str)
    (h : Separated items (';' :: s ++ '\n' :: rest)) (h0 : Separated items []) (off : Int) :
    kinds (render items ++ ';' :: s ++ '\n' :: rest) off = (do
      let before ← kinds (render items) off
      let after ← kinds rest off
      Except.ok (before ++ [(TokType.comment, TVal.str (';' :: s ++ ['\n']))] ++ after)) := by
  have h1 : ∀ s, kinds s off = lx s {} := fun s => tokenize_kinds s off
  have h2 := lx_render h0
  rw [List.append_nil] at h2
  rw [h1, h1, h1, List.append_assoc, lx_render h, lx_comment hs hn, h2]
  cases (items.mapM fun it => lx it.2.source {}) <;> simp
  rw [show lx [] ({} : LS) = .ok [] from rfl]
  cases lx rest {} <;> simp

example : Separated [(c!"", .opening), (c!"", .word c!"f")] c!"; note\n 1)" ∧
    Separated [(c!"", .opening), (c!"", .word c!"f")] [] := by
  simp [Separated, Lexeme.WF, Lexeme.Before, render, Lexeme.source, White, Plain]

/-- C04, negative part: an empty comment swallows the rest of the text. -/
theorem C04_empty_comment_wrong (rest : Str) (off : Int) :
    kinds (c!";\n" ++ rest) off = .ok [(.comment, .str (c!";\n" ++ rest))] := by
  have h : restOfLine ('\n' :: rest) = ('\n' :: rest, rest.length + 1) := by simp [restOfLine, findSub]
  rw [kinds, tokenize_kinds]
  simp only [List.cons_append, List.nil_append]
  rw [lx_cons]
  simp [lxStep, show isSpace ';' = false from rfl, h, classify_comment, lx_nil]

/-- C04, negative part: the text of a comment without a newline at its end is read as code. -/
theorem C04_unterminated_comment_wrong {s : Str} (hn : '\n' ∉ s) (off : Int) :
    kinds (';' :: s) off = (kinds s off).map ((.comment, .str c!";") :: ·) := by
  have h : restOfLine s = ([], 0) := by
    have : findSub ['\n'] s = none := by
      apply findSub_eq_none
      rintro k ⟨a, b, rfl, -⟩
      simp at hn
    simp [restOfLine, this]
  rw [kinds, tokenize_kinds, kinds, tokenize_kinds, lx_cons]
  simp [lxStep, show isSpace ';' = false from rfl, h, classify_comment]
  cases lx s {} <;> rfl

/-! ## C05 integer literals -/

theorem numeral_plain {num : Str} {i : Int} (h : Numeral num i) : num ≠ [] ∧ ∀ c ∈ num, Plain c := by
  have hd : ∀ c, Digit c → Plain c := by
    intro c hc
    refine ⟨digit_not_white hc, ?_⟩
    intro hm
    simp at hm
    simp only [Digit] at hc
    rcases hm with rfl | rfl | rfl | rfl | rfl | rfl | rfl | rfl <;> revert hc <;> decide
  obtain ⟨ds, h1, h2, h3⟩ := h
  rcases h3 with ⟨rfl, -⟩ | ⟨rfl, -⟩ | ⟨rfl, -⟩
  · exact ⟨h1, fun c hc => hd c (h2 c hc)⟩
  · refine ⟨by simp, fun c hc => ?_⟩
    simp at hc
    rcases hc with rfl | hc
    · decide
    · exact hd c (h2 c hc)
  · refine ⟨by simp, fun c hc => ?_⟩
    simp at hc
    rcases hc with rfl | hc
    · decide
    · exact hd c (h2 c hc)

theorem numeral_head {num : Str} {i : Int} (h : Numeral num i) : ∃ c t, num = c :: t ∧ (Digit c ∨ c = '+' ∨ c = '-') := by
  obtain ⟨ds, h1, h2, h3⟩ := h
  rcases h3 with ⟨rfl, -⟩ | ⟨rfl, -⟩ | ⟨rfl, -⟩
  · cases num with
    | nil => exact absurd rfl h1
    | cons c t => exact ⟨c, t, rfl, Or.inl (h2 c (by simp))⟩
  · exact ⟨_, _, rfl, Or.inr (Or.inl rfl)⟩
  · exact ⟨_, _, rfl, Or.inr (Or.inr rfl)⟩

theorem stoi_numeral {num : Str} {i : Int} (h : Numeral num i) :
    stoi num = if IsInt32 i then .ok (i, num.length) else .error (.exn .outOfRange) := by
  have h1 := strtol_numeral (ws := []) (rest := []) (by simp) h (by simp)
  simp only [List.nil_append, List.append_nil, List.length_nil, Nat.zero_add] at h1
  rw [stoi, cStr_eq (numeral_no_nul h), h1]

theorem classify_numeral {num : Str} {i : Int} (h : Numeral num i) :
    classify num = if IsInt32 i then .ok (.int, .int i) else .error (.exn .outOfRange) := by
  have hs := stoi_numeral h
  obtain ⟨c, t, rfl, hc⟩ := numeral_head h
  have hne : ∀ d ∈ ['"', '\'', '`', ',', '(', ')'], c ≠ d := by
    intro d hd
    simp at hd
    rcases hc with hc | rfl | rfl
    · simp only [Digit] at hc
      rintro rfl
      rcases hd with rfl | rfl | rfl | rfl | rfl | rfl <;> revert hc <;> decide
    · rcases hd with rfl | rfl | rfl | rfl | rfl | rfl <;> decide
    · rcases hd with rfl | rfl | rfl | rfl | rfl | rfl <;> decide
  simp at hne
  simp only [classify, startsWith, int32TryParse, hs]
  by_cases h32 : IsInt32 i <;> simp [h32, hne]

/-- C05: every decimal notation of a 32-bit integer is read as one integer token with that value. -/
theorem C05_int_literal {num : Str} {i : Int} (h : Numeral num i) (h32 : IsInt32 i) (off : Int) :
    ∃ t, tokenize num off = .ok [t] ∧ t.type = .int ∧ t.value = .int i := by
  obtain ⟨h1, h2⟩ := numeral_plain h
  have h3 := lx_word (b := []) h1 h2 (by simp)
  rw [List.append_nil, classify_numeral h, if_pos h32] at h3
  obtain ⟨toks, h4, h5⟩ := tokenize_of_lx off h3
  obtain ⟨t, rfl, h5⟩ := List.map_eq_singleton_iff.1 h5
  simp [Token.kind] at h5
  exact ⟨t, h4, h5.1, h5.2⟩

/-- C05: a decimal integer outside of the 32-bit range raises `std::out_of_range`. -/
theorem C05_int_literal_too_big {num : Str} {i : Int} (h : Numeral num i) (h32 : ¬ IsInt32 i) (off : Int) :
    tokenize num off = .error (.exn .outOfRange) := by
  obtain ⟨h1, h2⟩ := numeral_plain h
  have h3 := lx_word (b := []) h1 h2 (by simp)
  rw [List.append_nil, classify_numeral h, if_neg h32] at h3
  exact tokenize_of_lx_err off h3

/-- C05: the notation used for printing is such a notation. -/
theorem C05_printed_int (i : Int) : Numeral (intStr i) i := numeral_intStr i

example : Numeral c!"-0042" (-42) ∧ IsInt32 (-42) :=
  ⟨⟨c!"0042", by simp, by simp [Digit], Or.inr (Or.inr ⟨rfl, rfl⟩)⟩, by decide⟩
example : Numeral c!"2147483648" 2147483648 ∧ ¬ IsInt32 2147483648 :=
  ⟨⟨c!"2147483648", by simp, by simp [Digit], Or.inl ⟨rfl, by decide⟩⟩, by decide⟩

/-! ## C08 line numbers and positions -/

theorem count_escape (s : Str) : (escape s).count '\n' = s.count '\n' := by
  induction s with
  | nil => rfl
  | cons c s ih =>
    by_cases h : c = '\\' ∨ c = '"'
    · rcases h with rfl | rfl <;> simp [escape, ih]
    · simp [escape, h, List.count_cons, ih]

/-- Loop invariant behind `Located`: `i` is the index of the next character, `sp` the start of the next token. -/
structure LocFrom (code : Str) (off : Int) (i : Nat) (sp : Int) (toks : List Token) : Prop where
  line : ∀ t ∈ toks, (∃ q : Nat, i ≤ q ∧ q < code.length ∧ t.stop = q - off ∧ t.line = lineOf code q) ∨
    (toks.getLast? = some t ∧ t.stop = -1 - off ∧ t.line = lineOf code code.length)
  first : ∀ t ∈ toks, sp - off ≤ t.start
  starts : toks.Pairwise fun a b => a.start ≤ b.start
  stops : toks.Pairwise fun a b => a.stop ≤ b.stop ∨ b.stop = -1 - off

theorem locFrom_nil {code : Str} {off : Int} {i : Nat} {sp : Int} : LocFrom code off i sp [] := by
  constructor <;> simp

theorem LocFrom.weaken {code : Str} {off : Int} {i i' : Nat} {sp sp' : Int} {toks : List Token}
    (h : LocFrom code off i' sp' toks) (hi : i ≤ i') (hs : sp ≤ sp') : LocFrom code off i sp toks where
  line t ht := by
    rcases h.line t ht with ⟨q, h1, h2⟩ | h1
    · exact Or.inl ⟨q, by omega, h2⟩
    · exact Or.inr h1
  first t ht := by have := h.first t ht; omega
  starts := h.starts
  stops := h.stops

theorem LocFrom.cons {code : Str} {off : Int} {i q i' : Nat} {sp sp' : Int} {t : Token} {toks : List Token}
    (h : LocFrom code off i' sp' toks) (hi : i ≤ q) (hq : q < code.length) (hq' : q ≤ i') (h1 : t.stop = q - off)
    (h2 : t.line = lineOf code q) (h3 : t.start = sp - off) (h4 : sp ≤ sp') : LocFrom code off i sp (t :: toks) where
  line u hu := by
    simp at hu
    rcases hu with rfl | hu
    · exact Or.inl ⟨q, hi, hq, h1, h2⟩
    · rcases h.line u hu with ⟨r, h5, h6⟩ | ⟨h5, h6⟩
      · exact Or.inl ⟨r, by omega, h6⟩
      · refine Or.inr ⟨?_, h6⟩
        cases toks with
        | nil => simp at hu
        | cons a l => simpa using h5
  first u hu := by
    simp at hu
    rcases hu with rfl | hu
    · omega
    · have := h.first u hu; omega
  starts := by
    refine List.pairwise_cons.2 ⟨fun u hu => ?_, h.starts⟩
    have := h.first u hu; omega
  stops := by
    refine List.pairwise_cons.2 ⟨fun u hu => ?_, h.stops⟩
    rcases h.line u hu with ⟨r, h5, h6, h7, h8⟩ | ⟨h5, h6, h7⟩
    · exact Or.inl (by omega)
    · exact Or.inr h6

theorem lineOf_append (p s : Str) : lineOf (p ++ s) p.length = 1 + p.count '\n' := by
  simp [lineOf]

theorem addToken_eq (off : Int) (ts : TS) (text : Str) (pos line : Int) : addToken off ts text pos line =
    (classify text).map fun tv => (⟨tv.1, tv.2, ts.startPos - off, pos - off, line⟩,
      { ts with inSym := false, inStr := false, cur := [], startPos := pos + 1 }) := by
  simp only [addToken, mkToken]
  cases classify text <;> rfl

/-- Reading the inside of a string literal emits no token and counts the lines. -/
theorem tokLoop_str_acc (off : Int) (n : Nat) (s b : Str) (i : Int) (cur : Str) (sp ln : Int) (sy : Bool) :
    tokLoop off (n + (escape s).length) i (escape s ++ b) ⟨cur, sp, ln, true, sy, false⟩ =
      if ';' ∈ s then tokLoop off (n + (escape s).length) i (escape s ++ b) ⟨cur, sp, ln, true, sy, false⟩
      else tokLoop off n (i + (escape s).length) b ⟨cur ++ s, sp, ln + s.count '\n', true, sy, false⟩ := by
  induction s generalizing i cur ln with
  | nil => simp [escape]
  | cons c s ih =>
    by_cases hsemi : ';' ∈ c :: s
    · rw [if_pos hsemi]
    rw [if_neg hsemi]
    simp at hsemi
    have hadd : ∀ m k : Nat, tokLoop off (m + k + 1) = tokLoop off (m + (k + 1)) := fun m k => by rw [Nat.add_assoc]
    by_cases h : c = '\\' ∨ c = '"'
    · simp only [escape, if_pos h, List.append_assoc, List.cons_append, List.nil_append, List.length_cons]
      rw [show n + ((escape s).length + 1 + 1) = (n + (escape s).length) + 1 + 1 by omega, tokLoop]
      rw [show tokStep off i '\\' (c :: (escape s ++ b)) ⟨cur, sp, ln, true, sy, false⟩ =
        .ok ([], ⟨cur, sp, ln, true, sy, true⟩, 0) from rfl]
      simp only [bind_ok_R, List.drop_zero, List.nil_append]
      rw [tokLoop]
      have h2 : tokStep off (i + 1 + (0 : Nat)) c (escape s ++ b) ⟨cur, sp, ln, true, sy, true⟩ =
          .ok ([], ⟨cur ++ [c], sp, ln, true, sy, false⟩, 0) := by
        rcases h with rfl | rfl <;> rfl
      rw [h2]
      simp only [bind_ok_R, List.drop_zero, List.nil_append]
      have hc : (c :: s).count '\n' = s.count '\n' := by rcases h with rfl | rfl <;> simp
      rw [ih, if_neg (by simp [hsemi]), hc]
      have hi : i + 1 + ((0 : Nat) : Int) + 1 + ((0 : Nat) : Int) + ((escape s).length : Int) =
          i + (((escape s).length + 1 + 1 : Nat) : Int) := by omega
      rw [hi]
      simp
      cases tokLoop off n (i + ((escape s).length + 1 + 1)) b
        { cur := cur ++ c :: s, startPos := sp, line := ln + s.count '\n', inStr := true, inSym := sy } <;> rfl
    · simp only [escape, if_neg h, List.append_assoc, List.cons_append, List.nil_append, List.length_cons]
      rw [show n + ((escape s).length + 1) = (n + (escape s).length) + 1 by omega, tokLoop]
      simp at h
      have h2 : tokStep off i c (escape s ++ b) ⟨cur, sp, ln, true, sy, false⟩ =
          .ok ([], ⟨cur ++ [c], sp, ln + [c].count '\n', true, sy, false⟩, 0) := by
        unfold tokStep
        by_cases h1 : isSpace c = true
        · rw [if_pos h1]
          by_cases h3 : c = '\n' <;> simp [h3]
        have h0 : c ≠ '\n' := by rintro rfl; exact h1 rfl
        by_cases h3 : c = '(' ∨ c = ')'
        · rw [if_neg h1, if_neg h.1, if_pos h3]
          simp [h0]
        have h4 : c ≠ ';' := fun h => hsemi.1 h.symm
        by_cases h5 : c = '\'' ∨ c = '`' ∨ c = ','
        · rw [if_neg h1, if_neg h.1, if_neg h3, if_neg h4, if_pos h5]
          simp [h0]
        · rw [if_neg h1, if_neg h.1, if_neg h3, if_neg h4, if_neg h5, if_neg h.2]
          cases sy <;> simp [h0]
      rw [h2]
      simp only [bind_ok_R, List.drop_zero, List.nil_append]
      rw [ih, if_neg (by simp [hsemi])]
      have hi : i + 1 + ((0 : Nat) : Int) + ((escape s).length : Int) = i + (((escape s).length + 1 : Nat) : Int) := by omega
      have hc : ln + (([c].count '\n' : Nat) : Int) + ((s.count '\n' : Nat) : Int) = ln + (((c :: s).count '\n' : Nat) : Int) := by
        simp only [List.count_cons, List.count_nil]
        omega
      rw [hi, hc]
      simp
      generalize tokLoop off n _ b _ = r
      cases r <;> rfl

theorem regular_cons {c : Char} {t : Str} (h : Regular (c :: t)) (hc : c ∉ [';', '"']) : Regular t := by
  simp at hc
  generalize hx : c :: t = x at h
  cases h with
  | done => simp at hx
  | char h1 h2 => simp at hx; rw [hx.2]; exact h2
  | str h1 h2 => simp at hx; exact absurd hx.1 hc.2
  | unterminated h1 => simp at hx; exact absurd hx.1 hc.2
  | comment h1 h2 h3 => simp at hx; exact absurd hx.1 hc.1

theorem locFrom_loop (m : Nat) {s : Str} (hm : s.length ≤ m) (hr : Regular s) (off : Int) (n : Nat) (hn : s.length < n)
    (p : Str) (ts : TS) (h1 : ts.inStr = false) (h2 : ts.bs = false) (h3 : ts.line = 1 + (p.count '\n' : Nat))
    (h4 : ts.startPos ≤ p.length) {toks : List Token} (h : tokLoop off n p.length s ts = .ok toks) :
    LocFrom (p ++ s) off p.length ts.startPos toks := by
  induction m generalizing s n p ts toks with
  | zero =>
    obtain rfl : s = [] := by cases s with | nil => rfl | cons _ _ => simp at hm
    obtain ⟨n, rfl⟩ : ∃ k, n = k + 1 := ⟨n - 1, by omega⟩
    simp only [tokLoop, addToken_eq] at h
    split at h
    · cases hc : classify ts.cur with
      | error f => rw [hc] at h; simp [Except.map] at h
      | ok tv =>
        rw [hc] at h
        simp [Except.map] at h
        subst h
        constructor <;> simp [lineOf, h3]
    · simp at h; subst h; exact locFrom_nil
  | succ m ih =>
    obtain ⟨n, rfl⟩ : ∃ k, n = k + 1 := ⟨n - 1, by omega⟩
    -- continuing after a step that consumed `c` and `skip` more characters
    have next : ∀ {c : Char} {t : Str} {skip : Nat} {ts' : TS} {more : List Token}, (c :: t).length ≤ m + 1 →
        (c :: t).length < n + 1 → skip ≤ t.length → Regular (t.drop skip) → ts'.inStr = false → ts'.bs = false →
        ts'.line = 1 + ((p ++ c :: t.take skip).count '\n' : Nat) → ts'.startPos ≤ p.length + 1 + skip →
        tokLoop off n (p.length + 1 + skip) (t.drop skip) ts' = .ok more →
        LocFrom (p ++ c :: t) off (p.length + 1 + skip) ts'.startPos more := by
      intro c t skip ts' more a1 a2 a3 a4 a5 a6 a7 a8 a9
      have hl : (p ++ c :: t.take skip).length = p.length + 1 + skip := by simp; omega
      have := ih (s := t.drop skip) (by simp at a1 ⊢; omega) a4 n (by simp at a2 ⊢; omega) (p ++ c :: t.take skip) ts' a5 a6 a7
        (by rw [hl]; simpa using a8) (by rw [hl]; simpa using a9)
      rw [hl] at this
      simpa using this
    cases hr with
    | done => exact ih (by simp) .done (n + 1) hn p ts h1 h2 h3 h4 h
    | @char c t hc ht =>
      simp at hc
      rw [tokLoop] at h
      cases hs : tokStep off p.length c t ts with
      | error f => rw [hs] at h; simp at h
      | ok r =>
        obtain ⟨out, ts', skip⟩ := r
        rw [hs] at h
        simp only [bind_ok_R] at h
        cases hmore : tokLoop off n (p.length + 1 + skip) (t.drop skip) ts' with
        | error f => rw [hmore] at h; simp at h
        | ok more =>
          rw [hmore] at h
          simp at h
          subst h
          obtain ⟨cur, sp, ln, inStr, inSym, bs⟩ := ts
          simp only at h1 h2 h3 h4 ⊢
          subst h1 h2
          have hlen : p.length < (p ++ c :: t).length := by simp
          have hline : ln = lineOf (p ++ c :: t) p.length := by rw [lineOf_append, h3]; simp
          unfold tokStep at hs
          by_cases hw : isSpace c = true
          · rw [if_pos hw] at hs
            have hcnt : ((p ++ [c]).count '\n' : Int) = p.count '\n' + (if c = '\n' then 1 else 0) := by
              simp only [List.count_append, List.count_cons, List.count_nil]
              by_cases hn : c = '\n' <;> simp [hn]
            cases inSym
            · simp at hs
              obtain ⟨rfl, rfl, rfl⟩ := hs
              have := next (skip := 0) hm hn (by simp) (by simpa using ht) (by split <;> rfl) (by split <;> rfl)
                (by simp only [List.take_zero]
                    have := hcnt
                    by_cases hn : c = '\n' <;> simp [hn] at this ⊢ <;> omega)
                (by have : (if c = '\n' then ({ cur := cur, startPos := sp, line := ln + 1, inStr := false, inSym := false } : TS)
                      else { cur := cur, startPos := sp, line := ln, inStr := false, inSym := false }).startPos = sp := by
                      split <;> rfl
                    rw [this]; omega) hmore
              refine this.weaken (by omega) ?_
              split <;> simp
            · simp only [addToken_eq] at hs
              cases hcl : classify cur with
              | error f => rw [hcl] at hs; simp [Except.map] at hs
              | ok tv =>
                rw [hcl] at hs
                simp [Except.map] at hs
                obtain ⟨rfl, rfl, rfl⟩ := hs
                have := next (skip := 0) hm hn (by simp) (by simpa using ht) (by split <;> rfl) (by split <;> rfl)
                  (by simp only [List.take_zero]
                      have := hcnt
                      by_cases hn : c = '\n' <;> simp [hn] at this ⊢ <;> omega)
                  (by split <;> simp) hmore
                refine this.cons (q := p.length) (by omega) hlen (by omega) rfl hline rfl ?_
                split <;> simp <;> omega
          have hnl : c ≠ '\n' := by rintro rfl; exact hw rfl
          rw [if_neg hw, if_neg hc.2.2] at hs
          by_cases hb : c = '(' ∨ c = ')'
          · rw [if_pos hb] at hs
            cases inSym
            · simp only [addToken_eq] at hs
              cases hcl : classify [c] with
              | error f => rw [hcl] at hs; simp [Except.map] at hs
              | ok tv =>
                rw [hcl] at hs
                simp [Except.map] at hs
                obtain ⟨rfl, rfl, rfl⟩ := hs
                have := next (skip := 0) hm hn (by simp) (by simpa using ht) rfl rfl (by simp [h3, hnl]) (by simp) hmore
                exact this.cons (q := p.length) (by omega) hlen (by omega) rfl hline rfl (by simp; omega)
            · simp only [addToken_eq] at hs
              cases hcl0 : classify cur with
              | error f => rw [hcl0] at hs; simp [Except.map] at hs
              | ok tv0 =>
                rw [hcl0] at hs
                cases hcl : classify [c] with
                | error f => rw [hcl] at hs; simp [Except.map] at hs
                | ok tv =>
                  rw [hcl] at hs
                  simp [Except.map] at hs
                  obtain ⟨rfl, rfl, rfl⟩ := hs
                  have := next (skip := 0) hm hn (by simp) (by simpa using ht) rfl rfl (by simp [h3, hnl]) (by simp) hmore
                  have := this.cons (i := p.length) (q := p.length) (sp := p.length + 1)
                    (t := ⟨tv.1, tv.2, p.length + 1 - off, p.length - off, ln⟩) (by omega) hlen (by omega) rfl hline
                    (by simp) (by simp)
                  exact this.cons (q := p.length) (by omega) hlen (by omega) rfl hline rfl (by omega)
          rw [if_neg hb, if_neg hc.1] at hs
          by_cases hq : c = '\'' ∨ c = '`' ∨ c = ','
          · rw [if_pos hq] at hs
            by_cases hat : t.head? = some '@'
            · simp only [hat, addToken_eq] at hs
              cases hcl : classify [c, '@'] with
              | error f => rw [hcl] at hs; simp [Except.map] at hs
              | ok tv =>
                rw [hcl] at hs
                simp [Except.map] at hs
                obtain ⟨rfl, rfl, rfl⟩ := hs
                cases t with
                | nil => simp at hat
                | cons a t =>
                  simp at hat
                  subst hat
                  have := next (skip := 1) hm hn (by simp) (by simpa using regular_cons ht (by decide)) rfl rfl
                    (by simp [h3, hnl]) (by simp) hmore
                  refine this.cons (q := p.length + 1) (by omega) (by simp) (by omega) (by simp) ?_ rfl (by simp; omega)
                  rw [hline, lineOf, lineOf]
                  simp [List.take_append, hnl, List.take_of_length_le]
            · simp only [hat, addToken_eq] at hs
              cases hcl : classify [c] with
              | error f => rw [hcl] at hs; simp [Except.map] at hs
              | ok tv =>
                rw [hcl] at hs
                simp [Except.map] at hs
                obtain ⟨rfl, rfl, rfl⟩ := hs
                have := next (skip := 0) hm hn (by simp) (by simpa using ht) rfl rfl (by simp [h3, hnl]) (by simp) hmore
                exact this.cons (q := p.length) (by omega) hlen (by omega) rfl hline rfl (by simp; omega)
          rw [if_neg hq, if_neg hc.2.1] at hs
          have hs' : out = [] ∧ ts' = ⟨cur ++ [c], sp, ln, false, true, false⟩ ∧ skip = 0 := by
            cases inSym <;> simp at hs <;> exact ⟨hs.1, hs.2.1.symm, hs.2.2.symm⟩
          obtain ⟨rfl, rfl, rfl⟩ := hs'
          have := next (skip := 0) hm hn (by simp) (by simpa using ht) rfl rfl (by simp [h3, hnl]) (by simp; omega) hmore
          exact this.weaken (by omega) (by simp)
    | @str b t hb ht =>
      obtain ⟨cur, sp, ln, inStr, inSym, bs⟩ := ts
      simp only at h1 h2 h3 h4 ⊢
      subst h1 h2
      obtain ⟨k, rfl⟩ : ∃ k, n = k + 1 + (escape b).length := ⟨n - 1 - (escape b).length, by simp at hn; omega⟩
      rw [List.cons_append, tokLoop] at h
      rw [show tokStep off p.length '"' (escape b ++ '"' :: t) ⟨cur, sp, ln, false, inSym, false⟩ =
        .ok ([], ⟨[], sp, ln, true, inSym, false⟩, 0) from rfl] at h
      simp only [bind_ok_R, List.drop_zero, List.nil_append] at h
      rw [tokLoop_str_acc, if_neg hb, tokLoop] at h
      have hstep : ∀ i : Int, tokStep off i '"' t ⟨b, sp, ln + b.count '\n', true, inSym, false⟩ =
          .ok ([⟨.string, .str b, sp - off, i - off, ln + b.count '\n'⟩],
            ⟨[], i + 1, ln + b.count '\n', false, false, false⟩, 0) := by
        intro i
        have := classify_string b
        simp only [List.cons_append] at this
        simp [tokStep, show isSpace '"' = false from rfl, addToken_eq, this, Except.map]
      simp only [List.nil_append, hstep, bind_ok_R, List.drop_zero] at h
      generalize hmore : tokLoop off k _ t _ = r at h
      cases r with
      | error f => simp at h
      | ok more =>
        simp at h
        subst h
        have hp : (p ++ '"' :: escape b ++ ['"']).length = p.length + 1 + (escape b).length + 1 := by simp; omega
        have hi : (p.length : Int) + 1 + ((0 : Nat) : Int) + ((escape b).length : Int) + 1 + ((0 : Nat) : Int) =
            ((p ++ '"' :: escape b ++ ['"']).length : Int) := by rw [hp]; omega
        rw [hi] at hmore
        have hcount : (p ++ '"' :: escape b).count '\n' = p.count '\n' + b.count '\n' := by
          simp [count_escape]
        have := ih (s := t) (by simp at hm; omega) ht k (by simp at hn; omega) (p ++ '"' :: escape b ++ ['"']) _ rfl rfl
          (by rw [List.count_append, hcount]; simp; omega) (by rw [hp]; simp) hmore
        have hpe : p ++ '"' :: escape b ++ ['"'] ++ t = p ++ ('"' :: escape b ++ '"' :: t) := by simp
        rw [hpe] at this
        refine this.cons (q := p.length + 1 + (escape b).length) (by omega) (by simp; omega) (by simp; omega) ?_ ?_ rfl ?_
        · simp
        · have : p.length + 1 + (escape b).length = (p ++ '"' :: escape b).length := by simp; omega
          rw [this, show p ++ ('"' :: escape b ++ '"' :: t) = (p ++ '"' :: escape b) ++ '"' :: t by simp, lineOf_append, hcount]
          simp; omega
        · simp; omega
    | @unterminated b hb =>
      obtain ⟨cur, sp, ln, inStr, inSym, bs⟩ := ts
      simp only at h1 h2 h3 h4 ⊢
      subst h1 h2
      obtain ⟨k, rfl⟩ : ∃ k, n = k + 1 + (escape b).length := ⟨n - 1 - (escape b).length, by simp at hn; omega⟩
      rw [tokLoop] at h
      rw [show tokStep off p.length '"' (escape b) ⟨cur, sp, ln, false, inSym, false⟩ =
        .ok ([], ⟨[], sp, ln, true, inSym, false⟩, 0) from rfl] at h
      simp only [bind_ok_R, List.drop_zero, List.nil_append] at h
      have hacc := tokLoop_str_acc off (k + 1) b [] (p.length + 1 + ((0 : Nat) : Int)) [] sp ln inSym
      rw [List.append_nil, if_neg hb] at hacc
      rw [hacc] at h
      simp only [tokLoop, addToken_eq, List.nil_append] at h
      split at h
      · cases hc : classify b with
        | error f => rw [hc] at h; simp [Except.map] at h
        | ok tv =>
          rw [hc] at h
          simp [Except.map] at h
          subst h
          have hcount : (p ++ '"' :: escape b).count '\n' = p.count '\n' + b.count '\n' := by
            simp [count_escape]
          constructor
          · intro t ht
            simp at ht
            subst ht
            refine Or.inr ⟨rfl, rfl, ?_⟩
            rw [lineOf, List.take_length, hcount]
            simp; omega
          · intro t ht
            simp at ht
            subst ht
            simp
          · simp
          · simp
      · simp at h; subst h; exact locFrom_nil
    | @comment b t hb hb' ht =>
      obtain ⟨cur, sp, ln, inStr, inSym, bs⟩ := ts
      simp only at h1 h2 h3 h4 ⊢
      subst h1 h2
      rw [List.cons_append, tokLoop] at h
      have hline : ln = lineOf (p ++ (';' :: b ++ '\n' :: t)) p.length := by rw [lineOf_append, h3]; simp
      have hc := classify_comment (b ++ ['\n'])
      have hcb : b.count '\n' = 0 := List.count_eq_zero.2 hb'
      have hp : (p ++ ';' :: b ++ ['\n']).length = p.length + 1 + (b.length + 1) := by simp; omega
      have hdrop : (b ++ '\n' :: t).drop (b.length + 1) = t := by simp
      cases inSym
      · have hstep : tokStep off p.length ';' (b ++ '\n' :: t) ⟨cur, sp, ln, false, false, false⟩ =
            .ok ([⟨.comment, .str (';' :: (b ++ ['\n'])), sp - off, p.length - off, ln⟩],
              ⟨[], p.length + 1, ln + 1, false, false, false⟩, b.length + 1) := by
          simp [tokStep, show isSpace ';' = false from rfl, processComment, restOfLine_spec hb hb', addToken_eq, hc, Except.map]
        simp only [hstep, bind_ok_R, hdrop] at h
        generalize hmore : tokLoop off n _ t _ = r at h
        cases r with
        | error f => simp at h
        | ok more =>
          simp at h
          subst h
          have hi : (p.length : Int) + 1 + ((b.length + 1 : Nat) : Int) = ((p ++ ';' :: b ++ ['\n']).length : Int) := by
            rw [hp]; omega
          rw [hi] at hmore
          have := ih (s := t) (by simp at hm; omega) ht n (by simp at hn; omega) (p ++ ';' :: b ++ ['\n']) _ rfl rfl
            (by simp [hcb, h3]; omega) (by rw [hp]; simp; omega) hmore
          rw [show p ++ ';' :: b ++ ['\n'] ++ t = p ++ (';' :: b ++ '\n' :: t) by simp] at this
          exact this.cons (q := p.length) (by omega) (by simp) (by simp) rfl hline rfl (by simp; omega)
      · cases hcl0 : classify cur with
        | error f =>
          have hstep : tokStep off p.length ';' (b ++ '\n' :: t) ⟨cur, sp, ln, false, true, false⟩ = .error f := by
            simp [tokStep, show isSpace ';' = false from rfl, addToken_eq, hcl0, Except.map]
          simp only [hstep, bind_error_R] at h
          simp at h
        | ok tv0 =>
          have hstep : tokStep off p.length ';' (b ++ '\n' :: t) ⟨cur, sp, ln, false, true, false⟩ =
              .ok ([⟨tv0.1, tv0.2, sp - off, p.length - off, ln⟩,
                ⟨.comment, .str (';' :: (b ++ ['\n'])), p.length + 1 - off, p.length - off, ln⟩],
                ⟨[], p.length + 1, ln + 1, false, false, false⟩, b.length + 1) := by
            simp [tokStep, show isSpace ';' = false from rfl, processComment, restOfLine_spec hb hb', addToken_eq, hc, hcl0,
              Except.map]
          simp only [hstep, bind_ok_R, hdrop] at h
          generalize hmore : tokLoop off n _ t _ = r at h
          cases r with
          | error f => simp at h
          | ok more =>
            simp at h
            subst h
            have hi : (p.length : Int) + 1 + ((b.length + 1 : Nat) : Int) = ((p ++ ';' :: b ++ ['\n']).length : Int) := by
              rw [hp]; omega
            rw [hi] at hmore
            have := ih (s := t) (by simp at hm; omega) ht n (by simp at hn; omega) (p ++ ';' :: b ++ ['\n']) _ rfl rfl
              (by simp [hcb, h3]; omega) (by rw [hp]; simp; omega) hmore
            rw [show p ++ ';' :: b ++ ['\n'] ++ t = p ++ (';' :: b ++ '\n' :: t) by simp] at this
            have := this.cons (i := p.length) (q := p.length) (sp := p.length + 1)
              (t := ⟨.comment, .str (';' :: (b ++ ['\n'])), p.length + 1 - off, p.length - off, ln⟩) (by omega) (by simp)
              (by simp) rfl hline (by simp) (by simp)
            exact this.cons (q := p.length) (by omega) (by simp) (by simp) rfl hline rfl (by omega)

/-- C08: in every text without semicolons inside of string literals (and whose comments are non-empty and end with a
newline) each token carries the line on which it ends, and positions do not decrease from token to token. -/
theorem C08_positions {code : Str} (hr : Regular code) (off : Int) {toks : List Token} (h : tokenize code off = .ok toks) :
    Located code off toks := by
  have := locFrom_loop code.length (Nat.le_refl _) hr off (code.length + 1) (by omega) [] {} rfl rfl (by simp) (by simp) h
  refine ⟨fun t ht => ?_, this.starts, this.stops⟩
  rcases this.line t ht with ⟨q, _, h1, h2, h3⟩ | h1
  · exact Or.inl ⟨q, h1, h2, h3⟩
  · exact Or.inr h1

example : Regular c!"(f ; c\n \"x\ny\" z)" :=
  .char (by decide) (.char (by decide) (.char (by decide) (.comment (s := c!" c") (by decide) (by decide)
    (.char (by decide) (.str (s := c!"x\ny") (by decide) (.char (by decide) (.char (by decide) (.char (by decide) .done))))))))

example : (tokenize c!"(f ; c\n \"x\ny\" z)" 0).map (fun l => l.map fun t => (t.start, t.stop, t.line)) =
    .ok [(0, 0, 1), (1, 2, 1), (3, 3, 1), (4, 12, 3), (13, 15, 3), (16, 15, 3)] := rfl

/-- C08, negative part: a semicolon inside of a string literal is counted as a line end. -/
theorem C08_semicolon_in_string_wrong :
    (tokenize c!"\"a;b\" x" 0).map (fun l => l.map fun t => t.line) = .ok [2, 2] := rfl

end Fuel
