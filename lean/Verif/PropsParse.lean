import Verif.LemFloat
import Verif.PropsTok
import Verif.Demo
/-!
# Properties of the parser (C06, C07)
-/

set_option linter.unusedSectionVars false
set_option linter.unusedSimpArgs false

namespace Fuel

open Spec

variable [World]

/-! ## C06 reading s-expressions -/

/-- Type and value of the token of a quote character. -/
def prefixKind : Prefix → TokType × TVal
  | .quote => (.quote, .str c!"'")
  | .quasi => (.quasiQuote, .str c!"`")
  | .unquote => (.unQuote, .str c!",")
  | .splice => (.unQuoteSplicing, .str c!",@")

mutual
/-- Types and values of the tokens of an s-expression. -/
def sexpKinds : Sexp → List (TokType × TVal)
  | .int i => [(.int, .int i)]
  | .str s => [(.string, .str s)]
  | .sym s => [(.symbol, .str s)]
  | .bool b => [(if b then .true_ else .false_, .bool b)]
  | .nil => [(.nil, .int 0)]
  | .float t => match World.dStod t with
    | some d => [(.double, .dbl d)]
    | none => []
  | .pre k x => prefixKind k :: sexpKinds x
  | .list l => (.listStart, .str c!"(") :: (sexpsKinds l ++ [(.listEnd, .str c!")")])
/-- The same for several s-expressions. -/
def sexpsKinds : List Sexp → List (TokType × TVal)
  | [] => []
  | x :: l => sexpKinds x ++ sexpsKinds l
end

theorem lx_source_word {s : Str} {kv : TokType × TVal} (h1 : s ≠ []) (h2 : ∀ c ∈ s, Plain c) (h3 : classify s = .ok kv) :
    lx s {} = .ok [kv] := by
  have := lx_word (b := []) h1 h2 (by simp)
  rw [List.append_nil, h3] at this
  rw [this]; rfl

theorem mapM_append_ok {α β : Type} {f : α → R β} {a b : List α} {x y : List β} (h1 : a.mapM f = .ok x)
    (h2 : b.mapM f = .ok y) : (a ++ b).mapM f = .ok (x ++ y) := by
  rw [List.mapM_append, h1, h2]; rfl

mutual
theorem sexp_mapM (x : Sexp) (h : x.WF) : ∃ ks, x.lexemes.mapM (fun l => lx l.source {}) = .ok ks ∧ ks.flatten = sexpKinds x := by
  match x with
  | .int i =>
    have h1 := numeral_plain (numeral_intStr i)
    have h2 := lx_source_word (kv := (.int, .int i)) h1.1 h1.2 (by rw [classify_numeral (numeral_intStr i)]; exact if_pos h)
    exact ⟨[[(.int, .int i)]], by simp [Sexp.lexemes, Lexeme.source, h2]; rfl, by simp [sexpKinds]⟩
  | .str s =>
    have h2 := lx_str s []
    rw [show lx [] ({} : LS) = .ok [] from rfl] at h2
    exact ⟨[[(.string, .str s)]], by simp [Sexp.lexemes, Lexeme.source]; simp at h2; rw [h2]; rfl, by simp [sexpKinds]⟩
  | .sym s =>
    have h2 := lx_source_word (kv := (.symbol, .str s)) h.1 h.2.1 (classify_symbol h)
    exact ⟨[[(.symbol, .str s)]], by simp [Sexp.lexemes, Lexeme.source, h2]; rfl, by simp [sexpKinds]⟩
  | .bool b => exact ⟨[[(if b then .true_ else .false_, .bool b)]], by cases b <;> rfl, by simp [sexpKinds]⟩
  | .nil => exact ⟨[[(.nil, .int 0)]], rfl, by simp [sexpKinds]⟩
  | .float t =>
    obtain ⟨d, h⟩ := h
    have h2 := lx_source_word (kv := (.double, .dbl d)) h.word.1 (fun c hc => (h.word.2 c hc).1) (classify_float h)
    exact ⟨[[(.double, .dbl d)]], by simp [Sexp.lexemes, Lexeme.source, h2]; rfl, by simp [sexpKinds, h.value]⟩
  | .pre k x =>
    obtain ⟨ks, h1, h2⟩ := sexp_mapM x h.1
    have ho : lx k.lexeme.source ({} : LS) = .ok [prefixKind k] := by cases k <;> rfl
    exact ⟨[prefixKind k] :: ks, by rw [Sexp.lexemes, List.mapM_cons, ho, h1]; rfl, by simp [sexpKinds, h2]⟩
  | .list l =>
    obtain ⟨ks, h1, h2⟩ := sexps_mapM l h
    have ho : lx Lexeme.opening.source ({} : LS) = .ok [(.listStart, .str c!"(")] := rfl
    have hc : [Lexeme.closing].mapM (fun l => lx l.source {}) = .ok [[(.listEnd, .str c!")")]] := rfl
    refine ⟨[(.listStart, .str c!"(")] :: (ks ++ [[(.listEnd, .str c!")")]]), ?_, ?_⟩
    · rw [Sexp.lexemes, List.mapM_cons, ho, mapM_append_ok h1 hc]
      rfl
    · simp [sexpKinds, h2]
theorem sexps_mapM (l : List Sexp) (h : Sexp.WFs l) :
    ∃ ks, (Sexp.lexemess l).mapM (fun l => lx l.source {}) = .ok ks ∧ ks.flatten = sexpsKinds l := by
  match l with
  | [] => exact ⟨[], rfl, rfl⟩
  | x :: l =>
    obtain ⟨k1, h1, h2⟩ := sexp_mapM x h.1
    obtain ⟨k2, h3, h4⟩ := sexps_mapM l h.2
    exact ⟨k1 ++ k2, by rw [Sexp.lexemess]; exact mapM_append_ok h1 h3, by simp [sexpsKinds, h2, h4]⟩
end

mutual
/-- Parsing the tokens of an s-expression inside of an open list. -/
theorem parse_sexp (module : Str) (last : Option Token) (top : Bool) (x : Sexp) (hx : x.WF) (toks : List Token)
    (hk : toks.map Token.kind = sexpKinds x) (n : Nat) (rest : List Token) (cur : List Sx) (st : List (List Sx)) :
    ∃ y m, n ≤ m ∧ Reads x y ∧ parseLoop module last (n + toks.length) top (toks ++ rest) (cur :: st) =
      parseLoop module last m top rest ((cur ++ [y]) :: st) := by
  match x with
  | .int i =>
    obtain ⟨t, rfl, h⟩ := List.map_eq_singleton_iff.1 hk
    simp [Token.kind] at h
    exact ⟨.atom t, n, Nat.le_refl _, .int h.1 h.2, by simp [parseLoop, h.1, pushTop]⟩
  | .str s =>
    obtain ⟨t, rfl, h⟩ := List.map_eq_singleton_iff.1 hk
    simp [Token.kind] at h
    exact ⟨.atom t, n, Nat.le_refl _, .str h.1 h.2, by simp [parseLoop, h.1, pushTop]⟩
  | .sym s =>
    obtain ⟨t, rfl, h⟩ := List.map_eq_singleton_iff.1 hk
    simp [Token.kind] at h
    exact ⟨.atom t, n, Nat.le_refl _, .sym h.1 h.2, by simp [parseLoop, h.1, pushTop]⟩
  | .bool b =>
    obtain ⟨t, rfl, h⟩ := List.map_eq_singleton_iff.1 hk
    simp [Token.kind] at h
    exact ⟨.atom t, n, Nat.le_refl _, .bool h.1 h.2, by cases b <;> simp at h <;> simp [parseLoop, h.1, pushTop]⟩
  | .nil =>
    obtain ⟨t, rfl, h⟩ := List.map_eq_singleton_iff.1 hk
    simp [Token.kind] at h
    exact ⟨.atom t, n, Nat.le_refl _, .nil h.1, by simp [parseLoop, h.1, pushTop]⟩
  | .float s =>
    obtain ⟨d, hd⟩ := hx
    simp only [sexpKinds, hd.value] at hk
    obtain ⟨t, rfl, h⟩ := List.map_eq_singleton_iff.1 hk
    simp [Token.kind] at h
    exact ⟨.atom t, n, Nat.le_refl _, .float hd.value h.1 h.2, by simp [parseLoop, h.1, pushTop]⟩
  | .pre k x =>
    rw [sexpKinds] at hk
    obtain ⟨t, ts, rfl, h1, h2⟩ := List.map_eq_cons_iff.1 hk
    obtain ⟨y, hr, hp⟩ := parse_alone module last x hx.1 hx.2 ts h2 (n + ts.length) (by omega) rest
    refine ⟨.list [.sym k.word, y], n + ts.length, by omega, .pre hr, ?_⟩
    rw [List.length_cons, show n + (ts.length + 1) = (n + ts.length) + 1 by omega, List.cons_append, parseLoop.eq_def]
    cases k <;> simp [prefixKind, Token.kind] at h1 <;> simp [h1.1, hp, pushTop] <;> rfl
  | .list l =>
    rw [sexpKinds] at hk
    obtain ⟨t, ts, rfl, h1, h2⟩ := List.map_eq_cons_iff.1 hk
    obtain ⟨a, b, rfl, h3, h4⟩ := List.map_eq_append_iff.1 h2
    obtain ⟨t', rfl, h5⟩ := List.map_eq_singleton_iff.1 h4
    simp [Token.kind] at h1 h5
    obtain ⟨ys, m, hm, hr, hp⟩ := parse_sexps module last top l hx a h3 (n + 1) (t' :: rest) [] (cur :: st)
    obtain ⟨m, rfl⟩ : ∃ m', m = m' + 1 := ⟨m - 1, by omega⟩
    refine ⟨.list ys, m, by omega, .list hr, ?_⟩
    have e : n + (t :: (a ++ [t'])).length = (n + 1 + a.length) + 1 := by simp; omega
    rw [e, List.cons_append, List.append_assoc, List.singleton_append, parseLoop.eq_def]
    simp only [h1.1]
    rw [hp]
    simp [parseLoop, h5.1]
/-- Parsing the tokens of an s-expression behind a quote character. -/
theorem parse_alone (module : Str) (last : Option Token) (x : Sexp) (hx : x.WF) (hq : x.Quotable) (toks : List Token)
    (hk : toks.map Token.kind = sexpKinds x) (n : Nat) (hn : toks.length ≤ n) (rest : List Token) :
    ∃ y, Reads x y ∧ parseLoop module last n false (toks ++ rest) [] = .ok (y, rest) := by
  match x with
  | .int i =>
    obtain ⟨t, rfl, h⟩ := List.map_eq_singleton_iff.1 hk
    obtain ⟨n, rfl⟩ : ∃ m, n = m + 1 := ⟨n - 1, by simp at hn; omega⟩
    simp [Token.kind] at h
    exact ⟨.atom t, .int h.1 h.2, by simp [parseLoop, h.1]⟩
  | .str s =>
    obtain ⟨t, rfl, h⟩ := List.map_eq_singleton_iff.1 hk
    obtain ⟨n, rfl⟩ : ∃ m, n = m + 1 := ⟨n - 1, by simp at hn; omega⟩
    simp [Token.kind] at h
    exact ⟨.atom t, .str h.1 h.2, by simp [parseLoop, h.1]⟩
  | .sym s =>
    obtain ⟨t, rfl, h⟩ := List.map_eq_singleton_iff.1 hk
    obtain ⟨n, rfl⟩ : ∃ m, n = m + 1 := ⟨n - 1, by simp at hn; omega⟩
    simp [Token.kind] at h
    exact ⟨.atom t, .sym h.1 h.2, by simp [parseLoop, h.1]⟩
  | .bool b =>
    obtain ⟨t, rfl, h⟩ := List.map_eq_singleton_iff.1 hk
    obtain ⟨n, rfl⟩ : ∃ m, n = m + 1 := ⟨n - 1, by simp at hn; omega⟩
    simp [Token.kind] at h
    exact ⟨.atom t, .bool h.1 h.2, by cases b <;> simp at h <;> simp [parseLoop, h.1]⟩
  | .nil =>
    obtain ⟨t, rfl, h⟩ := List.map_eq_singleton_iff.1 hk
    obtain ⟨n, rfl⟩ : ∃ m, n = m + 1 := ⟨n - 1, by simp at hn; omega⟩
    simp [Token.kind] at h
    exact ⟨.atom t, .nil h.1, by simp [parseLoop, h.1]⟩
  | .float s =>
    obtain ⟨d, hd⟩ := hx
    simp only [sexpKinds, hd.value] at hk
    obtain ⟨t, rfl, h⟩ := List.map_eq_singleton_iff.1 hk
    obtain ⟨n, rfl⟩ : ∃ m, n = m + 1 := ⟨n - 1, by simp at hn; omega⟩
    simp [Token.kind] at h
    exact ⟨.atom t, .float hd.value h.1 h.2, by simp [parseLoop, h.1]⟩
  | .pre k x =>
    rw [sexpKinds] at hk
    obtain ⟨t, ts, rfl, h1, h2⟩ := List.map_eq_cons_iff.1 hk
    obtain ⟨n, rfl⟩ : ∃ m, n = m + 1 := ⟨n - 1, by simp at hn; omega⟩
    obtain ⟨y, hr, hp⟩ := parse_alone module last x hx.1 hx.2 ts h2 n (by simp at hn; omega) rest
    refine ⟨.list [.sym k.word, y], .pre hr, ?_⟩
    rw [List.cons_append, parseLoop.eq_def]
    cases k
    · exact hq.elim
    · exact hq.elim
    all_goals simp [prefixKind, Token.kind] at h1; simp [h1.1, hp, Prefix.word, unquoteName, unquoteSplicingName]
  | .list l =>
    rw [sexpKinds] at hk
    obtain ⟨t, ts, rfl, h1, h2⟩ := List.map_eq_cons_iff.1 hk
    obtain ⟨a, b, rfl, h3, h4⟩ := List.map_eq_append_iff.1 h2
    obtain ⟨t', rfl, h5⟩ := List.map_eq_singleton_iff.1 h4
    simp [Token.kind] at h1 h5
    obtain ⟨n, rfl⟩ : ∃ m, n = m + 1 + a.length + 1 := ⟨n - a.length - 2, by simp at hn; omega⟩
    obtain ⟨ys, m, hm, hr, hp⟩ := parse_sexps module last false l hx a h3 (n + 1) (t' :: rest) [] []
    obtain ⟨m, rfl⟩ : ∃ m', m = m' + 1 := ⟨m - 1, by omega⟩
    refine ⟨.list ys, .list hr, ?_⟩
    rw [List.cons_append, List.append_assoc, List.singleton_append, parseLoop.eq_def]
    simp only [h1.1]
    rw [hp]
    simp [parseLoop, h5.1]
/-- Parsing the tokens of several s-expressions inside of an open list. -/
theorem parse_sexps (module : Str) (last : Option Token) (top : Bool) (l : List Sexp) (hl : Sexp.WFs l) (toks : List Token)
    (hk : toks.map Token.kind = sexpsKinds l) (n : Nat) (rest : List Token) (cur : List Sx) (st : List (List Sx)) :
    ∃ ys m, n ≤ m ∧ ReadsAll l ys ∧ parseLoop module last (n + toks.length) top (toks ++ rest) (cur :: st) =
      parseLoop module last m top rest ((cur ++ ys) :: st) := by
  match l with
  | [] =>
    simp [sexpsKinds] at hk
    subst hk
    exact ⟨[], n, Nat.le_refl _, .nil, by simp⟩
  | x :: l =>
    rw [sexpsKinds] at hk
    obtain ⟨a, b, rfl, h1, h2⟩ := List.map_eq_append_iff.1 hk
    obtain ⟨y, m, hm, hr, hp⟩ := parse_sexp module last top x hl.1 a h1 (n + b.length) (b ++ rest) cur st
    obtain ⟨ys, m', hm', hrs, hps⟩ := parse_sexps module last top l hl.2 b h2 (m - b.length) rest (cur ++ [y]) st
    refine ⟨y :: ys, m', by omega, .cons hr hrs, ?_⟩
    rw [show m - b.length + b.length = m by omega] at hps
    rw [List.length_append, show n + (a.length + b.length) = n + b.length + a.length by omega, List.append_assoc, hp, hps]
    simp
end

/-- More budget does not change the result of the parser. -/
theorem parseLoop_more {module : Str} {last : Option Token} {n : Nat} {top : Bool} {toks : List Token} {st : List (List Sx)} {r : Sx × List Token}
    (h : parseLoop module last n top toks st = .ok r) (m : Nat) (hm : n ≤ m) : parseLoop module last m top toks st = .ok r := by
  induction n generalizing top toks st r m with
  | zero => simp [parseLoop] at h
  | succ n ih =>
    obtain ⟨m, rfl⟩ : ∃ m', m = m' + 1 := ⟨m - 1, by omega⟩
    have hm : n ≤ m := by omega
    cases toks with
    | nil => exact h
    | cons t rest =>
      rw [parseLoop.eq_def] at h ⊢
      simp only at h ⊢
      cases ht : t.type <;> simp only [ht] at h ⊢
      all_goals first
        | exact h
        | exact ih h m hm
        | (cases st with
           | nil => exact h
           | cons cur st => first | exact ih h m hm | (cases st with
             | nil => exact h
             | cons o st => exact ih h m hm))
        | (cases hq : parseLoop module last n false rest [] with
           | error e => rw [hq] at h; cases h
           | ok q =>
             rw [ih hq m hm]
             rw [hq] at h
             simp only [bind_ok_R] at h ⊢
             first
               | exact ih h m hm
               | (cases st with
                  | nil => exact h
                  | cons cur st => exact ih h m hm))

/-- The tokens that are no comments. -/
def code (toks : List Token) : List Token := toks.filter fun t => decide (t.type ≠ .comment)

theorem onlyComments_iff (toks : List Token) : onlyComments toks = (code toks).isEmpty := by
  induction toks with
  | nil => rfl
  | cons t r ih =>
    have ih' : (r.all fun t => decide (t.type = .comment)) = (code r).isEmpty := ih
    by_cases h : t.type = .comment <;> simp [onlyComments, code, h] at *
    exact ih

/-- Comments do not matter. -/
theorem parseLoop_comments {module : Str} {last : Option Token} : ∀ (len : Nat) (toks : List Token), toks.length = len → ∀ {n : Nat} {top : Bool}
    {st : List (List Sx)} {x : Sx} {r : List Token}, parseLoop module last n top (code toks) st = .ok (x, r) →
    ∃ rest, code rest = r ∧ rest.length ≤ toks.length ∧ parseLoop module last (n + toks.length) top toks st = .ok (x, rest) := by
  intro len
  induction len using Nat.strongRecOn with
  | _ len ih =>
  intro toks hlen n top st x r h
  cases toks with
  | nil =>
    have : r = [] := by
      cases n with
      | zero => simp [parseLoop, code] at h
      | succ n =>
        simp only [parseLoop, code, List.filter_nil] at h
        split at h
        · cases h
        · split at h
          · cases h
          · cases h; rfl
    subst this
    exact ⟨[], rfl, Nat.le_refl _, h⟩
  | cons t rest =>
    have go : ∀ {n top st x r}, parseLoop module last n top (code rest) st = .ok (x, r) →
        ∃ rest', code rest' = r ∧ rest'.length ≤ rest.length ∧ ∀ m, n + rest.length ≤ m → parseLoop module last m top rest st = .ok (x, rest') := by
      intro n top st x r h
      obtain ⟨rest', h1, h2, h3⟩ := ih rest.length (by simp at hlen; omega) rest rfl h
      exact ⟨rest', h1, h2, fun m hm => parseLoop_more h3 m hm⟩
    have fin : ∀ {n top st st'}, parseLoop module last n top (code rest) st' = .ok (x, r) →
        (∀ m, parseLoop module last (m + 1) top (t :: rest) st = parseLoop module last m top rest st') → ∀ m, n + rest.length ≤ m →
        ∃ rest', code rest' = r ∧ rest'.length ≤ (t :: rest).length ∧ parseLoop module last (m + 1) top (t :: rest) st = .ok (x, rest') := by
      intro n top st st' h he m hm
      obtain ⟨rest', h1, h2, h3⟩ := go h
      exact ⟨rest', h1, by simp; omega, by rw [he]; exact h3 m hm⟩
    by_cases hc : t.type = .comment
    · have e : code (t :: rest) = code rest := by simp [code, hc]
      rw [e] at h
      rw [List.length_cons, ← Nat.add_assoc]
      exact fin h (fun m => by rw [parseLoop.eq_def]; simp only [hc]) _ (Nat.le_refl _)
    · have e : code (t :: rest) = t :: code rest := by simp [code, hc]
      rw [e] at h
      cases n with
      | zero => simp [parseLoop] at h
      | succ n =>
        rw [List.length_cons, ← Nat.add_assoc]
        have quoted : ∀ (st' : Sx → List (List Sx)), (do
              let (q, rest) ← parseLoop module last n false (code rest) []
              parseLoop module last n top rest (st' q)) = .ok (x, r) →
            (∀ m, parseLoop module last (m + 1) top (t :: rest) st = do
              let (q, rest) ← parseLoop module last m false rest []
              parseLoop module last m top rest (st' q)) →
            ∃ rest', code rest' = r ∧ rest'.length ≤ (t :: rest).length ∧
              parseLoop module last (n + 1 + rest.length + 1) top (t :: rest) st = .ok (x, rest') := by
          intro st' h he
          cases hq : parseLoop module last n false (code rest) [] with
          | error e => rw [hq] at h; cases h
          | ok q =>
            obtain ⟨q, r1⟩ := q
            obtain ⟨rest1, h1, h2, h3⟩ := go hq
            rw [hq, bind_ok_R] at h
            simp only at h
            rw [← h1] at h
            obtain ⟨rest2, h4, h5, h6⟩ := ih rest1.length (by simp at hlen; omega) rest1 rfl h
            refine ⟨rest2, h4, by simp; omega, ?_⟩
            rw [he, h3 _ (by omega), bind_ok_R]
            exact parseLoop_more h6 _ (by omega)
        rw [parseLoop.eq_def] at h
        simp only at h
        cases ht : t.type <;> simp only [ht] at h
        case comment => exact absurd ht hc
        case listStart => exact fin h (fun m => by rw [parseLoop.eq_def]; simp only [ht]) _ (by omega)
        case listEnd =>
          cases st with
          | nil => cases h
          | cons cur st =>
            cases st with
            | cons o st => exact fin h (fun m => by rw [parseLoop.eq_def]; simp only [ht]) _ (by omega)
            | nil =>
              simp only at h
              have hoc : onlyComments (code rest) = (code rest).isEmpty := by
                rw [onlyComments_iff]; simp [code]
              split at h
              · cases h
              · rename_i hh
                cases h
                refine ⟨rest, rfl, by simp, ?_⟩
                rw [parseLoop.eq_def]
                simp only [ht]
                rw [if_neg]
                intro hb
                apply hh
                simp only [Bool.and_eq_true, Bool.not_eq_true'] at hb ⊢
                rw [onlyComments_iff] at hb
                rw [hoc]
                exact ⟨⟨hb.1.1, hb.2⟩, hb.2⟩
        case quote => exact quoted (fun q => pushTop (.list [.sym quoteName, q]) st) h (fun m => by rw [parseLoop.eq_def]; simp only [ht]; rfl)
        case quasiQuote => exact quoted (fun q => pushTop (.list [.sym quasiquoteName, q]) st) h (fun m => by rw [parseLoop.eq_def]; simp only [ht]; rfl)
        case unQuote =>
          cases st with
          | nil =>
            cases hq : parseLoop module last n false (code rest) [] with
            | error e => rw [hq] at h; cases h
            | ok q =>
              obtain ⟨q, r1⟩ := q
              obtain ⟨rest1, h1, h2, h3⟩ := go hq
              rw [hq, bind_ok_R] at h
              cases h
              refine ⟨rest1, h1, Nat.le_succ_of_le h2, ?_⟩
              rw [parseLoop.eq_def]
              simp only [ht]
              rw [h3 _ (by omega), bind_ok_R]
          | cons cur st => exact quoted (fun q => pushTop (.list [.sym unquoteName, q]) (cur :: st)) h (fun m => by rw [parseLoop.eq_def]; simp only [ht]; rfl)
        case unQuoteSplicing =>
          cases st with
          | nil =>
            cases hq : parseLoop module last n false (code rest) [] with
            | error e => rw [hq] at h; cases h
            | ok q =>
              obtain ⟨q, r1⟩ := q
              obtain ⟨rest1, h1, h2, h3⟩ := go hq
              rw [hq, bind_ok_R] at h
              cases h
              refine ⟨rest1, h1, Nat.le_succ_of_le h2, ?_⟩
              rw [parseLoop.eq_def]
              simp only [ht]
              rw [h3 _ (by omega), bind_ok_R]
          | cons cur st => exact quoted (fun q => pushTop (.list [.sym unquoteSplicingName, q]) (cur :: st)) h (fun m => by rw [parseLoop.eq_def]; simp only [ht]; rfl)
        all_goals
          cases st with
          | nil =>
            simp only at h
            cases top with
            | true => cases h
            | false => cases h; exact ⟨rest, rfl, by simp, by rw [parseLoop.eq_def]; simp [ht]⟩
          | cons cur st => exact fin h (fun m => by rw [parseLoop.eq_def]; simp only [ht]) _ (by omega)

/-- The token of a comment. -/
theorem lx_commentSource {s : Str} (h : (Lexeme.comment s).WF) : lx (Lexeme.comment s).source ({} : LS) = .ok [(.comment, .str (';' :: s ++ ['\n']))] := by
  have := lx_comment h.1 h.2 []
  rw [show lx [] ({} : LS) = .ok [] from rfl] at this
  simpa [Lexeme.source] using this

theorem mapM_lexemes (ls : List Lexeme) (hw : ∀ l ∈ ls, l.WF) {ks : List (List (TokType × TVal))}
    (h : (ls.filter fun l => !l.isComment).mapM (fun l => lx l.source {}) = .ok ks) :
    ∃ ks', ls.mapM (fun l => lx l.source {}) = .ok ks' ∧ ks'.flatten.filter (fun k => decide (k.1 ≠ .comment)) = ks.flatten.filter (fun k => decide (k.1 ≠ .comment)) := by
  induction ls generalizing ks with
  | nil => exact ⟨[], rfl, by cases h; rfl⟩
  | cons l t ih =>
    have iht := fun {ks} => @ih (fun x hx => hw x (by simp [hx])) ks
    cases hc : l.isComment with
    | true =>
      cases l <;> simp [Lexeme.isComment] at hc
      rename_i s
      obtain ⟨ks', h1, h2⟩ := iht (ks := ks) (by simpa [Lexeme.isComment] using h)
      exact ⟨[(.comment, .str (';' :: s ++ ['\n']))] :: ks', by rw [List.mapM_cons, lx_commentSource (hw _ (by simp)), h1]; rfl, by simpa using h2⟩
    | false =>
      rw [List.filter_cons_of_pos (by simp [hc]), List.mapM_cons] at h
      cases hl : lx l.source ({} : LS) with
      | error e => rw [hl] at h; cases h
      | ok k =>
        cases ht : (t.filter fun l => !l.isComment).mapM (fun l => lx l.source {}) with
        | error e => rw [hl, ht] at h; cases h
        | ok k2 =>
          rw [hl, ht] at h
          cases h
          obtain ⟨ks', h1, h2⟩ := iht ht
          exact ⟨k :: ks', by rw [List.mapM_cons, hl, h1]; rfl, by rw [List.flatten_cons, List.flatten_cons, List.filter_append, List.filter_append, h2]⟩

theorem separated_wf {items : List (Str × Lexeme)} {next : Str} (h : Separated items next) : ∀ l ∈ items.map Prod.snd, l.WF := by
  induction items with
  | nil => simp
  | cons x t ih =>
    obtain ⟨w, l⟩ := x
    obtain ⟨_, h2, _, h4⟩ := h
    intro l' hl'
    simp only [List.map_cons, List.mem_cons] at hl'
    rcases hl' with rfl | hl'
    · exact h2
    · exact ih h4 l' hl'

mutual
theorem sexpKinds_code (x : Sexp) : (sexpKinds x).filter (fun k => decide (k.1 ≠ .comment)) = sexpKinds x := by
  match x with
  | .int _ => rfl
  | .str _ => rfl
  | .sym _ => rfl
  | .bool b => cases b <;> rfl
  | .nil => rfl
  | .float t => cases h : World.dStod t <;> simp [sexpKinds, h]
  | .pre k x => have := sexpKinds_code x; cases k <;> simpa [sexpKinds, prefixKind] using this
  | .list l => have := sexpsKinds_code l; simpa [sexpKinds] using this
theorem sexpsKinds_code (l : List Sexp) : (sexpsKinds l).filter (fun k => decide (k.1 ≠ .comment)) = sexpsKinds l := by
  match l with
  | [] => rfl
  | x :: l => rw [sexpsKinds, List.filter_append, sexpKinds_code x, sexpsKinds_code l]
end

/-- C06: parsing any text that consists of the lexical elements of an s-expression (a list), with any white space and any
comments between them, gives that s-expression. -/
theorem C06_read {l : List Sexp} (h : (Sexp.list l).WF) {items : List (Str × Lexeme)} {trail : Str}
    (ht : ∀ c ∈ trail, White c) (hs : Separated items trail)
    (hi : (items.map Prod.snd).filter (fun l => !l.isComment) = (Sexp.list l).lexemes)
    (off : Int) (module : Str) : ∃ y, parse (render items ++ trail) off module = .ok y ∧ Reads (.list l) y := by
  obtain ⟨ks, h1, h2⟩ := sexp_mapM (.list l) h
  rw [← hi] at h1
  obtain ⟨ks', h1', h2'⟩ := mapM_lexemes _ (separated_wf hs) h1
  rw [h2, sexpKinds_code] at h2'
  have h3 : lx (render items ++ trail) {} = .ok ks'.flatten := by
    have h4 := C03_white_space ht hs off
    have h5 : (items.map Prod.snd).mapM (fun l => kinds l.source off) = .ok ks' := by
      rw [← h1']
      congr 1
      funext x
      exact tokenize_kinds _ off
    rw [h5] at h4
    rw [← tokenize_kinds _ off]
    rw [kinds] at h4
    rw [h4]
    simp
  obtain ⟨all, h4, h5⟩ := tokenize_of_lx off h3
  have h5 : (code all).map Token.kind = sexpKinds (.list l) := by
    rw [← h2', ← h5, List.filter_map]
    rfl
  rw [sexpKinds] at h5
  obtain ⟨t, ts, hc, h6, h7⟩ := List.map_eq_cons_iff.1 h5
  obtain ⟨a, b, rfl, h8, h9⟩ := List.map_eq_append_iff.1 h7
  obtain ⟨t', rfl, h10⟩ := List.map_eq_singleton_iff.1 h9
  simp [Token.kind] at h6 h10
  obtain ⟨ys, m, hm, hr, hp⟩ := parse_sexps module all.getLast? true l h a h8 1 [t'] [] []
  obtain ⟨m, rfl⟩ : ∃ m', m = m' + 1 := ⟨m - 1, by omega⟩
  have hq : parseLoop module all.getLast? (1 + a.length + 1) true (code all) [] = .ok (.list ys, []) := by
    rw [hc, parseLoop, h6.1]
    simp only
    rw [hp]
    simp [parseLoop, h10.1]
  obtain ⟨rest, _, _, hfin⟩ := parseLoop_comments _ all rfl hq
  refine ⟨.list ys, ?_, .list hr⟩
  have hlen : a.length + 2 ≤ all.length := by
    have : (code all).length ≤ all.length := List.length_filter_le _ _
    rw [hc] at this
    simpa using this
  rw [parse, h4, bind_ok_R, parseTokens, parseLoop_more hfin _ (by omega)]
  rfl

mutual
/-- The elements with white space that make up the usual notation. -/
def sexpItems (gap : Str) : Sexp → List (Str × Lexeme)
  | .int i => [(gap, .word (intStr i))]
  | .str s => [(gap, .str s)]
  | .sym s => [(gap, .word s)]
  | .bool b => [(gap, .word (boolText b))]
  | .nil => [(gap, .word c!"nil")]
  | .float t => [(gap, .word t)]
  | .pre k x => (gap, k.lexeme) :: sexpItems [] x
  | .list l => (gap, .opening) :: (sexpsItems [] l ++ [([], .closing)])
/-- The same for several s-expressions. -/
def sexpsItems (gap : Str) : List Sexp → List (Str × Lexeme)
  | [] => []
  | x :: l => sexpItems gap x ++ sexpsItems [' '] l
end

theorem render_append (a b : List (Str × Lexeme)) : render (a ++ b) = render a ++ render b := by
  induction a with
  | nil => rfl
  | cons x a ih => obtain ⟨w, l⟩ := x; simp [render, ih]

theorem separated_append {a b : List (Str × Lexeme)} {next : Str} (h1 : Separated a (render b ++ next))
    (h2 : Separated b next) : Separated (a ++ b) next := by
  induction a with
  | nil => exact h2
  | cons x a ih =>
    obtain ⟨w, l⟩ := x
    obtain ⟨e1, e2, e3, e4⟩ := h1
    exact ⟨e1, e2, by show l.Before (render (a ++ b) ++ next); rw [render_append, List.append_assoc]; exact e3, ih e4⟩

/-- The text ends a word. -/
def EndsWord (next : Str) : Prop := ∀ c, next.head? = some c → White c ∨ c ∈ ['(', ')', ';']

/-- The notation of a quoted s-expression does not start with `@`. -/
theorem source_head {x : Sexp} (h : x.WF) (hq : x.Quotable) (next : Str) : (x.source ++ next).head? ≠ some '@' := by
  match x with
  | .int i =>
    obtain ⟨ds, h1, h2, h3⟩ := numeral_intStr i
    cases ds with
    | nil => exact absurd rfl h1
    | cons d ds =>
      have hd : d ≠ '@' := by rintro rfl; exact absurd (h2 '@' (by simp)) (by simp [Digit])
      rcases h3 with ⟨h3, _⟩ | ⟨h3, _⟩ | ⟨h3, _⟩ <;> simp [Sexp.source, h3, hd]
  | .str s => simp [Sexp.source]
  | .sym s =>
    cases s with
    | nil => exact absurd rfl h.1
    | cons c s =>
      simp only [Sexp.source, List.cons_append, List.head?_cons, ne_eq, Option.some.injEq]
      rintro rfl
      exact hq
  | .bool b => cases b <;> simp [Sexp.source, boolText]
  | .nil => simp [Sexp.source]
  | .float t =>
    obtain ⟨d, h⟩ := h
    exact floating_head h.floating next
  | .pre k x => cases k <;> simp [Sexp.source, Prefix.lexeme, Lexeme.source]
  | .list l => simp [Sexp.source]

mutual
theorem sexpItems_spec (gap : Str) (hg : ∀ c ∈ gap, White c) (x : Sexp) (h : x.WF) :
    (sexpItems gap x).map Prod.snd = x.lexemes ∧ render (sexpItems gap x) = gap ++ x.source ∧
      ∀ next, EndsWord next → Separated (sexpItems gap x) next := by
  match x with
  | .int i =>
    have h1 := numeral_plain (numeral_intStr i)
    exact ⟨rfl, by simp [sexpItems, render, Lexeme.source, Sexp.source], fun next hn => ⟨hg, h1, hn, trivial⟩⟩
  | .str s =>
    exact ⟨rfl, by simp [sexpItems, render, Lexeme.source, Sexp.source], fun next hn => ⟨hg, trivial, trivial, trivial⟩⟩
  | .sym s =>
    exact ⟨rfl, by simp [sexpItems, render, Lexeme.source, Sexp.source], fun next hn => ⟨hg, ⟨h.1, h.2.1⟩, hn, trivial⟩⟩
  | .bool b =>
    exact ⟨rfl, by simp [sexpItems, render, Lexeme.source, Sexp.source], fun next hn => ⟨hg, ⟨by cases b <;> decide, by cases b <;> decide⟩, hn, trivial⟩⟩
  | .nil =>
    exact ⟨rfl, by simp [sexpItems, render, Lexeme.source, Sexp.source], fun next hn => ⟨hg, ⟨by decide, by decide⟩, hn, trivial⟩⟩
  | .float t =>
    obtain ⟨d, h⟩ := h
    exact ⟨rfl, by simp [sexpItems, render, Lexeme.source, Sexp.source], fun next hn => ⟨hg, ⟨h.word.1, fun c hc => (h.word.2 c hc).1⟩, hn, trivial⟩⟩
  | .pre k x =>
    obtain ⟨h1, h2, h3⟩ := sexpItems_spec [] (by simp) x h.1
    refine ⟨by simp [sexpItems, Sexp.lexemes, h1], by simp [sexpItems, render, Sexp.source, h2], fun next hn => ⟨hg, ?_, ?_, h3 next hn⟩⟩
    · cases k <;> exact trivial
    · rw [h2, List.nil_append]
      have := source_head h.1 h.2 next
      cases k <;> first | exact trivial | exact this
  | .list l =>
    obtain ⟨h1, h2, h3⟩ := sexpsItems_spec [] (by simp) l h
    refine ⟨by simp [sexpItems, Sexp.lexemes, h1], ?_, fun next hn => ⟨hg, trivial, trivial, ?_⟩⟩
    · simp only [sexpItems, render, render_append, h2, Lexeme.source, Sexp.source]
      cases l <;> simp
    · apply separated_append
      · apply h3
        intro c hc
        simp [render, Lexeme.source] at hc
        simp [← hc]
      · exact ⟨by simp, trivial, trivial, trivial⟩
theorem sexpsItems_spec (gap : Str) (hg : ∀ c ∈ gap, White c) (l : List Sexp) (h : Sexp.WFs l) :
    (sexpsItems gap l).map Prod.snd = Sexp.lexemess l ∧
      render (sexpsItems gap l) = (if l = [] then [] else gap) ++ Sexp.sources l ∧
      ∀ next, EndsWord next → Separated (sexpsItems gap l) next := by
  match l with
  | [] => exact ⟨rfl, by simp [sexpsItems, render, Sexp.sources], fun _ _ => trivial⟩
  | x :: l =>
    obtain ⟨h1, h2, h3⟩ := sexpItems_spec gap hg x h.1
    obtain ⟨h4, h5, h6⟩ := sexpsItems_spec [' '] (by simp [White]) l h.2
    refine ⟨by simp [sexpsItems, Sexp.lexemess, h1, h4], ?_, fun next hn => separated_append (h3 _ ?_) (h6 _ hn)⟩
    · rw [sexpsItems, render_append, h2, h5]
      cases l <;> simp [Sexp.sources]
    · rw [h5]
      cases l with
      | nil => simpa [Sexp.sources] using hn
      | cons y l =>
        intro c hc
        simp at hc
        simp [← hc, White]
end

mutual
theorem lexemes_code (x : Sexp) : x.lexemes.filter (fun l => !l.isComment) = x.lexemes := by
  match x with
  | .int _ => rfl
  | .str _ => rfl
  | .sym _ => rfl
  | .bool b => rfl
  | .nil => rfl
  | .float t => rfl
  | .pre k x => have := lexemes_code x; cases k <;> simpa [Sexp.lexemes, Prefix.lexeme, Lexeme.isComment] using this
  | .list l => have := lexemess_code l; simpa [Sexp.lexemes, Lexeme.isComment] using this
theorem lexemess_code (l : List Sexp) : (Sexp.lexemess l).filter (fun l => !l.isComment) = Sexp.lexemess l := by
  match l with
  | [] => rfl
  | x :: l => rw [Sexp.lexemess, List.filter_append, lexemes_code x, lexemess_code l]
end

/-- C06: parsing the usual notation of an s-expression gives back that s-expression. -/
theorem C06_roundtrip {l : List Sexp} (h : (Sexp.list l).WF) (off : Int) (module : Str) :
    ∃ y, parse (Sexp.list l).source off module = .ok y ∧ Reads (.list l) y := by
  obtain ⟨h1, h2, h3⟩ := sexpItems_spec [] (by simp) (.list l) h
  have := C06_read h (trail := []) (by simp) (h3 [] (by simp [EndsWord])) (by rw [h1]; exact lexemes_code _) off module
  rw [h2] at this
  simpa using this

mutual
/-- What is read is determined. -/
theorem reads_inj {x x' : Sexp} {y : Sx} (hf : x.NoFloats) (h : Reads x y) (h' : Reads x' y) : x = x' := by
  cases h with
  | int a b => cases h' <;> simp_all
  | str a b => cases h' <;> simp_all
  | sym a b => cases h' <;> simp_all
  | @bool c t a b =>
    cases h' with
    | bool a' b' => rw [b] at b'; cases b'; rfl
    | nil a' => rw [a] at a'; cases c <;> cases a'
    | float _ a' b' => rw [b] at b'; cases b'
    | int a' b' => rw [b] at b'; cases b'
    | str a' b' => rw [b] at b'; cases b'
    | sym a' b' => rw [b] at b'; cases b'
  | nil a =>
    cases h' with
    | @bool c t a' b' => rw [a] at a'; cases c <;> cases a'
    | nil a' => rfl
    | float _ a' b' => rw [a] at a'; cases a'
    | int a' b' => rw [a] at a'; cases a'
    | str a' b' => rw [a] at a'; cases a'
    | sym a' b' => rw [a] at a'; cases a'
  | float _ _ _ => exact hf.elim
  | @pre k x y a =>
    generalize hz : Sx.list [.sym k.word, y] = z at h'
    cases h' with
    | list a' =>
      injection hz with hz
      subst hz
      cases a' with | cons b _ => cases b
    | @pre k' _ y' a' =>
      injection hz with hz
      injection hz with hw hz
      injection hz with hz
      injection hw with hw
      subst hz
      rw [reads_inj (x := x) (by simpa [Sexp.NoFloats] using hf) a a']
      revert hw
      cases k <;> cases k' <;> simp [Prefix.word]
    | _ => cases hz
  | list a =>
    cases h' with
    | pre a' => cases a with | cons b _ => cases b
    | list a' => rw [readsAll_inj (by simpa [Sexp.NoFloats] using hf) a a']
/-- The same for several. -/
theorem readsAll_inj {l l' : List Sexp} {ys : List Sx} (hf : Sexp.NoFloatss l) (h : ReadsAll l ys) (h' : ReadsAll l' ys) : l = l' := by
  cases h with
  | nil => cases h'; rfl
  | cons a b => cases h' with | cons a' b' => rw [reads_inj hf.1 a a', readsAll_inj hf.2 b b']
end

/-- C06: different s-expressions have different notations; the one without floating-point numbers is determined by the notation. -/
theorem C06_injective {l l' : List Sexp} (h : (Sexp.list l).WF) (h' : (Sexp.list l').WF)
    (hf : (Sexp.list l).NoFloats) (hs : (Sexp.list l).source = (Sexp.list l').source) : l = l' := by
  obtain ⟨y, h1, h2⟩ := C06_roundtrip h 0 []
  obtain ⟨y', h3, h4⟩ := C06_roundtrip h' 0 []
  rw [hs, h3] at h1
  simp at h1
  subst h1
  have := reads_inj hf h2 h4
  simpa using this

example : (Sexp.list [.sym c!"def", .sym c!"x", .list [.int (-3), .str c!"a \"b\"; ("], .list []]).WF := by
  simp [Sexp.WF, Sexp.WFs, SymbolName, Plain, White, NumberLike, dropSign, Digit, reserved, IsInt32]
example : (Sexp.list [.sym c!"def", .sym c!"x", .list [.int (-3), .str c!"a \"b\"; ("], .list []]).source =
    c!"(def x (-3 \"a \\\"b\\\"; (\") ())" := by decide

example : (Sexp.list [.pre .quasi (.list [.sym c!"a", .pre .splice (.sym c!"b"), .bool true, .nil])]).WF := by
  simp [Sexp.WF, Sexp.WFs, SymbolName, Plain, White, NumberLike, dropSign, Digit, reserved, Sexp.Quotable]
example : (Sexp.list [.pre .quasi (.list [.sym c!"a", .pre .splice (.sym c!"b"), .bool true, .nil])]).source = c!"(`(a ,@b #t nil))" := by decide

/-- C06: it is false for two quote characters in sequence: what follows is taken instead, `(''a b)` is read as `('b)`. -/
theorem C06_quote_quote_wrong : ∃ y, parse c!"(''a b)" 0 [] = .ok y ∧ Reads (.list [.pre .quote (.sym c!"b")]) y :=
  ⟨.list [.list [.sym c!"quote", .atom _]], rfl, .list (.cons (.pre (k := .quote) (.sym rfl rfl)) .nil)⟩

/-! ## C07 balanced brackets -/

theorem depth_zero {d : Nat} {a : List Token} (h : depth (d + 1) a = some 0) : a ≠ [] := by
  rintro rfl
  simp [depth] at h

/-- The outcomes of parsing quote-free tokens inside of `st.length + 1` open brackets. -/
def OpenOutcome (module : Str) (lt : Token) (toks : List Token) (n : Nat) (cur : List Sx) (st : List (List Sx)) : Prop :=
    (∃ a b, toks = a ++ b ∧ depth (st.length + 1) a = some 0 ∧
      (((∀ t ∈ b, t.type = .comment) ∧ ∃ x, parseLoop module (some lt) n true toks (cur :: st) = .ok (x, b)) ∨
       ((∃ t ∈ b, t.type ≠ .comment) ∧ ∃ t ∈ toks,
        parseLoop module (some lt) n true toks (cur :: st) = .error (tokExn bracketsOrUnexpected t module)))) ∨
    ((∀ a b, toks = a ++ b → depth (st.length + 1) a ≠ some 0) ∧
      parseLoop module (some lt) n true toks (cur :: st) = .error (tokExn bracketsOutOfBalance lt module))

/-- One step of the parser on a quote-free token that goes on with the rest. -/
theorem parse_open_step {module : Str} {lt t : Token} {rest : List Token} {n : Nat} {cur : List Sx} {st : List (List Sx)}
    (ih : ∀ cur st, OpenOutcome module lt rest n cur st) (cur' : List Sx) (st' : List (List Sx))
    (he : parseLoop module (some lt) (n + 1) true (t :: rest) (cur :: st) = parseLoop module (some lt) n true rest (cur' :: st'))
    (hd : ∀ a, depth (st.length + 1) (t :: a) = depth (st'.length + 1) a) : OpenOutcome module lt (t :: rest) (n + 1) cur st := by
  rcases ih cur' st' with ⟨a, b, h1, h2, h3⟩ | ⟨h1, h2⟩
  · left
    refine ⟨t :: a, b, by simp [h1], by rw [hd]; exact h2, ?_⟩
    rw [he]
    rcases h3 with ⟨h3, h4⟩ | ⟨h3, t', h4, h5⟩
    · exact .inl ⟨h3, h4⟩
    · exact .inr ⟨h3, t', by simp [h4], h5⟩
  · right
    refine ⟨?_, by rw [he]; exact h2⟩
    intro a b hab
    cases a with
    | nil => simp [depth]
    | cons t' a =>
      simp at hab
      rw [← hab.1, hd]
      exact h1 a b hab.2

/-- Parsing quote-free tokens inside of `stack.length` open brackets. -/
theorem parse_open (module : Str) (lt : Token) (toks : List Token) (hq : QuoteFree toks) (n : Nat)
    (hn : toks.length < n) (cur : List Sx) (st : List (List Sx)) : OpenOutcome module lt toks n cur st := by
  induction toks generalizing n cur st with
  | nil =>
    right
    cases n with
    | zero => simp at hn
    | succ n =>
      refine ⟨?_, by simp [parseLoop]⟩
      intro a b h
      simp at h
      simp [h.1, depth]
  | cons t rest ih =>
    cases n with
    | zero => simp at hn
    | succ n =>
    have hq' : QuoteFree rest := fun x hx => hq x (by simp [hx])
    have hn' : rest.length < n := by simpa using hn
    have ⟨q1, q2, q3, q4⟩ := hq t (by simp)
    have go := @parse_open_step _ module lt t rest n cur st (ih hq' n hn')
    by_cases hs : t.type = .listStart
    · exact go [] (cur :: st) (by rw [parseLoop.eq_def]; simp [hs]) (by simp [depth, hs])
    by_cases he : t.type = .listEnd
    · cases st with
      | cons outer st =>
        exact go (outer ++ [.list cur]) st (by rw [parseLoop.eq_def]; simp [he]) (by simp [depth, he])
      | nil =>
        left
        refine ⟨[t], rest, rfl, by simp [depth, he], ?_⟩
        by_cases hc : ∀ x ∈ rest, x.type = .comment
        · refine .inl ⟨hc, .list cur, ?_⟩
          have : onlyComments rest = true := by simpa [onlyComments] using hc
          rw [parseLoop.eq_def]; simp [he, this]
        · refine .inr ⟨by simpa using hc, t, by simp, ?_⟩
          have h1 : onlyComments rest = false := by simpa [onlyComments] using hc
          have h2 : rest ≠ [] := by rintro rfl; simp at hc
          rw [parseLoop.eq_def]; simp [he, h1, h2]
    · have hd : ∀ a, depth (st.length + 1) (t :: a) = depth (st.length + 1) a := by simp [depth, hs, he]
      by_cases hc : t.type = .comment
      · exact go cur st (by rw [parseLoop.eq_def]; simp [hc]) hd
      · refine go (cur ++ [.atom t]) st ?_ hd
        rw [parseLoop.eq_def]
        cases h : t.type <;> simp_all [pushTop]

/-- Adding up brackets beyond the end of the first bracketed expression is not possible. -/
theorem depth_unique (d : Nat) (a b a' b' : List Token) (h : a ++ b = a' ++ b') (h1 : depth (d + 1) a = some 0)
    (h2 : depth (d + 1) a' = some 0) : a = a' ∧ b = b' := by
  induction a generalizing d a' with
  | nil => simp [depth] at h1
  | cons t a ih =>
    cases a' with
    | nil => simp [depth] at h2
    | cons t' a' =>
      simp at h
      obtain ⟨rfl, h⟩ := h
      by_cases hs : t.type = .listStart
      · simp [depth, hs] at h1 h2
        have := ih (d + 1) a' h h1 h2
        simp [this]
      · by_cases he : t.type = .listEnd
        · cases d with
          | zero =>
            simp [depth, he] at h1 h2
            subst h1 h2
            simpa using h
          | succ d =>
            simp [depth, he] at h1 h2
            have := ih d a' h h1 h2
            simp [this]
        · simp [depth, hs, he] at h1 h2
          have := ih d a' h h1 h2
          simp [this]

/-- C07: a token sequence without quote characters that starts with an opening bracket is accepted exactly if it is
one bracketed expression followed by comments only. -/
theorem C07_accepts (module : Str) {toks : List Token} (hq : QuoteFree toks)
    (hs : ∃ t r, toks = t :: r ∧ t.type = .listStart) :
    (∃ x, parseTokens module toks = .ok x) ↔ ∃ a b, toks = a ++ b ∧ Bracketed a ∧ ∀ t ∈ b, t.type = .comment := by
  obtain ⟨t, r, rfl, hs⟩ := hs
  obtain ⟨lt, hl⟩ : ∃ lt, (t :: r).getLast? = some lt := ⟨_, List.getLast?_eq_some_getLast (by simp)⟩
  have hp : parseTokens module (t :: r) = (do
      let (x, _) ← parseLoop module (some lt) (2 * r.length + 3) true r [[]]
      .ok x) := by
    rw [parseTokens, hl, show 2 * (t :: r).length + 2 = (2 * r.length + 3) + 1 by simp; omega, parseLoop.eq_def]
    simp [hs]
  have hq' : QuoteFree r := fun x hx => hq x (by simp [hx])
  have hd : ∀ a, depth 0 (t :: a) = depth 1 a := by simp [depth, hs]
  rw [hp]
  rcases parse_open module lt r hq' (2 * r.length + 3) (by omega) [] [] with ⟨a, b, h1, h2, h3⟩ | ⟨h1, h2⟩
  · have key : (∀ t ∈ b, t.type = .comment) ↔ ∃ a b, t :: r = a ++ b ∧ Bracketed a ∧ ∀ t ∈ b, t.type = .comment := by
      constructor
      · intro hc
        exact ⟨t :: a, b, by simp [h1], ⟨t, a, rfl, hs, by rw [hd]; exact h2⟩, hc⟩
      · rintro ⟨a', b', e1, ⟨t', a'', rfl, _, h4⟩, hc⟩
        simp at e1
        obtain ⟨rfl, e1⟩ := e1
        rw [hd] at h4
        have := depth_unique 0 a b a'' b' (by rw [← h1, e1]) h2 h4
        rw [this.2]
        exact hc
    rw [← key]
    rcases h3 with ⟨h3, x, h4⟩ | ⟨⟨t', h3, h3'⟩, t'', h4, h5⟩
    · rw [h4]; exact ⟨fun _ => h3, fun _ => ⟨x, rfl⟩⟩
    · rw [h5]
      constructor
      · rintro ⟨x, hx⟩; cases hx
      · intro hc; exact absurd (hc t' h3) h3'
  · rw [h2]
    constructor
    · rintro ⟨x, hx⟩; cases hx
    · rintro ⟨a', b', e1, ⟨t', a'', rfl, _, h4⟩, _⟩
      simp at e1
      obtain ⟨rfl, e1⟩ := e1
      rw [hd] at h4
      exact absurd h4 (h1 a'' b' e1)

/-- C07: otherwise one of the two documented exceptions is raised, with the position of one of the tokens. -/
theorem C07_reports (module : Str) {toks : List Token} (hq : QuoteFree toks)
    (hs : ∃ t r, toks = t :: r ∧ t.type = .listStart)
    (hb : ¬ ∃ a b, toks = a ++ b ∧ Bracketed a ∧ ∀ t ∈ b, t.type = .comment) :
    ∃ t ∈ toks, parseTokens module toks = .error (tokExn bracketsOutOfBalance t module) ∨
      parseTokens module toks = .error (tokExn bracketsOrUnexpected t module) := by
  rw [← C07_accepts module hq hs] at hb
  obtain ⟨t, r, rfl, hs⟩ := hs
  obtain ⟨lt, hl⟩ : ∃ lt, (t :: r).getLast? = some lt := ⟨_, List.getLast?_eq_some_getLast (by simp)⟩
  have hp : parseTokens module (t :: r) = (do
      let (x, _) ← parseLoop module (some lt) (2 * r.length + 3) true r [[]]
      .ok x) := by
    rw [parseTokens, hl, show 2 * (t :: r).length + 2 = (2 * r.length + 3) + 1 by simp; omega, parseLoop.eq_def]
    simp [hs]
  have hq' : QuoteFree r := fun x hx => hq x (by simp [hx])
  rw [hp] at hb ⊢
  rcases parse_open module lt r hq' (2 * r.length + 3) (by omega) [] [] with ⟨a, b, h1, h2, h3⟩ | ⟨h1, h2⟩
  · rcases h3 with ⟨h3, x, h4⟩ | ⟨_, t'', h4, h5⟩
    · rw [h4] at hb; exact absurd ⟨x, rfl⟩ hb
    · exact ⟨t'', by simp [h4], .inr (by rw [h5]; rfl)⟩
  · exact ⟨lt, List.mem_of_getLast? hl, .inl (by rw [h2]; rfl)⟩

/-- The outcomes of the parser. -/
def ParseOutcome (module : Str) (n : Nat) (r : R (Sx × List Token)) : Prop :=
  (∃ x rest, r = .ok (x, rest) ∧ rest.length ≤ n) ∨
  (∃ t msg, (msg = bracketsOutOfBalance ∨ msg = bracketsOrUnexpected ∨ msg = unexpectedToken) ∧
    r = .error (tokExn msg t module)) ∨
  r = R.ub .emptyStack ∨ r = R.ub .nullDeref

theorem ParseOutcome.weaken {module : Str} {n m : Nat} {r : R (Sx × List Token)} (h : ParseOutcome module n r)
    (hm : n ≤ m) : ParseOutcome module m r := by
  rcases h with ⟨x, rest, h1, h2⟩ | h | h
  · exact .inl ⟨x, rest, h1, by omega⟩
  · exact .inr (.inl h)
  · exact .inr (.inr h)

theorem ParseOutcome.bind {module : Str} {n : Nat} {r : R (Sx × List Token)} {f : Sx × List Token → R (Sx × List Token)}
    (h : ParseOutcome module n r) (hf : ∀ x rest, rest.length ≤ n → ParseOutcome module n (f (x, rest))) :
    ParseOutcome module n (r >>= f) := by
  rcases h with ⟨x, rest, h1, h2⟩ | ⟨t, msg, h1, h2⟩ | h | h
  · rw [h1]; exact hf x rest h2
  · rw [h2]; exact .inr (.inl ⟨t, msg, h1, rfl⟩)
  · rw [h]; exact .inr (.inr (.inl rfl))
  · rw [h]; exact .inr (.inr (.inr rfl))

theorem parseLoop_outcome (module : Str) (last : Option Token) (n : Nat) (top : Bool) (toks : List Token)
    (stack : List (List Sx)) (hn : toks.length < n) : ParseOutcome module toks.length (parseLoop module last n top toks stack) := by
  induction n generalizing top toks stack with
  | zero => simp at hn
  | succ n ih =>
    cases toks with
    | nil =>
      rw [parseLoop.eq_def]
      match top, last, stack with
      | true, some t, _ => exact .inr (.inl ⟨t, _, .inl rfl, rfl⟩)
      | true, none, [] => exact .inr (.inr (.inr rfl))
      | true, none, _ :: _ => exact .inl ⟨_, _, rfl, by simp⟩
      | false, _, [] => exact .inr (.inr (.inr rfl))
      | false, _, _ :: _ => exact .inl ⟨_, _, rfl, by simp⟩
    | cons t rest =>
      have hn' : rest.length < n := by simpa using hn
      have ihr : ∀ top stack, ParseOutcome module (t :: rest).length (parseLoop module last n top rest stack) :=
        fun top stack => (ih top rest stack hn').weaken (by simp)
      have key : ∀ f : Sx × List Token → R (Sx × List Token),
          (∀ x rest', rest'.length ≤ rest.length → ParseOutcome module rest.length (f (x, rest'))) →
          ParseOutcome module (t :: rest).length (parseLoop module last n false rest [] >>= f) := by
        intro f hf
        exact ((ih false rest [] hn').bind hf).weaken (by simp)
      have ihs : ∀ rest' : List Token, rest'.length ≤ rest.length → ∀ top stack,
          ParseOutcome module rest.length (parseLoop module last n top rest' stack) :=
        fun rest' h top stack => (ih top rest' stack (by omega)).weaken h
      rw [parseLoop.eq_def]
      cases h : t.type <;> simp only [h]
      case listStart => exact ihr _ _
      case comment => exact ihr _ _
      case listEnd =>
        match stack with
        | [] => simp [ParseOutcome]
        | [cur] =>
          simp only
          split
          · exact .inr (.inl ⟨t, _, .inr (.inl rfl), rfl⟩)
          · exact .inl ⟨_, _, rfl, by simp⟩
        | _ :: _ :: _ => exact ihr _ _
      case quote => exact key _ fun x rest' hr => ihs rest' hr _ _
      case quasiQuote => exact key _ fun x rest' hr => ihs rest' hr _ _
      case unQuote =>
        refine key _ fun x rest' hr => ?_
        cases stack with
        | nil => exact .inl ⟨_, _, rfl, hr⟩
        | cons => exact ihs rest' hr _ _
      case unQuoteSplicing =>
        refine key _ fun x rest' hr => ?_
        cases stack with
        | nil => exact .inl ⟨_, _, rfl, hr⟩
        | cons => exact ihs rest' hr _ _
      all_goals
        cases stack with
        | nil =>
          cases top
          · exact .inl ⟨_, _, rfl, by simp⟩
          · exact .inr (.inl ⟨t, _, .inr (.inr rfl), rfl⟩)
        | cons => exact ihr _ _

/-- C07: whatever the tokens are, the parser ends with a result, with one of three documented exceptions, or with
undefined behaviour (taking the top of an empty stack, or using a missing list). -/
theorem C07_outcomes (module : Str) (toks : List Token) :
    (∃ x, parseTokens module toks = .ok x) ∨
    (∃ t msg, (msg = bracketsOutOfBalance ∨ msg = bracketsOrUnexpected ∨ msg = unexpectedToken) ∧
      parseTokens module toks = .error (tokExn msg t module)) ∨
    parseTokens module toks = R.ub .emptyStack ∨ parseTokens module toks = R.ub .nullDeref := by
  have h := parseLoop_outcome module toks.getLast? (2 * toks.length + 2) true toks [] (by omega)
  rw [parseTokens]
  rcases h with ⟨x, rest, h1, h2⟩ | ⟨t, msg, h1, h2⟩ | h | h
  · rw [h1]; exact .inl ⟨x, rfl⟩
  · rw [h2]; exact .inr (.inl ⟨t, msg, h1, rfl⟩)
  · rw [h]; exact .inr (.inr (.inl rfl))
  · rw [h]; exact .inr (.inr (.inr rfl))

/-- C07: with quote characters there is undefined behaviour, although the brackets are balanced: `(a ')`. -/
theorem C07_quote_wrong : parse c!"(a ')" 0 [] = R.ub .emptyStack := by rfl

/-- C07: and also for a text without any token. -/
theorem C07_empty_wrong : parse [] 0 [] = R.ub .nullDeref := by rfl

end Fuel
namespace Fuel
open Spec

/-- The tokens of a text. -/
def toksOf (s : Str) : List Token := match @tokenize demoWorld s 0 with | .ok t => t | .error _ => []

example : QuoteFree (toksOf c!"(a (b) 1) ; end\n") ∧ (∃ t r, toksOf c!"(a (b) 1) ; end\n" = t :: r ∧ t.type = .listStart) ∧
    ∃ a b, toksOf c!"(a (b) 1) ; end\n" = a ++ b ∧ Bracketed a ∧ ∀ t ∈ b, t.type = .comment := by
  refine ⟨by unfold QuoteFree; decide, ⟨_, _, rfl, by decide⟩, (toksOf c!"(a (b) 1) ; end\n").take 7, (toksOf c!"(a (b) 1) ; end\n").drop 7, by simp, ⟨_, _, rfl, by decide, by decide⟩, by decide⟩
example : QuoteFree (toksOf c!"(a (b) 1") ∧ (∃ t r, toksOf c!"(a (b) 1" = t :: r ∧ t.type = .listStart) ∧
    ∃ t, parseTokens [] (toksOf c!"(a (b) 1") = .error (tokExn bracketsOutOfBalance t []) :=
  ⟨by unfold QuoteFree; decide, ⟨_, _, rfl, by decide⟩, _, rfl⟩

end Fuel
