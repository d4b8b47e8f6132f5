import Verif.SpecScript
import Verif.PropsExpand
import Verif.PropsParse
import Verif.PropsDefault
import Verif.PropsPlace
/-!
# From the source text to the evaluation (C42, C55)
-/

set_option linter.unusedSectionVars false
set_option linter.unusedSimpArgs false

namespace Fuel

open Spec

section
variable [World]

theorem atom_int {v : Variant} {i : Int} (h : IsInt v i) (hu : v.unq = .none) :
    CodeOf (.val v) (.int i) ∧ Text (.val v) (Sexp.int i).text ∧ ∀ P, (Sexp.int i).Heads P → Heads P (.val v) :=
  ⟨.int h hu, .int h, fun _ _ => .val (by rw [h.1]; decide)⟩
theorem atom_str {v : Variant} {i : Str} (h : IsStr v i) (hu : v.unq = .none) :
    CodeOf (.val v) (.str i) ∧ Text (.val v) (Sexp.str i).text ∧ ∀ P, (Sexp.str i).Heads P → Heads P (.val v) :=
  ⟨.str h hu, .str h, fun _ _ => .val (by rw [h.1]; decide)⟩
theorem atom_sym {v : Variant} {i : Str} (h : IsSym v i) (hu : v.unq = .none) :
    CodeOf (.val v) (.sym i) ∧ Text (.val v) (Sexp.sym i).text ∧ ∀ P, (Sexp.sym i).Heads P → Heads P (.val v) :=
  ⟨.sym h hu, .sym h, fun _ _ => .val (by rw [h.1]; decide)⟩
theorem atom_bool {v : Variant} {i : Bool} (h : IsBool v i) (hu : v.unq = .none) :
    CodeOf (.val v) (.bool i) ∧ Text (.val v) (Sexp.bool i).text ∧ ∀ P, (Sexp.bool i).Heads P → Heads P (.val v) :=
  ⟨.bool h hu, .bool h, fun _ _ => .val (by rw [h.1]; decide)⟩
theorem atom_nil {v : Variant} (h : IsNil v) (hu : v.unq = .none) :
    CodeOf (.val v) .nil ∧ Text (.val v) Sexp.nil.text ∧ ∀ P, Sexp.nil.Heads P → Heads P (.val v) :=
  ⟨.nil h hu, .nil h, fun _ _ => .val (by rw [show v.type = .nil from h]; decide)⟩

theorem atom_float {v : Variant} {t : Str} {d : Dbl} (ht : World.dStod t = some d) (h : IsDbl v d) (hu : v.unq = .none) :
    CodeOf (.val v) (.float t) ∧ Text (.val v) (Sexp.float t).text ∧ ∀ P, (Sexp.float t).Heads P → Heads P (.val v) :=
  ⟨.float ht h hu, by simp only [Sexp.text, ht]; exact .dbl h, fun _ _ => .val (by rw [h.1]; decide)⟩

theorem onlyNewLists_next2 (st : St) : OnlyNewLists st { st with next := st.next + 1 + 1 } := ⟨by simp; omega, fun _ _ => rfl, rfl⟩

mutual
theorem allocSx_tree {x : Sexp} {y : Sx} : Reads x y → ∀ st, ∃ p st', allocSx y st = .ok p st' ∧ OnlyNewLists st st' ∧
    ∃ c, IsTree st' p c ∧ CodeOf c x ∧ Text c x.text ∧ ∀ P, x.Heads P → Heads P c
  | .int h1 h2, st => by
    exact ⟨_, _, rfl, onlyNewLists_next2 st, _, .val, atom_int ⟨by simp [Token.lispType, h1, h2], _, by rw [h2]; rfl⟩ rfl⟩
  | .str h1 h2, st => by
    exact ⟨_, _, rfl, onlyNewLists_next2 st, _, .val, atom_str ⟨by simp [Token.lispType, h1, h2], _, by rw [h2]; rfl⟩ rfl⟩
  | .sym h1 h2, st => by
    exact ⟨_, _, rfl, onlyNewLists_next2 st, _, .val, atom_sym ⟨by simp [Token.lispType, h1, h2], _, by rw [h2]; rfl⟩ rfl⟩
  | @Reads.bool _ b _ h1 h2, st => by
    exact ⟨_, _, rfl, onlyNewLists_next2 st, _, .val, atom_bool ⟨by cases b <;> simp at h1 <;> simp [Token.lispType, h1, h2], _, by rw [h2]; rfl⟩ rfl⟩
  | .nil h1, st => by
    exact ⟨_, _, rfl, onlyNewLists_next2 st, _, .val, atom_nil (by simp [IsNil, Token.lispType, h1]) rfl⟩
  | .float h0 h1 h2, st => by
    exact ⟨_, _, rfl, onlyNewLists_next2 st, _, .val, atom_float h0 ⟨by simp [Token.lispType, h1, h2], _, by rw [h2]; rfl⟩ rfl⟩
  | @Reads.pre _ k x y h, st => by
    obtain ⟨p, st1, h1, h2, c, h3, h4, h5, h6⟩ := allocSx_tree h { st with next := st.next + 1 + 1 }
    have hv : IsSym (.ofType .symbol (.mk st.next (.str k.word))) k.word := ⟨rfl, _, rfl⟩
    have hs : HeadsAll (fun _ => True) [] := .nil
    refine ⟨.mk st1.next .list, { st1 with next := st1.next + 1, lists := fset st1.lists st1.next [.mk (st.next + 1) (.var (.ofType .symbol (.mk st.next (.str k.word)))), p] },
      by simp only [allocSx, allocSxs, M.bind_apply, allocObj, box, h1, M.pure_apply, allocList], ((onlyNewLists_next2 st).trans h2).trans (onlyNewLists_list st1 _),
      .list [.val (.ofType .symbol (.mk st.next (.str k.word))), c], ?_, .pre hv rfl h4, .list (.cons (.sym hv) (.cons h5 .nil)), fun P hP => ?_⟩
    · exact .list (Nat.lt_succ_self _) (by simp only [fset_at]; exact .cons .val (.cons (h3.new (onlyNewLists_list st1 _)) .nil))
    · exact .list (.sym hv) hP.1 (.cons (.val (by rw [hv.1]; decide)) (.cons (h6 P hP.2) .nil))
  | .list h, st => by
    obtain ⟨ps, st', h1, h2, l, h3, h4, h5, h6⟩ := allocSxs_tree h st
    refine ⟨.mk st'.next .list, { st' with next := st'.next + 1, lists := fset st'.lists st'.next ps },
      by simp only [allocSx, M.bind_apply, h1, allocList], h2.trans (onlyNewLists_list st' ps), .list l, ?_, .list h4, .list h5, fun P hP => ?_⟩
    · exact .list (Nat.lt_succ_self _) (by simp only [fset_at]; exact h3.new (onlyNewLists_list st' ps))
    · cases h with
      | nil => cases h4; exact .nil
      | cons _ _ =>
        cases h5 with
        | cons a b => exact .list a hP.1 (h6 P hP.2)
theorem allocSxs_tree {l : List Sexp} {l' : List Sx} : ReadsAll l l' → ∀ st, ∃ ps st', allocSxs l' st = .ok ps st' ∧ OnlyNewLists st st' ∧
    ∃ cs, AreTrees st' ps cs ∧ CodesOf cs l ∧ Texts cs (Sexp.texts l) ∧ ∀ P, Sexp.HeadsAll P l → HeadsAll P cs
  | .nil, st => ⟨[], st, rfl, .refl st, [], .nil, .nil, .nil, fun _ _ => .nil⟩
  | .cons h t, st => by
    obtain ⟨p, st1, h1, h2, c, h3, h4, h5, h6⟩ := allocSx_tree h st
    obtain ⟨ps, st2, g1, g2, cs, g3, g4, g5, g6⟩ := allocSxs_tree t st1
    exact ⟨p :: ps, st2, by simp only [allocSxs, M.bind_apply, h1, g1, M.pure_apply], h2.trans g2, c :: cs, .cons (h3.new g2) g3, .cons h4 g4,
      .cons h5 g5, fun P hP => .cons (h6 P hP.1) (g6 P hP.2)⟩
end

mutual
theorem codeOf_nilFree {c : Code} {x : Sexp} : CodeOf c x → CodeOf c.nilFree x
  | .int h h' => by rw [Code.nilFree, if_neg (by rw [h.1]; decide)]; exact .int h h'
  | .str h h' => by rw [Code.nilFree, if_neg (by rw [h.1]; decide)]; exact .str h h'
  | .sym h h' => by rw [Code.nilFree, if_neg (by rw [h.1]; decide)]; exact .sym h h'
  | .bool h h' => by rw [Code.nilFree, if_neg (by rw [h.1]; decide)]; exact .bool h h'
  | .nil h h' => by rw [Code.nilFree, if_pos (show _ = _ from h)]; exact .empty
  | .float h0 h h' => by rw [Code.nilFree, if_neg (by rw [h.1]; decide)]; exact .float h0 h h'
  | .empty => by simp only [Code.nilFree, Code.nilFrees]; exact .empty
  | .pre h h' h2 => by
    simp only [Code.nilFree, Code.nilFrees]
    rw [if_neg (by rw [h.1]; decide)]
    exact .pre h h' (codeOf_nilFree h2)
  | .list h => by rw [Code.nilFree]; exact .list (codesOf_nilFree h)
theorem codesOf_nilFree {l : List Code} {xs : List Sexp} : CodesOf l xs → CodesOf (Code.nilFrees l) xs
  | .nil => .nil
  | .cons h t => .cons (codeOf_nilFree h) (codesOf_nilFree t)
end

/-- C42: the expansion of a list of code that uses no macro is the same code (with the empty list for NIL); nothing is evaluated. -/
theorem C42_expand {st : St} {s : Nat} {p : Ptr} {l : List Code} (hm : MacroFree st s (.list l)) (hp : IsTree st p (.list l)) :
    ∃ q st', Expands p s st (.ok q st') ∧ OnlyNewLists st st' ∧ IsTree st' q (Code.nilFree (.list l)) := by
  obtain ⟨q, st', K, h1, h2, h3⟩ := expand_code hm hp
  exact ⟨q, st', ⟨ends_ok _ _, K, h1 K (Nat.le_refl _)⟩, h2, h3⟩

/-- C42: a literal or a name stays as it is. -/
theorem C42_value {st : St} {s : Nat} {i : Nat} {v : Variant} : Expands (.mk i (.var v)) s st (.ok (.mk i (.var v)) st) :=
  ⟨ends_ok _ _, 2, rfl⟩

/-- More white space after the elements. -/
theorem separated_more {items : List (Str × Lexeme)} {a b : Str} (hs : Separated items a)
    (hb : ∀ c, b.head? = some c → White c) : Separated items (a ++ b) := by
  induction items with
  | nil => trivial
  | cons x t ih =>
    obtain ⟨w, l⟩ := x
    obtain ⟨h1, h2, h3, h4⟩ := hs
    refine ⟨h1, h2, ?_, ih h4⟩
    rw [← List.append_assoc]
    generalize render t ++ a = z at h3
    cases z with
    | nil =>
      have ha : ¬ White '@' := by decide
      cases l <;> simp only [Lexeme.Before, List.nil_append] at * <;> first | exact fun c hc => .inl (hb c hc) | exact fun hc => ha (hb _ hc)
    | cons c z => exact h3

/-- More white space before the elements. -/
theorem separated_before {items : List (Str × Lexeme)} {trail w : Str} (hw : ∀ c ∈ w, White c) (ht : ∀ c ∈ trail, White c)
    (hs : Separated items trail) : ∃ items' trail', (∀ c ∈ trail', White c) ∧ Separated items' trail' ∧
      items'.map Prod.snd = items.map Prod.snd ∧ render items' ++ trail' = w ++ (render items ++ trail) := by
  cases items with
  | nil => exact ⟨[], w ++ trail, by intro c hc; simp at hc; exact hc.elim (hw c) (ht c), trivial, rfl, by simp [render]⟩
  | cons x t =>
    obtain ⟨v, l⟩ := x
    obtain ⟨h1, h2, h3, h4⟩ := hs
    refine ⟨(w ++ v, l) :: t, trail, ht, ⟨?_, h2, h3, h4⟩, rfl, by simp [render]⟩
    intro c hc
    simp at hc
    rcases hc with h | h
    · exact hw c h
    · exact h1 c h

theorem symbolName_do : SymbolName c!"do" := by
  simp [SymbolName, Plain, White, NumberLike, dropSign, Digit, reserved]

/-- The script with the surrounding `do`. -/
theorem decorate_read {xs : List Sexp} (hx : Sexp.WFs xs) {code : Str} (hw : Written xs code) (module : Str) :
    ∃ y, parse (decorate code) 4 module = .ok y ∧ Reads (.list (.sym c!"do" :: xs)) y := by
  obtain ⟨items, trail, h1, h2, h3, rfl⟩ := hw
  obtain ⟨items', trail', g1, g2, g3, g4⟩ := separated_before (w := c!" ") (by simp [White]) h1 h2
  have hsep : Separated (([], .opening) :: ([], .word c!"do") :: (items' ++ [(trail' ++ c!"\n", .closing)])) [] := by
    refine ⟨by simp, trivial, trivial, by simp, ⟨symbolName_do.1, symbolName_do.2.1⟩, ?_, ?_⟩
    · have : ∃ z, render (items' ++ [(trail' ++ c!"\n", Lexeme.closing)]) ++ [] = ' ' :: z := by
        refine ⟨render items ++ trail ++ c!"\n)", ?_⟩
        rw [render_append]
        simp only [render, List.append_nil, Lexeme.source]
        rw [← List.append_assoc, ← List.append_assoc, g4]
        simp
      obtain ⟨z, hz⟩ := this
      rw [hz]
      intro c hc
      simp at hc
      simp [← hc, White]
    · refine separated_append ?_ ⟨?_, trivial, trivial, trivial⟩
      · simp only [render, List.append_nil, List.append_assoc]
        exact separated_more g2 (by intro c hc; simp at hc; simp [← hc, White])
      · intro c hc
        simp at hc
        rcases hc with h | h
        · exact g1 c h
        · simp [h, White]
  have := C06_read (l := .sym c!"do" :: xs) ⟨symbolName_do, hx⟩ (trail := []) (by simp) hsep
    (by simp only [List.map_cons, List.map_append, List.filter_cons, List.filter_append, g3, h3]; simp [Sexp.lexemes, Sexp.lexemess, Lexeme.isComment]) 4 module
  rw [List.append_nil] at this
  simp only [render, render_append, Lexeme.source, List.nil_append, List.append_nil] at this
  rw [← List.append_assoc (render items'), ← List.append_assoc (render items'), g4] at this
  simpa [decorate] using this

/-- The copy of a list. -/
theorem copyObj_tree {st : St} {p : Ptr} {l : List Code} (hp : IsTree st p (.list l)) :
    ∃ q st', copyObj p st = .ok q st' ∧ OnlyNewLists st st' ∧ IsTree st' q (.list l) := by
  cases hp with
  | @list i _ hi h =>
    exact ⟨.mk st.next .list, _, rfl, onlyNewLists_list st (st.lists i),
      .list (Nat.lt_succ_self _) (by simp only [fset_at]; exact h.new (onlyNewLists_list st _))⟩

theorem Spec.Started.trans_new {module : Str} {s : Nat} {st st1 st2 : St} (h : Started module s st st1) (h' : OnlyNewLists st1 st2) :
    Started module s st st2 := by
  refine ⟨Nat.le_trans h.next h'.next, fun i hi => by rw [h'.lists i (by have := h.next; omega), h.lists i hi], ?_, ?_⟩
  · obtain ⟨toks, h1⟩ := h.scopes
    exact ⟨toks, by rw [h'.scopes, h1]⟩
  · have h1 := h'.rest
    have h2 := h.rest
    generalize hl : st2.lists = L at *
    generalize hn : st2.next = N at *
    generalize hc : st1.scopes = C at *
    have h3 := h'.scopes
    rw [hc] at h3
    rw [h3]
    have e1 : st1.dicts = st.dicts := (congrArg St.dicts h2 :)
    have e2 : st1.clos = st.clos := (congrArg St.clos h2 :)
    have e3 : st1.out = st.out := (congrArg St.out h2 :)
    have e4 : st1.input = st.input := (congrArg St.input h2 :)
    have e5 : st1.files = st.files := (congrArg St.files h2 :)
    have e6 : st1.clock = st.clock := (congrArg St.clock h2 :)
    have e7 : st1.libPath = st.libPath := (congrArg St.libPath h2 :)
    have e8 : st1.dbg = st.dbg := (congrArg St.dbg h2 :)
    rw [e1, e2, e3, e4, e5, e6, e7, e8] at h1
    exact h1

theorem monoSeq_lim {F : Nat → Out (Option Variant)} {G : Nat → Out (Option Variant)} (hF : MonoSeq F) (hG : MonoSeq G) {K : Nat}
    (h : ∀ k, K ≤ k → F k = G k) (o : Out (Option Variant)) : Lim F o ↔ Lim G o := lim_iff hF hG K 0 h

/-- The token `do` in front of every program. -/
def doToken : Token := { type := .symbol, value := .str c!"do", start := -3, stop := -1, line := 1 }

theorem tokenize_do {text : Str} {toks : List Token} (h : tokenize (decorate text) 4 = .ok toks) :
    ∃ t rest, toks = t :: doToken :: rest ∧ t.type = .listStart := by
  have hc : decorate text = '(' :: 'd' :: 'o' :: ' ' :: (text ++ c!"\n)") := by simp [decorate]
  rw [hc, tokenize] at h
  simp only [List.length_cons] at h
  have e1 : tokStep 4 0 '(' ('d' :: 'o' :: ' ' :: (text ++ c!"\n)")) {} = .ok ([{ type := .listStart, value := .str c!"(", start := -4, stop := -4, line := 1 }], { startPos := 1 }, 0) := rfl
  have e2 : tokStep 4 1 'd' ('o' :: ' ' :: (text ++ c!"\n)")) { startPos := 1 } = .ok ([], { cur := c!"d", startPos := 1, inSym := true }, 0) := rfl
  have e3 : tokStep 4 2 'o' (' ' :: (text ++ c!"\n)")) { cur := c!"d", startPos := 1, inSym := true } = .ok ([], { cur := c!"do", startPos := 1, inSym := true }, 0) := rfl
  have e4 : tokStep 4 3 ' ' (text ++ c!"\n)") { cur := c!"do", startPos := 1, inSym := true } = .ok ([doToken], { startPos := 4 }, 0) := rfl
  simp only [tokLoop, e1, bind_ok_R, Int.cast_ofNat_Int, Int.add_zero, Int.zero_add, List.drop_zero, Int.reduceAdd, e2, e3, e4, List.nil_append] at h
  generalize tokLoop 4 _ _ _ _ = o at h
  cases o with
  | error f => cases h
  | ok more => cases h; exact ⟨_, more, rfl, rfl⟩
theorem parseLoop_first {module : Str} {t : Token} {x : Sx} : ∀ {n : Nat} {toks : List Token} {stack : List (List Sx)} {l : List Sx} {r : Sx × List Token},
    stack.getLast? = some (x :: l) → parseLoop module (some t) n true toks stack = .ok r → ∃ l', r.1 = .list (x :: l')
  | 0, _, _, _, _, _, h => by cases h
  | n + 1, [], _, _, _, _, h => by cases h
  | n + 1, a :: toks, [], _, _, hs, h => by cases hs
  | n + 1, a :: toks, cur :: stack, l, r, hs, h => by
    have hp : ∀ y, ∃ l', (pushTop y (cur :: stack)).getLast? = some (x :: l') := by
      intro y
      cases stack with
      | nil => simp at hs; exact ⟨l ++ [y], by simp [pushTop, hs]⟩
      | cons b s => exact ⟨l, by simpa [pushTop, List.getLast?_cons_cons] using hs⟩
    rw [parseLoop.eq_def] at h
    dsimp only at h
    split at h
    · exact parseLoop_first (by rw [List.getLast?_cons_cons]; exact hs) h
    · cases stack with
      | nil =>
        simp at hs
        subst hs
        dsimp only at h
        split at h
        · cases h
        · cases h; exact ⟨l, rfl⟩
      | cons b s =>
        obtain ⟨l', hl'⟩ : ∃ l', ((b ++ [Sx.list cur]) :: s).getLast? = some (x :: l') := by
          cases s with
          | nil => simp at hs; exact ⟨l ++ [.list cur], by simp [hs]⟩
          | cons c s => exact ⟨l, by simpa [List.getLast?_cons_cons] using hs⟩
        exact parseLoop_first hl' h
    iterate 4
      · cases hq : parseLoop module (some t) n false toks [] with
        | error f => rw [hq] at h; cases h
        | ok q =>
          rw [hq, bind_ok_R] at h
          obtain ⟨l', hl'⟩ := hp _
          exact parseLoop_first hl' h
    · exact parseLoop_first hs h
    · obtain ⟨l', hl'⟩ := hp _
      exact parseLoop_first hl' h

/-- The parse tree of a program starts with the token `do`. -/
theorem parse_do {text module : Str} {toks : List Token} {y : Sx} (ht : tokenize (decorate text) 4 = .ok toks) (h : parseTokens module toks = .ok y) :
    ∃ l, y = .list (.atom doToken :: l) := by
  obtain ⟨t, rest, rfl, h1⟩ := tokenize_do ht
  rw [parseTokens] at h
  obtain ⟨z, hz⟩ : ∃ z, (t :: doToken :: rest).getLast? = some z := ⟨_, List.getLast?_eq_some_getLast (by simp)⟩
  rw [hz] at h
  cases hq : parseLoop module (some z) (2 * (t :: doToken :: rest).length + 2) true (t :: doToken :: rest) [] with
  | error f => rw [hq] at h; cases h
  | ok q =>
    rw [hq, bind_ok_R] at h
    cases h
    rw [show 2 * (t :: doToken :: rest).length + 2 = (2 * rest.length + 4) + 1 + 1 by simp; omega, parseLoop, h1] at hq
    dsimp only at hq
    rw [parseLoop] at hq
    exact parseLoop_first (stack := [[.atom doToken]]) rfl hq

/-- The first element of an allocated list. -/
theorem alloc_first {t : Token} {l : List Sx} {st st' : St} {p : Ptr} {c : Code} (hs : t.lispType = .symbol) (h : allocSx (.list (.atom t :: l)) st = .ok p st') (hp : IsTree st' p c) :
    ∃ v cs, c = .list (.val v :: cs) ∧ v.type = .symbol ∧ v.tok = some t := by
  simp only [allocSx, allocSxs, M.bind_apply, allocObj, box] at h
  cases ha : allocSxs l { st with next := st.next + 1 + 1 } with
  | fail f s => rw [ha] at h; cases h
  | ok ps s =>
    rw [ha] at h
    simp only [M.pure_apply, allocList] at h
    cases h
    cases hp with
    | list hi h =>
      simp only [fset_at] at h
      cases h with
      | cons h1 h2 => cases h1; exact ⟨_, _, rfl, hs, rfl⟩

/-- Running a source text is evaluating the s-expressions it is a notation of, in a `do` form, if the budget is large enough. -/
theorem script_fam {F : Nat → Rec} (hF : Expanding F) {xs : List Sexp} (hx : Sexp.WFs xs) {text : Str} (hw : Written xs text) {s : Nat} {st : St}
    (hh : (Sexp.list (.sym c!"do" :: xs)).Heads (Inert st s)) (module : Str) :
    ∃ p c st1, Started module s st st1 ∧ IsTree st1 p (.list c) ∧ CodesOf c (.sym c!"do" :: xs) ∧ (∃ v cs, c = .val v :: cs ∧ v.tok = some doToken) ∧
      ∃ K, ∀ k, K ≤ k → lispEval (F k) text s module false false st = (F k).eval p s st1 := by
  obtain ⟨y, h1, h2⟩ := decorate_read hx hw module
  rw [parse] at h1
  cases ht : tokenize (decorate text) 4 with
  | error e => rw [ht] at h1; cases h1
  | ok toks =>
    rw [ht, bind_ok_R] at h1
    generalize hst0 : ({ st with scopes := fset st.scopes s { st.scopes s with module := module, tracing := some false, tokens := toks } } : St) = st0
    have hS0 : Started module s st st0 := by
      subst hst0
      exact ⟨Nat.le_refl _, fun _ _ => rfl, ⟨toks, rfl⟩, rfl⟩
    obtain ⟨p1, st1, a1, a2, c, a3, a4, a5, a6⟩ := allocSx_tree h2 st0
    have ht : ∃ v cs, c = .list (.val v :: cs) ∧ v.type = .symbol ∧ v.tok = some doToken := by
      obtain ⟨l, rfl⟩ := parse_do ht h1
      exact alloc_first rfl a1 a3
    cases a4 with
    | list a4 =>
    rename_i c
    obtain ⟨v, cs, hc, hv, hv'⟩ := ht
    cases hc
    obtain ⟨p2, st2, b1, b2, b3⟩ := copyObj_tree a3
    have hin : ∀ n, Inert st s n → Inert st2 s n := by
      intro n hn
      refine hn.of_vars fun i => ?_
      rw [b2.scopes, a2.scopes, ← hst0]
      by_cases hi : i = s <;> simp [fset, hi]
    obtain ⟨p3, st3, K, c1, c2, c3⟩ := expand_code_fam hF (.imp hin (a6 _ hh)) b3
    obtain ⟨p4, st4, d1, d2, d3⟩ := copyObj_tree c3
    refine ⟨p4, _, st4, ((hS0.trans_new a2).trans_new b2 |>.trans_new c2).trans_new d2, d3, codesOf_nilFree a4, ⟨v, Code.nilFrees cs, by simp [Code.nilFrees, Code.nilFree, hv], hv'⟩, K, fun k hk => ?_⟩
    simp only [lispEval, evalCode, modScope, M.bind_apply, M.modify_apply, M.lift_ok, ht, M.get_apply, fset_at, fset_fset, hst0]
    have hm : (st0.scopes s).module = module := by subst hst0; simp
    simp only [hm, h1, M.lift_ok, a1, b1, c1 k hk, d1]
    rfl

/-- The same for the plain evaluator. -/
theorem script_run {xs : List Sexp} (hx : Sexp.WFs xs) {text : Str} (hw : Written xs text) {s : Nat} {st : St}
    (hh : (Sexp.list (.sym c!"do" :: xs)).Heads (Inert st s)) (module : Str) :
    ∃ p c st1, Started module s st st1 ∧ IsTree st1 p (.list c) ∧ CodesOf c (.sym c!"do" :: xs) ∧
      ∃ K, ∀ k, K ≤ k → lispEval (run k) text s module false false st = (run k).eval p s st1 := by
  obtain ⟨p, c, st1, h1, h2, h3, -, h4⟩ := script_fam expanding_run hx hw hh module
  exact ⟨p, c, st1, h1, h2, h3, h4⟩

/-- Running a source text is evaluating the s-expressions it is a notation of, in a `do` form. -/
theorem script_code {xs : List Sexp} (hx : Sexp.WFs xs) {text : Str} (hw : Written xs text) {s : Nat} {st : St}
    (hh : (Sexp.list (.sym c!"do" :: xs)).Heads (Inert st s)) (module : Str) :
    ∃ p c st1, Started module s st st1 ∧ IsTree st1 p (.list c) ∧ CodesOf c (.sym c!"do" :: xs) ∧
      ∀ o, RunsIn text module s st o ↔ Evals p s st1 o := by
  obtain ⟨p, c, st1, h1, h2, h3, K, h4⟩ := script_run hx hw hh module
  exact ⟨p, c, st1, h1, h2, h3, monoSeq_lim (monoSeq_lispEval text s module false false st) (monoSeq_eval p s st1) h4⟩

mutual
theorem heads_imp {P Q : Str → Prop} (h : ∀ n, P n → Q n) : ∀ {x : Sexp}, x.Heads P → x.Heads Q
  | .int _, _ => trivial
  | .str _, _ => trivial
  | .sym _, _ => trivial
  | .bool _, _ => trivial
  | .nil, _ => trivial
  | .float _, _ => trivial
  | .pre _ _, hx => ⟨h _ hx.1, heads_imp h hx.2⟩
  | .list [], _ => ⟨trivial, trivial⟩
  | .list (_ :: _), hx => ⟨h _ hx.1, headsAll_imp h hx.2⟩
theorem headsAll_imp {P Q : Str → Prop} (h : ∀ n, P n → Q n) : ∀ {l : List Sexp}, Sexp.HeadsAll P l → Sexp.HeadsAll Q l
  | [], _ => trivial
  | _ :: _, hl => ⟨heads_imp h hl.1, headsAll_imp h hl.2⟩
end

set_option maxRecDepth 20000 in
theorem evalInExpand_table : ∀ e ∈ defaultTable, e.name ≠ c!"define-macro-expand" → e.evalInExpand = false := by
  decide +kernel

/-- In a new interpreter every name but `define-macro-expand` is without meaning for the macro expansion. -/
theorem inert_new {st st' : St} {s : Nat} (h : NewInterpreter st s st') {name : Str} (hn : name ∉ hidden) (hd : name ≠ c!"define-macro-expand") :
    Inert st' s name := by
  obtain ⟨i, m, h1, -, -, h2⟩ := h.macros
  refine ⟨.inr ⟨i, m, h1, .inl (by simp [binding, h2])⟩, ?_⟩
  by_cases hx : ∀ e ∈ defaultTable, e.name ≠ name
  · exact .inl (h.others name hx fun hm => hn (by simp only [hidden, List.mem_cons, List.not_mem_nil, or_false] at hm ⊢; rcases hm with h | h | h | h <;> simp [h]))
  · simp only [Classical.not_forall, Decidable.not_not] at hx
    obtain ⟨e, he, rfl⟩ := hx
    obtain ⟨p, h3, _, _, hp, h4, -⟩ := h.functions e he
    exact .inr ⟨p, e.wrapper, h3, ⟨_, _, hp, h4⟩, evalInExpand_table e he hd⟩

/-- Running a source text in a new interpreter is evaluating the s-expressions it is a notation of, in a `do` form. -/
theorem script_new {xs : List Sexp} (hx : Sexp.WFs xs) {text : Str} (hw : Written xs text)
    (hh : Sexp.HeadsAll (fun n => n ∉ hidden ∧ n ≠ c!"define-macro-expand") xs) (module : Str) (st : St) :
    ∃ p c st0 st1, createDefaultScope st = .ok st.next st0 ∧ NewInterpreter st st.next st0 ∧ Started module st.next st0 st1 ∧ IsTree st1 p (.list c) ∧ CodesOf c (.sym c!"do" :: xs) ∧
      ∀ o, Runs text module st o ↔ Evals p st.next st1 o := by
  obtain ⟨st0, h1, h2⟩ := C48_new st
  have hh' : (Sexp.list (.sym c!"do" :: xs)).Heads (Inert st0 st.next) := by
    refine ⟨inert_new h2 (by simp [Sexp.text, hidden]) (by simp [Sexp.text]), trivial, ?_⟩
    exact headsAll_imp (fun n hn => inert_new h2 hn.1 hn.2) hh
  obtain ⟨p, c, st1, g1, g2, g3, g4⟩ := script_code hx hw hh' module
  refine ⟨p, c, st0, st1, h1, h2, g1, g2, g3, fun o => ?_⟩
  rw [← g4 o]
  simp only [Runs, RunsIn, lispEvalNew, M.bind_apply, h1]

/-- The code of `(if (== 1 2) (quote (a b)) x)` in a new interpreter. -/
example (st : St) : ∃ st1 p l, MacroFree st1 st.next (.list l) ∧ IsTree st1 p (.list l) ∧ l.length = 4 := by
  let x : List Sexp := [.sym c!"if", .list [.sym c!"==", .int 1, .int 2], .list [.sym c!"quote", .list [.sym c!"a", .sym c!"b"]], .sym c!"x"]
  have hx : (Sexp.list x).WF := by
    simp [x, Sexp.WF, Sexp.WFs, SymbolName, Plain, White, NumberLike, dropSign, Digit, reserved, IsInt32]
  have hh : (Sexp.list x).Heads (fun n => n ∉ hidden ∧ n ≠ c!"define-macro-expand") := by
    simp [x, Sexp.Heads, Sexp.HeadsAll, Sexp.text, hidden]
  obtain ⟨st0, _, h2⟩ := C48_new st
  obtain ⟨y, _, h3⟩ := C06_roundtrip hx 0 []
  obtain ⟨p, st1, _, h5, c, h6, h7, _, h9⟩ := allocSx_tree h3 st0
  cases h7 with
  | list h7 =>
    refine ⟨st1, p, _, (h9 _ (heads_imp (fun n hn => inert_new h2 hn.1 hn.2) hh)).imp fun n hn => hn.of_scopes h5.scopes, h6, ?_⟩
    simp only [x] at h7
    cases h7 with | cons _ h => cases h with | cons _ h => cases h with | cons _ h => cases h with | cons _ h => cases h; rfl

end

attribute [local instance] demoWorld

/-- C42: it is false if the first element of a list is the name of a variable that is not a function, even in a quotation: there is no macro
`x`, but the expansion of `(quote (x 1))` raises an exception as soon as `x` is defined. -/
theorem C42_variable_wrong : demoSession [c!"(println (quote (x 1)))"] = c!"(x 1)\n" ∧
    demoSession [c!"(def x 5)", c!"(println (quote (x 1)))"] = [] := by
  decide +kernel

/-- C42: NIL becomes the empty list, also in a quotation. -/
theorem C42_nil_wrong : demoSession [c!"(println (quote (a nil)))"] = c!"(a ())\n" := by decide +kernel

end Fuel
