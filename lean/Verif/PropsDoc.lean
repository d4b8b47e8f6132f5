import Verif.SpecDoc
import Verif.LemMacro
import Verif.PropsImport
/-!
# Properties of the documentation of functions (C71, C72)
-/

set_option linter.unusedSectionVars false
set_option linter.unusedSimpArgs false
set_option linter.unusedVariables false

namespace Fuel

open Spec

section
variable [World]

theorem token_eq (a b : Token) : a.eq b = true ↔ SameToken a b := by
  simp only [Token.eq, Bool.and_eq_true, decide_eq_true_eq, beq_iff_eq]
  constructor
  · rintro ⟨⟨⟨⟨h1, h2⟩, h3⟩, h4⟩, h5⟩; exact ⟨h1, h2, h3, h4, h5⟩
  · rintro ⟨h1, h2, h3, h4, h5⟩; exact ⟨⟨⟨⟨h1, h2⟩, h3⟩, h4⟩, h5⟩

theorem previous_go (t : Token) : ∀ (toks : List Token) (prev : Option Token) (u : Token), previousToken.go prev toks t = some u ↔
    (prev = some u ∧ ∃ t' b, toks = t' :: b ∧ SameToken t' t) ∨ TokenBefore toks t u
  | [], prev, u => by
    simp only [previousToken.go, TokenBefore]
    constructor
    · intro h; cases h
    · rintro (⟨-, t', b, h, -⟩ | ⟨a, t', b, h, -⟩)
      · cases h
      · simp at h
  | x :: xs, prev, u => by
    rw [previousToken.go]
    by_cases hx : x.eq t = true
    · rw [if_pos hx]
      have hx := (token_eq x t).1 hx
      constructor
      · intro h; exact .inl ⟨h, x, xs, rfl, hx⟩
      · rintro (⟨h, -⟩ | ⟨a, t', b, h1, h2, h3⟩)
        · exact h
        · cases a with
          | nil => cases h1; exact absurd hx (h3 x (by simp))
          | cons y a => cases h1; exact absurd hx (h3 x (by simp))
    · rw [if_neg hx, previous_go t xs (some x) u]
      have hx : ¬ SameToken x t := fun h => hx ((token_eq x t).2 h)
      constructor
      · rintro (⟨h, t', b, rfl, h2⟩ | ⟨a, t', b, rfl, h2, h3⟩)
        · cases h
          exact .inr ⟨[], t', b, rfl, h2, by simpa using hx⟩
        · exact .inr ⟨x :: a, t', b, rfl, h2, by
            intro y hy
            rcases List.mem_cons.1 hy with rfl | hy
            · exact hx
            · exact h3 y hy⟩
      · rintro (⟨h, t', b, h1, h2⟩ | ⟨a, t', b, h1, h2, h3⟩)
        · cases h1; exact absurd h2 hx
        · cases a with
          | nil => cases h1; exact .inl ⟨rfl, t', b, rfl, h2⟩
          | cons y a => cases h1; exact .inr ⟨a, t', b, rfl, h2, fun z hz => h3 z (by simp at hz ⊢; exact .inr hz)⟩

theorem previous_iff {toks : List Token} {t u : Token} : previousToken toks (some t) = some u ↔ TokenBefore toks t u := by
  show previousToken.go none toks t = some u ↔ _
  rw [previous_go]
  simp

theorem comment_ok (toks : List Token) (t : Token) : CommentBefore toks t
    (match previousToken toks (previousToken toks (previousToken toks (some t))) with
    | some t => if t.type = .comment then t.value.toStr else []
    | none => []) := by
  cases h1 : previousToken toks (some t) with
  | none =>
    refine .inr ⟨?_, rfl⟩
    rintro ⟨x, y, c, hx, -⟩
    rw [previous_iff.2 hx] at h1; cases h1
  | some x =>
    cases h2 : previousToken toks (some x) with
    | none =>
      refine .inr ⟨?_, rfl⟩
      rintro ⟨x', y, c, hx, hy, -⟩
      rw [previous_iff.2 hx] at h1; cases h1
      rw [previous_iff.2 hy] at h2; cases h2
    | some y =>
      cases h3 : previousToken toks (some y) with
      | none =>
        refine .inr ⟨?_, rfl⟩
        rintro ⟨x', y', c, hx, hy, hc, -⟩
        rw [previous_iff.2 hx] at h1; cases h1
        rw [previous_iff.2 hy] at h2; cases h2
        rw [previous_iff.2 hc] at h3; cases h3
      | some c =>
        by_cases h4 : c.type = .comment
        · exact .inl ⟨x, y, c, previous_iff.1 h1, previous_iff.1 h2, previous_iff.1 h3, h4, by simp [h4]⟩
        · refine .inr ⟨?_, by simp [h4]⟩
          rintro ⟨x', y', c', hx, hy, hc, h5⟩
          rw [previous_iff.2 hx] at h1; cases h1
          rw [previous_iff.2 hy] at h2; cases h2
          rw [previous_iff.2 hc] at h3; cases h3
          exact h4 h5

theorem syntax_joined (n : Str) {ps : List Str} (h : ∀ p ∈ ps, p ≠ []) :
    c!"(" ++ n ++ (if (joined ps).isEmpty then [] else c!" ") ++ joined ps ++ c!")" = syntaxText n ps := by
  cases ps with
  | nil => simp [joined, syntaxText, List.intercalate]
  | cons p ps =>
    have hp : p ≠ [] := h p (by simp)
    have e : ∀ (q : Str) (qs : List Str), List.intercalate c!" " (q :: qs) = q ++ (qs.map (c!" " ++ ·)).flatten := by
      intro q qs
      induction qs generalizing q with
      | nil => simp [List.intercalate]
      | cons r rs ih => 
        have := ih r
        simp only [List.intercalate, List.intersperse, List.flatten_cons, List.map_cons] at this ⊢
        rw [this]
        simp
    have hj : joined (p :: ps) = p ++ (ps.map (c!" " ++ ·)).flatten := by
      have : (p :: ps).dropWhile List.isEmpty = p :: ps := by rw [List.dropWhile, show List.isEmpty p = false by cases p <;> simp_all]
      rw [joined, this, e]
    have hne : (joined (p :: ps)).isEmpty = false := by rw [hj]; simp [hp]
    rw [hne, hj]
    simp [syntaxText]

/-- The documentation that a definition records. -/
theorem updateDoc_spec {st : St} {i : Nat} {u : Variant} {t : Token} {p1 p2 : Ptr} {n : Str} {ps : List Str} (hu : IsSym u n) (ht : u.tok = some t)
    (h1 : CodeAt st p1 (.list (ps.map .sym))) (hps : ∀ p ∈ ps, p ≠ []) (s : Nat) : ∃ d, CommentBefore (st.scopes s).tokens t d ∧ ∀ k,
      updateDoc (k + 3) [.mk i (.var u), p1, p2] s st = .ok () { st with scopes := fset st.scopes s { st.scopes s with userDoc := some (syntaxText n ps, d) } } := by
  refine ⟨_, comment_ok (st.scopes s).tokens t, fun k => ?_⟩
  obtain ⟨c, h2, h3⟩ := h1
  cases h3 with
  | list h3 =>
    cases h2 with
    | @list j _ hj h2 =>
      have hsyms : ∀ {qs : List Ptr} {es : List Sexp}, All2 (CodeAt st) qs es → ∀ {ps : List Str}, es = ps.map .sym → ∀ k, All2 (fun q t => ptrStr st (k + 3) q = .ok t) qs ps := by
        intro qs es h
        induction h with
        | nil => intro ps hp k; cases ps with
          | nil => exact .nil
          | cons _ _ => cases hp
        | cons h _ ih => intro ps hp k; cases ps with
          | nil => cases hp
          | cons _ _ =>
            cases hp
            obtain ⟨_, _, rfl, hv, -⟩ := codeAt_sym h
            exact .cons (ptrStr_sym hv) (ih rfl k)
      have hj : joinLoop (ptrStr st (k + 3)) c!" " [] (st.lists j) = .ok (joined ps) := joinLoop_joined (hsyms (codeAt_all h2 h3) rfl k)
      simp only [updateDoc, M.bind_apply, M.get_apply, arg, List.getElem?_cons_zero, List.getElem?_cons_succ, M.lift_ok, tokenBeforeDefn, argStr, M.rd_apply, ptrStr_sym hu,
        signatureOf, enumerableFromArgs, toEnumerable, hj, bind_ok_R, modScope, M.modify_apply, M.pure_apply, ht, syntax_joined n hps]
      cases previousToken (st.scopes s).tokens (previousToken (st.scopes s).tokens (previousToken (st.scopes s).tokens (some t))) <;> rfl

theorem globalFunction_of {st : St} {s : Nat} {n : Str} {p : Ptr} {w : FnW} (hb : binding st (st.scopes s).global n = some p) (hp : Holds p (IsFn · w)) (k : Nat) :
    globalFunction k n s st = .ok w st := by
  obtain ⟨i, v, rfl, hv⟩ := hp
  simp only [globalFunction, M.bind_apply, M.get_apply, find_eq, hb, toVariant_var, M.lift_ok, M.rd_apply, functionValue_fn hv]

/-- C71: `(defn name (p1 ... pn) body)` (and `gdefn`) creates a function with the syntax `(name p1 ... pn)` and the comment in front of the definition as documentation;
the function belongs to the module and the scope of the definition and has the parameters and the body of the definition.  The name is bound
to it in the current (in the global) scope and no other variable changes. -/
theorem C71_defn (g : Bool) {w wf wd : FnW} (hw : w.kind = .prim (if g then .gdefn else .defn)) {st : St} {s i : Nat} {u : Variant} {t : Token} {n : Str} {ps : List Str} {p1 p2 qf qd : Ptr}
    (hu : IsSym u n) (ht : u.tok = some t) (h1 : CodeAt st p1 (.list (ps.map .sym))) (hps : ∀ p ∈ ps, p ≠ [])
    (hfn : binding st (st.scopes s).global c!"fn" = some qf) (hqf : Holds qf (IsFn · wf)) (hwf : wf.kind = .prim .fn)
    (hdef : binding st (st.scopes s).global (if g then c!"gdef" else c!"def") = some qd) (hqd : Holds qd (IsFn · wd)) (hwd : wd.kind = .prim (if g then .gdef else .def_)) :
    ∃ v st' c d, Calls w [.mk i (.var u), p1, p2] s st (.ok (some v) st') ∧
      CommentBefore (st.scopes s).tokens t d ∧ IsFn v ⟨.closure c, syntaxText n ps, d, (st.scopes s).module, false, false, false⟩ ∧
      st'.clos c = ⟨n, (st.scopes s).module, [p1, p2], s⟩ ∧
      (∃ q, binding st' (if g then (st.scopes s).global else s) n = some q ∧ Holds q (· = v)) ∧
      (∀ a m, a ≠ (if g then (st.scopes s).global else s) ∨ m ≠ n → binding st' a m = binding st a m) ∧ (st'.scopes s).userData = none := by
  obtain ⟨d, hd, hA⟩ := updateDoc_spec (p2 := p2) (i := i) hu ht h1 hps s
  generalize hsA : ({ st with scopes := fset st.scopes s { st.scopes s with userDoc := some (syntaxText n ps, d) } } : St) = stA at hA
  generalize hsB : ({ stA with scopes := fset stA.scopes s { stA.scopes s with userData := some n } } : St) = stB
  generalize hsC : ({ stB with next := stB.next + 2, clos := fset stB.clos stB.next ⟨n, (st.scopes s).module, [p1, p2], s⟩ } : St) = stC
  generalize hsD : ({ stC with scopes := fset stC.scopes s { stC.scopes s with userData := none } } : St) = stD
  have bA : ∀ a m, binding stA a m = binding st a m := fun a m => by subst hsA; unfold binding; by_cases h : a = s <;> simp [fset, h]
  have bD : ∀ a m, binding stD a m = binding st a m := fun a m => by
    subst hsD hsC hsB hsA; unfold binding; by_cases h : a = s <;> simp [fset, h]
  have gA : (stA.scopes s).global = (st.scopes s).global := by subst hsA; simp
  have gD : (stD.scopes s).global = (st.scopes s).global := by subst hsD hsC hsB hsA; simp
  have hB : callPrim (run 5) .fn [p1, p2] s stB = .ok (some (.ofType .function (.mk (stB.next + 1) (.fn ⟨.closure stB.next, syntaxText n ps, d, (st.scopes s).module, false, false, false⟩)))) stC := by
    subst hsC hsB hsA
    simp [callPrim, ret, bFn, allocClosure, allocObj, M.bind_apply, M.get_apply, M.pure_apply]
  generalize hv : (Variant.ofType .function (.mk (stB.next + 1) (.fn ⟨.closure stB.next, syntaxText n ps, d, (st.scopes s).module, false, false, false⟩)) : Variant) = v at hB
  have hfv : IsFn v ⟨.closure stB.next, syntaxText n ps, d, (st.scopes s).module, false, false, false⟩ := by subst hv; exact ⟨rfl, _, rfl⟩
  obtain ⟨stF, hF1, hF2⟩ := assign_call (st := { stD with next := stD.next + 1 }) (i := i) (j := stD.next) hu hfv s g
  have gE : (({ stD with next := stD.next + 1 } : St).scopes s).global = (st.scopes s).global := gD
  rw [gE] at hF2
  refine ⟨v, stF, stB.next, d, (calls_prim hw).2 (lim_of (ends_ok _ _) 6 ?_), hd, hfv, ?_, hF2.value, fun a m h => (hF2.others a m h).trans (bD a m), ?_⟩
  · have e1 : ∀ l, (run 6).call wf l s = callPrim (run 5) .fn l s := fun l => by rw [run_call]; simp only [callStep, hwf]
    have e2 : ∀ l, (run 6).call wd l s = callPrim (run 5) (if g then .gdef else .def_) l s := fun l => by rw [run_call]; simp only [callStep, hwd]
    have e3 : callPrim (run 6) (if g then .gdefn else .defn) [.mk i (.var u), p1, p2] s = bDefn (run 6) (if g then c!"gdef" else c!"def") [.mk i (.var u), p1, p2] s := by
      cases g <;> rfl
    show callPrim (run 6) (if g then .gdefn else .defn) [.mk i (.var u), p1, p2] s st = _
    rw [e3]
    have e4 : checkArgs (if g then c!"gdef" else c!"def") 3 [.mk i (.var u), p1, p2] s st = .ok () st := by simp [checkArgs]
    have hG1 := globalFunction_of (st := stA) (s := s) (by rw [gA, bA]; exact hfn) hqf
    have hG2 := globalFunction_of (st := stD) (s := s) (by rw [gD, bD]; exact hdef) hqd
    simp only [bDefn, M.bind_apply, e4, run_n, hA 3, hG1, arg, List.getElem?_cons_zero, List.getElem?_cons_succ, M.lift_ok, M.pure_apply, evalArgIfNeeded, toVariant_var, derefV, M.rd_apply,
      varStr_sym hu, modScope, M.modify_apply, hsB, e1, hB, hsD, hG2, box, allocObj, e2]
    exact hF1 3
  · rw [hF2.clos]
    subst hsD hsC
    simp
  · have := congrArg Scope.userData (hF2.scopes s)
    simp only at this
    rw [this]
    subst hsD
    simp

/-! ## C72 -/

theorem starts_iff {s p : Str} : startsWith s p = true ↔ p <+: s := by
  rw [startsWith, beq_iff_eq]
  constructor
  · intro h; rw [← h]; exact List.take_prefix _ _
  · rintro ⟨t, rfl⟩; simp

theorem contains_iff {s p : Str} : (findSub p s).isSome = true ↔ p <:+: s := by
  constructor
  · intro h
    obtain ⟨k, hk⟩ := Option.isSome_iff_exists.1 h
    obtain ⟨⟨a, b, h, -⟩, -⟩ := findSub_some hk
    exact ⟨a, b, h.symm⟩
  · rintro ⟨a, b, h⟩
    cases hf : findSub p s with
    | some => rfl
    | none => exact absurd ⟨a, b, h.symm, rfl⟩ (findSub_none hf a.length)

theorem help_title {w : FnW} {title : Str} (h : Title w.signature title) (sep splitter : Str) (nd sd : Str → Str) :
    helpString w sep splitter nd sd = .ok (splitter ++ ((if w.signature.head? = some '(' then nd title else c!"???") ++ (if w.special then c!" [special form]" else []) ++ sep) ++
      (sd (c!"Syntax: " ++ w.signature) ++ sep) ++ ((if w.doc.isEmpty then c!">not available<" else w.doc) ++ sep) ++ c!"\n") := by
  unfold helpString
  generalize w.signature = sig at h
  cases h with
  | @params n r hn =>
    have h1 : findSub c!" " (c!"(" ++ n ++ c!" " ++ r) = some (n.length + 1) := by
      have := find_char_at (c := ' ') (a := '(' :: n) (b := r) (by simp [hn])
      simpa using this
    have h2 : substr (c!"(" ++ n ++ c!" " ++ r) 1 (n.length + 1) = .ok (n ++ c!" ") := by simp [substr, List.take_append, List.take_of_length_le]
    have h3 : (c!"(" ++ n ++ c!" " ++ r).head? = some '(' := rfl
    simp only [h1, h2, if_pos h3, startsWith, bind_ok_R]
    rfl
  | none hn hn2 =>
    have h1 : findSub c!" " (c!"(" ++ title ++ c!")") = none := find_char_none (by simp [hn])
    have h4 : findSub c!")" (c!"(" ++ title ++ c!")") = some (title.length + 1) := by
      have := find_char_at (c := ')') (a := '(' :: title) (b := []) (by simp [hn2])
      simpa using this
    have h2 : substr (c!"(" ++ title ++ c!")") 1 (title.length + 1 - 1) = .ok title := by simp [substr, List.take_append]
    have h3 : (c!"(" ++ title ++ c!")").head? = some '(' := rfl
    simp only [h1, h2, h4, if_pos h3, startsWith, bind_ok_R]
    rfl
  | unknown hs =>
    have h1 : startsWith sig c!"(" = false := by
      cases sig with
      | nil => rfl
      | cons c s => 
        have : c ≠ '(' := fun e => hs s (by rw [e])
        simp [startsWith, this]
    have h2 : ¬ sig.head? = some '(' := by
      cases sig with
      | nil => simp
      | cons c s => intro e; cases e; exact hs s rfl
    simp only [h1, if_neg h2, Bool.false_eq_true, if_false, bind_ok_R]

theorem formatedDoc_ok {w : FnW} {title : Str} (h : Title w.signature title) : formatedDoc w = .ok (helpText title w) := by
  have : (if w.signature.head? = some '(' then id title else c!"???") = title := by
    generalize w.signature = sig at h
    cases h with
    | params => rfl
    | none => rfl
    | unknown hs => split <;> rfl
  rw [formatedDoc, help_title h, this]
  simp [helpText, List.append_assoc]

theorem htmlDoc_ok {w : FnW} {title : Str} (h : Title w.signature title) : htmlDoc w = .ok (htmlText title w) := by
  have : (if w.signature.head? = some '(' then c!"<b>" ++ title ++ c!"</b>" else c!"???") = (if w.signature.head? = some '(' then c!"<b>" ++ title ++ c!"</b>" else title) := by
    generalize w.signature = sig at h
    cases h with
    | params => rfl
    | none => rfl
    | unknown hs => rfl
  rw [htmlDoc, help_title h, this]
  simp [htmlText, List.append_assoc]

theorem functionsHelp_ok {st : St} {k : Nat} {sel : Str → Bool} {P : Str → Prop} (hP : ∀ n, sel n = true ↔ P n) {l : List (Str × Ptr)} {t : Str} (h : Helps P l t) :
    functionsHelp st k sel l = .ok t := by
  induction h with
  | nil => rfl
  | @skip n _ _ _ hn _ ih =>
    have : sel n = false := by cases hs : sel n with
      | false => rfl
      | true => exact absurd ((hP n).1 hs) hn
    simp [functionsHelp, this, ih, bind_ok_R]
  | @shown n _ w _ _ _ hn hp ht _ ih =>
    obtain ⟨i, v, rfl, hv⟩ := hp
    simp only [functionsHelp, (hP n).2 hn, if_true, toVariant_var, bind_ok_R, functionValue_fn hv, formatedDoc_ok ht, ih]

theorem helps_start {P : Str → Prop} {l : List (Str × Ptr)} {t : Str} (h : Helps P l t) : t = [] ∨ ∃ r, t = '-' :: r := by
  induction h with
  | nil => exact .inl rfl
  | skip _ _ ih => exact ih
  | shown => exact .inr ⟨_, rfl⟩

theorem format_plain {h : Str} (h1 : BraceFree h) (h2 : h ≠ c!"##<NULL>##") : format c!"{0}" h = .ok h := by
  have := format_pieces (args := [h]) (ps := [.hole 0]) (by simp) (by simp only [List.mem_singleton]; rintro _ rfl; exact ⟨h1, h2⟩) (by simp [holes]) (by simp [holes])
  simpa [argOr, sources, Piece.source, fill, nullString] using this

theorem searchHelp_ok {st : St} {k s a m : Nat} {sel : Str → Str → Bool} {P : Str → Str → Prop} (hP : ∀ n x, sel n x = true ↔ P x n)
    (hm : binding st (st.scopes s).global c!"###macros###" = some (.mk a (.scope m))) (hv : (st.scopes m).vars = []) {ps : List Ptr} {names ts : List Str}
    (hps : All2 (fun p n => Holds p fun v => IsStr v n ∨ IsSym v n) ps names) (ht : All2 (fun n t => Helps (P n) (st.scopes s).vars t) names ts) :
    searchHelp st (k + 3) s sel ps = .ok ts.flatten := by
  induction hps generalizing ts with
  | nil => cases ht; rfl
  | @cons p n ps names hp _ ih =>
    cases ht with
    | @cons _ t _ ts h1 h2 =>
      have hs : ptrStr st (k + 3) p = .ok n := by
        obtain ⟨i, v, rfl, hv | hv⟩ := hp
        · rw [ptrStr_var]; exact varStr_str hv
        · exact ptrStr_sym hv
      have he : mapFind macrosKey (st.scopes (st.scopes s).global).vars = some (.mk a (.scope m)) := by rw [find_eq]; exact hm
      simp only [searchHelp, hs, bind_ok_R, functionsHelp_ok (hP · n) h1, he, hv, macrosHelp, ih h2, List.append_nil, List.flatten_cons]

theorem flatten_start {ts : List Str} (h : ∀ t ∈ ts, t = [] ∨ ∃ r, t = '-' :: r) : ts.flatten ≠ c!"##<NULL>##" := by
  induction ts with
  | nil => simp
  | cons t ts ih =>
    rcases h t (by simp) with rfl | ⟨r, rfl⟩
    · simpa using ih fun t ht => h t (by simp [ht])
    · simp

theorem returns_written {m : M (Option Variant)} {st : St} (t : Str) (h : m st = ret (mkStr t) { st with out := st.out ++ t }) :
    Returns m st fun v st' => IsStr v t ∧ Extends { st with out := st.out ++ t } st' :=
  ⟨_, _, h, isStr_mk _ _ _ _, extends_next _ _ (Nat.le_succ _)⟩

/-- What a search in the documentation does: it writes the text and returns it; nothing else changes. -/
theorem search_ok {st : St} {k s a m : Nat} {sel : Str → Str → Bool} {P : Str → Str → Prop} (hP : ∀ n x, sel n x = true ↔ P x n)
    (hm : binding st (st.scopes s).global c!"###macros###" = some (.mk a (.scope m))) (hv : (st.scopes m).vars = []) {ps : List Ptr} {names ts : List Str} (hne : ps ≠ [])
    (hps : All2 (fun p n => Holds p fun v => IsStr v n ∨ IsSym v n) ps names) (ht : All2 (fun n t => Helps (P n) (st.scopes s).vars t) names ts) (hb : BraceFree ts.flatten) :
    Returns (ret (searchDocumentation (k + 3) sel ps s)) st fun v st' => IsStr v (ts.flatten ++ c!"\n") ∧ Extends { st with out := st.out ++ (ts.flatten ++ c!"\n") } st' := by
  have h0 : ∀ t ∈ ts, t = [] ∨ ∃ r, t = '-' :: r := by
    clear hps hne hb
    induction ht with
    | nil => intro t h; cases h
    | cons h _ ih =>
      intro t hm
      rcases List.mem_cons.1 hm with rfl | hm
      · exact helps_start h
      · exact ih t hm
  have he : ps.isEmpty = false := by cases ps with
    | nil => exact absurd rfl hne
    | cons => rfl
  refine returns_written _ ?_
  simp only [ret, searchDocumentation, he, Bool.false_eq_true, if_false, M.bind_apply, M.rd_apply, searchHelp_ok hP hm hv hps ht, M.lift_apply, format_plain hb (flatten_start h0),
    dumpDocumentation, write, M.modify_apply]

/-- C72: `(doc name1 ... namen)` writes, for every name, the documentation of all functions in the current scope whose names start with it, in the order of the
names, and returns the text; nothing else changes (as long as no macro is defined). -/
theorem C72_doc (k : Nat) {st : St} {s a m : Nat} (hm : binding st (st.scopes s).global c!"###macros###" = some (.mk a (.scope m))) (hv : (st.scopes m).vars = []) {ps : List Ptr}
    {names ts : List Str} (hne : ps ≠ []) (hps : All2 (fun p n => Holds p fun v => IsStr v n ∨ IsSym v n) ps names)
    (ht : All2 (fun n t => Helps (n <+: ·) (st.scopes s).vars t) names ts) (hb : BraceFree ts.flatten) :
    Returns (callPrim (run (k + 3)) .doc ps s) st fun v st' => IsStr v (ts.flatten ++ c!"\n") ∧ Extends { st with out := st.out ++ (ts.flatten ++ c!"\n") } st' := by
  show Returns (ret (bDoc (run (k + 3)).n ps s)) st _
  rw [run_n]
  exact search_ok (P := fun n x => n <+: x) (fun n x => starts_iff) hm hv hne hps ht hb

/-- C72: `(searchdoc name1 ... namen)` does the same for the functions whose names contain one of the given texts. -/
theorem C72_searchdoc (k : Nat) {st : St} {s a m : Nat} (hm : binding st (st.scopes s).global c!"###macros###" = some (.mk a (.scope m))) (hv : (st.scopes m).vars = []) {ps : List Ptr}
    {names ts : List Str} (hne : ps ≠ []) (hps : All2 (fun p n => Holds p fun v => IsStr v n ∨ IsSym v n) ps names)
    (ht : All2 (fun n t => Helps (n <:+: ·) (st.scopes s).vars t) names ts) (hb : BraceFree ts.flatten) :
    Returns (callPrim (run (k + 3)) .searchdoc ps s) st fun v st' => IsStr v (ts.flatten ++ c!"\n") ∧ Extends { st with out := st.out ++ (ts.flatten ++ c!"\n") } st' := by
  show Returns (ret (bSearchDoc (run (k + 3)).n ps s)) st _
  rw [run_n]
  exact search_ok (P := fun n x => n <:+: x) (fun n x => contains_iff) hm hv hne hps ht hb

theorem dumpDoc_ok {st : St} {k : Nat} {fmt : FnW → R Str} {text : Str → FnW → Str} (hf : ∀ w title, Title w.signature title → fmt w = .ok (text title w) ∧ text title w ≠ c!"##<NULL>##")
    {l : List (Str × Ptr)} {t : Str} (h : Manual text l t) : dumpDoc st k fmt l = .ok t := by
  induction h with
  | nil => rfl
  | internal h _ ih => simp only [dumpDoc, starts_iff.2 h, if_true, bind_ok_R, ih, List.nil_append]
  | @variable_ n _ _ _ h hp _ ih =>
    have hs : startsWith n c!"###" = false := by cases hs : startsWith n c!"###" with
      | false => rfl
      | true => exact absurd (starts_iff.1 hs) h
    obtain ⟨i, v, rfl, hv | ⟨w, hv, hw⟩⟩ := hp
    · simp only [dumpDoc, hs, Bool.false_eq_true, if_false, toVariant_var, bind_ok_R, if_neg hv, ih, List.nil_append]
    · simp only [dumpDoc, hs, Bool.false_eq_true, if_false, toVariant_var, bind_ok_R, hv.1, if_true, functionValue_fn hv, hw, ih, List.nil_append]
  | @builtin n _ w title _ _ h hp hw ht hb _ ih =>
    have hs : startsWith n c!"###" = false := by cases hs : startsWith n c!"###" with
      | false => rfl
      | true => exact absurd (starts_iff.1 hs) h
    obtain ⟨i, v, rfl, hv⟩ := hp
    simp only [dumpDoc, hs, Bool.false_eq_true, if_false, toVariant_var, bind_ok_R, hv.1, if_true, functionValue_fn hv, hw, (hf w title ht).1, format_plain hb (hf w title ht).2, ih]

/-- C72: `(doc)` writes and returns the documentation of all built-in functions in the order of their names. -/
theorem C72_all (k : Nat) {st : St} {s : Nat} {t : Str} (h : Manual helpText (st.scopes (st.scopes s).global).vars t) :
    Returns (callPrim (run k) .doc [] s) st fun v st' => IsStr v t ∧ Extends { st with out := st.out ++ t } st' := by
  refine returns_written _ ?_
  simp only [callPrim, ret, bDoc, searchDocumentation, List.isEmpty_nil, if_true, M.bind_apply, M.rd_apply,
    dumpDoc_ok (fmt := formatedDoc) (fun w title h => ⟨formatedDoc_ok h, by simp [helpText]⟩) h, dumpDocumentation, write, M.modify_apply]

/-- C72: `(htmldoc)` writes and returns a HTML page with the documentation of all built-in functions in the order of their names. -/
theorem C72_html (k : Nat) {st : St} {s : Nat} {t : Str} (h : Manual htmlText (st.scopes (st.scopes s).global).vars t) :
    Returns (callPrim (run k) .htmldoc [] s) st fun v st' => IsStr v (htmlPage t) ∧ Extends { st with out := st.out ++ htmlPage t } st' := by
  refine returns_written _ ?_
  simp only [callPrim, ret, bHtmlDoc, M.bind_apply, M.rd_apply,
    dumpDoc_ok (fmt := htmlDoc) (fun w title h => ⟨htmlDoc_ok h, by simp [htmlText]⟩) h, dumpDocumentation, write, M.modify_apply]
  rfl

end

/-- A state with the function `f`; the table of macros is empty. -/
def docState : St := {
  next := 10
  scopes := fun i => if i = 0 then { vars := [(c!"###macros###", .mk 2 (.scope 1)),
    (c!"f", .mk 3 (.var ⟨.function, .mk 4 (.fn ⟨.prim .add, c!"(f a b)", c!";; adds", c!"demo", true, false, false⟩), .none, none⟩))] } else {} }

theorem doc_manual [World] (text : Str → FnW → Str) (h : BraceFree (text c!"f " ⟨.prim .add, c!"(f a b)", c!";; adds", c!"demo", true, false, false⟩)) :
    Manual text (docState.scopes (docState.scopes 0).global).vars (text c!"f " ⟨.prim .add, c!"(f a b)", c!";; adds", c!"demo", true, false, false⟩ ++ c!"\n" ++ []) :=
  .internal ⟨c!"macros###", rfl⟩ (.builtin (by decide) ⟨_, _, rfl, rfl, _, rfl⟩ rfl (.params (n := c!"f") (r := c!"a b)") (by decide)) h .nil)

/-- The hypotheses of `C72_doc`, `C72_all` and `C72_html` are met. -/
example [World] : Returns (callPrim (run 3) .doc [.mk 5 (.var ⟨.symbol, .mk 6 (.str c!"f"), .none, none⟩)] 0) docState fun v st' =>
    IsStr v (helpText c!"f " ⟨.prim .add, c!"(f a b)", c!";; adds", c!"demo", true, false, false⟩ ++ [] ++ [] ++ c!"\n") := by
  have := C72_doc 0 (st := docState) (s := 0) (a := 2) (m := 1) (ps := [.mk 5 (.var ⟨.symbol, .mk 6 (.str c!"f"), .none, none⟩)]) (names := [c!"f"])
    (ts := [helpText c!"f " ⟨.prim .add, c!"(f a b)", c!";; adds", c!"demo", true, false, false⟩ ++ []]) rfl rfl (by simp)
    (.cons ⟨_, _, rfl, .inr ⟨rfl, _, rfl⟩⟩ .nil) (.cons (.skip (by decide) (.shown (by decide) ⟨_, _, rfl, rfl, _, rfl⟩ (.params (n := c!"f") (r := c!"a b)") (by decide)) .nil)) .nil)
    (by simp [BraceFree, helpText])
  obtain ⟨v, st', h1, h2, -⟩ := this
  exact ⟨v, st', h1, by simpa using h2⟩

example [World] : ∃ t, Manual helpText (docState.scopes (docState.scopes 0).global).vars t ∧ t ≠ [] := ⟨_, doc_manual helpText (by simp [BraceFree, helpText]), by simp [helpText]⟩
example [World] : ∃ t, Manual htmlText (docState.scopes (docState.scopes 0).global).vars t ∧ t ≠ [] := ⟨_, doc_manual htmlText (by simp [BraceFree, htmlText]), by simp [htmlText]⟩

/-- The tokens of `;c`, `(`, `defn`, `g`. -/
def docToks : List Token := [⟨.comment, .str c!";c", 0, 2, 1⟩, ⟨.listStart, .str c!"(", 3, 4, 2⟩, ⟨.symbol, .str c!"defn", 4, 8, 2⟩, ⟨.symbol, .str c!"g", 9, 10, 2⟩]

/-- A state in the middle of the script `;c`, `(defn g (x) ...)`; the parameters are list 5. -/
def defnState : St := {
  next := 20
  lists := fun i => if i = 5 then [.mk 6 (.var ⟨.symbol, .mk 7 (.str c!"x"), .none, none⟩)] else []
  scopes := fun i => if i = 0 then { tokens := docToks, vars := [(c!"def", .mk 1 (.var ⟨.function, .mk 2 (.fn ⟨.prim .def_, [], [], [], true, true, false⟩), .none, none⟩)),
    (c!"fn", .mk 3 (.var ⟨.function, .mk 4 (.fn ⟨.prim .fn, [], [], [], true, true, false⟩), .none, none⟩))] } else {} }

/-- The hypotheses of `C71_defn` are met; the comment is found. -/
example [World] {w : FnW} (hw : w.kind = .prim .defn) (body : Ptr) : ∃ v st' c,
    Calls w [.mk 8 (.var ⟨.symbol, .mk 9 (.str c!"g"), .none, some ⟨.symbol, .str c!"g", 9, 10, 2⟩⟩), .mk 5 .list, body] 0 defnState (.ok (some v) st') ∧
    IsFn v ⟨.closure c, c!"(g x)", c!";c", [], false, false, false⟩ := by
  obtain ⟨v, st', c, d, h1, h2, h3, -⟩ := C71_defn false (w := w) hw (st := defnState) (s := 0) (i := 8) (n := c!"g") (ps := [c!"x"]) (p1 := .mk 5 .list) (p2 := body)
    (u := ⟨.symbol, .mk 9 (.str c!"g"), .none, some ⟨.symbol, .str c!"g", 9, 10, 2⟩⟩) ⟨rfl, _, rfl⟩ rfl
    (codeAt_of_all (by decide) (.cons ⟨_, .val, .sym ⟨rfl, _, rfl⟩ rfl⟩ .nil)) (by simp) rfl ⟨_, _, rfl, rfl, _, rfl⟩ rfl rfl ⟨_, _, rfl, rfl, _, rfl⟩ rfl
  have hd : d = c!";c" := by
    have e := comment_ok docToks ⟨.symbol, .str c!"g", 9, 10, 2⟩
    have hb : ∀ {t u}, previousToken docToks (some t) = some u → TokenBefore docToks t u := previous_iff.1
    have b1 := hb (t := ⟨.symbol, .str c!"g", 9, 10, 2⟩) (u := ⟨.symbol, .str c!"defn", 4, 8, 2⟩) rfl
    have b2 := hb (t := ⟨.symbol, .str c!"defn", 4, 8, 2⟩) (u := ⟨.listStart, .str c!"(", 3, 4, 2⟩) rfl
    have b3 := hb (t := ⟨.listStart, .str c!"(", 3, 4, 2⟩) (u := ⟨.comment, .str c!";c", 0, 2, 1⟩) rfl
    rcases h2 with ⟨x, y, z, g1, g2, g3, -, rfl⟩ | ⟨h, -⟩
    · have := (previous_iff.2 g1).symm.trans (previous_iff.2 b1); cases this
      have := (previous_iff.2 g2).symm.trans (previous_iff.2 b2); cases this
      have := (previous_iff.2 g3).symm.trans (previous_iff.2 b3); cases this
      rfl
    · exact absurd ⟨_, _, _, b1, b2, b3, rfl⟩ h
  subst hd
  exact ⟨v, st', c, h1, h3⟩

section
attribute [local instance] demoWorld

/-- C71 and C72 for a whole script. -/
example : demoScripts [c!";; adds\n(defn ff (a b) (+ a b))\n(println (doc 'ff))"] =
    c!"-------------------------------------------------\n\nff \n\nSyntax: (ff a b)\n\n;; adds\n\n\n\n\n-------------------------------------------------\n\nff \n\nSyntax: (ff a b)\n\n;; adds\n\n\n\n\n\n" := by decide +kernel

/-- C71, negative part: a function without name that is created after a definition in the same scope has the documentation of that definition. -/
theorem C71_lambda_wrong : demoScripts [c!"(defn ff (a b) (+ a b)) (def gg (fn (x) x)) (println gg)"] = c!"function (ff a b)\n" := by decide +kernel

/-- C72, negative part: the documentation cannot be searched if a selected name is a variable that is not a function (an exception) or if a macro is defined
(a null pointer is dereferenced). -/
theorem C72_variable_wrong : demoFiles [] c!"(def zz 1) (println 1) (doc \"zz\") (println 2)" = c!"1\n" ∧
    demoFail c!"(define-macro m (a) (+ a 1)) (doc \"println\")" = some (.ub .nullDeref) := by decide +kernel

end

end Fuel
