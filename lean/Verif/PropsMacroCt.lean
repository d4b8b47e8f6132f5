import Verif.SpecExpand
import Verif.LemMacro
import Verif.PropsImport
/-!
# Properties of macros that are expanded before the evaluation (C70)
-/

set_option linter.unusedSectionVars false
set_option linter.unusedSimpArgs false
set_option linter.unusedVariables false

namespace Fuel

open Spec Spec.Core

section
variable [World]

theorem Lim.expand_stable {p : Ptr} {s : Nat} {st : St} {o : Out Ptr} (h : Expands p s st o) : ∃ K, ∀ k, K ≤ k → (run k).expand p s st = o :=
  Lim.stable (F := fun k => (run k).expand p s st) (monoSeq_expand p s st) h

/-- C70: `define-macro-expand` is executed during the expansion, and nothing is left of it. -/
theorem C70_executed {st : St} {s : Nat} {p f : Ptr} {rest : List Ptr} {name : Str} {w : FnW} (hp : Starts st p name f rest) (hx : Executed st s name w)
    {o : Out Ptr} : Expands p s st o ↔ ∃ o', Calls w rest s st o' ∧ o = thenGone o' := by
  obtain ⟨i, c, rfl, hl, hf, ht⟩ := hp
  obtain ⟨q, hb, ⟨j, v, rfl, hv1, a, hv2⟩, hw⟩ := hx
  obtain ⟨K, hK⟩ := ptrStr_text ht hf
  have e : ∀ k, K ≤ k → (run (k + 2)).expand (.mk i .list) s st = thenGone ((run k).call w rest s st) := by
    intro k hk
    rw [run_expand]
    simp only [expandLoop, M.bind_apply, run_expand3, expandStep, M.get_apply, hl, M.rd_apply, run_n, hK k hk, find_eq, hb, M.lift_apply, toVariant,
      Variant.functionValue, hv1, hv2, ne_eq, not_true_eq_false, if_false, hw, if_true]
    cases (run k).call w rest s st <;> rfl
  have he : ∀ {o'}, Ends (thenGone o') ↔ Ends o' := by
    intro o'
    cases o' with
    | ok => exact ⟨fun _ => ends_ok _ _, fun _ => ends_ok _ _⟩
    | fail f st => exact ⟨fun h s e => h s (by cases e; rfl), fun h s e => h s (by cases e; rfl)⟩
  constructor
  · intro h
    obtain ⟨K', hK'⟩ := Lim.expand_stable h
    have := hK' (max K K' + 2) (by omega)
    rw [e _ (by omega)] at this
    exact ⟨_, ⟨he.1 (this ▸ h.1), _, rfl⟩, this.symm⟩
  · rintro ⟨o', h, rfl⟩
    obtain ⟨K', hK'⟩ := Lim.stable (F := fun k => (run k).call w rest s st) (monoSeq_call w rest s st) h
    exact ⟨he.2 h.1, max K K' + 2, by rw [e _ (by omega), hK' _ (by omega)]⟩

/-- C70: `(define-macro-expand name (parameters) (body))` expands the body and stores the macro, with the parameters and the expanded body, in the table of macros of the
global scope; all other macros and all variables are as the expansion of the body has left them. -/
theorem C70_define {w : FnW} (hw : w.kind = .prim .defineMacroExpand) {st st1 : St} {s a m i j r : Nat} {pn : Ptr} {name : Str} (hn : Holds pn (IsSym · name))
    (hm : binding st (st.scopes s).global c!"###macros###" = some (.mk a (.scope m)))
    (he : Expands (.mk st.next .list) s (withList st (st.lists j)) (.ok (.mk r .list) st1)) :
    ∃ st', Calls w [pn, .mk i .list, .mk j .list] s st (.ok none st') ∧
      (∃ c fs ex, binding st' m name = some (.mk c (.macroCt fs ex)) ∧ st'.lists fs = st1.lists i ∧ st'.lists ex = st1.lists r) ∧
      (∀ n, n ≠ name → binding st' m n = binding st1 m n) ∧ (∀ t, t ≠ m → st'.scopes t = st1.scopes t) ∧ ∀ l, l < st1.next → st'.lists l = st1.lists l := by
  obtain ⟨K, hK⟩ := Lim.expand_stable he
  obtain ⟨q, v, rfl, hv⟩ := hn
  refine ⟨{ st1 with next := st1.next + 3, lists := fset (fset st1.lists st1.next (st1.lists i)) (st1.next + 1) (st1.lists r), scopes := fset st1.scopes m { st1.scopes m with vars := mapSet name (.mk (st1.next + 2) (.macroCt st1.next (st1.next + 1))) (st1.scopes m).vars } },
    (calls_prim hw).2 (lim_of (ends_ok _ _) (K + 3) ?_), ?_⟩
  · show callPrim (run (K + 3)) .defineMacroExpand _ s st = _
    simp only [callPrim, bDefineMacroExpand, checkArgs, List.length_cons, List.length_nil, ne_eq, not_true_eq_false, if_false, if_true, M.bind_apply, M.pure_apply, M.get_apply, find_eq,
      macrosKey, hm, arg, List.getElem?_cons_zero, List.getElem?_cons_succ, M.rd_apply, getExpression, allocList, argStr, run_n]
    rw [show ({ st with next := st.next + 1, lists := fset st.lists st.next (st.lists j) } : St) = withList st (st.lists j) from rfl, hK (K + 3) (by omega)]
    simp only [toEnumerable, ptrStr_sym hv, allocVec, allocObj, setVar, modScope, M.modify, M.bind_apply, M.pure_apply, Nat.reduceAdd, if_true]
  · refine ⟨⟨st1.next + 2, st1.next, st1.next + 1, ?_, ?_, ?_⟩, ?_, ?_, ?_⟩
    · simp only [binding, fset_at, lookup_mapSet, if_true]
    · simp [fset]
    · simp [fset]
    · intro n hn
      simp only [binding, fset_at, lookup_mapSet, if_neg hn]
    · intro t ht
      simp [fset, ht]
    · intro l hl
      simp [fset, show l ≠ st1.next by omega, show l ≠ st1.next + 1 by omega]

theorem asElement_convert {st st' : St} {q q' : Ptr} (h : AsElement st q q' st') (k : Nat) : convertList k q st = .ok q' st' := by
  cases h with
  | code => rfl
  | value h1 h2 => simp [convertList, Variant.isList, h1, h2]
  | list h => simp [convertList, isList_of h, M.bind_apply, M.rd_apply, listValue_list h, allocList, withList]

theorem expandElems_of {s : Nat} {ps qs : List Ptr} {st st' : St} (h : ExpandsAll s ps st qs st') : ∃ K, ∀ k, K ≤ k → expandElems (run k) s ps st = .ok qs st' := by
  induction h with
  | nil => exact ⟨0, fun _ _ => rfl⟩
  | gone h _ ih =>
    obtain ⟨K, hK⟩ := Lim.expand_stable h
    obtain ⟨L, hL⟩ := ih
    refine ⟨max K L, fun k hk => ?_⟩
    simp only [expandElems, M.bind_apply, hK k (by omega), hL k (by omega)]
  | @kept p q q' ps st st1 st1' qs st2 h hq _ ih =>
    obtain ⟨K, hK⟩ := Lim.expand_stable h
    obtain ⟨L, hL⟩ := ih
    refine ⟨max K L, fun k hk => ?_⟩
    have hc := asElement_convert hq (run k).n
    cases q with
    | null => cases hq
    | mk i o => simp only [expandElems, M.bind_apply, hK k (by omega), hc, hL k (by omega), M.pure_apply]

/-- C70: a list that is not the call of a macro expands to the list of the expansions of its elements, in order; definitions of macros disappear. -/
theorem C70_elements {st st1 : St} {s : Nat} {p f : Ptr} {rest qs : List Ptr} {name : Str} (hp : Starts st p name f rest) (hn : Inert st s name)
    (h : ExpandsAll s (f :: rest) st qs st1) : Expands p s st (.ok (.mk st1.next .list) (withList st1 qs)) := by
  obtain ⟨i, c, rfl, hl, hf, ht⟩ := hp
  obtain ⟨K, hK⟩ := ptrStr_text ht hf
  obtain ⟨L, hL⟩ := expandElems_of h
  refine ⟨ends_ok _ _, max K L + 2, ?_⟩
  rw [run_expand]
  simp only [expandLoop, M.bind_apply, run_expand3, expandStep_inert hl (hK (max K L) (by omega)) hn, hL (max K L) (by omega), allocList, M.pure_apply]
  rfl

/-- The code that a call of a macro stands for. -/
theorem replaceArgs_code {st : St} {s : Nat} {ps : List Str} {args body : List Sexp} {h : Ptr} {tl fs ex : List Ptr} (ht : All2 (CodeAt st) tl args)
    (hfs : All2 (CodeAt st) fs (ps.map .sym)) (hex : All2 (CodeAt st) ex body) (henough : ps.length ≤ args.length)
    (hclean : ∀ p ∈ ps, Cleans p body ∧ Cleans p args) (hrest : Cleans c!"quoted-macro-args" body ∧ ¬ UsesAny c!"quoted-macro-args" body)
    (hheads : Sexp.HeadsAll (Inert st s) args) :
    ∃ qs st' K, (∀ k, K ≤ k → replaceArgs (run k) fs (h :: tl) ex s st = .ok qs st') ∧ OnlyNewLists st st' ∧ All2 (CodeAt st') qs (instantiate ps args body) := by
  generalize hst1 : ({ st with
    next := st.next + 6
    lists := fset (fset st.lists (st.next + 2) tl) (st.next + 4)
      [.mk (st.next + 1) (.var (.ofType .symbol (.mk st.next (.str quoteName)))), .mk (st.next + 3) (.var ⟨.list, .mk (st.next + 2) .list, .none, none⟩)] } : St) = st1
  have hN : OnlyNewLists st st1 := by
    subst hst1
    exact ⟨Nat.le_add_right _ _, fun i hi => by simp [fset, show i ≠ st.next + 2 by omega, show i ≠ st.next + 4 by omega], rfl⟩
  obtain ⟨cs, hcs1, hcs2⟩ : ∃ cs, AreTrees st1 ex cs ∧ CodesOf cs body := by
    have := codesAt_new hN hex
    clear hex hrest hclean
    induction this with
    | nil => exact ⟨[], .nil, .nil⟩
    | cons h _ ih =>
      obtain ⟨c, h1, h2⟩ := h
      obtain ⟨cs, h3, h4⟩ := ih
      exact ⟨c :: cs, .cons h1 h3, .cons h2 h4⟩
  obtain ⟨qs1, st2, K1, h1, h2, h3⟩ := subst_all (v := .ofType .symbol (.mk (st.next + 5) (.str c!"quoted-macro-args"))) (n := c!"quoted-macro-args") (q := .mk (st.next + 4) .list) (a := .nil) (splice := true)
    ⟨rfl, _, rfl⟩ hcs2 hcs1 hrest.1 (.inr hrest.2)
  rw [substs_unused hrest.2] at h3
  have h12 := hN.trans h2
  obtain ⟨qs, st3, K2, h4, h5, h6⟩ := replaceFormals_ok (s := s) (ast := h :: tl) ps args 1 st2 tl fs qs1 body rfl (codesAt_new h12 ht) (codesAt_new h12 hfs) h3 henough hclean
    (headsAll_imp (fun n hn => hn.of_scopes h12.scopes) hheads)
  refine ⟨qs, st3, max K1 K2 + 1, fun k hk => ?_, h12.trans h5, h6⟩
  obtain ⟨k, rfl⟩ : ∃ m, k = m + 1 := ⟨k - 1, by omega⟩
  have e1 := h1 k (by omega)
  have e2 := h4 (k + 1) (by omega)
  subst hst1
  simp only [replaceArgs, M.bind_apply, allocObj, box, allocList, List.drop_succ_cons, List.drop_zero, run_subst]
  rw [e1]
  exact e2

/-- C70: the call of a macro with compile-time expansion: the arguments replace the parameters in the body, the body is evaluated during the
expansion, and the call is replaced by the list that results, which is expanded again.  If the evaluation fails, the expansion fails. -/
theorem C70_call {st : St} {s : Nat} {p f : Ptr} {rest fs ex : List Ptr} {name : Str} {ps : List Str} {args body : List Sexp} (hp : Starts st p name f rest)
    (hm : CompileTime st s name fs ex) (ht : All2 (CodeAt st) rest args) (hfs : All2 (CodeAt st) fs (ps.map .sym)) (hex : All2 (CodeAt st) ex body)
    (henough : ps.length ≤ args.length) (hclean : ∀ p ∈ ps, Cleans p body ∧ Cleans p args)
    (hrest : Cleans c!"quoted-macro-args" body ∧ ¬ UsesAny c!"quoted-macro-args" body) (hheads : Sexp.HeadsAll (Inert st s) args) :
    ∃ q st1, OnlyNewLists st st1 ∧ CodeAt st1 q (.list (instantiate ps args body)) ∧
      (∀ v j st2, Evals q s st1 (.ok (some v) st2) → v.value = .mk j .list → ∀ o, Expands p s st o ↔ Expands (.mk st2.next .list) s (withList st2 (st2.lists j)) o) ∧
      (∀ e st2, Evals q s st1 (.fail e st2) → Expands p s st (.fail e st2)) := by
  obtain ⟨i, c, rfl, hl, hf, htx⟩ := hp
  obtain ⟨K, hK⟩ := ptrStr_text htx hf
  obtain ⟨qs, st1, K1, h1, h2, h3⟩ := replaceArgs_code (h := f) ht hfs hex henough hclean hrest hheads
  obtain ⟨a, m, b, a', b', hb1, hb2, hb3, hb4⟩ := hm.macro_
  have hstep : ∀ k, K ≤ k → K1 ≤ k → expandStep (run k) (.mk i .list) s st = (do
      let v ← derefV (← (run k).eval (.mk st1.next .list) s)
      let c ← convertList (run k).n v.value
      let q ← copyObj c
      pure (q, true) : M (Ptr × Bool)) (withList st1 qs) := by
    intro k hk hk1
    have hn := run_n k
    have hmm : expandMacroOrElems (run k) (f :: rest) f s st = (do
        let v ← derefV (← (run k).eval (.mk st1.next .list) s)
        let c ← convertList (run k).n v.value
        let q ← copyObj c
        pure (q, true) : M (Ptr × Bool)) (withList st1 qs) := by
      unfold expandMacroOrElems
      simp only [M.bind_apply, M.rd_apply, getMacro, macroScope, find_eq, macrosKey, hb1, bind_ok_R, hn, hK k hk, hb2, M.get_apply, hb3, hb4, h1 k hk1, allocList, withList]
    rw [← hmm]
    simp only [expandStep, M.bind_apply, M.get_apply, hl, M.rd_apply, hn, hK k hk, find_eq]
    rcases hm.variable_ with h | ⟨p, w, h, ⟨a, v, rfl, h1, b, h2⟩, h3⟩
    · simp only [h]
    · simp only [h, M.bind_apply, M.lift_apply, toVariant, M.rd_apply, Variant.functionValue, h1, h2, ne_eq, not_true_eq_false, if_false, h3,
        Bool.false_eq_true]
  refine ⟨.mk st1.next .list, withList st1 qs, h2.trans (onlyNewLists_list st1 qs),
    codeAt_of_all (Nat.lt_succ_self _) (by simp only [withList, fset_at]; exact codesAt_new (onlyNewLists_list st1 qs) h3), ?_, ?_⟩
  · intro v j st2 he hv o
    obtain ⟨K2, hK2⟩ := he.stable
    refine lim_iff (F := fun k => (run k).expand (.mk i .list) s st) (G := fun k => (run k).expand (.mk st2.next .list) s (withList st2 (st2.lists j)))
      (monoSeq_expand _ s _) (monoSeq_expand _ s _) (max K (max K1 K2) + 1) 1 fun k hk => ?_
    obtain ⟨k, rfl⟩ : ∃ m, k = m + 1 := ⟨k - 1, by omega⟩
    show (run (k + 1 + 1)).expand _ _ _ = _
    rw [run_expand]
    simp only [expandLoop, M.bind_apply, run_expand3, hstep k (by omega) (by omega), hK2 k (by omega), derefV, M.pure_apply, hv, convertList, copyObj, M.get_apply,
      allocList, if_true]
    rfl
  · intro e st2 he
    obtain ⟨K2, hK2⟩ := he.stable
    refine ⟨fun s' h => he.1 s' (by cases h; rfl), max K (max K1 K2) + 2, ?_⟩
    rw [run_expand]
    simp only [expandLoop, M.bind_apply, run_expand3, hstep (max K (max K1 K2)) (by omega) (by omega), hK2 (max K (max K1 K2)) (by omega)]

end

/-! Each hypothesis is met by scripts. -/

/-- A symbol in code. -/
def ctSym (i : Nat) (n : Str) : Ptr := .mk i (.var (.ofType .symbol (.mk (i + 1) (.str n))))

/-- A number in code. -/
def ctInt (i : Nat) (x : Int) : Ptr := .mk i (.var (.ofType .int (.mk (i + 1) (.int x))))

/-- A state with the macro `(define-macro-expand inc (x) (quote (+ x 1)))` (the table of macros is scope 1) and the code `(inc 2)` (list 50). -/
def ctState : St := {
  next := 60
  lists := fun i => if i = 10 then [ctSym 11 c!"x"] else if i = 20 then [ctSym 21 c!"quote", .mk 23 .list] else
    if i = 23 then [ctSym 24 c!"+", ctSym 26 c!"x", ctInt 28 1] else if i = 50 then [ctSym 51 c!"inc", ctInt 53 2] else []
  scopes := fun i => if i = 0 then { vars := [(c!"###macros###", .mk 2 (.scope 1))] } else if i = 1 then { vars := [(c!"inc", .mk 40 (.macroCt 10 20))] } else {} }

theorem ct_sym [World] {st : St} {i : Nat} {n : Str} : CodeAt st (ctSym i n) (.sym n) := ⟨_, .val, .sym ⟨rfl, _, rfl⟩ rfl⟩
theorem ct_int [World] {st : St} {i : Nat} {x : Int} : CodeAt st (ctInt i x) (.int x) := ⟨_, .val, .int ⟨rfl, _, rfl⟩ rfl⟩

/-- The call of the macro stands for the evaluation of `(quote (+ 2 1))`. -/
example [World] : ∃ q st1, OnlyNewLists ctState st1 ∧ CodeAt st1 q (.list [.sym c!"quote", .list [.sym c!"+", .int 2, .int 1]]) ∧
    ∀ v j st2, Evals q 0 st1 (.ok (some v) st2) → v.value = .mk j .list → ∀ o,
      Expands (.mk 50 .list) 0 ctState o ↔ Expands (.mk st2.next .list) 0 (withList st2 (st2.lists j)) o := by
  have h := C70_call (st := ctState) (s := 0) (p := .mk 50 .list) (name := c!"inc") (ps := [c!"x"]) (args := [.int 2])
    (body := [.sym c!"quote", .list [.sym c!"+", .sym c!"x", .int 1]]) (f := ctSym 51 c!"inc") (rest := [ctInt 53 2])
    ⟨50, .val (.ofType .symbol (.mk 52 (.str c!"inc"))), rfl, rfl, .val, .sym ⟨rfl, _, rfl⟩⟩
    (⟨⟨2, 1, 40, 10, 20, rfl, rfl, rfl, rfl⟩, .inl rfl⟩ : CompileTime ctState 0 c!"inc" [ctSym 11 c!"x"] [ctSym 21 c!"quote", .mk 23 .list])
    (.cons ct_int .nil) (.cons ct_sym .nil)
    (.cons ct_sym (.cons (codeAt_of_all (by decide) (.cons ct_sym (.cons ct_sym (.cons ct_int .nil)))) .nil)) (by decide) (by simp [Cleans, Clean])
    (by simp [Cleans, Clean, UsesAny, Uses]) (by simp [Sexp.HeadsAll, Sexp.Heads])
  obtain ⟨q, st1, h1, h2, h3, -⟩ := h
  exact ⟨q, st1, h1, h2, h3⟩

theorem ct_atom [World] {st : St} {s i : Nat} {v : Variant} : Expands (.mk i (.var v)) s st (.ok (.mk i (.var v)) st) := ⟨ends_ok _ _, 2, rfl⟩

/-- The code `(+ x 1)` (list 23) contains no macro: its elements are expanded in order. -/
theorem ct_body [World] : Expands (.mk 23 .list) 0 ctState (.ok (.mk 60 .list) (withList ctState [ctSym 24 c!"+", ctSym 26 c!"x", ctInt 28 1])) :=
  C70_elements (name := c!"+") ⟨23, .val (.ofType .symbol (.mk 25 (.str c!"+"))), rfl, rfl, .val, .sym ⟨rfl, _, rfl⟩⟩
    ⟨.inr ⟨2, 1, rfl, .inl rfl⟩, .inl rfl⟩
    (.kept ct_atom (.value (by decide) (by decide)) (.kept ct_atom (.value (by decide) (by decide)) (.kept ct_atom (.value (by decide) (by decide)) .nil)))

/-- The definition of a macro with this body. -/
example [World] {w : FnW} (hw : w.kind = .prim .defineMacroExpand) : ∃ st', Calls w [ctSym 30 c!"new", .mk 10 .list, .mk 23 .list] 0 ctState (.ok none st') ∧
    ∃ c fs ex, binding st' 1 c!"new" = some (.mk c (.macroCt fs ex)) ∧ st'.lists fs = [ctSym 11 c!"x"] ∧ st'.lists ex = [ctSym 24 c!"+", ctSym 26 c!"x", ctInt 28 1] := by
  have h : Expands (.mk ctState.next .list) 0 (withList ctState (ctState.lists 23))
      (.ok (.mk 61 .list) (withList (withList ctState (ctState.lists 23)) [ctSym 24 c!"+", ctSym 26 c!"x", ctInt 28 1])) :=
    C70_elements (st := withList ctState (ctState.lists 23)) (name := c!"+") ⟨60, .val (.ofType .symbol (.mk 25 (.str c!"+"))), rfl, rfl, .val, .sym ⟨rfl, _, rfl⟩⟩
      ⟨.inr ⟨2, 1, rfl, .inl rfl⟩, .inl rfl⟩
      (.kept ct_atom (.value (by decide) (by decide)) (.kept ct_atom (.value (by decide) (by decide)) (.kept ct_atom (.value (by decide) (by decide)) .nil)))
  obtain ⟨st', h1, ⟨c, fs, ex, h2, h3, h4⟩, -⟩ := C70_define (name := c!"new") (m := 1) (a := 2) (i := 10) (j := 23) (pn := ctSym 30 c!"new") hw ⟨_, _, rfl, rfl, _, rfl⟩ rfl h
  exact ⟨st', h1, c, fs, ex, h2, h3, h4⟩

section
attribute [local instance] demoWorld

/-- C70: the body of the macro is evaluated when the script is expanded, before anything else is executed. -/
example : demoScripts [c!"(define-macro-expand add3 (a b) (do (println \"now\") '(+ a b 3))) (println \"later\") (println (add3 1 2))"] = c!"now\nlater\n6\n" := by decide +kernel

/-- C70: the calls of macros in the arguments of macros and in the result are expanded as well. -/
example : demoScripts [c!"(define-macro-expand twice (e) '(do e e)) (define-macro-expand hi () '(println \"hi\")) (twice (hi))"] = c!"hi\nhi\n" := by decide +kernel

/-- C70, negative part: a macro whose body gives a number is not replaced by the number: the number is taken for a list. -/
theorem C70_number_wrong : demoFail c!"(define-macro-expand num (a) (+ a 1)) (num 1)" = some (.ub .badUnion) := by decide +kernel

/-- C70, negative part: lists put together with `list` become code only one level deep: the inner list is evaluated as code, the list in the inner list is
taken as a value (an exception ends the second script). -/
theorem C70_nested_wrong : demoFiles [] c!"(define-macro-expand f (a b) (list '+ a (list '* b 3))) (println (f 1 2))" = c!"7\n" ∧
    demoFiles [] c!"(define-macro-expand f (a b) (list '+ a (list '* b (list '+ 1 2)))) (println (f 1 2))" = [] := by decide +kernel

end

end Fuel
