import Verif.SpecPlace
import Verif.PropsDict
/-!
# Assignments to places (C24)
-/

set_option linter.unusedSectionVars false
set_option linter.unusedSimpArgs false

namespace Fuel

open Spec

section
variable [World]

theorem sameNames_placeMode (st : St) (sid : Nat) (b : Bool) : SameNames st (placeMode st sid b) := by
  constructor <;> intro i <;> by_cases h : i = sid <;> simp [placeMode, fset, h]

theorem acyclic_placeMode {st : St} (h : Acyclic st) (sid : Nat) (b : Bool) : Acyclic (placeMode st sid b) :=
  (sameNames_placeMode st sid b).acyclic h

/-- The setter that the place uses. -/
def placeKind : Builtin → Nat → LKind
  | .first, _ => .first
  | .last, _ => .last
  | _, i => .nth i

theorem place_call {st : St} {sid n : Nat} {b : Builtin} {vs : List Ptr} {q : Ptr} {i : Nat} (hp : IsPlace n b vs q i)
    (hf : (st.scopes sid).needsLValue = true) {j : Nat} (hq : Holds q (IsListAt · j)) (k : Nat) :
    callPrim (run k) b vs sid st =
      .ok (some (.ofType .lvalue (.mk st.next (.lval q (placeKind b i))))) { st with next := st.next + 1 } := by
  obtain ⟨a, w, rfl, hw⟩ := hq
  have ht : ¬ w.type = .string := by rw [hw.1]; decide
  cases hp with
  | first => simp [callPrim, bFirst, ret, checkArgs, arg, argV, toVariant, M.rd_apply, run_n, ht, hf, mkLVal, allocObj, placeKind]
  | last => simp [callPrim, bLast, ret, checkArgs, arg, argV, toVariant, M.rd_apply, run_n, ht, hf, mkLVal, allocObj, placeKind]
  | nth hi =>
    obtain ⟨c, u, rfl, hu⟩ := hi
    simp [callPrim, bNth, ret, checkArgs, arg, argV, toVariant, M.rd_apply, run_n, ht, hf, mkLVal, allocObj, placeKind, intValue_int hu]

/-- The evaluation of `(setf place e)` up to the assignment. -/
theorem setf_place {st st0 st1 st2 st3 : St} {sid i j n : Nat} {ast place e q : Ptr} {b : Builtin} {w : FnW} {args args' vs : List Ptr}
    {v : Variant} (ha : Acyclic st) (hsid : sid < st.next)
    (h : IsSpecial st sid ast .setf [place, e] st0)
    (hp : IsForm (placeMode st0 sid true) sid place w args st1) (hw : w.kind = .prim b) (hs : w.special = false)
    (hr : All2 (Resolved (placeMode st0 sid true) sid) args args') (hv : EvalArgs sid args' st1 vs st2)
    (hb : IsPlace n b vs q i) (hq : Holds q (IsListAt · j))
    (he : Evals e sid (placeMode { st2 with next := st2.next + 1 } sid (st0.scopes sid).needsLValue) (.ok (some v) st3))
    {o : Out (Option Variant)} (ho : Ends o)
    (hset : ∀ k, (do lvalSet k q (placeKind b i) (.mk st3.next (.var v)); pure (some v) : M (Option Variant)) { st3 with next := st3.next + 1 } = o) :
    Evals ast sid st o := by
  have hm : (st2.scopes sid).needsLValue = true := by
    obtain ⟨w, ⟨⟨_, g, _, _, _, rfl⟩, _⟩, _⟩ := h
    obtain ⟨⟨_, f, _, _, _, rfl⟩, _⟩ := hp
    obtain ⟨K, hv⟩ := evalArgs_of hv
    have hn : (atToken (placeMode (atToken st sid (tokenOf g)) sid true) sid (tokenOf f)).next = st.next := by
      cases tokenOf f <;> cases tokenOf g <;> rfl
    rw [(Pres2.ok (sid := sid) (hv K (Nat.le_refl _))).flag (by rw [hn]; exact hsid)]
    cases tokenOf f <;> simp [atToken, placeMode, fset]
  have ha0 : Acyclic (placeMode st0 sid true) := by
    obtain ⟨w, ⟨⟨_, _, _, _, _, rfl⟩, _⟩, _⟩ := h
    exact acyclic_placeMode ((sameNames_atToken _ _ _).acyclic ha) _ _
  have hpe : Evals place sid (placeMode st0 sid true)
      (.ok (some (.ofType .lvalue (.mk st2.next (.lval q (placeKind b i))))) { st2 with next := st2.next + 1 }) := by
    rw [evals_call ha0 hp hs hr hv, calls_prim hw]
    exact lim_of (ends_ok _ _) 0 (place_call hb hm hq 0)
  rw [evals_special ha h]
  obtain ⟨K1, hpe⟩ := hpe.stable
  obtain ⟨K2, he⟩ := he.stable
  refine lim_of ho (K1 + K2 + 2) ?_
  have hpe := hpe (K1 + K2 + 2) (by omega)
  have he := he (K1 + K2 + 2) (by omega)
  have hset := hset (K1 + K2 + 2)
  obtain ⟨⟨x, f, rfl, _⟩, _, _⟩ := hp
  have hvs : ∀ (s : St) (p : Ptr), varStr s (K1 + K2 + 2) { type := .lvalue, value := p, unq := .none, tok := none } = .ok c!"?" :=
    fun s p => by simp [varStr]
  simp only [placeMode] at hpe he
  simp only [callPrim, ret, bSetf, checkArgs, arg, List.length_cons, List.length_nil, M.bind_apply, M.get, modScope, evalArgIfNeeded, List.getElem?_cons_zero,
    M.rd_apply, run_n]
  simp [hpe, he, hvs, derefV, box, allocObj, fset_fset, fset_at, run_n, M.rd_apply, Variant.ofType]
  simp only [M.bind_apply] at hset
  revert hset
  cases lvalSet (K1 + K2 + 2) q (placeKind b i) (.mk st3.next (.var v)) { st3 with next := st3.next + 1 } <;> simp

theorem lvalSet_ok {st : St} {q x : Ptr} {b : Builtin} {vs : List Ptr} {i j : Nat} (hq : Holds q (IsListAt · j)) (hb : IsPlace (st.lists j).length b vs q i)
    (hi : IsInt32 i) (hlt : i < (st.lists j).length) (k : Nat) :
    lvalSet k q (placeKind b i) x st = .ok () { st with lists := fset st.lists j ((st.lists j).set i x) } := by
  obtain ⟨a, w, rfl, hw⟩ := hq
  have hl : w.listValue st k = .ok (st.lists j) := listValue_list (.inl ⟨j, hw, rfl⟩)
  cases hb with
  | first => simp [lvalSet, placeKind, toVariant, M.rd_apply, hl, hlt, hw.2, setList]
  | last =>
    have : sizeT (((st.lists j).length : Int) - 1) = (st.lists j).length - 1 := by
      have := sizeT_ofNat hi
      rw [← this]; congr 1; omega
    simp [lvalSet, placeKind, toVariant, M.rd_apply, hl, hlt, hw.2, setList, this]
  | nth _ => simp [lvalSet, placeKind, toVariant, M.rd_apply, hl, hlt, hw.2, setList, sizeT_ofNat hi]

/-- C24: `(setf (nth i l) e)`, `(setf (first l) e)` and `(setf (last l) e)` replace exactly the addressed element of the list object that
`l` means by the value of `e`; the other elements, all other lists, dictionaries, variables and outputs are unchanged.  (`st2` is the state
after the evaluation of the arguments of the place, `st3` the state after the evaluation of `e`.) -/
theorem C24_setf_place {st st0 st1 st2 st3 : St} {sid i j : Nat} {ast place e q : Ptr} {b : Builtin} {w : FnW} {args args' vs : List Ptr}
    {v : Variant} (ha : Acyclic st) (hsid : sid < st.next)
    (h : IsSpecial st sid ast .setf [place, e] st0)
    (hp : IsForm (placeMode st0 sid true) sid place w args st1) (hw : w.kind = .prim b) (hs : w.special = false)
    (hr : All2 (Resolved (placeMode st0 sid true) sid) args args') (hv : EvalArgs sid args' st1 vs st2)
    (he : Evals e sid (placeMode { st2 with next := st2.next + 1 } sid (st0.scopes sid).needsLValue) (.ok (some v) st3))
    (hq : Holds q (IsListAt · j)) (hb : IsPlace (st3.lists j).length b vs q i) (hi : IsInt32 i) (hlt : i < (st3.lists j).length) :
    ∃ st' p, Evals ast sid st (.ok (some v) st') ∧ OnlyList j st3 st' ∧ st'.lists j = (st3.lists j).set i p ∧ Holds p (· = v) := by
  refine ⟨{ st3 with next := st3.next + 1, lists := fset st3.lists j ((st3.lists j).set i (.mk st3.next (.var v))) }, .mk st3.next (.var v),
    ?_, onlyList_set _ _ _ (Nat.le_succ _) _, by simp [fset], ⟨_, _, rfl, rfl⟩⟩
  refine setf_place ha hsid h hp hw hs hr hv hb hq he (ends_ok _ _) fun k => ?_
  have := lvalSet_ok (st := { st3 with next := st3.next + 1 }) (x := .mk st3.next (.var v)) hq hb hi hlt k
  simp [this]

/-- C24, negative part: the position is not checked.  Assigning to a position behind the end of the list is undefined behaviour. -/
theorem C24_out_of_range_wrong {st st0 st1 st2 st3 : St} {sid i j : Nat} {ast place e p q : Ptr} {w : FnW} {args args' : List Ptr}
    {v : Variant} (ha : Acyclic st) (hsid : sid < st.next)
    (h : IsSpecial st sid ast .setf [place, e] st0)
    (hp : IsForm (placeMode st0 sid true) sid place w args st1) (hw : w.kind = .prim .nth) (hs : w.special = false)
    (hr : All2 (Resolved (placeMode st0 sid true) sid) args args') (hv : EvalArgs sid args' st1 [p, q] st2)
    (he : Evals e sid (placeMode { st2 with next := st2.next + 1 } sid (st0.scopes sid).needsLValue) (.ok (some v) st3))
    (hq : Holds q (IsListAt · j)) (hpi : Holds p (IsInt · i)) (hi : IsInt32 i) (hlt : (st3.lists j).length ≤ i) :
    ∃ st', Evals ast sid st (.fail (.ub .index) st') := by
  refine ⟨{ st3 with next := st3.next + 1 }, ?_⟩
  refine setf_place (n := 0) ha hsid h hp hw hs hr hv (.nth hpi) hq he (ends_ub _ _) fun k => ?_
  obtain ⟨a, w, rfl, hw⟩ := hq
  have hl : w.listValue { st3 with next := st3.next + 1 } k = .ok (st3.lists j) := listValue_list (.inl ⟨j, hw, rfl⟩)
  simp [lvalSet, placeKind, toVariant, M.rd_apply, hl, hw.2, sizeT_ofNat hi, Nat.not_lt.mpr hlt, ub]

end

/-! ## Examples -/

section
attribute [local instance] demoWorld

/-- Checks the hypotheses of C24 for the form `(setf (f ...) e)`; gives the list object and the position. -/
def placeB (st : St) (s : Nat) (ast : Ptr) : Option (List Ptr × St × FnW × List Ptr × St × List Ptr × List Ptr × St × Variant × St) :=
  match specialB st s ast .setf with
  | some ([place, e], st0) => match formB (placeMode st0 s true) s place with
    | some (w, args, st1) => if w.special = false then match resolvedB (placeMode st0 s true) s args with
      | some args' => match evalArgsB s args' st1 with
        | some (vs, st2) => 
            match evalB e s (placeMode { st2 with next := st2.next + 1 } s (st0.scopes s).needsLValue) with
            | some (v, st3) => some ([place, e], st0, w, args, st1, args', vs, st2, v, st3)
            | none => none
        | none => none
      | none => none
      else none
    | none => none
  | _ => none

theorem placeB_ok {st : St} {s : Nat} {ast : Ptr} {l args args' vs : List Ptr} {st0 st1 st2 st3 : St} {w : FnW} {v : Variant}
    (h : placeB st s ast = some (l, st0, w, args, st1, args', vs, st2, v, st3)) :
    ∃ place e, IsSpecial st s ast .setf [place, e] st0 ∧ IsForm (placeMode st0 s true) s place w args st1 ∧ w.special = false ∧
      All2 (Resolved (placeMode st0 s true) s) args args' ∧ EvalArgs s args' st1 vs st2 ∧
      Evals e s (placeMode { st2 with next := st2.next + 1 } s (st0.scopes s).needsLValue) (.ok (some v) st3) := by
  unfold placeB at h
  split at h
  · rename_i place e _ hs
    split at h
    · rename_i hf
      split at h
      · rename_i hw
        split at h
        · rename_i hr
          split at h
          · rename_i hv
            split at h
            · rename_i he
              cases h
              exact ⟨place, e, specialB_ok hs, formB_ok hf, hw, resolvedB_ok hr, evalArgsB_ok hv, evalB_ok he⟩
            · cases h
          · cases h
        · cases h
      · cases h
    · cases h
  · cases h

/-- `(setf (nth (- 3 1) l) (+ 1 2))` with a list of three elements -/
example : ∃ (st st0 st1 st2 st3 : St) (sid j : Nat) (ast place e q : Ptr) (w : FnW) (args args' vs : List Ptr) (v : Variant), Acyclic st ∧ sid < st.next ∧
    IsSpecial st sid ast .setf [place, e] st0 ∧ IsForm (placeMode st0 sid true) sid place w args st1 ∧ w.kind = .prim .nth ∧ w.special = false ∧
    All2 (Resolved (placeMode st0 sid true) sid) args args' ∧ EvalArgs sid args' st1 vs st2 ∧
    Evals e sid (placeMode { st2 with next := st2.next + 1 } sid (st0.scopes sid).needsLValue) (.ok (some v) st3) ∧
    Holds q (IsListAt · j) ∧ IsPlace (st3.lists j).length .nth vs q 2 ∧ 2 < (st3.lists j).length := by
  obtain ⟨st, sid, ast, h1, hs, h⟩ := demo_of (setup := [c!"(def l (list 4 5 6))"]) (code := c!"(setf (nth (- 3 1) l) (+ 1 2))") (P := fun st sid ast =>
    match placeB st sid ast with
    | some (_, _, w, _, _, _, [.mk _ (.var i), .mk _ (.var q)], _, _, st3) => decide (w.kind = .prim .nth) && decide (intB i = some 2) &&
        match listB q with
        | some j => decide ((st3.lists j).length = 3)
        | none => false
    | _ => false) (by decide +kernel)
  split at h
  · rename_i hb
    simp only [Bool.and_eq_true, decide_eq_true_eq] at h
    obtain ⟨⟨g1, g2⟩, g3⟩ := h
    split at g3
    · rename_i j hj
      have hj := listB_ok hj
      have g3 := of_decide_eq_true g3
      obtain ⟨place, e, k1, k2, k3, k4, k5, k7⟩ := placeB_ok hb
      exact ⟨st, _, _, _, _, sid, _, ast, place, e, _, _, _, _, _, _, h1.links.old, hs, k1, k2, g1, k3, k4, k5, k7, ⟨_, _, rfl, hj⟩,
        .nth ⟨_, _, rfl, intB_ok g2⟩, by rw [g3]; decide⟩
    · cases g3
  · cases h

/-- The assignment is seen through every reference to the list, and other lists stay as they are. -/
example : demoScripts [c!"(def l (list 1 2 3)) (def m l) (def k (list 1 2 3)) (setf (nth 1 l) 7) (setf (first l) 8) (setf (last m) (list 9)) (println l m k)"] =
    c!"(8 7 (9)) (8 7 (9)) (1 2 3)\n" := by decide +kernel

/-- The output after a list of scripts on the scope of a new interpreter; as in an interactive session, a script that fails does not end
the session. -/
def demoSession (codes : List Str) : Str :=
  match createDefaultScope {} with
  | .ok sid st => go sid codes st
  | .fail _ _ => []
where
  /-- the scripts that are left -/
  go (sid : Nat) : List Str → St → Str
    | [], st => st.out
    | c :: t, st => go sid t (Spec.Out.after (lispEval (run 60) c sid [] false false st))

/-- C24, negative part: if an exception is raised while the place is evaluated, the scope stays in place mode; from then on `first` gives
no elements any more but a value that is written as `?`. -/
theorem C24_mode_wrong : demoSession [c!"(def l (list 1 2)) (println (first l))", c!"(setf (nth (throw 1) l) 2)", c!"(println (first l))"] =
    c!"1\n?\n" := by decide +kernel

/-- C24, negative part: places cannot be nested, and `first`, `last` and `nth` cannot be used for the position. -/
theorem C24_nested_wrong : demoSession [c!"(def l (list (list 1 2) 3)) (def i (list 0))", c!"(setf (first (first l)) 5) (println 1)",
    c!"(setf (nth (first i) l) 5) (println 2)"] = [] := by decide +kernel

end

end Fuel
