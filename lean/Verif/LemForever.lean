import Verif.LemError2
import Verif.PropsCore
import Verif.PropsRun
import Verif.SpecForever
/-!
# Programs of the core language that run forever

`fz` says whether a computation ran out of budget, and in which state.  `Via c F G`: if `G` runs out of budget `k`, `F` runs out of budget
`k + c`, and in the same state if the budget is large enough.
-/

set_option linter.unusedSectionVars false
set_option linter.unusedSimpArgs false
set_option linter.unusedVariables false

namespace Fuel

open Spec Spec.Core

section
variable [World]

/-- The state in which the budget is used up. -/
def fz {α : Type} : Out α → Option St
  | .fail .fuel s => some s
  | _ => none

theorem fz_some {α : Type} {o : Out α} {s : St} : fz o = some s ↔ o = .fail .fuel s := by
  cases o with
  | ok a t => simp [fz]
  | fail f t => cases f <;> simp [fz]

theorem fz_ne {α : Type} {o : Out α} : fz o ≠ none ↔ ∃ s, o = .fail .fuel s := by
  cases h : fz o with
  | none => simp only [ne_eq, not_true, false_iff]; rintro ⟨s, e⟩; rw [fz_some.2 e] at h; cases h
  | some s => simp only [ne_eq, reduceCtorEq, not_false_eq_true, true_iff]; exact ⟨s, fz_some.1 h⟩

def Via (c : Nat) (F G : Nat → Option St) : Prop :=
  (∀ k, k < c → F k ≠ none) ∧ ∃ K, ∀ k s, G k = some s → F (k + c) = some s ∨ (k < K ∧ F (k + c) ≠ none)

theorem Via.trans {c d : Nat} {F G H : Nat → Option St} (h : Via c F G) (h' : Via d G H) : Via (c + d) F H := by
  obtain ⟨h1, K, h2⟩ := h
  obtain ⟨g1, L, g2⟩ := h'
  have key : ∀ k, G k ≠ none → F (k + c) ≠ none := by
    intro k hk
    cases e : G k with
    | none => exact absurd e hk
    | some s =>
      rcases h2 k s e with h | h
      · rw [h]; simp
      · exact h.2
  refine ⟨fun k hk => ?_, max K L, fun k s hs => ?_⟩
  · by_cases hc : k < c
    · exact h1 k hc
    · have := key (k - c) (g1 _ (by omega))
      rwa [Nat.sub_add_cancel (by omega)] at this
  · rw [show k + (c + d) = k + d + c by omega]
    rcases g2 k s hs with h | h
    · rcases h2 _ s h with h | h
      · exact .inl h
      · exact .inr ⟨by omega, h.2⟩
    · exact .inr ⟨by omega, key _ h.2⟩

theorem via_eq {F G : Nat → Option St} (h : ∀ k s, G k = some s → F k = some s) : Via 0 F G := ⟨fun k hk => by omega, 0, fun k s hs => .inl (h k s hs)⟩

/-- One level of the evaluator. -/
theorem via_step {F G : Nat → Option St} (h0 : F 0 ≠ none) (h : ∀ k, F (k + 1) = G k) : Via 1 F G :=
  ⟨fun k hk => by obtain rfl : k = 0 := by omega
                  exact h0, 0, fun k s hs => .inl (by rw [h, hs])⟩

theorem via_eval (p : Ptr) (s : Nat) (st : St) : Via 1 (fun k => fz ((run k).eval p s st)) (fun k => fz (evalStep (run k) p s st)) :=
  via_step (by simp [run, fz]) fun k => rfl
theorem via_call (w : FnW) (l : List Ptr) (s : Nat) (st : St) : Via 1 (fun k => fz ((run k).call w l s st)) (fun k => fz (callStep (run k) w l s st)) :=
  via_step (by simp [run, fz]) fun k => rfl
theorem via_procQ (l : List Ptr) (s : Nat) (st : St) : Via 1 (fun k => fz ((run k).procQ l s st)) (fun k => fz (procQStep (run k) l s st)) :=
  via_step (by simp [run, fz]) fun k => rfl

/-- The budget `m` for the nesting of texts. -/
def rn (k m : Nat) : Rec := { run k with n := m }

theorem rn_self (k : Nat) : rn k k = run k := by cases k <;> rfl

theorem rn_le {k k' m m' : Nat} (h : k ≤ k') (h' : m ≤ m') : RecLe (rn k m) (rn k' m') := by
  have := run_le h
  exact ⟨⟨h'⟩, this.eval, this.call, this.expand, this.expand3, this.procQ, this.subst, this.whileL⟩

theorem rn_eval (k m : Nat) : (rn k m).eval = (run k).eval := rfl
theorem rn_call (k m : Nat) : (rn k m).call = (run k).call := rfl
theorem rn_procQ (k m : Nat) : (rn k m).procQ = (run k).procQ := rfl
theorem rn_n (k m : Nat) : (rn k m).n = m := rfl

theorem via_n {α : Type} {F : Rec → M α} {G : Nat → Option St} {st : St} (N : Nat) (hm : ∀ r r', RecLe r r' → Mono (F r) (F r'))
    (h : ∃ K, ∀ k s, G k = some s → fz (F (rn k (max k N)) st) = some s ∨ (k < K ∧ fz (F (rn k (max k N)) st) ≠ none)) :
    Via 0 (fun k => fz (F (run k) st)) G := by
  obtain ⟨K, h⟩ := h
  refine ⟨fun k hk => by omega, max K N, fun k s hs => ?_⟩
  by_cases hN : N ≤ k
  · have := h k s hs
    rw [show max k N = k by omega, rn_self] at this
    rcases this with h | h
    · exact .inl h
    · exact .inr ⟨by omega, h.2⟩
  · refine .inr ⟨by omega, ?_⟩
    have hne : fz (F (rn k (max k N)) st) ≠ none := by
      rcases h k s hs with h | h
      · rw [h]; simp
      · exact h.2
    have hle : RecLe (rn k k) (rn k (max k N)) := rn_le (Nat.le_refl _) (by omega)
    rw [rn_self] at hle
    rcases (hm _ _ hle).le st with ⟨s', e⟩ | e
    · exact fz_ne.2 ⟨s', e⟩
    · show fz (F (run k) st) ≠ none
      rw [e]; exact hne

/-- A part that ends either ends with this budget or uses it up. -/
theorem rn_cases {α : Type} {F : Rec → M α} {st : St} {o : Out α} (hm : ∀ r r', RecLe r r' → Mono (F r) (F r')) (ho : Ends o) (h : ∃ K, ∀ k, K ≤ k → F (run k) st = o) :
    ∃ K, ∀ k m, k ≤ m → F (rn k m) st = o ∨ (k < K ∧ ∃ s, F (rn k m) st = .fail .fuel s) := by
  obtain ⟨K, h⟩ := h
  refine ⟨K, fun k m hk => ?_⟩
  by_cases hK : K ≤ k
  · have hle : RecLe (run k) (rn k m) := rn_self k ▸ rn_le (Nat.le_refl k) hk
    rcases (hm _ _ hle).le st with ⟨s', e'⟩ | e'
    · exact absurd ((h k hK).symm.trans e') (ho s')
    · exact .inl (by rw [← e', h k hK])
  · have up : F (run (max m K)) st = o := h _ (by omega)
    rcases (hm _ _ (rn_self (max m K) ▸ rn_le (k := k) (m := m) (k' := max m K) (m' := max m K) (by omega) (by omega))).le st with ⟨s, e⟩ | e
    · exact .inr ⟨by omega, s, e⟩
    · exact .inl (by rw [e, up])

theorem evals_cases {p : Ptr} {s : Nat} {st : St} {o : Out (Option Variant)} (h : Evals p s st o) :
    ∃ K, ∀ k, (run k).eval p s st = o ∨ (k < K ∧ ∃ s', (run k).eval p s st = .fail .fuel s') := by
  obtain ⟨K, h⟩ := h.stable
  refine ⟨K, fun k => ?_⟩
  by_cases hk : K ≤ k
  · exact .inl (h k hk)
  · rcases monoSeq_eval p s st k K (by omega) with ⟨s', e⟩ | e
    · exact .inr ⟨by omega, s', e⟩
    · exact .inl (e.trans (h K (Nat.le_refl _)))

theorem calls_cases {w : FnW} {l : List Ptr} {s : Nat} {st : St} {o : Out (Option Variant)} (h : Calls w l s st o) :
    ∃ K, ∀ k, (run k).call w l s st = o ∨ (k < K ∧ ∃ s', (run k).call w l s st = .fail .fuel s') := by
  obtain ⟨K, h⟩ := h.stable
  refine ⟨K, fun k => ?_⟩
  by_cases hk : K ≤ k
  · exact .inl (h k hk)
  · rcases monoSeq_call w l s st k K (by omega) with ⟨s', e⟩ | e
    · exact .inr ⟨by omega, s', e⟩
    · exact .inl (e.trans (h K (Nat.le_refl _)))

/-! ## Tasks of the interpreter -/

def Inst (o : Origin) : Task → (Nat → Option St) → Prop
  | .eval f e R, F => ∃ st μ p, Sim o st μ R ∧ f < R.count ∧ CodeAt st p e ∧ F = fun k => fz ((run k).eval p (μ f) st)
  | .operands f R0 es R, F => ∃ st0 μ0 st μ ps ps', Sim o st0 μ0 R0 ∧ f < R0.count ∧ All2 (CodeAt st0) ps es ∧ Sim o st μ R ∧
      Grow st0 μ0 R0.count st μ R.count ∧ All2 (Resolved st0 (μ0 f)) ps ps' ∧ F = fun k => fz (evalArgs (rn k (max k 3)) false (μ0 f) ps' st)
  | .loop f c b R, F => ∃ st μ pc pb r, Sim o st μ R ∧ f < R.count ∧ CodeAt st pc c ∧ CodeAt st pb b ∧ F = fun k => fz (whileFrom k pc pb (μ f) r st)
  | .seq f es R, F => ∃ st μ ps rv, Sim o st μ R ∧ f < R.count ∧ All2 (CodeAt st) ps es ∧ F = fun k => fz (doLoop (run k) (μ f) rv ps st)
  | .conj f es R, F => ∃ st μ ps, Sim o st μ R ∧ f < R.count ∧ All2 (CodeAt st) ps es ∧ F = fun k => fz (boolLoop (run k) true (μ f) true ps st)
  | .bools f es R, F => ∃ st μ ps, Sim o st μ R ∧ f < R.count ∧ All2 (CodeAt st) ps es ∧ F = fun k => fz (boolLoop (run k) false (μ f) true ps st)
  | .apply f w vs R, F => ∃ st μ u fw args, Sim o st μ R ∧ f < R.count ∧ IsVal st μ R.count u w ∧ Args st μ R.count args vs ∧ IsFn u fw ∧
      F = fun k => fz ((run k).call fw args (μ f) st)
  | .calls1 f w l R, F => ∃ st μ u fw ps, Sim o st μ R ∧ f < R.count ∧ IsVal st μ R.count u w ∧ IsFn u fw ∧ AreVals st μ R.count ps l ∧
      F = fun k => fz (mapLoop (run k) fw (μ f) ps st)
  | .calls2 f w a l R, F => ∃ st μ u fw acc ps, Sim o st μ R ∧ f < R.count ∧ IsVal st μ R.count u w ∧ IsFn u fw ∧ IsVal st μ R.count acc a ∧
      AreVals st μ R.count ps l ∧ F = fun k => fz (reduceLoop (run k) fw (μ f) acc ps st)
  | .filled f x R, F => ∃ st μ i, Sim o st μ R ∧ f < R.count ∧ CodeAt st (.mk i .list) x ∧ F = fun k => fz ((run k).procQ (st.lists i) (μ f) st)
  | .filledAll f l R, F => ∃ st μ ps, Sim o st μ R ∧ f < R.count ∧ All2 (CodeAt st) ps l ∧ F = fun k => fz (procQLoop (run k) (μ f) ps st)

/-- Tasks of the same budget are parts of each other only if this number becomes smaller. -/
def rank : Task → Nat
  | .operands _ _ es _ => es.length + 1
  | .loop _ _ _ _ => 1
  | .seq _ es _ => es.length + 1
  | .conj _ es _ => es.length + 1
  | .bools _ es _ => es.length + 1
  | .calls1 _ _ l _ => l.length + 1
  | .calls2 _ _ _ l _ => l.length + 1
  | .filledAll _ l _ => l.length + 1
  | _ => 0

def Next (o : Origin) (n : Nat) (F : Nat → Option St) (t : Task) : Prop :=
  ∃ c G, Inst o t G ∧ Via c F G ∧ (c = 0 → rank t < n)

variable {o : Origin} {st : St} {μ : Emb} {R : Conf} {F : Nat → Option St}

/-! ## Forms -/

theorem resolved_atToken {sid : Nat} {t : Option Token} {args args' : List Ptr} (hr : All2 (Resolved st sid) args args') : All2 (Resolved (atToken st sid t) sid) args args' := by
  have hs := sameNames_atToken st sid t
  induction hr with
  | nil => exact .nil
  | cons hab _ ih =>
    refine .cons ?_ ih
    cases hab with
    | symbol a b => exact .symbol a (hs.lookup b)
    | unknown a b => exact .unknown a (hs.lookup b)
    | value a => exact .value a
    | list => exact .list

theorem evalStep_special {st' : St} {sid : Nat} {ast : Ptr} {w : FnW} {args : List Ptr} (ha : Acyclic st) (h : IsForm st sid ast w args st') (hw : w.special = true)
    {r : Rec} {n : Nat} (hn : r.n = n + 3) : evalStep r ast sid st = r.call w args sid st' := by
  obtain ⟨⟨i, f, rfl, hl, ⟨name, p, ⟨j, v, rfl, hv⟩, hm, hlk, hp⟩, rfl⟩, hpl, ht⟩ := h
  have e1 : resolveElem (atToken st sid v.tok) (n + 3) sid (.mk j (.var v)) = .ok p :=
    resolveElem_sym (n := n) ((sameNames_atToken st sid v.tok).acyclic ha) hv ((sameNames_atToken st sid v.tok).lookup hlk)
  simp only [evalStep, M.bind_apply, M.rd_apply, toListRef, hl, evalList, hn, getMacro_none (ptrStr_sym hv) hm, M.lift_apply, toVariant]
  simp only [setCurTok_apply, resolveArgs, e1, bind_ok_R, headFunction_ok hp, hw, if_true, traceCall_off (traceOff_atToken _ ht), evalArgs_special hpl]
  rfl

theorem evalStep_form {st' : St} {sid : Nat} {ast : Ptr} {w : FnW} {args args' : List Ptr} (ha : Acyclic st) (h : IsForm st sid ast w args st') (hw : w.special = false)
    (hr : All2 (Resolved st sid) args args') {r : Rec} {n : Nat} (hn : r.n = n + 3) :
    evalStep r ast sid st = (do let vals ← evalArgs r false sid args'; r.call w vals sid : M (Option Variant)) st' := by
  obtain ⟨⟨i, f, rfl, hl, ⟨name, p, ⟨j, v, rfl, hv⟩, hm, hlk, hp⟩, rfl⟩, hpl, ht⟩ := h
  have hs := sameNames_atToken st sid v.tok
  have e1 : resolveElem (atToken st sid v.tok) (n + 3) sid (.mk j (.var v)) = .ok p := resolveElem_sym (n := n) (hs.acyclic ha) hv (hs.lookup hlk)
  have e2 : resolveList (atToken st sid v.tok) (n + 3) sid args = .ok args' := resolveList_of (n := n) (hs.acyclic ha) (resolved_atToken hr)
  simp only [evalStep, M.bind_apply, M.rd_apply, toListRef, hl, evalList, hn, getMacro_none (ptrStr_sym hv) hm, M.lift_apply, toVariant]
  simp only [setCurTok_apply, resolveArgs, e1, bind_ok_R, headFunction_ok hp, hw, Bool.false_eq_true, if_false, e2, traceCall_off (traceOff_atToken _ ht)]
  rfl

theorem evalStep_callFn {sid i j : Nat} {v : Variant} {w : FnW} {tl args' : List Ptr} (ha : Acyclic st) (hl : st.lists i = .mk j (.var v) :: tl) (hv : IsFn v w)
    (hm : ∀ t, NoMacro st sid (c!"function " ++ t)) (ht : TraceOff st sid) (hw : w.special = false) (hr : All2 (Resolved st sid) tl args') {r : Rec} {n : Nat} (hn : r.n = n + 3) :
    evalStep r (.mk i .list) sid st = (do let vals ← evalArgs r false sid args'; r.call w vals sid : M (Option Variant)) (atToken st sid v.tok) := by
  have hs := sameNames_atToken st sid v.tok
  have e0 : ptrStr st (n + 3) (.mk j (.var v)) = .ok (c!"function " ++ w.signature) := by
    obtain ⟨hv1, q, hv2⟩ := hv
    rw [ptrStr_var]
    simp only [varStr, hv1, hv2]
  have e1 : resolveElem (atToken st sid v.tok) (n + 3) sid (.mk j (.var v)) = .ok (.mk j (.var v)) := by
    simp [resolveElem, isSymbolPtr, hv.1]
  have e2 : resolveList (atToken st sid v.tok) (n + 3) sid tl = .ok args' := resolveList_of (n := n) (hs.acyclic ha) (resolved_atToken hr)
  simp only [evalStep, M.bind_apply, M.rd_apply, toListRef, hl, evalList, hn, getMacro_none e0 (hm _), M.lift_apply, toVariant]
  simp only [setCurTok_apply, resolveArgs, e1, bind_ok_R, headFunction_ok ⟨_, _, rfl, hv⟩, hw, Bool.false_eq_true, if_false, e2, traceCall_off (traceOff_atToken _ ht)]

theorem rn_three (k : Nat) : (rn k (max k 3)).n = (max k 3 - 3) + 3 := by rw [rn_n]; omega

theorem via_special {st' : St} {sid : Nat} {ast : Ptr} {b : Builtin} {args : List Ptr} (ha : Acyclic st) (h : IsSpecial st sid ast b args st') :
    Via 2 (fun k => fz ((run k).eval ast sid st)) (fun k => fz (callPrim (run k) b args sid st')) := by
  obtain ⟨w, h1, h2, h3⟩ := h
  refine (via_eval ast sid st).trans (Via.trans (c := 0) (d := 1) (G := fun k => fz ((run k).call w args sid st')) ?_ ?_)
  · refine via_n (F := fun r => evalStep r ast sid) 3 (fun _ _ _ => inferInstance) ⟨0, fun k s hs => .inl ?_⟩
    rw [evalStep_special ha h1 h3 (rn_three k)]
    exact hs
  · have := via_call w args sid st'
    simpa only [callStep, h2] using this

theorem via_form {st' : St} {sid : Nat} {ast : Ptr} {w : FnW} {args args' : List Ptr} (ha : Acyclic st) (h : IsForm st sid ast w args st') (hw : w.special = false)
    (hr : All2 (Resolved st sid) args args') :
    Via 1 (fun k => fz ((run k).eval ast sid st)) (fun k => fz ((do let vals ← evalArgs (rn k (max k 3)) false sid args'; (run k).call w vals sid : M (Option Variant)) st')) := by
  refine (via_eval ast sid st).trans (d := 0) ?_
  refine via_n (F := fun r => evalStep r ast sid) 3 (fun _ _ _ => inferInstance) ⟨0, fun k s hs => .inl ?_⟩
  rw [evalStep_form ha h hw hr (rn_three k)]
  exact hs

theorem via_prim {w : FnW} {b : Builtin} (hw : w.kind = .prim b) (args : List Ptr) (sid : Nat) (st : St) :
    Via 1 (fun k => fz ((run k).call w args sid st)) (fun k => fz (callPrim (run k) b args sid st)) := by
  have := via_call w args sid st
  simpa only [callStep, hw] using this

/-- First something that ends, then the part. -/
theorem via_after {F G : Nat → Option St} {P : Nat → Prop} (h : ∃ K, ∀ k, P k ∨ (k < K ∧ F k ≠ none)) (h' : ∀ k s, P k → G k = some s → F k = some s) : Via 0 F G := by
  obtain ⟨K, h⟩ := h
  refine ⟨fun k hk => by omega, K, fun k s hs => ?_⟩
  rcases h k with h | h
  · exact .inl (h' k s h hs)
  · exact .inr h

theorem cases_eval {F : Nat → Option St} {p : Ptr} {s : Nat} {st : St} {o : Out (Option Variant)} (h : Evals p s st o) (hF : ∀ k s', (run k).eval p s st = .fail .fuel s' → F k ≠ none) :
    ∃ K, ∀ k, (run k).eval p s st = o ∨ (k < K ∧ F k ≠ none) := by
  obtain ⟨K, h⟩ := evals_cases h
  refine ⟨K, fun k => ?_⟩
  rcases h k with h | ⟨hK, s', e⟩
  · exact .inl h
  · exact .inr ⟨hK, hF k s' e⟩

theorem cases_call {F : Nat → Option St} {w : FnW} {l : List Ptr} {s : Nat} {st : St} {o : Out (Option Variant)} (h : Calls w l s st o) (hF : ∀ k s', (run k).call w l s st = .fail .fuel s' → F k ≠ none) :
    ∃ K, ∀ k, (run k).call w l s st = o ∨ (k < K ∧ F k ≠ none) := by
  obtain ⟨K, h⟩ := calls_cases h
  refine ⟨K, fun k => ?_⟩
  rcases h k with h | ⟨hK, s', e⟩
  · exact .inl h
  · exact .inr ⟨hK, hF k s' e⟩

/-! ## if -/

theorem next_ifCond {f : Nat} {e c : Sexp} {h : Str} {l : List Sexp} (hF : Form e h (c :: l)) (hV : Head R f h (.prim c!"if")) (hl : l.length = 1 ∨ l.length = 2)
    (hi : Inst o (.eval f e R) F) : Next o 0 F (.eval f c R) := by
  obtain ⟨st, μ, p, hs, hf, hC, rfl⟩ := hi
  obtain ⟨hp, tl, st0, h1, h2, h3⟩ := special_core hs hf hF hC hV .if_ (by decide)
  cases h2 with
  | @cons pc _ tl _ h2 h2' =>
    refine ⟨_, _, ⟨st0, μ, pc, h3.sim, hf, h2, rfl⟩, (via_special hs.links.old h1).trans (via_eq fun k s hk => fz_some.2 ?_), by simp⟩
    obtain ⟨a, b, hgo⟩ := bIf_go (k := k) (sid := μ f) (pc := pc) (tl := tl) (by rw [all2_length' h2']; exact hl)
    simp only [callPrim, hgo, bIf.go, M.bind_apply, fz_some.1 hk]

theorem next_ifBranch {f : Nat} {e c a b : Sexp} {h : Str} {t : Bool} {R1 : Conf} (hF : Form e h [c, a, b]) (hV : Head R f h (.prim c!"if"))
    (hc : ExecOk f c R (.bool t) R1) (hi : Inst o (.eval f e R) F) : Next o 0 F (.eval f (if t then a else b) R1) := by
  obtain ⟨st, μ, p, hs, hf, hC, rfl⟩ := hi
  obtain ⟨hp, tl, st0, h1, h2, h3⟩ := special_core hs hf hF hC hV .if_ (by decide)
  obtain ⟨pc, pa, pb, rfl, h2, ha, hb'⟩ := codes_three h2
  obtain ⟨w, st1, μ1, h4, h5, h6⟩ := hc o st0 μ pc h3.sim hf h2
  have hm : μ1 f = μ f := h6.grow.same f hf
  have hcode : CodeAt st1 (if t = true then pa else pb) (if t then a else b) := by
    cases t
    · exact codeAt_grow h6.grow hb'
    · exact codeAt_grow h6.grow ha
  refine ⟨_, _, ⟨st1, μ1, _, h6.sim, h6.lt hf, hcode, rfl⟩, (via_special hs.links.old h1).trans (via_after (cases_eval h4 fun k s' hk => ?_) fun k s hk hs => fz_some.2 ?_), by simp⟩
  · exact fz_ne.2 ⟨s', by simp only [callPrim, bIf, bIf.go, M.bind_apply, hk]⟩
  · have hs := fz_some.1 hs
    rw [hm] at hs
    cases t <;> simp [callPrim, bIf, bIf.go, M.bind_apply, hk, derefV, M.pure_apply, M.rd_apply, boolValue_bool (isVal_bool_inv h5)] <;> exact hs

theorem next_ifThen {f : Nat} {e c a : Sexp} {h : Str} {R1 : Conf} (hF : Form e h [c, a]) (hV : Head R f h (.prim c!"if"))
    (hc : ExecOk f c R (.bool true) R1) (hi : Inst o (.eval f e R) F) : Next o 0 F (.eval f a R1) := by
  obtain ⟨st, μ, p, hs, hf, hC, rfl⟩ := hi
  obtain ⟨hp, tl, st0, h1, h2, h3⟩ := special_core hs hf hF hC hV .if_ (by decide)
  obtain ⟨pc, pa, rfl, h2, ha⟩ := codes_two h2
  obtain ⟨w, st1, μ1, h4, h5, h6⟩ := hc o st0 μ pc h3.sim hf h2
  have hm : μ1 f = μ f := h6.grow.same f hf
  refine ⟨_, _, ⟨st1, μ1, _, h6.sim, h6.lt hf, codeAt_grow h6.grow ha, rfl⟩, (via_special hs.links.old h1).trans (via_after (cases_eval h4 fun k s' hk => ?_) fun k s hk hs => fz_some.2 ?_), by simp⟩
  · exact fz_ne.2 ⟨s', by simp only [callPrim, bIf, bIf.go, M.bind_apply, hk]⟩
  · have hs := fz_some.1 hs
    rw [hm] at hs
    simp [callPrim, bIf, bIf.go, M.bind_apply, hk, derefV, M.pure_apply, M.rd_apply, boolValue_bool (isVal_bool_inv h5)]
    exact hs

/-! ## Loops -/

theorem next_while {f : Nat} {e c b : Sexp} {h : Str} (hF : Form e h [c, b]) (hV : Head R f h (.prim c!"while")) (hi : Inst o (.eval f e R) F) : Next o 0 F (.loop f c b R) := by
  obtain ⟨st, μ, p, hs, hf, hC, rfl⟩ := hi
  obtain ⟨hp, tl, st0, h1, h2, h3⟩ := special_core hs hf hF hC hV .while_ (by decide)
  obtain ⟨pc, pb, rfl, h2, hb⟩ := codes_two h2
  refine ⟨_, _, ⟨st0, μ, pc, pb, some undefinedV, h3.sim, hf, h2, hb, rfl⟩, (via_special hs.links.old h1).trans (via_eq fun k s hk => ?_), by simp⟩
  simpa [callPrim, bWhile, checkArgs, arg, whileFrom] using hk

theorem next_loopCond {f : Nat} {c b : Sexp} (hi : Inst o (.loop f c b R) F) : Next o 1 F (.eval f c R) := by
  obtain ⟨st, μ, pc, pb, r, hs, hf, hpc, hpb, rfl⟩ := hi
  refine ⟨0, _, ⟨st, μ, pc, hs, hf, hpc, rfl⟩, via_eq fun k s hk => fz_some.2 ?_, fun _ => Nat.lt_succ_self _⟩
  simp only [whileFrom, M.bind_apply, fz_some.1 hk]

theorem next_loopBody {f : Nat} {c b : Sexp} {v : Val} {R1 : Conf} (hc : ExecOk f c R v R1) (hv : truth v = some true) (hi : Inst o (.loop f c b R) F) : Next o 1 F (.eval f b R1) := by
  obtain ⟨st, μ, pc, pb, r, hs, hf, hpc, hpb, rfl⟩ := hi
  obtain ⟨w, st1, μ1, h4, h5, h6⟩ := hc o st μ pc hs hf hpc
  have hm : μ1 f = μ f := h6.grow.same f hf
  obtain ⟨K, h4⟩ := evals_cases h4
  refine ⟨1, _, ⟨st1, μ1, pb, h6.sim, h6.lt hf, codeAt_grow h6.grow hpb, rfl⟩, ⟨fun k hk => ?_, K, fun k s hs => ?_⟩, by simp⟩
  · obtain rfl : k = 0 := by omega
    exact fz_ne.2 ⟨st, rfl⟩
  · have hs := fz_some.1 hs
    rw [hm] at hs
    rcases h4 (k + 1) with e | ⟨hK, s', e⟩
    · exact .inl (fz_some.2 (by simp [whileFrom, e, run_whileL, whileStep, derefV, M.rd_apply, toBool_truthy (truthy_of h5 hv), hs]))
    · exact .inr ⟨by omega, fz_ne.2 ⟨s', by simp [whileFrom, e]⟩⟩

theorem next_loopAgain {f : Nat} {c b : Sexp} {v r1 : Val} {R1 R2 : Conf} (hc : ExecOk f c R v R1) (hv : truth v = some true) (hb : ExecOk f b R1 r1 R2)
    (hn : (R2.frames f).ret = false) (hi : Inst o (.loop f c b R) F) : Next o 1 F (.loop f c b R2) := by
  obtain ⟨st, μ, pc, pb, r, hs, hf, hpc, hpb, rfl⟩ := hi
  obtain ⟨w, st1, μ1, h4, h5, h6⟩ := hc o st μ pc hs hf hpc
  obtain ⟨w2, st2, μ2, h7, h8, h9⟩ := hb o st1 μ1 pb h6.sim (h6.lt hf) (codeAt_grow h6.grow hpb)
  have h69 := h6.trans h9
  have hm : μ1 f = μ f := h6.grow.same f hf
  have hm2 : μ2 f = μ f := h69.grow.same f hf
  obtain ⟨K, h4⟩ := evals_cases h4
  obtain ⟨K', h7⟩ := evals_cases (hm ▸ h7 : Evals pb (μ f) st1 _)
  have hr : (st2.scopes (μ f)).isInReturn = false := by rw [← hm2, h9.sim.ret f (h69.lt hf), hn]
  refine ⟨1, _, ⟨st2, μ2, pc, pb, some w2, h9.sim, h69.lt hf, codeAt_grow h69.grow hpc, codeAt_grow h69.grow hpb, rfl⟩, ⟨fun k hk => ?_, max K K', fun k s hs => ?_⟩, by simp⟩
  · obtain rfl : k = 0 := by omega
    exact fz_ne.2 ⟨st, rfl⟩
  · have hs := fz_some.1 hs
    rw [hm2] at hs
    rcases h4 (k + 1) with e | ⟨hK, s', e⟩
    · rcases h7 k with e' | ⟨hK', s', e'⟩
      · simp only [whileFrom] at hs
        exact .inl (fz_some.2 (by simp [whileFrom, e, run_whileL, whileStep, derefV, M.rd_apply, toBool_truthy (truthy_of h5 hv), e', hr, ← hs]))
      · exact .inr ⟨by omega, fz_ne.2 ⟨s', by simp [whileFrom, e, run_whileL, whileStep, derefV, M.rd_apply, toBool_truthy (truthy_of h5 hv), e']⟩⟩
    · exact .inr ⟨by omega, fz_ne.2 ⟨s', by simp [whileFrom, e]⟩⟩

/-! ## Blocks -/

theorem next_block {f : Nat} {e : Sexp} {h d : Str} {xs : List Sexp} (hF : Form e h xs) (hV : Head R f h (.prim d)) (hd : d ∈ [c!"do", c!"begin"])
    (hi : Inst o (.eval f e R) F) : Next o 0 F (.seq f xs R) := by
  obtain ⟨st, μ, p, hs, hf, hC, rfl⟩ := hi
  obtain ⟨hp, tl, st0, h1, h2, h3⟩ := special_core hs hf hF hC hV .do_ (by simp only [List.mem_cons, List.not_mem_nil, or_false] at hd; rcases hd with rfl | rfl <;> decide)
  refine ⟨_, _, ⟨st0, μ, tl, some undefinedV, h3.sim, hf, h2, rfl⟩, (via_special hs.links.old h1).trans (via_eq fun k s hk => hk), by simp⟩

theorem next_seqHere {f : Nat} {e : Sexp} {es : List Sexp} (he : ∃ h args, Form e h args) (hi : Inst o (.seq f (e :: es) R) F) : Next o (es.length + 2) F (.eval f e R) := by
  obtain ⟨st, μ, ps, rv, hs, hf, hp, rfl⟩ := hi
  obtain ⟨h, args, hF⟩ := he
  cases hp with
  | cons hp hps =>
    obtain ⟨i, _, _, _, rfl, -⟩ := form_code hF hp
    refine ⟨0, _, ⟨st, μ, _, hs, hf, hp, rfl⟩, via_eq fun k s hk => fz_some.2 ?_, fun _ => Nat.succ_pos _⟩
    simp only [doLoop, M.bind_apply, fz_some.1 hk]

theorem seq_after {f i : Nat} {e : Sexp} {es : List Sexp} {rv rw : Option Variant} {st st1 : St} {μ μ1 : Emb} {R1 : Conf} {qs : List Ptr}
    (hE : Evals (.mk i .list) (μ f) st (.ok rw st1)) (hr : (R1.frames f).ret = false) (hs : Sim o st1 μ1 R1) (hf : f < R1.count) (hm : μ1 f = μ f) (hq : All2 (CodeAt st1) qs es) :
    Next o (es.length + 2) (fun k => fz (doLoop (run k) (μ f) rv (.mk i .list :: qs) st)) (.seq f es R1) := by
  have hr : (st1.scopes (μ f)).isInReturn = false := by rw [← hm, hs.ret f hf, hr]
  refine ⟨0, _, ⟨st1, μ1, qs, rw, hs, hf, hq, rfl⟩, via_after (cases_eval hE fun k s' hk => ?_) fun k s hk hs => fz_some.2 ?_, fun _ => Nat.lt_succ_self _⟩
  · exact fz_ne.2 ⟨s', by simp only [doLoop, M.bind_apply, hk]⟩
  · have hs := fz_some.1 hs
    rw [hm] at hs
    simp [doLoop, M.bind_apply, hk, M.get_apply, hr, hs]

theorem next_seqNext {f : Nat} {e : Sexp} {es : List Sexp} {r1 : Val} {R1 : Conf} (hF : ∃ h args, Form e h args) (he : ExecOk f e R r1 R1)
    (hn : (R1.frames f).ret = false) (hi : Inst o (.seq f (e :: es) R) F) : Next o (es.length + 2) F (.seq f es R1) := by
  obtain ⟨st, μ, ps, rv, hs, hf, hp, rfl⟩ := hi
  obtain ⟨h, args, hF⟩ := hF
  cases hp with
  | cons hp hps =>
    obtain ⟨i, _, _, _, rfl, -⟩ := form_code hF hp
    obtain ⟨w, st1, μ1, h4, h5, h6⟩ := he o st μ _ hs hf hp
    exact seq_after (e := e) h4 hn h6.sim (h6.lt hf) (h6.grow.same f hf) (codesAt_grow h6.grow hps)

theorem next_seqSkip {f : Nat} {e c a : Sexp} {h : Str} {es : List Sexp} {R1 : Conf} (hF : Form e h [c, a]) (hV : Head R f h (.prim c!"if"))
    (hc : ExecOk f c R (.bool false) R1) (hn : (R1.frames f).ret = false) (hi : Inst o (.seq f (e :: es) R) F) : Next o (es.length + 2) F (.seq f es R1) := by
  obtain ⟨st, μ, ps, rv, hs, hf, hp, rfl⟩ := hi
  cases hp with
  | cons hp hps =>
    obtain ⟨i, _, _, _, rfl, -⟩ := form_code hF hp
    obtain ⟨tl, st0, h1, h2, h3⟩ := isSpecial_of hs hf hF hp hV .if_ (by decide)
    obtain ⟨pc, pa, rfl, h2, ha⟩ := codes_two h2
    obtain ⟨w, st1, μ1, h4, h5, h6⟩ := hc o st0 μ pc h3.sim hf h2
    have h36 := h3.trans h6
    exact seq_after (e := e) (C35_if_no_else hs.links.old h1 h4 (isVal_bool_inv h5)) hn h6.sim (h6.lt hf) (h6.grow.same f hf) (codesAt_grow h36.grow hps)

theorem next_seqMacro {f : Nat} {e : Sexp} {h d n : Str} {ps : List Str} {body es : List Sexp}
    (hF : Form e h [.sym n, .list (ps.map .sym), .list body]) (hV : Head R f h (.prim d)) (hd : d ∈ [c!"define-macro", c!"define-macro-eval"]) (hn : n ∉ hidden)
    (hr : (R.frames f).ret = false) (hi : Inst o (.seq f (e :: es) R) F) : Next o (es.length + 2) F (.seq f es (R.defMacro n ps body)) := by
  obtain ⟨st, μ, qs, rv, hs, hf, hp, rfl⟩ := hi
  cases hp with
  | cons hp hps =>
    obtain ⟨i, _, _, _, rfl, -⟩ := form_code hF hp
    obtain ⟨tl, st0, h1, h2, h3⟩ := isSpecial_of hs hf hF hp hV .defineMacroEval
      (by simp only [List.mem_cons, List.not_mem_nil, or_false] at hd; rcases hd with rfl | rfl <;> decide)
    obtain ⟨p0, p1, p2, rfl, g0, g1, g2⟩ := codes_three h2
    obtain ⟨j, u, rfl, hu, -⟩ := codeAt_sym g0
    obtain ⟨a, rfl, -, ha⟩ := codeAt_list g1
    obtain ⟨b, rfl, -, hb⟩ := codeAt_list g2
    obtain ⟨k, m, hm, -⟩ := h3.sim.macros
    have hR := h3.sim.defMacro hm hn ha hb rfl
    have hg : (st0.scopes (μ f)).global = μ 0 := h3.sim.global f hf
    have hE : Evals (.mk i .list) (μ f) st (.ok none _) := (evals_special hs.links.old h1).2 (lim_of (o := .ok none _) (ends_ok _ _) 3 (by
      show bDefineMacroEval (run 3) _ _ _ = _
      simp only [bDefineMacroEval, checkArgs, List.length_cons, List.length_nil, if_true, M.bind_apply, M.pure_apply, M.get_apply, hg, find_eq, macrosKey, hm, arg,
        List.getElem?_cons_succ, List.getElem?_cons_zero, M.rd_apply, toEnumerable, argStr, run_n, ptrStr_sym (n := 0) hu, allocVec, allocObj, setVar, modScope, M.modify_apply]
      rfl))
    have h03 := h3.trans hR
    exact seq_after (e := e) hE (by exact hr) hR.sim hf rfl (codesAt_grow h03.grow hps)

/-! ## Conjunctions and disjunctions -/

theorem next_and {f : Nat} {e : Sexp} {h d : Str} {xs : List Sexp} (hF : Form e h xs) (hV : Head R f h (.prim d)) (hd : d ∈ [c!"and", c!"&&"])
    (hi : Inst o (.eval f e R) F) : Next o 0 F (.conj f xs R) := by
  obtain ⟨st, μ, p, hs, hf, hC, rfl⟩ := hi
  obtain ⟨hp, tl, st0, h1, h2, h3⟩ := special_core hs hf hF hC hV .and (by simp only [List.mem_cons, List.not_mem_nil, or_false] at hd; rcases hd with rfl | rfl <;> decide)
  refine ⟨_, _, ⟨st0, μ, tl, h3.sim, hf, h2, rfl⟩, (via_special hs.links.old h1).trans (via_eq fun k s hk => fz_some.2 ?_), by simp⟩
  simp [callPrim, ret, bBool, fz_some.1 hk]

theorem next_conjHere {f : Nat} {e : Sexp} {es : List Sexp} (hi : Inst o (.conj f (e :: es) R) F) : Next o (es.length + 2) F (.eval f e R) := by
  obtain ⟨st, μ, ps, hs, hf, hp, rfl⟩ := hi
  cases hp with
  | cons hp hps =>
    refine ⟨0, _, ⟨st, μ, _, hs, hf, hp, rfl⟩, via_eq fun k s hk => fz_some.2 ?_, fun _ => Nat.succ_pos _⟩
    simp [boolLoop, fz_some.1 hk]

theorem next_conjNext {f : Nat} {e : Sexp} {es : List Sexp} {R1 : Conf} (he : ExecOk f e R (.bool true) R1) (hi : Inst o (.conj f (e :: es) R) F) : Next o (es.length + 2) F (.conj f es R1) := by
  obtain ⟨st, μ, ps, hs, hf, hp, rfl⟩ := hi
  cases hp with
  | cons hp hps =>
    obtain ⟨w, st1, μ1, h4, h5, h6⟩ := he o st μ _ hs hf hp
    have hm : μ1 f = μ f := h6.grow.same f hf
    refine ⟨0, _, ⟨st1, μ1, _, h6.sim, h6.lt hf, codesAt_grow h6.grow hps, rfl⟩, via_after (cases_eval h4 fun k s' hk => ?_) fun k s hk hs => fz_some.2 ?_, fun _ => Nat.lt_succ_self _⟩
    · exact fz_ne.2 ⟨s', by simp [boolLoop, hk]⟩
    · have hs := fz_some.1 hs
      rw [hm] at hs
      simp [boolLoop, hk, derefV, M.rd_apply, boolValue_bool (isVal_bool_inv h5), hs]

theorem next_boolsHere {f : Nat} {e : Sexp} {es : List Sexp} (hi : Inst o (.bools f (e :: es) R) F) : Next o (es.length + 2) F (.eval f e R) := by
  obtain ⟨st, μ, ps, hs, hf, hp, rfl⟩ := hi
  cases hp with
  | cons hp hps =>
    refine ⟨0, _, ⟨st, μ, _, hs, hf, hp, rfl⟩, via_eq fun k s hk => fz_some.2 ?_, fun _ => Nat.succ_pos _⟩
    simp [boolLoop, fz_some.1 hk]

theorem next_boolsNext {f : Nat} {e : Sexp} {es : List Sexp} {b : Bool} {R1 : Conf} (he : ExecOk f e R (.bool b) R1) (hi : Inst o (.bools f (e :: es) R) F) : Next o (es.length + 2) F (.bools f es R1) := by
  obtain ⟨st, μ, ps, hs, hf, hp, rfl⟩ := hi
  cases hp with
  | cons hp hps =>
    obtain ⟨w, st1, μ1, h4, h5, h6⟩ := he o st μ _ hs hf hp
    have hm : μ1 f = μ f := h6.grow.same f hf
    refine ⟨0, _, ⟨st1, μ1, _, h6.sim, h6.lt hf, codesAt_grow h6.grow hps, rfl⟩, via_after (cases_eval h4 fun k s' hk => ?_) fun k s hk hs => fz_some.2 ?_, fun _ => Nat.lt_succ_self _⟩
    · exact fz_ne.2 ⟨s', by simp [boolLoop, hk]⟩
    · have hs := fz_some.1 hs
      rw [hm] at hs
      simp [boolLoop, hk, derefV, M.rd_apply, boolValue_bool (isVal_bool_inv h5), hs]

theorem next_or {f : Nat} {e x : Sexp} {h d : Str} {xs : List Sexp} (hF : Form e h (x :: xs)) (hV : Head R f h (.prim d)) (hd : d ∈ [c!"or", c!"||"])
    (hi : Inst o (.eval f e R) F) : Next o 0 F (.eval f x R) := by
  obtain ⟨st, μ, p, hs, hf, hC, rfl⟩ := hi
  obtain ⟨hp, tl, st0, h1, h2, h3⟩ := special_core hs hf hF hC hV .or (by simp only [List.mem_cons, List.not_mem_nil, or_false] at hd; rcases hd with rfl | rfl <;> decide)
  cases h2 with
  | cons h2 h2' =>
    refine ⟨_, _, ⟨st0, μ, _, h3.sim, hf, h2, rfl⟩, (via_special hs.links.old h1).trans (via_eq fun k s hk => fz_some.2 ?_), by simp⟩
    simp [callPrim, ret, bBool, boolLoop, fz_some.1 hk]

theorem next_orTrue {f : Nat} {e x : Sexp} {h d : Str} {xs : List Sexp} {R1 : Conf} (hF : Form e h (x :: xs)) (hV : Head R f h (.prim d)) (hd : d ∈ [c!"or", c!"||"])
    (he : ExecOk f x R (.bool true) R1) (hi : Inst o (.eval f e R) F) : Next o 0 F (.bools f xs R1) := by
  obtain ⟨st, μ, p, hs, hf, hC, rfl⟩ := hi
  obtain ⟨hp, tl, st0, h1, h2, h3⟩ := special_core hs hf hF hC hV .or (by simp only [List.mem_cons, List.not_mem_nil, or_false] at hd; rcases hd with rfl | rfl <;> decide)
  cases h2 with
  | cons h2 h2' =>
    obtain ⟨w, st1, μ1, h4, h5, h6⟩ := he o st0 μ _ h3.sim hf h2
    have hm : μ1 f = μ f := h6.grow.same f hf
    refine ⟨_, _, ⟨st1, μ1, _, h6.sim, h6.lt hf, codesAt_grow h6.grow h2', rfl⟩,
      (via_special hs.links.old h1).trans (via_after (cases_eval h4 fun k s' hk => ?_) fun k s hk hs => fz_some.2 ?_), by simp⟩
    · exact fz_ne.2 ⟨s', by simp [callPrim, ret, bBool, boolLoop, hk]⟩
    · have hs := fz_some.1 hs
      rw [hm] at hs
      simp [callPrim, ret, bBool, boolLoop, hk, derefV, M.rd_apply, boolValue_bool (isVal_bool_inv h5), hs]

/-! ## Assignments -/

theorem next_def {f : Nat} {e x : Sexp} {h d n : Str} (hF : Form e h [.sym n, x]) (hV : Head R f h (.prim d)) (hd : d ∈ [c!"def", c!"gdef", c!"setf"])
    (hi : Inst o (.eval f e R) F) : Next o 0 F (.eval f x R) := by
  obtain ⟨st, μ, p, hs, hf, hC, rfl⟩ := hi
  have key : ∀ (b : Builtin), (d, b, true) ∈ coreTable → (∀ i u q st0, IsSym u n →
      Via 0 (fun k => fz (callPrim (run k) b [.mk i (.var u), q] (μ f) st0)) (fun k => fz ((run k).eval q (μ f) st0))) →
      Next o 0 (fun k => fz ((run k).eval p (μ f) st)) (.eval f x R) := by
    intro b hb hcall
    obtain ⟨hp, tl, st0, h1, h2, h3⟩ := special_core hs hf hF hC hV b hb
    obtain ⟨pa, px, rfl, h2, h2'⟩ := codes_two h2
    obtain ⟨i, u, rfl, hu, -⟩ := codeAt_sym h2
    exact ⟨_, _, ⟨st0, μ, px, h3.sim, hf, h2', rfl⟩, (via_special hs.links.old h1).trans (hcall _ _ _ _ hu), by simp⟩
  simp only [List.mem_cons, List.not_mem_nil, or_false] at hd
  rcases hd with rfl | rfl | rfl
  · exact key .def_ (by decide) fun i u q st0 hu => via_eq fun k s hk => fz_some.2 (by
      simp [callPrim, ret, bDef, bDefHelper, checkArgs, arg, evalArgIfNeeded, toVariant_var, derefV, hu.1, fz_some.1 hk])
  · exact key .gdef (by decide) fun i u q st0 hu => via_eq fun k s hk => fz_some.2 (by
      simp [callPrim, ret, bGdef, bDefHelper, checkArgs, arg, evalArgIfNeeded, toVariant_var, derefV, hu.1, fz_some.1 hk])
  · refine key .setf (by decide) fun i u q st0 hu => ?_
    refine via_n (F := fun r => callPrim r .setf [.mk i (.var u), q] (μ f)) 3 (fun _ _ _ => inferInstance) ⟨0, fun k s hk => .inl (fz_some.2 ?_)⟩
    have hw : IsName u n := .inl hu
    have ht : ¬ u.type = .lvalue := by rcases name_type hw with h | h <;> simp [h]
    have hs : (rn k (max k 3)).eval q (μ f) st0 = .fail .fuel s := fz_some.1 hk
    simp [callPrim, ret, bSetf, checkArgs, arg, evalArgIfNeeded, toVariant, modScope, M.rd_apply, rn_three, varStr_name hw, derefV, ht, fset_fset, fset_same, hs]

theorem next_defPlace {f : Nat} {e q x : Sexp} {h : Str} (hF : Form e h [q, x]) (hV : Head R f h (.prim c!"def")) (hq : ∃ hp args, Form q hp args)
    (hi : Inst o (.eval f e R) F) : Next o 0 F (.eval f q R) := by
  obtain ⟨st, μ, p, hs, hf, hC, rfl⟩ := hi
  obtain ⟨hp, tl, st0, h1, h2, h3⟩ := special_core hs hf hF hC hV .def_ (by decide)
  obtain ⟨pn, px, rfl, h2, hb⟩ := codes_two h2
  obtain ⟨hq1, hq2, hq⟩ := hq
  obtain ⟨i, -, -, -, rfl, -⟩ := form_code hq h2
  refine ⟨_, _, ⟨st0, μ, _, h3.sim, hf, h2, rfl⟩, (via_special hs.links.old h1).trans (via_eq fun k s hk => fz_some.2 ?_), by simp⟩
  simp [callPrim, ret, bDef, bDefHelper, checkArgs, arg, evalArgIfNeeded, fz_some.1 hk]

theorem next_defAt {f : Nat} {e q x : Sexp} {h n : Str} {v0 : Val} {R1 : Conf} (hF : Form e h [q, x]) (hV : Head R f h (.prim c!"def")) (hq : ∃ hp args, Form q hp args)
    (h0 : ExecOk f q R v0 R1) (hv : Named v0 n) (hi : Inst o (.eval f e R) F) : Next o 0 F (.eval f x R1) := by
  obtain ⟨st, μ, p, hs, hf, hC, rfl⟩ := hi
  obtain ⟨hp, tl, st0, h1, h2, h3⟩ := special_core hs hf hF hC hV .def_ (by decide)
  obtain ⟨pn, px, rfl, h2, hb⟩ := codes_two h2
  obtain ⟨hq1, hq2, hq⟩ := hq
  obtain ⟨i, -, -, -, rfl, -⟩ := form_code hq h2
  obtain ⟨u, st1, μ1, h4, h5, h6⟩ := h0 o st0 μ _ h3.sim hf h2
  have hm1 : μ1 f = μ f := h6.grow.same f hf
  have hu := isName_of hv h5
  refine ⟨_, _, ⟨st1, μ1, px, h6.sim, h6.lt hf, codeAt_grow h6.grow hb, rfl⟩,
    (via_special hs.links.old h1).trans (via_after (cases_eval h4 fun k s' hk => ?_) fun k s hk hs => fz_some.2 ?_), by simp⟩
  · exact fz_ne.2 ⟨s', by simp [callPrim, ret, bDef, bDefHelper, checkArgs, arg, evalArgIfNeeded, hk]⟩
  · have hs := fz_some.1 hs
    rw [hm1] at hs
    simp [callPrim, ret, bDef, bDefHelper, checkArgs, arg, evalArgIfNeeded, hk, derefV, name_type hu, hs]

theorem next_rval {f : Nat} {e x : Sexp} {h : Str} (hF : Form e h [x]) (hV : Head R f h (.prim c!"rval")) (hq : ∃ hp args, Form x hp args)
    (hi : Inst o (.eval f e R) F) : Next o 0 F (.eval f x R) := by
  obtain ⟨st, μ, p, hs, hf, hC, rfl⟩ := hi
  obtain ⟨hp, tl, st0, h1, h2, h3⟩ := special_core hs hf hF hC hV .rval (by decide)
  obtain ⟨px, rfl, h2'⟩ := codes_one h2
  obtain ⟨hq1, hq2, hq⟩ := hq
  obtain ⟨i, -, -, -, rfl, -⟩ := form_code hq h2'
  have e0 : fset st0.scopes (μ f) { st0.scopes (μ f) with needsLValue := false } = st0.scopes := fset_id (by rw [← h3.sim.place f hf])
  refine ⟨_, _, ⟨st0, μ, _, h3.sim, hf, h2', rfl⟩, (via_special hs.links.old h1).trans (via_eq fun k s hk => fz_some.2 ?_), by simp⟩
  simp only [callPrim, bRval, checkArgs, argV, arg, List.length_singleton, M.bind_apply, M.pure_apply, ne_eq, not_true, if_false, if_true, M.lift_apply, toVariant_var,
    M.get, M.rd_apply, modScope, M.modify, List.getElem?_cons_zero, evalArgIfNeeded, e0, fz_some.1 hk]

theorem next_setfPlace {f : Nat} {e q y x : Sexp} {h hp : Str} (hF : Form e h [q, x]) (hV : Head R f h (.prim c!"setf")) (hQ : Form q hp [y])
    (hW : Head R f hp (.prim c!"rval")) (hy : ∃ hy args, Form y hy args) (hi : Inst o (.eval f e R) F) : Next o 0 F (.eval f y R) := by
  obtain ⟨st, μ, p, hs, hf, hC, rfl⟩ := hi
  obtain ⟨-, tl, st0, h1, h2, h3⟩ := special_core hs hf hF hC hV .setf (by decide)
  obtain ⟨pq, px, rfl, h2, hb⟩ := codes_two h2
  obtain ⟨j, -, -, -, hpq, -⟩ := form_code hQ h2
  subst hpq
  obtain ⟨-, tl', stq, k1, k2, k3⟩ := special_core h3.sim hf hQ h2 hW .rval (by decide)
  obtain ⟨py, rfl, k2'⟩ := codes_one k2
  obtain ⟨hy1, hy2, hy⟩ := hy
  obtain ⟨i, -, -, -, rfl, -⟩ := form_code hy k2'
  have e1 : noPlaces (asking stq (μ f)) (μ f) = stq := noPlaces_asking (k3.sim.place f hf)
  refine ⟨2 + (0 + (2 + 0)), _, ⟨stq, μ, _, k3.sim, hf, k2', rfl⟩, (via_special hs.links.old h1).trans (Via.trans (G := fun k => fz ((run k).eval (.mk j .list) (μ f) (asking st0 (μ f)))) (via_eq fun k s hk => fz_some.2 ?_)
    ((via_special ((sameNames_asking st0 (μ f)).acyclic h3.sim.links.old) (isSpecial_asking k1)).trans (via_eq fun k s hk => fz_some.2 ?_))), by simp⟩
  · simp only [callPrim, ret, bSetf, checkArgs, arg, M.bind_apply, M.pure_apply, if_true, M.get, modScope_asking, evalArgIfNeeded, List.length_cons, List.length_nil,
      List.getElem?_cons_zero, fz_some.1 hk]
  · simp only [callPrim, bRval, checkArgs, arg, List.length_singleton, M.bind_apply, M.pure_apply, if_true, M.get, modScope_noPlaces, List.getElem?_cons_zero, evalArgIfNeeded, e1, fz_some.1 hk]

theorem next_setfAt {f : Nat} {e q y x : Sexp} {h hp n : Str} {v0 : Val} {R1 : Conf} (hF : Form e h [q, x]) (hV : Head R f h (.prim c!"setf")) (hQ : Form q hp [y])
    (hW : Head R f hp (.prim c!"rval")) (hy : ∃ hy args, Form y hy args) (h0 : ExecOk f y R v0 R1) (hv : Named v0 n) (hi : Inst o (.eval f e R) F) :
    Next o 0 F (.eval f x R1) := by
  obtain ⟨st, μ, p, hs, hf, hC, rfl⟩ := hi
  obtain ⟨-, tl, st0, h1, h2, h3⟩ := special_core hs hf hF hC hV .setf (by decide)
  obtain ⟨pq, px, rfl, h2, hb⟩ := codes_two h2
  obtain ⟨j, -, -, -, hpq, -⟩ := form_code hQ h2
  subst hpq
  obtain ⟨-, tl', stq, k1, k2, k3⟩ := special_core h3.sim hf hQ h2 hW .rval (by decide)
  obtain ⟨py, rfl, k2'⟩ := codes_one k2
  obtain ⟨hy1, hy2, hy⟩ := hy
  obtain ⟨i, -, -, -, rfl, -⟩ := form_code hy k2'
  obtain ⟨u, st1, μ1, h4, h5, h6⟩ := h0 o stq μ _ k3.sim hf k2'
  have hm1 : μ1 f = μ f := h6.grow.same f hf
  have hu := isName_of hv h5
  obtain ⟨fw, -, hkind, -⟩ := id k1
  have k4 : Evals (.mk j .list) (μ f) (asking st0 (μ f)) (.ok (some u) (asking st1 (μ f))) := by
    rw [evals_special ((sameNames_asking st0 (μ f)).acyclic h3.sim.links.old) (isSpecial_asking k1), ← calls_prim hkind]
    refine (C69_rval hkind).2 ⟨.ok (some u) st1, ?_, ?_⟩
    · rw [noPlaces_asking (k3.sim.place f hf)]; exact h4
    · simp [thenSet, asking, fset_self]
  have e2 : noPlaces (asking st1 (μ f)) (μ f) = st1 := noPlaces_asking (by rw [← hm1]; exact h6.sim.place f (h6.lt hf))
  refine ⟨2 + 0, _, ⟨st1, μ1, px, h6.sim, h6.lt hf, codeAt_grow (k3.grow.trans h6.grow) hb, rfl⟩, (via_special hs.links.old h1).trans ?_, by simp⟩
  refine via_n (F := fun r => callPrim r .setf [.mk j .list, px] (μ f)) 3 (fun _ _ _ => inferInstance) ?_
  obtain ⟨K, hK⟩ := evals_cases k4
  refine ⟨K, fun k s hk => ?_⟩
  rcases hK k with e | ⟨hlt, s', e⟩
  · have hs' : (rn k (max k 3)).eval px (μ f) st1 = .fail .fuel s := by rw [← hm1]; exact fz_some.1 hk
    have e : (rn k (max k 3)).eval _ _ _ = _ := e
    refine .inl (fz_some.2 ?_)
    simp only [callPrim, ret, bSetf, checkArgs, arg, M.bind_apply, M.pure_apply, if_true, M.get, modScope_asking, modScope_noPlaces, evalArgIfNeeded, List.length_cons, List.length_nil,
      List.getElem?_cons_zero, List.getElem?_cons_succ, e, M.rd_apply, h3.sim.place f hf, e2, hs', rn_three, varStr_name hu]
  · have e : (rn k (max k 3)).eval _ _ _ = _ := e
    refine .inr ⟨hlt, fz_ne.2 ⟨s', ?_⟩⟩
    simp only [callPrim, ret, bSetf, checkArgs, arg, M.bind_apply, M.pure_apply, if_true, M.get, modScope_asking, modScope_noPlaces, evalArgIfNeeded, List.length_cons, List.length_nil,
      List.getElem?_cons_zero, List.getElem?_cons_succ, e]

/-! ## Calls -/

theorem next_operand {f : Nat} {e : Sexp} {h : Str} {args : List Sexp} {w : Val} (hF : Form e h args) (hV : Head R f h w) (hw : Ordinary w)
    (hi : Inst o (.eval f e R) F) : Next o 0 F (.operands f R args R) := by
  obtain ⟨st, μ, p, hs, hf, hC, rfl⟩ := hi
  obtain ⟨u, tl, st0, h1, h2, h3, -, h4⟩ := isForm_of hs hf hF hC hV
  obtain ⟨fw, h8, h9⟩ := ordinary_fn h1 hw
  obtain ⟨ps', h5⟩ := hs.resolved hf h3
  have hu : IsFn u fw := h8
  refine ⟨1 + 0, _, ⟨st, μ, st0, μ, tl, ps', hs, hf, h3, h4.sim, h4.grow, h5, rfl⟩, (via_form hs.links.old (h2 _ h8) h9 h5).trans (via_eq fun k s hk => fz_some.2 ?_), by simp⟩
  simp only [M.bind_apply, fz_some.1 hk]

/-- After the operands. -/
theorem via_args {sid : Nat} {ps' vs : List Ptr} {w : FnW} {st1 : St} (h : EvalArgs sid ps' st vs st1) :
    Via 0 (fun k => fz ((do let vals ← evalArgs (rn k (max k 3)) false sid ps'; (run k).call w vals sid : M (Option Variant)) st)) (fun k => fz ((run k).call w vs sid st1)) := by
  obtain ⟨K, hK⟩ := rn_cases (F := fun r => evalArgs r false sid ps') (fun _ _ _ => inferInstance) (ends_ok _ _) (evalArgs_of h)
  refine ⟨fun k hk => by omega, K, fun k s hs => ?_⟩
  rw [Nat.add_zero]
  rcases hK k (max k 3) (by omega) with e | ⟨hlt, s', e⟩
  · refine .inl (fz_some.2 ?_)
    simp only [M.bind_apply, e, fz_some.1 hs]
  · refine .inr ⟨hlt, fz_ne.2 ⟨s', ?_⟩⟩
    simp only [M.bind_apply, e]

theorem next_call {f : Nat} {e : Sexp} {h : Str} {args : List Sexp} {w : Val} {vs : List Val} {R1 : Conf} (hF : Form e h args) (hV : Head R f h w) (hw : Ordinary w)
    (ho : OperandsOk f R args R vs R1) (hi : Inst o (.eval f e R) F) : Next o 0 F (.apply f w vs R1) := by
  obtain ⟨st, μ, p, hs, hf, hC, rfl⟩ := hi
  obtain ⟨u, tl, st0, h1, h2, h3, -, h4⟩ := isForm_of hs hf hF hC hV
  obtain ⟨fw, h8, h9⟩ := ordinary_fn h1 hw
  obtain ⟨ps', qs, st1, μ1, h5, h6, h7, h10⟩ := ho o st μ st0 μ tl hs hf h3 h4.sim h4.grow
  have hm : μ1 f = μ f := h10.grow.same f hf
  refine ⟨1 + 0, _, ⟨st1, μ1, u, fw, qs, h10.sim, h10.lt hf, isVal_grow h10.grow h1, h7, h8, rfl⟩, (via_form hs.links.old (h2 _ h8) h9 h5).trans ?_, by simp⟩
  rw [hm]
  exact via_args h6

theorem next_operandHere {f : Nat} {R0 : Conf} {e : Sexp} {es : List Sexp} (he : ∃ h args, Form e h args) (hi : Inst o (.operands f R0 (e :: es) R) F) :
    Next o (es.length + 2) F (.eval f e R) := by
  obtain ⟨st0, μ0, st, μ, ps, ps', h0, hf, hp, hs, hg, hr, rfl⟩ := hi
  obtain ⟨h, args, hF⟩ := he
  have hf' : f < R.count := Nat.lt_of_lt_of_le hf hg.count
  have hm0 : μ f = μ0 f := hg.same f hf
  cases hp with
  | cons hp hps =>
    obtain ⟨i, _, _, _, rfl, -⟩ := form_code hF hp
    cases hr with
    | cons hr hrs =>
      cases hr
      refine ⟨0, _, ⟨st, μ, _, hs, hf', codeAt_grow hg hp, rfl⟩, via_eq fun k s hk => fz_some.2 ?_, fun _ => Nat.succ_pos _⟩
      have hk := fz_some.1 hk
      rw [hm0] at hk
      simp [evalArgs, rn_eval, hk]

theorem resolved_unique {s : Nat} {p q q' : Ptr} (ha : Acyclic st) (h : Resolved st s p q) (h' : Resolved st s p q') : q = q' := by
  have h1 := resolveList_of (n := 0) ha (.cons h .nil)
  have h2 := resolveList_of (n := 0) ha (.cons h' .nil)
  rw [h1] at h2
  simpa using h2

theorem next_operandName {f : Nat} {R0 : Conf} {n : Str} {es : List Sexp} {v : Val} (hv : Value R0 f n v) (hi : Inst o (.operands f R0 (.sym n :: es) R) F) :
    Next o (es.length + 2) F (.operands f R0 es R) := by
  obtain ⟨st0, μ0, st, μ, ps, ps', h0, hf, hp, hs, hg, hr, rfl⟩ := hi
  cases hp with
  | cons hp hps =>
    obtain ⟨i, u, rfl, h1, -⟩ := codeAt_sym hp
    obtain ⟨-, q, h2, k, w, rfl, h3⟩ := h0.lookup hf hv
    cases hr with
    | @cons _ q' _ qs hr hrs =>
      have hq : ∃ j y, q' = .mk j (.var y) ∧ NotSpliced (.mk j (.var y)) := by
        obtain rfl := resolved_unique h0.links.old (.symbol h1 h2) hr
        exact ⟨_, _, rfl, by simp [NotSpliced, isVal_unq h3]⟩
      obtain ⟨j, y, rfl, hy⟩ := hq
      refine ⟨0, _, ⟨st0, μ0, st, μ, _, _, h0, hf, hps, hs, hg, hrs, rfl⟩, via_eq fun k s hk => fz_some.2 ?_, fun _ => Nat.lt_succ_self _⟩
      rw [evalArgs_value hy]
      simp [fz_some.1 hk]

theorem next_operandUnknown {f : Nat} {R0 : Conf} {n : Str} {es : List Sexp} (hv : Unknown R0 f n) (hi : Inst o (.operands f R0 (.sym n :: es) R) F) :
    Next o (es.length + 2) F (.operands f R0 es R) := by
  obtain ⟨st0, μ0, st, μ, ps, ps', h0, hf, hp, hs, hg, hr, rfl⟩ := hi
  cases hp with
  | cons hp hps =>
    obtain ⟨i, u, rfl, h1, h2⟩ := codeAt_sym hp
    cases hr with
    | @cons _ q' _ qs hr hrs =>
      obtain rfl := resolved_unique h0.links.old (.unknown h1 (h0.unknown hf hv).2) hr
      refine ⟨0, _, ⟨st0, μ0, st, μ, _, _, h0, hf, hps, hs, hg, hrs, rfl⟩, via_eq fun k s hk => fz_some.2 ?_, fun _ => Nat.lt_succ_self _⟩
      rw [evalArgs_value (by simp [NotSpliced, h2])]
      simp [fz_some.1 hk]

theorem next_operandOther {f : Nat} {R0 R1 : Conf} {e : Sexp} {es : List Sexp} {v : Val} (hn : ∀ n, e ≠ .sym n) (he : ExecOk f e R v R1)
    (hi : Inst o (.operands f R0 (e :: es) R) F) : Next o (es.length + 2) F (.operands f R0 es R1) := by
  obtain ⟨st0, μ0, st, μ, ps, ps', h0, hf, hp, hs, hg, hr, rfl⟩ := hi
  have hf' : f < R.count := Nat.lt_of_lt_of_le hf hg.count
  have hm0 : μ f = μ0 f := hg.same f hf
  cases hp with
  | cons hp hps =>
    have hp' := codeAt_grow hg hp
    obtain ⟨x, st1, μ1, h1, h2, h3⟩ := he o st μ _ hs hf' hp'
    obtain ⟨c, h4, h5⟩ := hp
    cases h4 with
    | @val i u =>
      have hu : u.type ≠ .symbol ∧ u.type ≠ .list := by
        cases h5 with
        | int h => simp [h.1]
        | float _ h => simp [h.1]
        | str h => simp [h.1]
        | sym h => exact absurd rfl (hn _)
        | bool h => simp [h.1]
        | nil h => simp [show _ = _ from h]
      have := evals_unique h1 (evals_atom hu.1 hu.2)
      simp only [Out.ok.injEq, Option.some.injEq] at this
      obtain ⟨rfl, rfl⟩ := this
      cases hr with
      | cons hr hrs =>
        obtain rfl := resolved_unique h0.links.old (.value hu.1) hr
        refine ⟨0, _, ⟨st0, μ0, _, μ1, _, _, h0, hf, hps, h3.sim, hg.trans h3.grow, hrs, rfl⟩, via_eq fun k s hk => fz_some.2 ?_, fun _ => Nat.lt_succ_self _⟩
        rw [evalArgs_value (by simp [NotSpliced, isVal_unq h2])]
        simp [fz_some.1 hk]
    | @list i l hi h4 =>
      have h10 : Res o st1 μ1 R1.count { st1 with next := st1.next + 1 } μ1 R1 :=
        Res.of_extends h3.sim (extends_next _ _ (Nat.le_succ _)) (links_next h3.sim.links _ (Nat.le_succ _))
      have h11 := h3.trans h10
      have hns : NotSpliced (.mk st1.next (.var x)) := by simp [NotSpliced, isVal_unq h2]
      cases hr with
      | cons hr hrs =>
        cases hr
        rw [hm0] at h1
        refine ⟨0, _, ⟨st0, μ0, _, μ1, _, _, h0, hf, hps, h10.sim, hg.trans h11.grow, hrs, rfl⟩, via_after (cases_eval h1 fun k s' hk => ?_) fun k s hk hs => fz_some.2 ?_, fun _ => Nat.lt_succ_self _⟩
        · exact fz_ne.2 ⟨s', by simp [evalArgs, rn_eval, hk]⟩
        · simp [evalArgs, rn_eval, hk, derefV, spliced_plain hns, fz_some.1 hs]

theorem next_evalCode {f : Nat} {e q x : Sexp} {h hq : Str} (hF : Form e h [q]) (hV : Head R f h (.prim c!"eval")) (hQ : Form q hq [x])
    (hW : Head R f hq (.prim c!"quote")) (hx : ∃ hx args, Form x hx args) (hi : Inst o (.eval f e R) F) : Next o 0 F (.eval f x R) := by
  obtain ⟨st, μ, p, hs, hf, hC, rfl⟩ := hi
  obtain ⟨u, tl, st0, h1, h2, h3, h3', h4⟩ := isForm_of hs hf hF hC hV
  obtain ⟨d, he, hd, hfn⟩ := isVal_prim_inv h1
  obtain ⟨h5, h6⟩ := core_entry he (c!"eval", .eval, false) (by decide) hd
  obtain ⟨pq, rfl, h7⟩ := codes_one h3'
  obtain ⟨j, -, -, -, hpq, -⟩ := form_code hQ h7
  subst hpq
  obtain ⟨tl', st1, k1, k2, k3⟩ := isSpecial_of h4.sim hf hQ h7 hW .quote (by decide)
  obtain ⟨px, rfl, k2'⟩ := codes_one k2
  obtain ⟨hx1, hx2, hx⟩ := hx
  obtain ⟨i, -, -, -, rfl, -⟩ := form_code hx k2'
  have hq : Evals (.mk j .list) (μ f) st0 (.ok (some ⟨.list, .mk st1.next .list, .none, none⟩) (withList st1 (st1.lists i))) := by
    rw [evals_special h4.sim.links.old k1]
    exact lim_of (ends_ok _ _) 0 rfl
  have r1 : Res o st1 μ R.count (withList st1 (st1.lists i)) μ R := Res.of_extends k3.sim (extends_list _ _) (evals_links hq h4.sim.links (h4.sim.old f hf))
  generalize hst2 : withList st1 (st1.lists i) = st2 at hq r1
  have r2 : Res o st2 μ R.count { st2 with next := st2.next + 1 } μ R := Res.of_extends r1.sim (extends_next _ _ (Nat.le_succ _)) (links_next r1.sim.links _ (Nat.le_succ _))
  have hl : st2.lists st1.next = st1.lists i := by subst hst2; simp [withList, fset]
  have r3 : Res o { st2 with next := st2.next + 1 } μ R.count (withList { st2 with next := st2.next + 1 } (st1.lists i)) μ R :=
    Res.of_extends r2.sim (extends_list _ _) (links_same (Nat.le_succ _) rfl rfl r2.sim.links)
  have hcode := codeAt_copy (r1.trans r2).grow k2'
  have hp : IsListOrNil { st2 with next := st2.next + 1 } ⟨.list, .mk st1.next .list, .none, none⟩ (st1.lists i) := .inl ⟨st1.next, ⟨rfl, rfl⟩, hl⟩
  refine ⟨1 + (0 + (1 + 0)), _, ⟨_, μ, _, r3.sim, hf, hcode, rfl⟩, (via_form hs.links.old (h2 _ hfn) h6 (.cons .list .nil)).trans
    ((via_args (.call hq (by simp) .nil)).trans ((via_prim (b := .eval) (by simpa [Entry.wrapper] using h5) _ _ _).trans (via_eq fun k s hk => fz_some.2 ?_))), by simp⟩
  simp [callPrim, bEval, checkArgs, argV, arg, toVariant_var, M.rd_apply, isList_of hp, listValue_list hp, allocList, M.bind_apply]
  exact fz_some.1 hk

/-! ## Templates -/

theorem next_quasi {f : Nat} {e x : Sexp} {h : Str} (hF : Form e h [x]) (hV : Head R f h (.prim c!"quasiquote")) (hx : ∀ {st : St} {p : Ptr}, CodeAt st p x → ∃ i, p = .mk i .list)
    (hi : Inst o (.eval f e R) F) : Next o 0 F (.filled f x R) := by
  obtain ⟨st, μ, p, hs, hf, hC, rfl⟩ := hi
  obtain ⟨hp, tl, st0, h1, h2, h3⟩ := special_core hs hf hF hC hV .quasiquote (by decide)
  obtain ⟨q, rfl, h2'⟩ := codes_one h2
  obtain ⟨i, rfl⟩ := hx h2'
  refine ⟨2 + 0, _, ⟨st0, μ, i, h3.sim, hf, h2', rfl⟩, (via_special hs.links.old h1).trans (via_eq fun k s hk => fz_some.2 ?_), by simp⟩
  simp [callPrim, ret, bQuasiquote, checkArgs, arg, fz_some.1 hk]

theorem via_unquote {f : Nat} {x y : Sexp} {i : Nat} (sp : Bool) (hF : Form x (if sp then c!"_unquotesplicing" else c!"_unquote") [y]) (hC : CodeAt st (.mk i .list) x) :
    ∃ q, CodeAt st q y ∧ Via 1 (fun k => fz ((run k).procQ (st.lists i) (μ f) st)) (fun k => fz ((run k).eval q (μ f) st)) := by
  obtain ⟨_, j, v, tl, e, h1, h2, h3⟩ := form_code hF hC
  cases e
  obtain ⟨q, rfl, h4⟩ := codes_one h3
  refine ⟨q, h4, (via_procQ _ _ _).trans (d := 0) (via_n (F := fun r => procQStep r (st.lists i) (μ f)) 3 (fun _ _ _ => inferInstance) ⟨0, fun k s hk => .inl (fz_some.2 ?_)⟩)⟩
  have hu : ∀ n, unquoteKind st (n + 3) (.mk j (.var v)) = .ok (some sp) := fun n => by
    simp only [unquoteKind, h2.1, if_true, varStr_sym h2, bind_ok_R, unquoteName, unquoteSplicingName]
    cases sp <;> simp
  rw [h1]
  simp only [procQStep, M.bind_apply, M.rd_apply, rn_three, hu, rn_eval, fz_some.1 hk]

theorem next_unquote {f : Nat} {x y : Sexp} (hF : Form x c!"_unquote" [y]) (hi : Inst o (.filled f x R) F) : Next o 0 F (.eval f y R) := by
  obtain ⟨st, μ, i, hs, hf, hC, rfl⟩ := hi
  obtain ⟨q, h1, h2⟩ := via_unquote (f := f) (μ := μ) false hF hC
  exact ⟨_, _, ⟨st, μ, q, hs, hf, h1, rfl⟩, h2, by simp⟩

theorem next_filledList {f : Nat} {l : List Sexp} (hl : l.length ≠ 2) (hi : Inst o (.filled f (.list l) R) F) : Next o 0 F (.filledAll f l R) := by
  obtain ⟨st, μ, i, hs, hf, hC, rfl⟩ := hi
  obtain ⟨_, e, -, hcs⟩ := codeAt_list hC
  cases e
  refine ⟨1 + 0, _, ⟨st, μ, _, hs, hf, hcs, rfl⟩, (via_procQ _ _ _).trans (via_eq fun k s hk => fz_some.2 ?_), by simp⟩
  have hlen := all2_length' hcs
  have hk := fz_some.1 hk
  generalize st.lists i = ps at *
  have : procQStep (run k) ps (μ f) = (do
      let l' ← procQLoop (run k) (μ f) ps
      let p ← allocList l'
      pure (p, false)) := by
    match ps with
    | [] => rfl
    | [_] => rfl
    | [_, _] => exact absurd hlen.symm hl
    | _ :: _ :: _ :: _ => rfl
  rw [this]
  simp only [M.bind_apply, hk]

theorem next_filledHere {f : Nat} {x : Sexp} {l : List Sexp} (hx : ∀ {st : St} {p : Ptr}, CodeAt st p x → ∃ i, p = .mk i .list) (hi : Inst o (.filledAll f (x :: l) R) F) :
    Next o (l.length + 2) F (.filled f x R) := by
  obtain ⟨st, μ, ps, hs, hf, hp, rfl⟩ := hi
  cases hp with
  | cons hp hps =>
    obtain ⟨i, rfl⟩ := hx hp
    refine ⟨0, _, ⟨st, μ, i, hs, hf, hp, rfl⟩, via_eq fun k s hk => fz_some.2 ?_, fun _ => Nat.succ_pos _⟩
    simp only [procQLoop, M.bind_apply, M.get_apply, fz_some.1 hk]

theorem next_filledSpliced {f : Nat} {x y : Sexp} {l : List Sexp} (hF : Form x c!"_unquotesplicing" [y]) (hi : Inst o (.filledAll f (x :: l) R) F) :
    Next o (l.length + 2) F (.eval f y R) := by
  obtain ⟨st, μ, ps, hs, hf, hp, rfl⟩ := hi
  cases hp with
  | cons hp hps =>
    obtain ⟨i, _, _, _, rfl, -⟩ := form_code hF hp
    obtain ⟨q, h1, h2⟩ := via_unquote (f := f) (μ := μ) true hF hp
    refine ⟨0 + 1, _, ⟨st, μ, q, hs, hf, h1, rfl⟩, Via.trans (via_eq fun k s hk => fz_some.2 ?_) h2, by simp⟩
    simp only [procQLoop, M.bind_apply, M.get_apply, fz_some.1 hk]

/-- First something that is known to end, in the evaluator with enough budget. -/
theorem procQ_cases {l : List Ptr} {s : Nat} {o : Out (Ptr × Bool)} (ho : Ends o) (h : ∃ K, ∀ k, K ≤ k → (run k).procQ l s st = o) :
    ∃ K, ∀ k, (run k).procQ l s st = o ∨ (k < K ∧ ∃ s', (run k).procQ l s st = .fail .fuel s') := by
  obtain ⟨K, hK⟩ := rn_cases (F := fun r => r.procQ l s) (fun _ _ _ => inferInstance) ho h
  exact ⟨K, fun k => hK k k (Nat.le_refl _)⟩

theorem next_filledOne {f : Nat} {x : Sexp} {l : List Sexp} {v : Val} {R1 : Conf} (hx : FilledOk f x R v R1) (hi : Inst o (.filledAll f (x :: l) R) F) :
    Next o (l.length + 2) F (.filledAll f l R1) := by
  obtain ⟨st, μ, ps, hs, hf, hp, rfl⟩ := hi
  cases hp with
  | cons hp hps =>
    obtain ⟨q, st1, μ1, h1, h2, h3⟩ := hx o st μ _ hs hf hp
    have hm : μ1 f = μ f := h3.grow.same f hf
    refine ⟨0, _, ⟨st1, μ1, _, h3.sim, h3.lt hf, codesAt_grow h3.grow hps, rfl⟩, ?_, fun _ => Nat.lt_succ_self _⟩
    rw [hm]
    rcases h1 with ⟨i, u, rfl, rfl, rfl, rfl⟩ | ⟨i, rfl, hL⟩
    · exact via_eq fun k s hk => fz_some.2 (by simp only [procQLoop, M.bind_apply, M.pure_apply, fz_some.1 hk])
    · obtain ⟨K, hK⟩ := procQ_cases (ends_ok _ _) hL
      refine ⟨fun k hk => by omega, K, fun k s hs => ?_⟩
      rw [Nat.add_zero]
      rcases hK k with e | ⟨hlt, s', e⟩
      · exact .inl (fz_some.2 (by simp only [procQLoop, M.bind_apply, M.pure_apply, M.get_apply, e, Bool.false_eq_true, if_false, fz_some.1 hs]))
      · exact .inr ⟨hlt, fz_ne.2 ⟨s', by simp only [procQLoop, M.bind_apply, M.pure_apply, M.get_apply, e]⟩⟩

theorem next_filledSplice {f : Nat} {x y : Sexp} {l : List Sexp} {w : Val} {ws : List Val} {R1 : Conf} (hF : Form x c!"_unquotesplicing" [y])
    (he : ExecOk f y R w R1) (hw : AsList w ws) (hi : Inst o (.filledAll f (x :: l) R) F) : Next o (l.length + 2) F (.filledAll f l R1) := by
  obtain ⟨st, μ, ps, hs, hf, hp, rfl⟩ := hi
  cases hp with
  | cons hp hps =>
    obtain ⟨i, u, st1, μ1, rfl, h1, h2, hX, hL⟩ := unquote_run true hF he hs hf hp
    have hm : μ1 f = μ f := h2.grow.same f hf
    obtain ⟨as, ha, hav⟩ := isVal_asList (isVal_extends hX h1) hw
    have hlv : ∀ n, ({ u with unq := .splicing } : Variant).listValue { st1 with next := st1.next + 1 } n = .ok as := fun n => listValue_list (by
      rcases ha with ⟨a, h, h'⟩ | ⟨h, h'⟩
      · exact .inl ⟨a, h, h'⟩
      · exact .inr ⟨h, h'⟩)
    refine ⟨0, _, ⟨_, μ1, _, h2.sim, h2.lt hf, codesAt_grow h2.grow hps, rfl⟩, ?_, fun _ => Nat.lt_succ_self _⟩
    rw [hm]
    obtain ⟨K, hK⟩ := procQ_cases (ends_ok _ _) hL
    refine ⟨fun k hk => by omega, K, fun k s hs => ?_⟩
    rw [Nat.add_zero]
    rcases hK k with e | ⟨hlt, s', e⟩
    · exact .inl (fz_some.2 (by simp only [procQLoop, M.bind_apply, M.pure_apply, M.get_apply, e, if_true, toVariant, M.lift_ok, M.rd_apply, hlv, fz_some.1 hs]))
    · exact .inr ⟨hlt, fz_ne.2 ⟨s', by simp only [procQLoop, M.bind_apply, M.pure_apply, M.get_apply, e]⟩⟩

/-! ## Functions -/

theorem next_body {f g : Nat} {ps : List Str} {body : Sexp} {vs : List Val} (hd : ps.Nodup) (hh : ∀ p ∈ ps, p ∉ hidden)
    (hi : Inst o (.apply f (.clo ps body g) vs R) F) : Next o 0 F (.eval R.count body (R.enter ps vs g)) := by
  obtain ⟨st, μ, u, fw, args, hs, hf, hu, ha, hfn, rfl⟩ := hi
  cases hu with
  | @clo _ w cid _ fp bp cs _ c _ hw hu hk hsp _ hc hg h1 h2 h3 h4 h5 h6 =>
    cases isFn_unique hw hfn
    obtain ⟨nils, nl, N, g1, g2, hN, hnl, hcall⟩ := callClosure_ok (args := args) (hs.old f hf) rfl h2 (params_of ⟨_, h3, .list h4⟩)
    have hE := entered_callSt (c := st.clos cid) (nl := nl) (hs.old f hf) hN g1 g2 hnl hd (fun h => hh _ h (by decide)) (fun h => hh _ h (by decide))
    generalize callSt st (μ f) (st.clos cid) ps (args ++ nils) N nl = st1 at hcall hE
    obtain ⟨h7, h8⟩ := hs.entered hf hg hE h1 ha hh
    have hcode : CodeAt st1 bp body := codeAt_grow h8 ⟨_, h5, h6⟩
    refine ⟨1 + 0, _, ⟨st1, _, bp, h7, Nat.lt_succ_self _, hcode, rfl⟩, (via_call _ _ _ _).trans ?_, by simp⟩
    have hcs : ∀ r, callStep r fw args (μ f) = callClosure r cid args (μ f) := fun r => by simp only [callStep, hk]
    simp only [hcs]
    refine via_n (F := fun r => callClosure r cid args (μ f)) 3 (fun _ _ _ => inferInstance) ⟨0, fun k s hk => .inl (fz_some.2 ?_)⟩
    have hk := fz_some.1 hk
    simp only [Spec.Core.Emb.enter, fset_self] at hk
    simp only [hcall _ _ (rn_three k), bodyM, M.bind_apply, sliceExn, rn_eval, hk]

theorem next_map {f : Nat} {w : Val} {l : List Val} (hw : Callable w) (hi : Inst o (.apply f (.prim c!"map") [w, .list l] R) F) : Next o 0 F (.calls1 f w l R) := by
  obtain ⟨st, μ, u, fw, args, hs, hf, hu, ha, hfn', rfl⟩ := hi
  obtain ⟨e, he, hn, hfn⟩ := isVal_prim_inv hu
  cases isFn_unique hfn hfn'
  obtain ⟨h5, h6⟩ := core_entry he (c!"map", .map, false) (by decide) hn
  obtain ⟨i, x, j, y, rfl, hx, hy⟩ := args_two ha
  obtain ⟨fw, hfw⟩ := isVal_callable hw hx
  obtain ⟨ps, hp1, hp2, -⟩ := isVal_list_inv hy
  refine ⟨1 + 0, _, ⟨st, μ, x, fw, ps, hs, hf, hx, hfw, hp2, rfl⟩, (via_prim (b := .map) (by simpa [Entry.wrapper] using h5) _ _ _).trans (via_eq fun k s hk => fz_some.2 ?_), by simp⟩
  simp [callPrim, ret, bMap, checkArgs, arg, checkForFunction, toVariant_var, hfw.1, M.rd_apply, functionValue_fn hfw, checkForList_list _ _ _ ⟨j, y, rfl, hp1⟩, fz_some.1 hk]

theorem next_reduce {f : Nat} {w a : Val} {l : List Val} (hw : Callable w) (hi : Inst o (.apply f (.prim c!"reduce") [w, .list l, a] R) F) : Next o 0 F (.calls2 f w a l R) := by
  obtain ⟨st, μ, u, fw, args, hs, hf, hu, ha, hfn', rfl⟩ := hi
  obtain ⟨e, he, hn, hfn⟩ := isVal_prim_inv hu
  cases isFn_unique hfn hfn'
  obtain ⟨h5, h6⟩ := core_entry he (c!"reduce", .reduce, false) (by decide) hn
  obtain ⟨i, x, j, y, k, z, rfl, hx, hy, hz⟩ := args_three ha
  obtain ⟨fw, hfw⟩ := isVal_callable hw hx
  obtain ⟨ps, hp1, hp2, -⟩ := isVal_list_inv hy
  refine ⟨1 + 0, _, ⟨st, μ, x, fw, z, ps, hs, hf, hx, hfw, hz, hp2, rfl⟩, (via_prim (b := .reduce) (by simpa [Entry.wrapper] using h5) _ _ _).trans (via_eq fun k s hk => fz_some.2 ?_), by simp⟩
  simp [callPrim, ret, bReduce, checkArgs, arg, argV, checkForFunction, toVariant_var, hfw.1, M.rd_apply, functionValue_fn hfw, checkForList_list _ _ _ ⟨j, y, rfl, hp1⟩, fz_some.1 hk]

theorem next_apply {f : Nat} {w : Val} {l : List Val} (hw : Ordinary w) (hl : ∀ x ∈ l, NotList x) (hi : Inst o (.apply f (.prim c!"apply") [w, .list l] R) F) : Next o 0 F (.apply f w l R) := by
  obtain ⟨st, μ, u, fw, args, hs, hf, hu, ha, hfn', rfl⟩ := hi
  obtain ⟨e, he, hn, hfn⟩ := isVal_prim_inv hu
  cases isFn_unique hfn hfn'
  obtain ⟨h5, h6⟩ := core_entry he (c!"apply", .apply, false) (by decide) hn
  obtain ⟨i, x, j, y, rfl, hx, hy⟩ := args_two ha
  obtain ⟨ps, hp1, hp2, hty⟩ := isVal_list_inv hy
  obtain ⟨fw, hfw, -⟩ := ordinary_fn hx hw
  have hev : Evals (.mk i (.var x)) (μ f) st (.ok (some x) st) := evals_atom (by simp [hfw.1]) (by simp [hfw.1])
  refine ⟨1 + 0, _, ⟨st, μ, x, fw, ps, hs, hf, hx, areVals_args hp2 hl, hfw, rfl⟩, (via_prim (b := .apply) (by simpa [Entry.wrapper] using h5) _ _ _).trans
    (via_after (cases_eval hev fun k s' hk => ?_) fun k s hk hs => fz_some.2 ?_), by simp⟩
  · exact fz_ne.2 ⟨s', by simp [callPrim, bApply, checkArgs, arg, argV, toVariant_var, hk]⟩
  · simp [callPrim, bApply, checkArgs, arg, argV, toVariant_var, hk, isList_of hp1, M.rd_apply, listValue_list hp1, derefV, functionValue_fn hfw, fz_some.1 hs]

theorem next_evalCall {f : Nat} {c w : Val} {l vs : List Val} (hw : Ordinary w) (hc : Called R f c w) (hl : Each (Meant R f) l vs)
    (hi : Inst o (.apply f (.prim c!"eval") [.list (c :: l)] R) F) : Next o 0 F (.apply f w vs R) := by
  obtain ⟨st, μ, u, fw, args, hs, hf, hu, ha, hfn', rfl⟩ := hi
  obtain ⟨e, he, hn, hfn⟩ := isVal_prim_inv hu
  cases isFn_unique hfn hfn'
  obtain ⟨h5, h6⟩ := core_entry he (c!"eval", .eval, false) (by decide) hn
  obtain ⟨i, x, rfl, hx⟩ := args_one ha
  obtain ⟨ps, hp1, hp2, -⟩ := isVal_list_inv hx
  have hE : Extends st (withList st ps) := extends_list st ps
  have r0 : Res o st μ R.count (withList st ps) μ R := Res.of_extends hs hE (links_same (Nat.le_succ _) rfl rfl hs.links)
  have hlist : (withList st ps).lists st.next = ps := by simp [withList, fset]
  have hq := areVals_grow r0.grow hp2
  have hv : Via (1 + 0) (fun k => fz ((run k).call e.wrapper [.mk i (.var x)] (μ f) st)) (fun k => fz ((run k).eval (.mk st.next .list) (μ f) (withList st ps))) := by
    refine (via_prim (b := .eval) (by simpa [Entry.wrapper] using h5) _ _ _).trans (via_eq fun k s hk => fz_some.2 ?_)
    simp [callPrim, bEval, checkArgs, argV, arg, toVariant_var, M.rd_apply, isList_of hp1, listValue_list hp1, allocList, M.bind_apply]
    exact fz_some.1 hk
  generalize hst : withList st ps = st0 at *
  cases ps with
  | nil => cases hq
  | cons p tl =>
    have key : ∃ j y, p = .mk j (.var y) ∧ IsVal st0 μ R.count y c ∧ AreVals st0 μ R.count tl l := by
      cases hq with
      | value h t => exact ⟨_, _, rfl, h, t⟩
      | bare =>
        cases hc with
        | fn h _ => cases h
    obtain ⟨j, y, rfl, hy, htl⟩ := key
    obtain ⟨ps', i1, i2, i3, i4⟩ := meant_args r0.sim hf htl hl
    have ht : TraceOff st0 (μ f) := by
      unfold TraceOff
      rw [r0.sim.global f hf]; exact r0.sim.tracing
    have r1 : Res o st0 μ R.count (atToken st0 (μ f) y.tok) μ R := Res.of_same r0.sim (same_atToken _ _ _) (links_atToken r0.sim.links _ _)
    cases hc with
    | @name n _ hv' =>
      obtain ⟨hnn, q, k1, k, z, rfl, k2⟩ := r0.sim.lookup hf hv'.2
      obtain ⟨fw, g1, g2⟩ := ordinary_fn k2 hw
      refine ⟨(1 + 0) + (1 + 0), _, ⟨_, μ, z, fw, ps', r1.sim, hf, isVal_grow r1.grow k2, args_grow r1.grow i3, g1, rfl⟩, hv.trans ?_, by simp⟩
      exact (via_form r0.sim.links.old ⟨⟨_, _, rfl, hlist, ⟨n, _, ⟨j, y, rfl, isVal_sym_inv hy⟩, r0.sim.noMacro hf hv'.1, k1, ⟨k, z, rfl, g1⟩⟩, rfl⟩, i4, ht⟩ g2 i1).trans (via_args (i2 _))
    | fn hw' hm =>
      obtain ⟨fw, g1, g2⟩ := ordinary_fn hy hw
      refine ⟨(1 + 0) + (1 + (0 + 0)), _, ⟨_, μ, y, fw, ps', r1.sim, hf, isVal_grow r1.grow hy, args_grow r1.grow i3, g1, rfl⟩, hv.trans ((via_eval _ _ _).trans (Via.trans ?_ (via_args (i2 _)))), by simp⟩
      refine via_n (F := fun r => evalStep r (.mk st.next .list) (μ f)) 3 (fun _ _ _ => inferInstance) ⟨0, fun k s hs => .inl ?_⟩
      rw [evalStep_callFn r0.sim.links.old hlist g1 (fun t => r0.sim.noMacro hf (hm t)) ht g2 i1 (rn_three k)]
      exact hs

theorem next_calls1Here {f : Nat} {w x : Val} {l : List Val} (hx : NotList x) (hi : Inst o (.calls1 f w (x :: l) R) F) : Next o (l.length + 2) F (.apply f w [x] R) := by
  obtain ⟨st, μ, u, fw, ps, hs, hf, hu, hw, hp, rfl⟩ := hi
  cases ps with
  | nil => cases hp
  | cons p ps =>
    obtain ⟨i, y, rfl, hy, hps⟩ := copy_notList hp hx
    have r0 : Res o st μ R.count { st with next := st.next + 1 } μ R := Res.of_extends hs (extends_next _ _ (Nat.le_succ _)) (links_next hs.links _ (Nat.le_succ _))
    refine ⟨0, _, ⟨_, μ, u, fw, [.mk st.next (.var y)], r0.sim, hf, isVal_grow r0.grow hu, .cons ⟨_, _, rfl, isVal_grow r0.grow hy⟩ .nil, hw, rfl⟩, via_eq fun k s hk => fz_some.2 ?_,
      fun _ => Nat.succ_pos _⟩
    simp only [mapLoop, M.bind_apply, copyObj, allocObj, fz_some.1 hk]

theorem next_calls1Next {f : Nat} {w x v : Val} {l : List Val} {R1 : Conf} (hx : NotList x) (ha : ApplyOk f w [x] R v R1) (hi : Inst o (.calls1 f w (x :: l) R) F) :
    Next o (l.length + 2) F (.calls1 f w l R1) := by
  obtain ⟨st, μ, u, fw, ps, hs, hf, hu, hw, hp, rfl⟩ := hi
  cases ps with
  | nil => cases hp
  | cons p ps =>
    obtain ⟨i, y, rfl, hy, hps⟩ := copy_notList hp hx
    have r0 : Res o st μ R.count { st with next := st.next + 1 } μ R := Res.of_extends hs (extends_next _ _ (Nat.le_succ _)) (links_next hs.links _ (Nat.le_succ _))
    obtain ⟨fw', h1, -, z, st1, μ1, h2, h3, h4⟩ := ha o _ μ u [.mk st.next (.var y)] r0.sim hf (isVal_grow r0.grow hu) (.cons ⟨_, _, rfl, isVal_grow r0.grow hy⟩ .nil)
    cases isFn_unique hw h1
    have hm : μ1 f = μ f := h4.grow.same f hf
    have r1 : Res o st1 μ1 R1.count { st1 with next := st1.next + 1 } μ1 R1 :=
      Res.of_extends h4.sim (extends_next _ _ (Nat.le_succ _)) (links_next h4.sim.links _ (Nat.le_succ _))
    have r2 := (r0.trans h4).trans r1
    refine ⟨0, _, ⟨_, μ1, u, fw, ps, r1.sim, r2.lt hf, isVal_grow r2.grow hu, hw, areVals_grow r2.grow hps, rfl⟩, via_after (cases_call h2 fun k s' hk => ?_) fun k s hk hs => fz_some.2 ?_,
      fun _ => Nat.lt_succ_self _⟩
    · exact fz_ne.2 ⟨s', by simp only [mapLoop, M.bind_apply, copyObj, allocObj, hk]⟩
    · have hs := fz_some.1 hs
      rw [hm] at hs
      simp only [mapLoop, M.bind_apply, copyObj, allocObj, hk, derefV, M.pure_apply, box, hs]

theorem next_calls2Here {f : Nat} {w a x : Val} {l : List Val} (hx : NotList x) (hi : Inst o (.calls2 f w a (x :: l) R) F) : Next o (l.length + 2) F (.apply f w [x, a] R) := by
  obtain ⟨st, μ, u, fw, acc, ps, hs, hf, hu, hw, hacc, hp, rfl⟩ := hi
  cases ps with
  | nil => cases hp
  | cons p ps =>
    obtain ⟨i, y, rfl, hy, hps⟩ := copy_notList hp hx
    have r0 : Res o st μ R.count { st with next := st.next + 1 + 1 } μ R :=
      Res.of_extends hs (extends_next _ _ (Nat.le_add_right st.next 2)) (links_next hs.links _ (Nat.le_add_right st.next 2))
    refine ⟨0, _, ⟨_, μ, u, fw, [.mk st.next (.var y), .mk (st.next + 1) (.var acc)], r0.sim, hf, isVal_grow r0.grow hu,
      .cons ⟨_, _, rfl, isVal_grow r0.grow hy⟩ (.cons ⟨_, _, rfl, isVal_grow r0.grow hacc⟩ .nil), hw, rfl⟩, via_eq fun k s hk => fz_some.2 ?_, fun _ => Nat.succ_pos _⟩
    simp only [reduceLoop, M.bind_apply, copyObj, allocObj, box, fz_some.1 hk]

theorem next_calls2Next {f : Nat} {w a x v : Val} {l : List Val} {R1 : Conf} (hx : NotList x) (ha : ApplyOk f w [x, a] R v R1) (hi : Inst o (.calls2 f w a (x :: l) R) F) :
    Next o (l.length + 2) F (.calls2 f w v l R1) := by
  obtain ⟨st, μ, u, fw, acc, ps, hs, hf, hu, hw, hacc, hp, rfl⟩ := hi
  cases ps with
  | nil => cases hp
  | cons p ps =>
    obtain ⟨i, y, rfl, hy, hps⟩ := copy_notList hp hx
    have r0 : Res o st μ R.count { st with next := st.next + 1 + 1 } μ R :=
      Res.of_extends hs (extends_next _ _ (Nat.le_add_right st.next 2)) (links_next hs.links _ (Nat.le_add_right st.next 2))
    obtain ⟨fw', h1, -, z, st1, μ1, h2, h3, h4⟩ := ha o _ μ u [.mk st.next (.var y), .mk (st.next + 1) (.var acc)] r0.sim hf (isVal_grow r0.grow hu)
      (.cons ⟨_, _, rfl, isVal_grow r0.grow hy⟩ (.cons ⟨_, _, rfl, isVal_grow r0.grow hacc⟩ .nil))
    cases isFn_unique hw h1
    have hm : μ1 f = μ f := h4.grow.same f hf
    have r2 := r0.trans h4
    refine ⟨0, _, ⟨_, μ1, u, fw, z, ps, h4.sim, r2.lt hf, isVal_grow r2.grow hu, hw, h3, areVals_grow r2.grow hps, rfl⟩, via_after (cases_call h2 fun k s' hk => ?_) fun k s hk hs => fz_some.2 ?_,
      fun _ => Nat.lt_succ_self _⟩
    · exact fz_ne.2 ⟨s', by simp only [reduceLoop, M.bind_apply, copyObj, allocObj, box, hk]⟩
    · have hs := fz_some.1 hs
      rw [hm] at hs
      simp only [reduceLoop, M.bind_apply, copyObj, allocObj, box, hk, derefV, M.pure_apply, hs]

/-! ## Macros -/

theorem next_macro {f : Nat} {e : Sexp} {h : Str} {args body : List Sexp} {ps : List Str} (hF : Form e h args) (hR : R.macros h = some (ps, body))
    (hm : MacroCall R f ps args body) (hi : Inst o (.eval f e R) F) : Next o 0 F (.eval f (.list (instantiate ps args body)) R) := by
  obtain ⟨st, μ, p, hs, hf, hc, rfl⟩ := hi
  obtain ⟨i, j, u, tl, rfl, h1, h2, h3⟩ := form_code hF hc
  obtain ⟨a, m, h4, h5, -, h6⟩ := hs.macros
  have h7 := h6 h
  rw [hR] at h7
  generalize hb : binding st m h = b at h7
  cases h7 with
  | @macro_ z fs ex _ _ hz1 hz2 hfs hex =>
    obtain ⟨qs, st1, K1, g1, g2, g3⟩ := replaceArgs_ok hs hf hm (h := .mk j (.var u)) h3 hfs hex
    have g4 := g2.trans (onlyNewLists_list st1 qs)
    have r1 := Res.of_extends hs g4.extends (links_new g4 hs.links)
    have hg : (st.scopes (μ f)).global = μ 0 := hs.global f hf
    have hget : ∀ n, getMacro st (n + 3) (.mk j (.var u)) (μ 0) = .ok (some (.mk z (.macroRt fs ex))) := fun n => by
      simp only [getMacro, macroScope, find_eq, macrosKey, h4, bind_ok_R, ptrStr_sym h2, hb]
    refine ⟨1 + 0, _, ⟨_, μ, .mk st1.next .list, r1.sim, hf, codeAt_of_all (Nat.lt_succ_self _) (by simp only [fset_at]; exact codesAt_new (onlyNewLists_list st1 qs) g3), rfl⟩,
      (via_eval _ _ _).trans (via_n (F := fun r => evalStep r (.mk i .list) (μ f)) 3 (fun _ _ _ => inferInstance) ?_), by simp⟩
    obtain ⟨K, hK⟩ := rn_cases (F := fun r => replaceArgs r (st.lists fs) (.mk j (.var u) :: tl) (st.lists ex) (μ f)) (fun _ _ _ => inferInstance) (ends_ok _ _) ⟨K1, g1⟩
    refine ⟨K, fun k s hk => ?_⟩
    rcases hK k (max k 3) (by omega) with e | ⟨hlt, s', e⟩
    · refine .inl (fz_some.2 ?_)
      simp only [evalStep, M.bind_apply, M.rd_apply, toListRef, h1, evalList, rn_three, hg, hget, M.get_apply, e, allocList, rn_eval, fz_some.1 hk]
    · refine .inr ⟨hlt, fz_ne.2 ⟨s', ?_⟩⟩
      simp only [evalStep, M.bind_apply, M.rd_apply, toListRef, h1, evalList, rn_three, hg, hget, M.get_apply, e]

/-! ## Steps of a path -/

theorem form_of_begins {f : Nat} {e : Sexp} {t : Task} (h : Begins (.eval f e R) t) : ∃ h args, Form e h args := by
  cases h <;> exact ⟨_, _, by assumption⟩

theorem list_of_begins {f : Nat} {x : Sexp} {t : Task} (h : Begins (.filled f x R) t) {st : St} {p : Ptr} (hc : CodeAt st p x) : ∃ i, p = .mk i .list := by
  cases h with
  | unquote hF => obtain ⟨i, _, _, _, rfl, -⟩ := form_code hF hc; exact ⟨i, rfl⟩
  | filledList _ => obtain ⟨i, rfl, -⟩ := codeAt_list hc; exact ⟨i, rfl⟩

theorem ordinary_of_begins {f : Nat} {w : Val} {vs : List Val} {t : Task} (h : Begins (.apply f w vs R) t) : Ordinary w := by
  cases h with
  | body => trivial
  | map => exact ⟨.map, table_core (c!"map", .map, false) (by decide)⟩
  | reduce => exact ⟨.reduce, table_core (c!"reduce", .reduce, false) (by decide)⟩
  | apply => exact ⟨.apply, table_core (c!"apply", .apply, false) (by decide)⟩
  | evalCall => exact ⟨.eval, table_core (c!"eval", .eval, false) (by decide)⟩

theorem begins_next {t t' t'' : Task} (h : Begins t t') (h' : Begins t' t'') (hi : Inst o t F) : Next o (rank t) F t' := by
  cases h with
  | ifCond a b c => exact next_ifCond a b c hi
  | ifBranch a b c => exact next_ifBranch a b (exec_ok c) hi
  | ifThen a b c => exact next_ifThen a b (exec_ok c) hi
  | while_ a b => exact next_while a b hi
  | block a b c => exact next_block a b c hi
  | and_ a b c => exact next_and a b c hi
  | or_ a b c => exact next_or a b c hi
  | orTrue a b c d => exact next_orTrue a b c (exec_ok d) hi
  | def_ a b c => exact next_def a b c hi
  | defPlace a b => exact next_defPlace a b (form_of_begins h') hi
  | defAt a b c d e => exact next_defAt a b c (exec_ok d) e hi
  | setfPlace a b c d => exact next_setfPlace a b c d (form_of_begins h') hi
  | setfAt a b c d e f g => exact next_setfAt a b c d e (exec_ok f) g hi
  | rval a b => exact next_rval a b (form_of_begins h') hi
  | evalCode a b c d => exact next_evalCode a b c d (form_of_begins h') hi
  | quasi a b => exact next_quasi a b (list_of_begins h') hi
  | operand a b c => exact next_operand a b c hi
  | call a b c => exact next_call a b (ordinary_of_begins h') (operands_ok c) hi
  | macro_ a b c => exact next_macro a b c hi
  | unquote a => exact next_unquote a hi
  | filledList a => exact next_filledList a hi
  | filledHere => exact next_filledHere (list_of_begins h') hi
  | filledSpliced a => exact next_filledSpliced a hi
  | filledOne a => exact next_filledOne (filled_ok a) hi
  | filledSplice a b c => exact next_filledSplice a (exec_ok b) c hi
  | operandHere => exact next_operandHere (form_of_begins h') hi
  | operandName a => exact next_operandName a hi
  | operandUnknown a => exact next_operandUnknown a hi
  | operandOther a b => exact next_operandOther a (exec_ok b) hi
  | loopCond => exact next_loopCond hi
  | loopBody a b => exact next_loopBody (exec_ok a) b hi
  | loopAgain a b c d => exact next_loopAgain (exec_ok a) b (exec_ok c) d hi
  | seqHere => exact next_seqHere (form_of_begins h') hi
  | seqNext a b c => exact next_seqNext a (exec_ok b) c hi
  | seqSkip a b c d => exact next_seqSkip a b (exec_ok c) d hi
  | seqMacro a b c d e => exact next_seqMacro a b c d e hi
  | conjHere => exact next_conjHere hi
  | conjNext a => exact next_conjNext (exec_ok a) hi
  | boolsHere => exact next_boolsHere hi
  | boolsNext a => exact next_boolsNext (exec_ok a) hi
  | body a b => exact next_body a b hi
  | map a => exact next_map a hi
  | reduce a => exact next_reduce a hi
  | apply a => exact next_apply (ordinary_of_begins h') a hi
  | evalCall a b => exact next_evalCall (ordinary_of_begins h') a b hi
  | calls1Here a => exact next_calls1Here a hi
  | calls1Next a b => exact next_calls1Next a (apply_ok b) hi
  | calls2Here a => exact next_calls2Here a hi
  | calls2Next a b => exact next_calls2Next a (apply_ok b) hi

/-! ## Infinite paths -/

/-- Every budget is used up. -/
theorem path_stuck {path : Nat → Task} (h : Path path) (o : Origin) : ∀ k r i F, rank (path i) < r → Inst o (path i) F → F k ≠ none := by
  intro k
  induction k using Nat.strongRecOn with
  | ind k ihk =>
  intro r
  induction r with
  | zero => intro i F hr; omega
  | succ r ihr =>
    intro i F hr hi
    obtain ⟨c, G, hG, ⟨h1, K, h2⟩, h3⟩ := begins_next (h i) (h (i + 1)) hi
    by_cases hc : k < c
    · exact h1 k hc
    · have key : G (k - c) ≠ none := by
        by_cases h0 : c = 0
        · subst h0
          exact ihr (i + 1) G (by have := h3 rfl; omega) hG
        · exact ihk (k - c) (by omega) _ (i + 1) G (Nat.lt_succ_self _) hG
      cases e : G (k - c) with
      | none => exact absurd e key
      | some s =>
        have := h2 _ s e
        rw [Nat.sub_add_cancel (by omega)] at this
        rcases this with h | h
        · rw [h]; simp
        · exact h.2

instance (k m : Nat) : RecPres (rn k m) := by
  have := run_pres k
  exact ⟨this.eval, this.call, this.expand, this.expand3, this.procQ, this.subst, this.whileL⟩

theorem out_of {α : Type} {sid : Nat} {m : M α} [Pres2 sid m] {st s : St} (h : fz (m st) = some s) : st.out <+: s.out := by
  have := (Pres2.any (sid := sid) (m := m) st).out
  rw [fz_some.1 h] at this
  exact this

/-- A part that uses up the budget has written what was written before. -/
theorem inst_out {t : Task} (hi : Inst o t F) {k : Nat} {s : St} (h : F k = some s) : (o.out ++ t.conf.out) <+: s.out := by
  cases t with
  | eval f e R => obtain ⟨st, μ, p, hs, -, -, rfl⟩ := hi; have := hs.out; exact this ▸ out_of (sid := μ f) h
  | operands f R0 es R => obtain ⟨st0, μ0, st, μ, ps, ps', h0, -, -, hs, -, -, rfl⟩ := hi; exact hs.out ▸ out_of (sid := μ0 f) h
  | loop f c b R =>
    obtain ⟨st, μ, pc, pb, r, hs, -, -, -, rfl⟩ := hi
    have : Pres2 (μ f) (whileFrom k pc pb (μ f) r) := by unfold whileFrom; pres2
    exact hs.out ▸ out_of (sid := μ f) h
  | seq f es R => obtain ⟨st, μ, ps, rv, hs, -, -, rfl⟩ := hi; exact hs.out ▸ out_of (sid := μ f) h
  | conj f es R => obtain ⟨st, μ, ps, hs, -, -, rfl⟩ := hi; exact hs.out ▸ out_of (sid := μ f) h
  | bools f es R => obtain ⟨st, μ, ps, hs, -, -, rfl⟩ := hi; exact hs.out ▸ out_of (sid := μ f) h
  | apply f w vs R => obtain ⟨st, μ, u, fw, args, hs, -, -, -, -, rfl⟩ := hi; exact hs.out ▸ out_of (sid := μ f) h
  | calls1 f w l R => obtain ⟨st, μ, u, fw, ps, hs, -, -, -, -, rfl⟩ := hi; exact hs.out ▸ out_of (sid := μ f) h
  | calls2 f w a l R => obtain ⟨st, μ, u, fw, acc, ps, hs, -, -, -, -, -, rfl⟩ := hi; exact hs.out ▸ out_of (sid := μ f) h
  | filled f x R => obtain ⟨st, μ, i, hs, -, -, rfl⟩ := hi; exact hs.out ▸ out_of (sid := μ f) h
  | filledAll f l R => obtain ⟨st, μ, ps, hs, -, -, rfl⟩ := hi; exact hs.out ▸ out_of (sid := μ f) h

/-- With enough budget, what the program has written at a place of the path has been written. -/
theorem path_out {path : Nat → Task} (h : Path path) (o : Origin) : ∀ n i F, Inst o (path i) F → ∃ K, ∀ k, K ≤ k → ∃ s, F k = some s ∧ (o.out ++ (path (i + n)).conf.out) <+: s.out := by
  intro n
  induction n with
  | zero =>
    intro i F hi
    refine ⟨0, fun k _ => ?_⟩
    cases e : F k with
    | none => exact absurd e (path_stuck h o k _ i F (Nat.lt_succ_self _) hi)
    | some s => exact ⟨s, rfl, inst_out hi e⟩
  | succ n ih =>
    intro i F hi
    obtain ⟨c, G, hG, ⟨h1, K, h2⟩, h3⟩ := begins_next (h i) (h (i + 1)) hi
    obtain ⟨L, hL⟩ := ih (i + 1) G hG
    refine ⟨max K L + c, fun k hk => ?_⟩
    obtain ⟨s, e, hs⟩ := hL (k - c) (by omega)
    have := h2 _ s e
    rw [Nat.sub_add_cancel (by omega)] at this
    rcases this with h | h
    · exact ⟨s, h, by rw [show i + (n + 1) = i + 1 + n by omega]; exact hs⟩
    · omega

end
end Fuel
