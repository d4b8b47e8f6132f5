import Verif.LemCore
import Verif.PropsForms
import Verif.PropsCall
import Verif.SpecModule
/-!
# The interpreter simulates the reference semantics: states and configurations
-/

set_option linter.unusedSectionVars false
set_option linter.unusedSimpArgs false

namespace Fuel

open Spec Spec.Core

section
variable [World]

/-! ## Code -/

/-- The object is the code of the expression. -/
def CodeAt (st : St) (p : Ptr) (e : Sexp) : Prop := ∃ c, IsTree st p c ∧ CodeOf c e

theorem codeAt_all {st : St} : ∀ {ps : List Ptr} {cs : List Code} {es : List Sexp}, AreTrees st ps cs → CodesOf cs es → All2 (CodeAt st) ps es
  | _, _, _, .nil, .nil => .nil
  | _, _, _, .cons h t, .cons g u => .cons ⟨_, h, g⟩ (codeAt_all t u)

theorem codeAt_grow {st st' : St} {μ μ' : Emb} {N N' : Nat} (g : Grow st μ N st' μ' N') {p : Ptr} {e : Sexp} (h : CodeAt st p e) : CodeAt st' p e := by
  obtain ⟨c, h1, h2⟩ := h
  exact ⟨c, h1.mono g.next g.lists, h2⟩

theorem codesAt_grow {st st' : St} {μ μ' : Emb} {N N' : Nat} (g : Grow st μ N st' μ' N') {ps : List Ptr} {es : List Sexp}
    (h : All2 (CodeAt st) ps es) : All2 (CodeAt st') ps es := by
  induction h with
  | nil => exact .nil
  | cons h _ ih => exact .cons (codeAt_grow g h) ih

theorem form_code {st : St} {p : Ptr} {e : Sexp} {h : Str} {args : List Sexp} (hf : Form e h args) (hc : CodeAt st p e) :
    ∃ i j v tl, p = .mk i .list ∧ st.lists i = .mk j (.var v) :: tl ∧ IsSym v h ∧ All2 (CodeAt st) tl args := by
  obtain ⟨c, h1, h2⟩ := hc
  cases hf with
  | list =>
    cases h2 with
    | list h2 =>
      cases h2 with
      | cons h2 h3 =>
        cases h2 with
        | sym h4 h5 =>
          cases h1 with
          | list _ h1 =>
            generalize hl : st.lists _ = l at h1
            cases h1 with
            | cons h1 h6 =>
              cases h1
              exact ⟨_, _, _, _, rfl, hl, h4, codeAt_all h6 h3⟩
  | pre =>
    cases h2 with
    | pre h4 h5 h2 =>
      cases h1 with
      | list _ h1 =>
        generalize hl : st.lists _ = l at h1
        cases h1 with
        | cons h1 h6 =>
          cases h1
          exact ⟨_, _, _, _, rfl, hl, h4, codeAt_all h6 (.cons h2 .nil)⟩

theorem codeAt_sym {st : St} {p : Ptr} {n : Str} (h : CodeAt st p (.sym n)) : ∃ i v, p = .mk i (.var v) ∧ IsSym v n ∧ v.unq = .none := by
  obtain ⟨c, h1, h2⟩ := h
  cases h2; cases h1
  exact ⟨_, _, rfl, by assumption, by assumption⟩

theorem codeAt_isCode {st : St} {p : Ptr} {e : Sexp} (h : CodeAt st p e) : IsCode p := by
  obtain ⟨c, h1, -⟩ := h
  cases h1
  · exact ⟨_, .inr ⟨_, rfl⟩⟩
  · exact ⟨_, .inl rfl⟩

theorem codeAt_notSpliced {st : St} {p : Ptr} {e : Sexp} (h : CodeAt st p e) : NotSpliced p := by
  obtain ⟨c, h1, h2⟩ := h
  cases h1 with
  | list => trivial
  | val =>
    show _ ≠ _
    cases h2 <;> simp [*]

theorem codesAt_notSpliced {st : St} {ps : List Ptr} {es : List Sexp} (h : All2 (CodeAt st) ps es) : ∀ p ∈ ps, NotSpliced p := by
  induction h with
  | nil => simp
  | cons h _ ih =>
    intro p hp
    rcases List.mem_cons.1 hp with rfl | hp
    · exact codeAt_notSpliced h
    · exact ih p hp

/-! ## States and configurations -/

/-- The entry of the table of macros is the macro. -/
inductive MacroAt (st : St) : Option Ptr → Option (List Str × List Sexp) → Prop
  | none : MacroAt st none none
  | macro_ {j a b ps body} : a < st.next → b < st.next → All2 (CodeAt st) (st.lists a) (ps.map .sym) → All2 (CodeAt st) (st.lists b) body →
      MacroAt st (some (.mk j (.macroRt a b))) (some (ps, body))

theorem macroAt_grow {st st' : St} {μ μ' : Emb} {N N' : Nat} (g : Grow st μ N st' μ' N') {p : Option Ptr} {m : Option (List Str × List Sexp)}
    (h : MacroAt st p m) : MacroAt st' p m := by
  cases h with
  | none => exact .none
  | macro_ ha hb h1 h2 =>
    exact .macro_ (Nat.lt_of_lt_of_le ha g.next) (Nat.lt_of_lt_of_le hb g.next) (by rw [g.lists _ ha]; exact codesAt_grow g h1) (by rw [g.lists _ hb]; exact codesAt_grow g h2)

theorem macroAt_none {st : St} {m : Option (List Str × List Sexp)} (h : MacroAt st none m) : m = none := by cases h; rfl

theorem macroAt_none' {st : St} {p : Option Ptr} (h : MacroAt st p none) : p = none := by cases h; rfl

theorem all2_imp {α β : Type} {P Q : α → β → Prop} (h : ∀ a b, P a b → Q a b) {l : List α} {m : List β} (g : All2 P l m) : All2 Q l m := by
  induction g with
  | nil => exact .nil
  | cons x _ ih => exact .cons (h _ _ x) ih

/-- An entry of a dictionary. -/
def IsEntry (st : St) (μ : Emb) (N : Nat) (e : Variant × Ptr) (x : Key × Val) : Prop :=
  IsKey e.1 x.1 ∧ e.1.unq ≠ .splicing ∧ ∃ w, mkVariant e.2 = .ok w ∧ IsVal st μ N w x.2 ∧ ∀ i v, e.2 ≠ .mk i (.var v)

/-- The entries of a dictionary. -/
structure IsDict (st : St) (μ : Emb) (N : Nat) (es : List (Variant × Ptr)) (d : List (Key × Val)) : Prop where
  order : d.Pairwise fun a b => a.1.Lt b.1
  entries : All2 (IsEntry st μ N) es d

theorem isDict_grow {st st' : St} {μ μ' : Emb} {N N' : Nat} (g : Grow st μ N st' μ' N') {es : List (Variant × Ptr)} {d : List (Key × Val)}
    (h : IsDict st μ N es d) : IsDict st' μ' N' es d :=
  ⟨h.order, all2_imp (fun _ _ ⟨a, b, w, c, e, n⟩ => ⟨a, b, w, c, isVal_grow g e, n⟩) h.entries⟩

theorem containsValue_ok {st : St} {q : Ptr} {j : Nat} {o : Obj} (hq : q = .mk j o) (ho : (∃ x, o = .int x) ∨ (∃ s, o = .str s) ∨ ∃ b, o = .bool b) :
    ∀ l : List (Variant × Ptr), (∀ e ∈ l, e.2 ≠ .null) → ∃ b, dictContainsValue st q l = .ok b ∧ (b = true ↔ ∃ e ∈ l, ∃ i, e.2 = .mk i o)
  | [], _ => ⟨false, rfl, by simp⟩
  | (a, p) :: l, hl => by
    obtain ⟨b, h1, h2⟩ := containsValue_ok (st := st) hq ho l fun e he => hl e (by simp [he])
    have hp : p ≠ .null := hl (a, p) (by simp)
    have h3 : ∃ c, ptrEq st p q = .ok c ∧ (c = true ↔ ∃ i, p = .mk i o) := by
      subst hq
      cases p with
      | null => exact absurd rfl hp
      | mk i o' =>
        rcases ho with ⟨x, rfl⟩ | ⟨x, rfl⟩ | ⟨x, rfl⟩ <;> cases o' <;> simp [ptrEq]
    obtain ⟨c, h3, h4⟩ := h3
    cases c with
    | true => exact ⟨true, by simp [dictContainsValue, h3, bind_ok_R], by
        obtain ⟨i, hi⟩ := h4.1 rfl
        simp only [true_iff]
        exact ⟨(a, p), by simp, i, hi⟩⟩
    | false =>
      refine ⟨b, by simp [dictContainsValue, h3, bind_ok_R, h1], h2.trans ?_⟩
      constructor
      · rintro ⟨e, he, h⟩; exact ⟨e, by simp [he], h⟩
      · rintro ⟨e, he, i, h⟩
        rcases List.mem_cons.1 he with rfl | he
        · exact absurd (h4.2 ⟨i, h⟩) (by simp)
        · exact ⟨e, he, i, h⟩

/-- Dictionary `a` is the object `μ.dict a`. -/
structure Dicts (st : St) (μ : Emb) (N : Nat) (ds : List (List (Key × Val))) : Prop where
  at_ : ∀ a d, ds[a]? = some d → ∃ i, μ.dict a = some i ∧ IsDict st μ N (st.dicts i) d
  inj : ∀ a b i, μ.dict a = some i → μ.dict b = some i → a = b
  old : ∀ a i, μ.dict a = some i → i < st.next
  free : ∀ a, ds.length ≤ a → μ.dict a = none

theorem Dicts.keep {st st' : St} {μ μ' : Emb} {N N' : Nat} {ds : List (List (Key × Val))} (h : Dicts st μ N ds) (g : Grow st μ N st' μ' N')
    (hμ : μ'.dict = μ.dict) (hd : ∀ i, i < st.next → st'.dicts i = st.dicts i) : Dicts st' μ' N' ds where
  at_ a d ha := by
    obtain ⟨i, h1, h2⟩ := h.at_ a d ha
    exact ⟨i, by rw [hμ, h1], by rw [hd i (h.old a i h1)]; exact isDict_grow g h2⟩
  inj := by rw [hμ]; exact h.inj
  old a i ha := Nat.lt_of_lt_of_le (h.old a i (hμ ▸ ha)) g.next
  free := by rw [hμ]; exact h.free

/-- What was written before the program started, and the lines of the standard input after those the program may read. -/
structure Origin where
  out : Str
  rest : List Str

/-- The entry of the table of modules is the module with its frame. -/
def IsModule (μ : Emb) (N : Nat) (e : Str × Ptr) (x : Str × Nat) : Prop := e.1 = x.1 ∧ x.1 ∉ hidden ∧ x.2 < N ∧ ∃ i, e.2 = .mk i (.scope (μ x.2))

/-- The state of the interpreter corresponds to the configuration: frame `f` is scope `μ f`; `o` was written before. -/
structure Sim (o : Origin) (st : St) (μ : Emb) (R : Conf) : Prop where
  links : Links st
  pos : 0 < R.count
  old : ∀ f, f < R.count → μ f < st.next
  inj : ∀ f g, f < R.count → g < R.count → μ f = μ g → f = g
  global : ∀ f, f < R.count → (st.scopes (μ f)).global = μ 0
  place : ∀ f, f < R.count → (st.scopes (μ f)).needsLValue = false
  ret : ∀ f, f < R.count → (st.scopes (μ f)).isInReturn = (R.frames f).ret
  parent : ∀ f, f < R.count → (st.scopes (μ f)).closure = (R.frames f).parent.map μ.scope
  below : ∀ f, f < R.count → ∀ p, (R.frames f).parent = some p → p < R.count
  unbound : ∀ f, f < R.count → ∀ n, n ∉ hidden → (R.frames f).vars n = none → binding st (μ f) n = none
  bound : ∀ f, f < R.count → ∀ n, n ∉ hidden → ∀ v, (R.frames f).vars n = some v →
    ∃ p, binding st (μ f) n = some p ∧ Holds p (IsVal st μ R.count · v)
  buffer : ∀ f, f < R.count → binding st (μ f) c!"###traceon###" = none ∨
    ∃ i t, binding st (μ f) c!"###tracebuffer###" = some (.mk i (.str t))
  macros : ∃ i m, binding st (μ 0) c!"###macros###" = some (.mk i (.scope m)) ∧ m < st.next ∧ (∀ f, f < R.count → μ f ≠ m) ∧
    ∀ n, MacroAt st (binding st m n) (R.macros n)
  modules : ∃ i m, binding st (μ 0) c!"###modules###" = some (.mk i (.scope m)) ∧ m < st.next ∧ (∀ f, f < R.count → μ f ≠ m) ∧
    (∀ j m', binding st (μ 0) c!"###macros###" = some (.mk j (.scope m')) → m' ≠ m) ∧ All2 (IsModule μ R.count) (st.scopes m).vars R.modules
  names : ∀ n ∈ hidden, R.macros n = none
  inner : ∀ f, f < R.count → f ≠ 0 → binding st (μ f) c!"###macros###" = none
  tracing : (st.scopes (μ 0)).tracing = some false
  out : st.out = o.out ++ R.out
  input : st.input = R.input ++ o.rest
  dicts : Dicts st μ R.count R.dicts
  lib : ∀ name file xs, R.lib name = some (file, xs) → InLibrary st name file xs

/-- The parts of a scope that matter. -/
def key (s : Scope) : Nat × Bool × Bool × Option Nat × Option Bool := (s.global, s.needsLValue, s.isInReturn, s.closure, s.tracing)

/-- Nothing that matters has changed but the output, which has grown by `t`. -/
structure Same (st : St) (t : Str) (st' : St) : Prop where
  next : st.next ≤ st'.next
  lists : ∀ i, i < st.next → st'.lists i = st.lists i
  clos : ∀ i, i < st.next → st'.clos i = st.clos i
  key : ∀ s, s < st.next → key (st'.scopes s) = key (st.scopes s)
  vars : ∀ s, s < st.next → ∀ n, n ≠ c!"###tracebuffer###" → binding st' s n = binding st s n
  buffer : ∀ s, s < st.next → (∃ i t, binding st s c!"###tracebuffer###" = some (.mk i (.str t))) →
    ∃ i t, binding st' s c!"###tracebuffer###" = some (.mk i (.str t))
  plain : ∀ s, s < st.next → binding st s c!"###tracebuffer###" = none → (st'.scopes s).vars = (st.scopes s).vars
  out : st'.out = st.out ++ t
  input : st'.input = st.input
  dicts : ∀ i, i < st.next → st'.dicts i = st.dicts i
  files : st'.files = st.files
  libPath : st'.libPath = st.libPath

theorem Same.nobuffer {st st' : St} {t : Str} (h : Same st t st') (s : Nat) (hs : s < st.next) (hb : binding st s c!"###tracebuffer###" = none) :
    binding st' s c!"###tracebuffer###" = none := by
  unfold binding at hb ⊢
  rw [h.plain s hs hb]; exact hb

theorem Spec.Core.InLibrary.congr {st st' : St} (hf : st'.files = st.files) (hl : st'.libPath = st.libPath) {name file : Str} {xs : List Sexp} (h : InLibrary st name file xs) :
    InLibrary st' name file xs := by
  obtain ⟨text, ⟨a, b, h1, h2, h3⟩, h4⟩ := h
  exact ⟨text, ⟨a, b, by rw [hl]; exact h1, by rw [hf]; exact h2, by rw [hf]; exact h3⟩, h4⟩

theorem isModules_mono {μ μ' : Emb} {N N' : Nat} (hN : N ≤ N') (hμ : ∀ i, i < N → μ' i = μ i) {l : List (Str × Ptr)} {ms : List (Str × Nat)}
    (h : All2 (IsModule μ N) l ms) : All2 (IsModule μ' N') l ms := by
  induction h with
  | nil => exact .nil
  | cons h _ ih =>
    obtain ⟨h1, h2, h3, i, h4⟩ := h
    exact .cons ⟨h1, h2, Nat.lt_of_lt_of_le h3 hN, i, by rw [hμ _ h3]; exact h4⟩ ih

theorem isModules_lookup {μ : Emb} {N : Nat} {n : Str} (hn : n ∈ hidden) {l : List (Str × Ptr)} {ms : List (Str × Nat)}
    (h : All2 (IsModule μ N) l ms) : l.lookup n = none := by
  induction h with
  | nil => rfl
  | @cons e x l ms h _ ih =>
    obtain ⟨h1, h2, -⟩ := h
    obtain ⟨k, p⟩ := e
    simp only at h1
    subst h1
    rw [List.lookup_cons, show (n == x.1) = false from beq_eq_false_iff_ne.2 fun e => h2 (e ▸ hn)]
    exact ih

theorem Same.grow {st st' : St} {t : Str} (h : Same st t st') (μ : Emb) (N : Nat) : Grow st μ N st' μ N :=
  ⟨h.next, h.lists, h.clos, Nat.le_refl _, fun _ _ => rfl, fun _ _ h => h⟩

theorem same_of_extends {st st' : St} (h : Extends st st') : Same st [] st' where
  next := h.next
  lists := h.lists
  clos := h.clos
  key s hs := by rw [h.scopes s hs]
  vars s hs n _ := by simp only [binding, h.scopes s hs]
  buffer s hs := by simp only [binding, h.scopes s hs]; exact id
  plain s hs _ := by rw [h.scopes s hs]
  out := by simp [h.out]
  input := h.input
  dicts := h.dicts
  files := h.files
  libPath := h.libPath

theorem same_atToken (st : St) (s : Nat) (t : Option Token) : Same st [] (atToken st s t) := by
  cases t with
  | none => exact same_of_extends (Extends.refl _)
  | some t =>
    refine ⟨Nat.le_refl _, fun _ _ => rfl, fun _ _ => rfl, fun i _ => ?_, fun i _ n _ => ?_, fun i _ => ?_, fun i _ _ => ?_, by simp [atToken], rfl, fun _ _ => rfl, rfl, rfl⟩
    · by_cases h : i = s <;> simp [atToken, fset, h, Fuel.key]
    · by_cases h : i = s <;> simp [atToken, fset, h, binding]
    · by_cases h : i = s <;> simp [atToken, fset, h, binding]
    · by_cases h : i = s <;> simp [atToken, fset, h, binding]

theorem Same.trans {a b c : St} {t u : Str} (h : Same a t b) (g : Same b u c) : Same a (t ++ u) c where
  next := Nat.le_trans h.next g.next
  lists i hi := by rw [g.lists i (Nat.lt_of_lt_of_le hi h.next), h.lists i hi]
  clos i hi := by rw [g.clos i (Nat.lt_of_lt_of_le hi h.next), h.clos i hi]
  key s hs := by rw [g.key s (Nat.lt_of_lt_of_le hs h.next), h.key s hs]
  vars s hs n hn := by rw [g.vars s (Nat.lt_of_lt_of_le hs h.next) n hn, h.vars s hs n hn]
  buffer s hs hb := g.buffer s (Nat.lt_of_lt_of_le hs h.next) (h.buffer s hs hb)
  plain s hs hb := by rw [g.plain s (Nat.lt_of_lt_of_le hs h.next) (h.nobuffer s hs hb), h.plain s hs hb]
  out := by rw [g.out, h.out, List.append_assoc]
  input := by rw [g.input, h.input]
  dicts i hi := by rw [g.dicts i (Nat.lt_of_lt_of_le hi h.next), h.dicts i hi]
  files := by rw [g.files, h.files]
  libPath := by rw [g.libPath, h.libPath]

theorem Conf.write_nil (R : Conf) : R.write [] = R := by cases R; simp [Conf.write]

theorem Sim.same {o : Origin} {st : St} {μ : Emb} {R : Conf} (h : Sim o st μ R) {t : Str} {st' : St} (hs : Same st t st') (hl : Links st') :
    Sim o st' μ (R.write t) := by
  have hk : ∀ f, f < R.count → Fuel.key (st'.scopes (μ f)) = Fuel.key (st.scopes (μ f)) := fun f hf => hs.key _ (h.old f hf)
  simp only [Fuel.key, Prod.mk.injEq] at hk
  have h0 := h.pos
  refine ⟨hl, h.pos, fun f hf => Nat.lt_of_lt_of_le (h.old f hf) hs.next, h.inj, fun f hf => ?_, fun f hf => ?_, fun f hf => ?_, fun f hf => ?_, h.below,
    fun f hf n hn hv => ?_, fun f hf n hn v hv => ?_, fun f hf => ?_, ?_, ?_, h.names, fun f hf h0 => by rw [hs.vars _ (h.old f hf) _ (by decide)]; exact h.inner f hf h0, ?_, ?_, ?_, ?_,
    fun name file xs hx => (h.lib name file xs hx).congr hs.files hs.libPath⟩
  · rw [(hk f hf).1, h.global f hf]
  · rw [(hk f hf).2.1, h.place f hf]
  · rw [(hk f hf).2.2.1, h.ret f hf]; rfl
  · rw [(hk f hf).2.2.2.1, h.parent f hf]; rfl
  · rw [hs.vars _ (h.old f hf) n (fun e => hn (by subst e; decide))]
    exact h.unbound f hf n hn hv
  · rw [hs.vars _ (h.old f hf) n (fun e => hn (by subst e; decide))]
    obtain ⟨p, h1, i, w, rfl, h2⟩ := h.bound f hf n hn v hv
    exact ⟨_, h1, i, w, rfl, isVal_grow (hs.grow μ _) h2⟩
  · rw [hs.vars _ (h.old f hf) _ (by decide)]
    rcases h.buffer f hf with h1 | h1
    · exact .inl h1
    · exact .inr (hs.buffer _ (h.old f hf) h1)
  · obtain ⟨i, m, h1, h2, h3, h4⟩ := h.macros
    refine ⟨i, m, by rw [hs.vars _ (h.old 0 h0) _ (by decide), h1], Nat.lt_of_lt_of_le h2 hs.next, h3, fun n => ?_⟩
    by_cases hn : n = c!"###tracebuffer###"
    · have h5 := h4 n
      rw [h.names n (by rw [hn]; decide)] at h5
      show MacroAt st' _ (R.macros n)
      rw [h.names n (by rw [hn]; decide), hn, hs.nobuffer _ h2 (hn ▸ macroAt_none' h5)]
      exact .none
    · rw [hs.vars _ h2 n hn]
      exact macroAt_grow (hs.grow μ R.count) (h4 n)
  · obtain ⟨i, m, h1, h2, h3, h4, h5⟩ := h.modules
    refine ⟨i, m, by rw [hs.vars _ (h.old 0 h0) _ (by decide), h1], Nat.lt_of_lt_of_le h2 hs.next, h3, fun j m' => ?_, ?_⟩
    · rw [hs.vars _ (h.old 0 h0) _ (by decide)]; exact h4 j m'
    · rw [hs.plain _ h2 (isModules_lookup (by decide) h5)]; exact h5
  · rw [(hk 0 h0).2.2.2.2, h.tracing]
  · rw [hs.out, h.out, List.append_assoc]; rfl
  · rw [hs.input, h.input]; rfl
  · exact h.dicts.keep (hs.grow μ _) rfl hs.dicts

theorem Sim.same' {o : Origin} {st : St} {μ : Emb} {R : Conf} (h : Sim o st μ R) {st' : St} (hs : Same st [] st') (hl : Links st') : Sim o st' μ R :=
  Conf.write_nil R ▸ h.same hs hl

theorem evals_links {p : Ptr} {s : Nat} {st st' : St} {r : Option Variant} (h : Evals p s st (.ok r st')) (hl : Links st) (hs : s < st.next) : Links st' := by
  obtain ⟨-, k, h⟩ := h
  have := links_after (m := (run k).eval p s) hl hs
  rwa [h] at this

theorem calls_links {w : FnW} {l : List Ptr} {s : Nat} {st st' : St} {r : Option Variant} (h : Calls w l s st (.ok r st')) (hl : Links st) (hs : s < st.next) :
    Links st' := by
  obtain ⟨-, k, h⟩ := h
  have := links_after (m := (run k).call w l s) hl hs
  rwa [h] at this

theorem links_atToken {st : St} (h : Links st) (s : Nat) (t : Option Token) : Links (atToken st s t) := by
  cases t with
  | none => exact h
  | some t =>
    refine ⟨h.clos, fun i c hi => h.old i c ?_, fun i hi => ?_, fun i p hi => h.callers i p ?_⟩
    · by_cases e : i = s <;> simpa [atToken, fset, e] using hi
    · have := h.fresh i hi
      by_cases e : i = s
      · subst e; simpa [atToken, fset] using this
      · simpa [atToken, fset, e] using this
    · by_cases e : i = s <;> simpa [atToken, fset, e] using hi

section
variable {o : Origin} {st : St} {μ : Emb} {R : Conf}

/-- The scope of the innermost frame with the variable. -/
theorem Sim.innermost (h : Sim o st μ R) {n : Str} (hn : n ∉ hidden) {f g : Nat} (hi : Innermost R n f g) (hf : f < R.count) {l : List Nat}
    (hl : Enclosing st (μ f) l) : g < R.count ∧ (∃ v, (R.frames g).vars n = some v) ∧ ∃ a b, μ f :: l = a ++ μ g :: b ∧ ∀ c ∈ a, binding st c n = none := by
  induction hi generalizing l with
  | here hv => exact ⟨hf, ⟨_, hv⟩, [], l, rfl, by simp⟩
  | @up f p g hv hp _ ih =>
    have hc := h.parent f hf
    rw [hp] at hc
    cases hl with
    | nil h => rw [h] at hc; cases hc
    | @cons _ c l hcl hl =>
      rw [hcl] at hc
      simp only [Option.map_some, Option.some.injEq] at hc
      subst hc
      obtain ⟨h1, h2, a, b, h3, h4⟩ := ih (h.below f hf p hp) hl
      refine ⟨h1, h2, μ f :: a, b, by rw [h3]; rfl, fun c hc => ?_⟩
      rcases List.mem_cons.1 hc with rfl | hc
      · exact h.unbound f hf n hn hv
      · exact h4 c hc

theorem Sim.modulesAt (h : Sim o st μ R) {f : Nat} (hf : f < R.count) : Modules st (μ f) (R.modules.map fun x => μ x.2) := by
  obtain ⟨i, m, h1, -, -, -, h2⟩ := h.modules
  refine ⟨i, m, by rw [h.global f hf, h.global 0 h.pos]; exact h1, ?_⟩
  generalize (st.scopes m).vars = l, R.modules = ms, R.count = N at h2 ⊢
  induction h2 with
  | nil => exact .nil
  | @cons e x l ms h _ ih =>
    obtain ⟨h1, -, -, j, h4⟩ := h
    obtain ⟨k, p⟩ := e
    simp only at h4
    subst h4
    exact .cons ih

theorem Sim.moduleFrames (h : Sim o st μ R) : ∀ x ∈ R.modules, x.2 < R.count := by
  obtain ⟨i, m, -, -, -, -, h2⟩ := h.modules
  generalize (st.scopes m).vars = l, R.modules = ms, R.count = N at h2 ⊢
  induction h2 with
  | nil => intro x hx; cases hx
  | cons h _ ih =>
    intro x hx
    rcases List.mem_cons.1 hx with rfl | hx
    · exact h.2.2.1
    · exact ih x hx

theorem Sim.noModule (h : Sim o st μ R) {n : Str} (hn : n ∉ hidden) (hm : ∀ x ∈ R.modules, (R.frames x.2).vars n = none) :
    firstOf st n (R.modules.map fun x => μ x.2) = none := by
  simp only [firstOf, List.findSome?_eq_none_iff, List.mem_map]
  rintro _ ⟨x, hx, rfl⟩
  exact h.unbound _ (h.moduleFrames x hx) n hn (hm x hx)

theorem Sim.unbound_chain (h : Sim o st μ R) {n : Str} (hn : n ∉ hidden) {s : Nat} {l : List Nat} (hl : Enclosing st s l) :
    ∀ {f : Nat}, s = μ f → f < R.count → (∀ g, ¬ Innermost R n f g) → ∀ c ∈ s :: l, binding st c n = none := by
  induction hl with
  | @nil s hc =>
    rintro f rfl hf hi c hm
    simp only [List.mem_cons, List.not_mem_nil, or_false] at hm
    subst hm
    cases hv : (R.frames f).vars n with
    | none => exact h.unbound f hf n hn hv
    | some v => exact absurd (.here hv) (hi f)
  | @cons s c l hc _ ih =>
    rintro f rfl hf hi d hm
    have hv : (R.frames f).vars n = none := by
      cases hv : (R.frames f).vars n with
      | none => rfl
      | some v => exact absurd (.here hv) (hi f)
    rcases List.mem_cons.1 hm with rfl | hm
    · exact h.unbound f hf n hn hv
    · have hp := h.parent f hf
      rw [hc] at hp
      cases hq : (R.frames f).parent with
      | none => rw [hq] at hp; cases hp
      | some p =>
        rw [hq] at hp
        simp only [Option.map_some, Option.some.injEq] at hp
        exact ih hp (h.below f hf p hq) (fun g hg => hi g (.up hv hq hg)) d hm

/-- What a name means. -/
theorem Sim.lookup (h : Sim o st μ R) {f : Nat} (hf : f < R.count) {n : Str} {v : Val} (hv : Value R f n v) :
    n ∉ hidden ∧ ∃ p, Lookup st (μ f) n (some p) ∧ Holds p (IsVal st μ R.count · v) := by
  cases hv with
  | locally hn hv =>
    obtain ⟨p, h1, h2⟩ := h.bound f hf n hn v hv
    exact ⟨hn, p, .locally h1, h2⟩
  | globally hn hv hw =>
    obtain ⟨p, h1, h2⟩ := h.bound 0 h.pos n hn v hw
    exact ⟨hn, p, .globally (h.unbound f hf n hn hv) (by rw [h.global f hf]; exact h1), h2⟩
  | @outer g _ hn hv hw hi hx =>
    obtain ⟨l, hl, -⟩ := enclosing_of_acyclic h.links.old (μ f)
    obtain ⟨hg, -, a, b, h1, h2⟩ := h.innermost hn hi hf hl
    obtain ⟨p, h3, h4⟩ := h.bound g hg n hn v hx
    refine ⟨hn, p, .enclosing (h.unbound f hf n hn hv) (by rw [h.global f hf]; exact h.unbound 0 h.pos n hn hw) hl ?_, h4⟩
    have : firstOf st n (μ f :: l) = some p := by
      rw [h1]
      clear h1
      induction a with
      | nil => simp [firstOf, h3]
      | cons x a ih => simpa [firstOf, h2 x (by simp)] using ih fun c hc => h2 c (by simp [hc])
    simpa [firstOf, h.unbound f hf n hn hv] using this
  | @module a b file g _ hn hw hi hm ha hx =>
    obtain ⟨l, hl, -⟩ := enclosing_of_acyclic h.links.old (μ f)
    have hc := h.unbound_chain hn hl rfl hf hi
    have hmem : ∀ x ∈ a ++ (file, g) :: b, x.2 < R.count := hm ▸ h.moduleFrames
    obtain ⟨p, h3, h4⟩ := h.bound g (hmem (file, g) (by simp)) n hn v hx
    refine ⟨hn, p, .modules (hc _ (List.mem_cons_self ..)) (by rw [h.global f hf]; exact h.unbound 0 h.pos n hn hw) hl ?_ (h.modulesAt hf) ?_, h4⟩
    · simp only [firstOf, List.findSome?_eq_none_iff]
      exact fun c hm => hc c (List.mem_cons_of_mem _ hm)
    · rw [hm]
      have ha' : ∀ x ∈ a, x.2 < R.count := fun x hx => hmem x (by simp [hx])
      clear hm hmem
      induction a with
      | nil => simp [firstOf, h3]
      | cons x a ih =>
        have := h.unbound _ (ha' x (by simp)) n hn (ha x (by simp))
        simpa [firstOf, this] using ih (fun y hy => ha y (by simp [hy])) fun y hy => ha' y (by simp [hy])

/-- The target of an assignment. -/
theorem Sim.target (h : Sim o st μ R) {f g : Nat} (hf : f < R.count) {n : Str} (hn : n ∉ hidden) (hi : Innermost R n f g) : g < R.count ∧ Target st (μ f) n (μ g) := by
  obtain ⟨l, hl, -⟩ := enclosing_of_acyclic h.links.old (μ f)
  obtain ⟨hg, ⟨v, hv⟩, a, b, h1, h2⟩ := h.innermost hn hi hf hl
  obtain ⟨p, h3, -⟩ := h.bound g hg n hn v hv
  refine ⟨hg, ?_⟩
  cases a with
  | nil =>
    simp only [List.nil_append, List.cons.injEq] at h1
    rw [← h1.1] at h3 ⊢
    exact .here h3
  | cons x a =>
    simp only [List.cons_append, List.cons.injEq] at h1
    obtain ⟨rfl, rfl⟩ := h1
    exact .enclosing (h2 _ (by simp)) hl rfl (fun c hc => h2 c (by simp [hc])) h3

/-- Assignments. -/
theorem Sim.assign (h : Sim o st μ R) {st' : St} {g : Nat} (hg : g < R.count) {n : Str} (hn : n ∉ hidden) {w : Variant} {v : Val}
    (hv : IsVal st μ R.count w v) (ha : Assigned st st' (μ g) n w) (hl : Links st') : Sim o st' μ (R.set g n v) ∧ Grow st μ R.count st' μ (R.set g n v).count := by
  have gr : Grow st μ R.count st' μ (R.set g n v).count := ⟨ha.next, fun _ _ => by rw [ha.lists], fun _ _ => by rw [ha.clos], Nat.le_refl _, fun _ _ => rfl, fun _ _ h => h⟩
  refine ⟨?_, gr⟩
  have hk : ∀ s, key (st'.scopes s) = key (st.scopes s) := fun s => (congrArg key (ha.scopes s) :)
  simp only [key, Prod.mk.injEq] at hk
  have hb : ∀ f, f < R.count → ∀ m, f ≠ g ∨ m ≠ n → binding st' (μ f) m = binding st (μ f) m := fun f hf m hm => by
    refine ha.others _ _ ?_
    rcases hm with hm | hm
    · exact .inl fun e => hm (h.inj f g hf hg e)
    · exact .inr hm
  have hnn : ∀ m ∈ hidden, m ≠ n := fun m hm e => hn (e ▸ hm)
  have hfr : ∀ f, ((R.set g n v).frames f).ret = (R.frames f).ret ∧ ((R.set g n v).frames f).parent = (R.frames f).parent ∧
      ∀ m, ((R.set g n v).frames f).vars m = if f = g ∧ m = n then some v else (R.frames f).vars m := by
    intro f
    by_cases e : f = g
    · subst e; refine ⟨by simp [Conf.set, Conf.withFrame], by simp [Conf.set, Conf.withFrame], fun m => by simp [Conf.set, Conf.withFrame]⟩
    · refine ⟨by simp [Conf.set, Conf.withFrame, e], by simp [Conf.set, Conf.withFrame, e], fun m => by simp [Conf.set, Conf.withFrame, e]⟩
  refine ⟨hl, h.pos, fun f hf => Nat.lt_of_lt_of_le (h.old f hf) ha.next, h.inj, fun f hf => ?_, fun f hf => ?_, fun f hf => ?_, fun f hf => ?_, fun f hf => ?_,
    fun f hf m hm hv' => ?_, fun f hf m hm x hx => ?_, fun f hf => ?_, ?_, ?_, h.names, fun f hf h0 => by rw [hb f hf _ (.inr (hnn _ (by decide)))]; exact h.inner f hf h0, ?_, ?_, ?_, ?_, ?_⟩
  · rw [(hk _).1, h.global f hf]
  · rw [(hk _).2.1, h.place f hf]
  · rw [(hk _).2.2.1, h.ret f hf, (hfr f).1]
  · rw [(hk _).2.2.2.1, h.parent f hf, (hfr f).2.1]
  · rw [(hfr f).2.1]; exact h.below f hf
  · rw [(hfr f).2.2] at hv'
    split at hv'
    · cases hv'
    · rename_i e
      rw [hb f hf m (by by_cases e' : f = g <;> simp_all)]
      exact h.unbound f hf m hm hv'
  · rw [(hfr f).2.2] at hx
    split at hx
    · rename_i e
      obtain ⟨rfl, rfl⟩ := e
      cases hx
      obtain ⟨p, h1, i, u, rfl, rfl⟩ := ha.value
      exact ⟨_, h1, i, _, rfl, isVal_grow gr hv⟩
    · rename_i e
      rw [hb f hf m (by by_cases e' : f = g <;> simp_all)]
      obtain ⟨p, h1, i, u, rfl, h2⟩ := h.bound f hf m hm x hx
      exact ⟨_, h1, i, u, rfl, isVal_grow gr h2⟩
  · rw [hb f hf _ (.inr (hnn _ (by decide))), hb f hf _ (.inr (hnn _ (by decide)))]
    exact h.buffer f hf
  · obtain ⟨i, m, h1, h2, h3, h4⟩ := h.macros
    refine ⟨i, m, by rw [hb 0 h.pos _ (.inr (hnn _ (by decide))), h1], Nat.lt_of_lt_of_le h2 ha.next, h3, fun x => ?_⟩
    rw [ha.others _ _ (.inl (Ne.symm (h3 g hg)))]
    exact macroAt_grow gr (h4 x)
  · obtain ⟨i, m, h1, h2, h3, h4, h5⟩ := h.modules
    refine ⟨i, m, by rw [hb 0 h.pos _ (.inr (hnn _ (by decide))), h1], Nat.lt_of_lt_of_le h2 ha.next, h3, fun j m' => ?_, ?_⟩
    · rw [hb 0 h.pos _ (.inr (hnn _ (by decide)))]; exact h4 j m'
    · rw [ha.elsewhere _ (Ne.symm (h3 g hg))]; exact h5
  · rw [(hk _).2.2.2.2, h.tracing]
  · rw [ha.out, h.out]; rfl
  · rw [ha.input, h.input]; rfl
  · exact h.dicts.keep gr rfl fun _ _ => by rw [ha.dicts]
  · exact fun name file xs hx => (h.lib name file xs hx).congr ha.files ha.libPath

/-- `return`. -/
theorem Sim.returned (h : Sim o st μ R) {f : Nat} (hf : f < R.count) :
    Sim o { st with scopes := fset st.scopes (μ f) { st.scopes (μ f) with isInReturn := true } } μ (R.mark f) ∧
    Grow st μ R.count { st with scopes := fset st.scopes (μ f) { st.scopes (μ f) with isInReturn := true } } μ (R.mark f).count := by
  generalize hs : ({ st with scopes := fset st.scopes (μ f) { st.scopes (μ f) with isInReturn := true } } : St) = st'
  have gr : Grow st μ R.count st' μ (R.mark f).count := by subst hs; exact ⟨Nat.le_refl _, fun _ _ => rfl, fun _ _ => rfl, Nat.le_refl _, fun _ _ => rfl, fun _ _ h => h⟩
  refine ⟨?_, gr⟩
  have hk : ∀ s, (st'.scopes s).global = (st.scopes s).global ∧ (st'.scopes s).needsLValue = (st.scopes s).needsLValue ∧
      (st'.scopes s).closure = (st.scopes s).closure ∧ (st'.scopes s).tracing = (st.scopes s).tracing ∧ (st'.scopes s).prev = (st.scopes s).prev ∧
      ∀ n, binding st' s n = binding st s n := by
    subst hs; intro s
    by_cases e : s = μ f <;> simp [binding, fset, e]
  have hvars : ∀ s, (st'.scopes s).vars = (st.scopes s).vars := by
    subst hs; intro s
    by_cases e : s = μ f <;> simp [fset, e]
  have hfr : ∀ g, ((R.mark f).frames g).vars = (R.frames g).vars ∧ ((R.mark f).frames g).parent = (R.frames g).parent := by
    intro g; by_cases e : g = f <;> simp [Conf.mark, Conf.withFrame, e]
  have hn : st'.next = st.next := by subst hs; rfl
  have hc : st'.clos = st.clos := by subst hs; rfl
  refine ⟨⟨?_, ?_, ?_, ?_⟩, h.pos, fun f hf => hn ▸ h.old f hf, h.inj, fun f hf => ?_, fun f hf => ?_, fun g hg => ?_, fun f hf => ?_, fun f hf => ?_,
    fun f hf m hm hv => ?_, fun f hf m hm x hx => ?_, fun f hf => ?_, ?_, ?_, h.names, fun f hf h0 => by rw [(hk _).2.2.2.2.2]; exact h.inner f hf h0, ?_, ?_, ?_, ?_, ?_⟩
  · rw [hc, hn]; exact h.links.clos
  · intro i c hi; exact h.links.old i c ((hk i).2.2.1 ▸ hi)
  · intro i hi; rw [(hk i).2.2.1]; exact h.links.fresh i (hn ▸ hi)
  · intro s p hp; rw [hn]; exact h.links.callers s p ((hk s).2.2.2.2.1 ▸ hp)
  · rw [(hk _).1, h.global f hf]
  · rw [(hk _).2.1, h.place f hf]
  · by_cases e : g = f
    · subst e; subst hs; simp [fset, Conf.mark, Conf.withFrame]
    · have : μ g ≠ μ f := fun e' => e (h.inj g f hg hf e')
      subst hs; simp [fset, Conf.mark, Conf.withFrame, e, this, h.ret g hg]
  · rw [(hk _).2.2.1, h.parent f hf, (hfr f).2]
  · rw [(hfr f).2]; exact h.below f hf
  · rw [(hfr f).1] at hv; rw [(hk _).2.2.2.2.2]; exact h.unbound f hf m hm hv
  · rw [(hfr f).1] at hx; rw [(hk _).2.2.2.2.2]
    obtain ⟨p, h1, i, u, rfl, h2⟩ := h.bound f hf m hm x hx
    exact ⟨_, h1, i, u, rfl, isVal_grow gr h2⟩
  · rw [(hk _).2.2.2.2.2, (hk _).2.2.2.2.2]; exact h.buffer f hf
  · obtain ⟨i, m, h1, h2, h3, h4⟩ := h.macros
    exact ⟨i, m, by rw [(hk _).2.2.2.2.2, h1], hn ▸ h2, h3, fun x => by rw [(hk _).2.2.2.2.2]; exact macroAt_grow gr (h4 x)⟩
  · obtain ⟨i, m, h1, h2, h3, h4, h5⟩ := h.modules
    exact ⟨i, m, by rw [(hk _).2.2.2.2.2, h1], hn ▸ h2, h3, fun j m' => by rw [(hk _).2.2.2.2.2]; exact h4 j m', by rw [hvars]; exact h5⟩
  · rw [(hk _).2.2.2.1, h.tracing]
  · subst hs; exact h.out
  · subst hs; exact h.input
  · exact h.dicts.keep gr rfl fun _ _ => by subst hs; rfl
  · exact fun name file xs hx => (h.lib name file xs hx).congr (by subst hs; rfl) (by subst hs; rfl)

theorem paramVal_none : ∀ {ps : List Str} {vs : List Val} {n : Str}, paramVal ps vs n = none → n ∉ ps
  | [], _, _, _ => by simp
  | p :: ps, vs, n, h => by
    simp only [paramVal] at h
    split at h
    · cases h
    · rename_i e
      simp only [List.mem_cons, not_or]
      exact ⟨e, paramVal_none h⟩

theorem paramVal_some : ∀ {ps : List Str} {vs : List Val} {n : Str} {v : Val}, paramVal ps vs n = some v → ∃ i : Nat, ps[i]? = some n ∧ v = (vs[i]?).getD .nil
  | [], _, _, _, h => by cases h
  | p :: ps, vs, n, v, h => by
    simp only [paramVal] at h
    split at h
    · rename_i e
      subst e
      cases h
      exact ⟨0, rfl, by cases vs <;> rfl⟩
    · obtain ⟨i, h1, h2⟩ := paramVal_some h
      exact ⟨i + 1, h1, by rw [h2]; cases vs <;> simp⟩

theorem all2_get {α β : Type} {P : α → β → Prop} {l : List α} {m : List β} (h : All2 P l m) : ∀ {i : Nat} {b : β}, m[i]? = some b → ∃ a, l[i]? = some a ∧ P a b := by
  induction h with
  | nil => simp
  | cons h _ ih =>
    intro i b hb
    cases i with
    | zero => simp at hb; subst hb; exact ⟨_, rfl, h⟩
    | succ i => simpa using ih (by simpa using hb)

/-- A new frame. -/
def Spec.Core.Emb.enter (μ : Emb) (f c : Nat) : Emb := { μ with scope := fset μ.scope f c }

/-- The start of a call of a user-defined function. -/
theorem Sim.entered (h : Sim o st μ R) {f g : Nat} (hf : f < R.count) (hg : g < R.count) {c : Closure} {ps : List Str} {args : List Ptr} {vs : List Val} {child : Nat} {st1 : St}
    (hE : Entered st (μ f) c ps args child st1) (hc : c.scope = μ g) (ha : Args st μ R.count args vs) (hd : ∀ p ∈ ps, p ∉ hidden) :
    Sim o st1 (μ.enter R.count child) (R.enter ps vs g) ∧ Grow st μ R.count st1 (μ.enter R.count child) (R.enter ps vs g).count := by
  have hfr := hE.fresh
  have hnx : st.next ≤ st1.next := by omega
  have gr : Grow st μ R.count st1 (μ.enter R.count child) (R.enter ps vs g).count :=
    ⟨hnx, hE.lists, fun _ _ => by rw [hE.clos], Nat.le_succ _, fun i hi => by simp [Spec.Core.Emb.enter, fset, Nat.ne_of_lt hi], fun _ _ h => h⟩
  refine ⟨?_, gr⟩
  have hne : ∀ i, i < R.count → μ i ≠ child := fun i hi e => by have := h.old i hi; omega
  have hμ : ∀ i, i < R.count → μ.enter R.count child i = μ i := gr.same
  have hμ' : μ.enter R.count child R.count = child := by simp [Spec.Core.Emb.enter, fset]
  have hcl : μ g < st.next := h.old g hg
  have hk : ∀ s, s ≠ child → (st1.scopes s).global = (st.scopes s).global ∧ (st1.scopes s).needsLValue = (st.scopes s).needsLValue ∧
      (st1.scopes s).isInReturn = (st.scopes s).isInReturn ∧ (st1.scopes s).closure = (st.scopes s).closure ∧ (st1.scopes s).tracing = (st.scopes s).tracing ∧
      (st1.scopes s).prev = (st.scopes s).prev ∧ ∀ n, binding st1 s n = binding st s n := by
    intro s hs
    by_cases e : s = μ f
    · subst e; simp [hE.callerScope, binding]
    · simp [hE.others s e hs, binding]
  have hvars : ∀ s, s ≠ child → (st1.scopes s).vars = (st.scopes s).vars := by
    intro s hs
    by_cases e : s = μ f
    · subst e; simp [hE.callerScope]
    · simp [hE.others s e hs]
  have hframe : ∀ i, i < R.count → (R.enter ps vs g).frames i = R.frames i := fun i hi => by simp [Conf.enter, Conf.withFrame, Nat.ne_of_lt hi]
  have hframe' : (R.enter ps vs g).frames R.count = ⟨paramVal ps vs, some g, false⟩ := by simp [Conf.enter, Conf.withFrame]
  have hcase : ∀ i, i < (R.enter ps vs g).count → i < R.count ∨ i = R.count := fun i hi => by
    have : i < R.count + 1 := hi
    omega
  have h0 : μ.enter R.count child 0 = μ 0 := hμ 0 h.pos
  have hparam : ∀ n, n ∉ hidden → ∀ v, paramVal ps vs n = some v → ∃ p, binding st1 child n = some p ∧ Holds p (IsVal st1 (μ.enter R.count child) (R.enter ps vs g).count · v) := by
    intro n hn v hv
    obtain ⟨i, h1, h2⟩ := paramVal_some hv
    obtain ⟨nils, k1, k2, k3, -⟩ := hE.params
    rw [k3 i n h1]
    have hlen := all2_length ha
    by_cases hi : i < vs.length
    · obtain ⟨p, h3, j, u, rfl, h4⟩ := all2_get ha (List.getElem?_eq_getElem hi)
      refine ⟨_, by rw [List.getElem?_append_left (by omega)]; exact h3, j, u, rfl, ?_⟩
      rw [h2, List.getElem?_eq_getElem hi]
      exact isVal_grow gr h4
    · have hi' : i < ps.length := (List.getElem?_eq_some_iff.1 h1).1
      rw [List.getElem?_append_right (by omega), List.getElem?_eq_getElem (by omega)]
      obtain ⟨j, u, h5, h6, h7⟩ := k2 _ (List.getElem_mem (by omega : i - args.length < nils.length))
      refine ⟨_, rfl, j, u, h5, ?_⟩
      rw [h2, List.getElem?_eq_none (by omega)]
      exact .nil h6 (nsp h7)
  refine ⟨⟨?_, ?_, ?_, ?_⟩, Nat.succ_pos _, fun i hi => ?_, fun i j hi hj e => ?_, fun i hi => ?_, fun i hi => ?_, fun i hi => ?_, fun i hi => ?_, fun i hi p hp => ?_,
    fun i hi m hm hv => ?_, fun i hi m hm x hx => ?_, fun i hi => ?_, ?_, ?_, h.names, fun i hi hi0 => ?_, ?_, ?_, ?_, ?_, ?_⟩
  · intro i; rw [hE.clos]; have := h.links.clos i; omega
  · intro s c' hs
    by_cases e : s = child
    · subst e; rw [hE.closure, hc] at hs; cases hs; omega
    · exact h.links.old s c' ((hk s e).2.2.2.1 ▸ hs)
  · intro i hi
    have e : i ≠ child := by omega
    rw [(hk i e).2.2.2.1]; exact h.links.fresh i (by omega)
  · intro s p hs
    by_cases e : s = child
    · subst e; rw [hE.prev] at hs; cases hs; have := h.old f hf; omega
    · have := h.links.callers s p ((hk s e).2.2.2.2.2.1 ▸ hs); omega
  · rcases hcase i hi with hi | rfl
    · rw [hμ i hi]; have := h.old i hi; omega
    · rw [hμ']; omega
  · rcases hcase i hi with hi | rfl <;> rcases hcase j hj with hj | rfl
    · rw [hμ i hi, hμ j hj] at e; exact h.inj i j hi hj e
    · rw [hμ i hi, hμ'] at e; exact absurd e (hne i hi)
    · rw [hμ j hj, hμ'] at e; exact absurd e.symm (hne j hj)
    · rfl
  · rw [h0]
    rcases hcase i hi with hi | rfl
    · rw [hμ i hi, (hk _ (hne i hi)).1, h.global i hi]
    · rw [hμ', hE.global, h.global f hf]
  · rcases hcase i hi with hi | rfl
    · rw [hμ i hi, (hk _ (hne i hi)).2.1, h.place i hi]
    · rw [hμ', hE.place (by rw [hc]; exact hcl), hc, h.place g hg]
  · rcases hcase i hi with hi | rfl
    · rw [hμ i hi, (hk _ (hne i hi)).2.2.1, h.ret i hi, hframe i hi]
    · rw [hμ', hE.flag, hframe']
  · rcases hcase i hi with hi | rfl
    · rw [hμ i hi, (hk _ (hne i hi)).2.2.2.1, h.parent i hi, hframe i hi]
      cases hp : (R.frames i).parent with
      | none => rfl
      | some p => simp [hμ p (h.below i hi p hp)]
    · rw [hμ', hE.closure, hframe', hc]; simp [hμ g hg]
  · rcases hcase i hi with hi | rfl
    · rw [hframe i hi] at hp; exact Nat.lt_succ_of_lt (h.below i hi p hp)
    · rw [hframe'] at hp; cases hp; exact Nat.lt_succ_of_lt hg
  · rcases hcase i hi with hi | rfl
    · rw [hμ i hi, (hk _ (hne i hi)).2.2.2.2.2.2]
      rw [hframe i hi] at hv
      exact h.unbound i hi m hm hv
    · rw [hframe'] at hv
      rw [hμ']
      exact hE.only m (paramVal_none hv) (fun e => hm (by subst e; decide)) fun e => absurd (by subst e; decide) hm
  · rcases hcase i hi with hi | rfl
    · rw [hμ i hi, (hk _ (hne i hi)).2.2.2.2.2.2]
      rw [hframe i hi] at hx
      obtain ⟨p, h1, j, u, rfl, h2⟩ := h.bound i hi m hm x hx
      exact ⟨_, h1, j, u, rfl, isVal_grow gr h2⟩
    · rw [hframe'] at hx
      rw [hμ']
      exact hparam m hm x hx
  · rcases hcase i hi with hi | rfl
    · rw [hμ i hi, (hk _ (hne i hi)).2.2.2.2.2.2, (hk _ (hne i hi)).2.2.2.2.2.2]
      exact h.buffer i hi
    · rw [hμ']
      exact .inl (hE.only _ (fun hp => hd _ hp (by decide)) (by decide) (fun e => absurd e (by decide)))
  · obtain ⟨j, m, h1, h2, h3, h4⟩ := h.macros
    rw [h0, (hk _ (hne 0 h.pos)).2.2.2.2.2.2]
    refine ⟨j, m, h1, by omega, fun i hi => ?_, fun x => ?_⟩
    · rcases hcase i hi with hi | rfl
      · rw [hμ i hi]; exact h3 i hi
      · rw [hμ']; omega
    · rw [(hk m (by omega)).2.2.2.2.2.2]
      exact macroAt_grow gr (h4 x)
  · obtain ⟨j, m, h1, h2, h3, h4, h5⟩ := h.modules
    rw [h0, (hk _ (hne 0 h.pos)).2.2.2.2.2.2]
    refine ⟨j, m, h1, by omega, fun i hi => ?_, fun j' m' => ?_, ?_⟩
    · rcases hcase i hi with hi | rfl
      · rw [hμ i hi]; exact h3 i hi
      · rw [hμ']; omega
    · rw [(hk _ (hne 0 h.pos)).2.2.2.2.2.2]; exact h4 j' m'
    · rw [hvars m (by omega)]; exact isModules_mono (Nat.le_succ _) hμ h5
  · rcases hcase i hi with hi | rfl
    · rw [hμ i hi, (hk _ (hne i hi)).2.2.2.2.2.2]
      exact h.inner i hi hi0
    · rw [hμ']
      exact hE.only _ (fun hp => hd _ hp (by decide)) (by decide) (fun e => absurd e (by decide))
  · rw [h0, (hk _ (hne 0 h.pos)).2.2.2.2.1, h.tracing]
  · rw [hE.out, h.out]; rfl
  · rw [hE.input, h.input]; rfl
  · exact h.dicts.keep gr rfl fun _ _ => by rw [hE.dicts]
  · exact fun name file xs hx => (h.lib name file xs hx).congr hE.files hE.libPath

theorem same_popped (st : St) (caller child : Nat) : Same st [] (popped caller child st) := by
  have hs : ∀ i, key ((popped caller child st).scopes i) = key (st.scopes i) ∧ (∀ n, binding (popped caller child st) i n = binding st i n) := by
    intro i
    by_cases h : i = caller
    · subst h
      by_cases h : i = child
      · subst h; simp [popped, fset, Fuel.key, binding]
      · simp [popped, fset, h, Fuel.key, binding]
    · by_cases h' : i = child
      · subst h'; simp [popped, fset, h, Fuel.key, binding]
      · simp [popped, fset, h, h', Fuel.key, binding]
  have hvars : ∀ i, ((popped caller child st).scopes i).vars = (st.scopes i).vars := by
    intro i
    by_cases h : i = caller
    · subst h; simp [popped, fset]
    · by_cases h' : i = child
      · subst h'; simp [popped, fset, h]
      · simp [popped, fset, h, h']
  exact ⟨Nat.le_refl _, fun _ _ => rfl, fun _ _ => rfl, fun i _ => (hs i).1, fun i _ n _ => (hs i).2 n, fun i _ => by rw [(hs i).2]; exact id,
    fun i _ _ => hvars i, by simp [popped], rfl, fun _ _ => rfl, rfl, rfl⟩

end

end

end Fuel
