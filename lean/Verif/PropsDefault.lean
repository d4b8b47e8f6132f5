import Verif.SpecDefault
import Verif.PropsCall
/-!
# A new interpreter (C48)
-/

set_option linter.unusedSectionVars false
set_option linter.unusedSimpArgs false

namespace Fuel

open Spec

section
variable [World]

/-- The last entry of the table with the name. -/
def lastEntry : List Entry → Str → Option Entry
  | [], _ => none
  | e :: t, n => (lastEntry t n).or (if e.name = n then some e else none)

theorem lastEntry_none {l : List Entry} {n : Str} (h : ∀ e ∈ l, e.name ≠ n) : lastEntry l n = none := by
  induction l with
  | nil => rfl
  | cons e t ih =>
    simp only [lastEntry, ih fun a ha => h a (List.mem_cons_of_mem _ ha), if_neg (h e (List.mem_cons_self ..)), Option.or]

theorem lastEntry_some {l : List Entry} {n : Str} {e : Entry} (h : lastEntry l n = some e) : e ∈ l ∧ e.name = n := by
  induction l with
  | nil => cases h
  | cons a t ih =>
    simp only [lastEntry] at h
    cases hl : lastEntry t n with
    | some b =>
      rw [hl] at h; simp only [Option.or, Option.some.injEq] at h; subst h
      exact ⟨List.mem_cons_of_mem _ (ih hl).1, (ih hl).2⟩
    | none =>
      rw [hl] at h; simp only [Option.or] at h
      by_cases hn : a.name = n
      · rw [if_pos hn] at h; cases h; exact ⟨List.mem_cons_self .., hn⟩
      · rw [if_neg hn] at h; cases h

theorem lastEntry_ne_none {l : List Entry} {e : Entry} (h : e ∈ l) : ∃ a, lastEntry l e.name = some a := by
  cases hl : lastEntry l e.name with
  | some a => exact ⟨a, rfl⟩
  | none =>
    exfalso
    induction l with
    | nil => cases h
    | cons a t ih =>
      simp only [lastEntry] at hl
      rcases List.mem_cons.1 h with rfl | h
      · cases ht : lastEntry t e.name <;> rw [ht] at hl <;> simp [Option.or] at hl
      · refine ih h ?_
        cases ht : lastEntry t e.name <;> rw [ht] at hl <;> simp [Option.or] at hl ⊢

theorem registerAll_spec (j : Nat) (l : List Entry) (s : St) : ∃ vars n, s.next ≤ n ∧
    registerAll j l s = .ok () { s with next := n, scopes := fset s.scopes j { s.scopes j with vars := vars } } ∧
    ∀ name, match lastEntry l name with
      | none => vars.lookup name = (s.scopes j).vars.lookup name
      | some e => ∃ a b, vars.lookup name = some (.mk a (.var ⟨.function, .mk b (.fn e.wrapper), .none, none⟩)) := by
  induction l generalizing s with
  | nil =>
    refine ⟨(s.scopes j).vars, s.next, Nat.le_refl _, ?_, fun name => rfl⟩
    show Out.ok () s = .ok () { s with scopes := fset s.scopes j (s.scopes j) }
    rw [fset_same]
  | cons e t ih =>
    obtain ⟨vars, n, hn, h, hl⟩ := ih { s with next := s.next + 1 + 1, scopes := fset s.scopes j { s.scopes j with vars := mapSet e.name (.mk (s.next + 1) (.var ⟨.function, .mk s.next (.fn e.wrapper), .none, none⟩)) (s.scopes j).vars } }
    refine ⟨vars, n, by simp only at hn; omega, ?_, fun name => ?_⟩
    · simp only [registerAll, M.bind_apply, register, allocObj, box, setVar, modScope, M.modify_apply]
      refine h.trans ?_
      simp only [fset_fset, fset_at]
    · have := hl name
      simp only [lastEntry]
      cases ht : lastEntry t name with
      | some a => rw [ht] at this; exact this
      | none =>
        rw [ht] at this
        simp only [fset_at, lookup_mapSet] at this
        simp only [Option.or]
        by_cases he : e.name = name
        · rw [if_pos he]; rw [if_pos he.symm] at this; exact ⟨_, _, this⟩
        · rw [if_neg he]; rw [if_neg (Ne.symm he)] at this; exact this

/-- C48: names that are registered more than once are registered with the same function. -/
theorem C48_table : ∀ e ∈ defaultTable, ∀ e' ∈ defaultTable, e.name = e'.name → e = e' := by
  decide +kernel

theorem no_entry_hash : ∀ e ∈ defaultTable, e.name.head? ≠ some '#' := by decide +kernel

/-- The main scope before the registration of the functions. -/
def mainScope (n : Nat) : Scope :=
  { name := c!"<main>", global := n,
    vars := mapSet traceonKey (.mk (n + 6) (.bool false)) (mapSet tracebufferKey (.mk (n + 5) (.str []))
      (mapSet macrosKey (.mk (n + 4) (.scope (n + 3))) (mapSet modulesKey (.mk (n + 2) (.scope (n + 1))) []))) }

/-- The state before the registration of the functions. -/
def preState (st : St) : St :=
  { st with
    next := st.next + 7,
    scopes := fun i => if i = st.next then mainScope st.next
      else if i = st.next + 1 then { name := modulesKey, global := st.next }
      else if i = st.next + 3 then { name := macrosKey, global := st.next } else st.scopes i }

/-- The state after the registration of the functions. -/
def newState (st : St) (vars : List (Str × Ptr)) (n : Nat) : St :=
  { preState st with next := n, scopes := fset (preState st).scopes st.next { name := c!"<main>", global := st.next, vars := vars } }

theorem create_pre (st : St) : createDefaultScope st = (do registerAll st.next defaultTable; pure st.next : M Nat) (preState st) := by
  have h : ∀ (l : List Entry), (do
      let sid ← allocScope { name := c!"<main>" }
      modScope sid fun sc => { sc with global := sid }
      let m ← allocScope { name := modulesKey, global := sid }
      let mo ← allocObj (.scope m)
      setVar sid modulesKey mo
      let k ← allocScope { name := macrosKey, global := sid }
      let ko ← allocObj (.scope k)
      setVar sid macrosKey ko
      let tb ← allocObj (.str [])
      setVar sid tracebufferKey tb
      let tn ← allocObj (.bool false)
      setVar sid traceonKey tn
      registerAll sid l
      pure sid : M Nat) st = (do registerAll st.next l; pure st.next : M Nat) (preState st) := by
    intro l
    simp only [M.bind_apply, M.pure_apply, allocScope, modScope, setVar, allocObj, M.modify_apply]
    generalize hs1 : St.mk _ _ _ _ _ _ _ _ _ _ _ = s1
    have : s1 = preState st := by
      rw [← hs1]
      unfold preState
      rw [St.mk.injEq]
      refine ⟨rfl, rfl, rfl, rfl, ?_, rfl, rfl, rfl, rfl, rfl, rfl⟩
      funext i
      have d3 : st.next ≠ st.next + 1 + 1 + 1 := by omega
      have d3' : st.next + 1 + 1 + 1 ≠ st.next := by omega
      have d1 : st.next + 1 ≠ st.next + 1 + 1 + 1 := by omega
      simp only [fset]
      by_cases h0 : i = st.next
      · subst h0; simp [mainScope, d3]
      · by_cases h1 : i = st.next + 1
        · subst h1; simp [d1]
        · by_cases h3 : i = st.next + 1 + 1 + 1
          · subst h3; simp [d3']; omega
          · simp [h0, h1, h3]
    rw [this]
  exact h defaultTable

/-- The bindings in a scope in which the functions are registered. -/
def Registered (l : List Entry) (old vars : List (Str × Ptr)) : Prop :=
  ∀ name, match lastEntry l name with
      | none => vars.lookup name = old.lookup name
      | some e => ∃ a b, vars.lookup name = some (.mk a (.var ⟨.function, .mk b (.fn e.wrapper), .none, none⟩))

theorem Registered.old {l : List Entry} {old vars : List (Str × Ptr)} (h : Registered l old vars) {name : Str} (hn : ∀ e ∈ l, e.name ≠ name) :
    vars.lookup name = old.lookup name := by
  have := h name
  rwa [lastEntry_none hn] at this

theorem Registered.fn {l : List Entry} {old vars : List (Str × Ptr)} (h : Registered l old vars)
    (hd : ∀ e ∈ l, ∀ e' ∈ l, e.name = e'.name → e = e') {e : Entry} (he : e ∈ l) :
    ∃ p, vars.lookup e.name = some p ∧ Holds p fun v => IsFn v e.wrapper ∧ v.unq = .none := by
  obtain ⟨a, ha⟩ := lastEntry_ne_none he
  obtain ⟨h1, h2⟩ := lastEntry_some ha
  have := hd a h1 e he h2
  subst this
  have hx := h a.name
  rw [ha] at hx
  obtain ⟨i, j, hx⟩ := hx
  exact ⟨_, hx, _, _, rfl, ⟨rfl, _, rfl⟩, rfl⟩

theorem registerAll_new (st : St) (l : List Entry) : ∃ vars n, (preState st).next ≤ n ∧
    (do registerAll st.next l; pure st.next : M Nat) (preState st) = .ok st.next (newState st vars n) ∧
    Registered l (mainScope st.next).vars vars := by
  obtain ⟨vars, n, hn, h, hl⟩ := registerAll_spec st.next l (preState st)
  have hs : (preState st).scopes st.next = mainScope st.next := by simp [preState]
  refine ⟨vars, n, hn, ?_, fun name => ?_⟩
  · rw [M.bind_apply, h]
    simp only [M.pure_apply, hs]; rfl
  · have := hl name
    rwa [hs] at this

/-- C48: the content of a new interpreter. -/
theorem C48_new (st : St) : ∃ st', createDefaultScope st = .ok st.next st' ∧ NewInterpreter st st.next st' := by
  obtain ⟨vars, n, hn, h, hl⟩ := registerAll_new st defaultTable
  refine ⟨newState st vars n, by rw [create_pre]; exact h, ?_⟩
  clear h
  have hb : ∀ name, binding (newState st vars n) st.next name = vars.lookup name := by
    intro name; simp only [binding, newState, fset_at]
  have hk : ∀ name : Str, name.head? = some '#' → vars.lookup name = (mainScope st.next).vars.lookup name := by
    intro name hh
    exact hl.old fun e he hne => no_entry_hash e he (hne ▸ hh)
  constructor
  · exact ⟨rfl, by simp only [preState, newState] at hn ⊢; omega⟩
  · intro e he
    obtain ⟨p, h1, h2⟩ := hl.fn C48_table he
    exact ⟨p, (hb _).trans h1, h2⟩
  · have hn : st.next + 7 ≤ n := hn
    refine ⟨st.next + 2, st.next + 1, ?_, by omega, by simp only [newState]; omega, ?_⟩
    · rw [hb, hk _ rfl]; rfl
    · simp only [newState]; rw [fset_ne _ _ (by omega)]; simp [preState]
  · have hn : st.next + 7 ≤ n := hn
    refine ⟨st.next + 4, st.next + 3, ?_, by omega, by simp only [newState]; omega, ?_⟩
    · rw [hb, hk _ rfl]; rfl
    · simp only [newState]; rw [fset_ne _ _ (by omega)]; simp [preState]
  · intro i j m m' h1 h2
    rw [hb, hk _ rfl] at h1 h2
    have e1 : some (Ptr.mk i (.scope m)) = some (.mk (st.next + 2) (.scope (st.next + 1))) := h1.symm
    have e2 : some (Ptr.mk j (.scope m')) = some (.mk (st.next + 4) (.scope (st.next + 3))) := h2.symm
    simp only [Option.some.injEq, Ptr.mk.injEq, Obj.scope.injEq] at e1 e2
    omega
  · refine ⟨st.next + 5, st.next + 6, ?_, ?_⟩
    · rw [hb, hk _ rfl]; rfl
    · rw [hb, hk _ rfl]; rfl
  · intro name h1 h2
    rw [hb]
    rw [hl.old h1]
    simp only [List.mem_cons, not_or] at h2
    simp only [mainScope, lookup_mapSet, traceonKey, tracebufferKey, macrosKey, modulesKey, if_neg h2.1, if_neg h2.2.1, if_neg h2.2.2.1, if_neg h2.2.2.2.1]
    rfl
  · refine ⟨vars, ?_⟩
    simp only [newState, fset_at]
  · refine ⟨fun i hi => ?_, rfl, rfl, rfl, rfl, rfl, rfl, rfl, rfl⟩
    simp only [newState]
    rw [fset_ne _ _ (by omega)]
    simp only [preState]
    rw [if_neg (by omega), if_neg (by omega), if_neg (by omega)]

/-- C48: names documented as aliases mean functions with the same effect, whatever they are called with. -/
theorem C48_alias {st : St} {s : Nat} {st' : St} (h : createDefaultScope st = .ok s st') {a b : Str} (hab : (a, b) ∈ aliases) :
    ∃ p q w w', Lookup st' s a (some p) ∧ Lookup st' s b (some q) ∧ Holds p (IsFn · w) ∧ Holds q (IsFn · w') ∧
      w.special = w'.special ∧ w.evalInExpand = w'.evalInExpand ∧
      ∀ k args i s1, (run k).call w args i s1 = (run k).call w' args i s1 := by
  obtain ⟨st1, h1, hn⟩ := C48_new st
  rw [h1] at h; cases h
  have ht : ∀ x ∈ aliases, ∃ e ∈ defaultTable, ∃ e' ∈ defaultTable, e.name = x.1 ∧ e'.name = x.2 ∧ e.fn = e'.fn ∧
      e.special = e'.special ∧ e.evalInExpand = e'.evalInExpand := by decide +kernel
  obtain ⟨e, he, e', he', rfl, rfl, h2, h3, h4⟩ := ht _ hab
  obtain ⟨p, hp, _, _, hpe, hp', -⟩ := hn.functions e he
  obtain ⟨q, hq, _, _, hqe, hq', -⟩ := hn.functions e' he'
  refine ⟨p, q, _, _, .locally hp, .locally hq, ⟨_, _, hpe, hp'⟩, ⟨_, _, hqe, hq'⟩, h3, h4, fun k args i s1 => ?_⟩
  cases k with
  | zero => rfl
  | succ k =>
    simp only [run, callStep, Entry.wrapper, h2]

/-- `do` and `if` are registered twice. -/
theorem C48_twice_wrong : ¬ (defaultTable.map (·.name)).Nodup := by decide +kernel

/-- In a second interpreter, created while the first one exists, `car` and `first` mean the same function. -/
example : ∃ s st s' st', createDefaultScope {} = .ok s st ∧ createDefaultScope st = .ok s' st' ∧
    ∃ p q w w', Lookup st' s' c!"first" (some p) ∧ Lookup st' s' c!"car" (some q) ∧ Holds p (IsFn · w) ∧ Holds q (IsFn · w') ∧
      w.special = w'.special ∧ w.evalInExpand = w'.evalInExpand ∧
      ∀ k args i s1, (run k).call w args i s1 = (run k).call w' args i s1 := by
  obtain ⟨st, h, _⟩ := C48_new {}
  obtain ⟨st', h', _⟩ := C48_new st
  exact ⟨_, _, _, _, h, h', C48_alias h' (by decide)⟩

end

end Fuel
