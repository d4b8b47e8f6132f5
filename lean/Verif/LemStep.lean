import Verif.LemMono
import Verif.SpecEval
/-!
# The effect of every function of the interpreter on the existing scopes and the output
-/

set_option linter.unusedSectionVars false

namespace Fuel

open Spec

/-- The scopes differ in their variables only. -/
def SameButVars (a b : Scope) : Prop := { a with vars := b.vars } = b

/-- What the evaluation in scope `sid` can do, whether it succeeds or not: objects are only created, output is only
appended, functions never change, scopes keep their global scope, closure and caller, and only the variables of other
scopes than `sid` can change. -/
structure Step (sid : Nat) (s s' : St) : Prop where
  next : s.next ≤ s'.next
  out : s.out <+: s'.out
  input : s'.input <:+ s.input
  clos : ∀ i, i < s.next → s'.clos i = s.clos i
  glob : sid < s.next → ∀ j, j < s.next → (s'.scopes j).global = (s.scopes j).global
  closure : sid < s.next → ∀ j, j < s.next → (s'.scopes j).closure = (s.scopes j).closure
  prev : sid < s.next → ∀ j, j < s.next → (s'.scopes j).prev = (s.scopes j).prev
  other : sid < s.next → ∀ j, j < s.next → j ≠ sid → SameButVars (s.scopes j) (s'.scopes j)
  links : sid < s.next → Links s → Links s'

/-- In addition, if the evaluation succeeds: the call stack and the flag for places are restored. -/
structure StepOk (sid : Nat) (s s' : St) : Prop extends Step sid s s' where
  stack : sid < s.next → (s.scopes sid).next = none → (s'.scopes sid).next = none
  flag : sid < s.next → (s'.scopes sid).needsLValue = (s.scopes sid).needsLValue

theorem SameButVars.refl (a : Scope) : SameButVars a a := rfl
theorem SameButVars.trans {a b c : Scope} (h : SameButVars a b) (g : SameButVars b c) : SameButVars a c := by
  unfold SameButVars at *
  rw [← g, ← h]
theorem SameButVars.of_eq {a b : Scope} (h : b = a) : SameButVars a b := by subst h; rfl

theorem Step.refl (sid : Nat) (s : St) : Step sid s s := by
  constructor <;> intros <;> first | exact Nat.le_refl _ | exact List.prefix_refl _ | exact List.suffix_refl _ | rfl | assumption

theorem Step.trans {sid : Nat} {a b c : St} (h : Step sid a b) (g : Step sid b c) : Step sid a c where
  next := Nat.le_trans h.next g.next
  out := h.out.trans g.out
  input := g.input.trans h.input
  clos i hi := by rw [g.clos i (Nat.lt_of_lt_of_le hi h.next), h.clos i hi]
  glob hs i hi := by rw [g.glob (Nat.lt_of_lt_of_le hs h.next) i (Nat.lt_of_lt_of_le hi h.next), h.glob hs i hi]
  closure hs i hi := by rw [g.closure (Nat.lt_of_lt_of_le hs h.next) i (Nat.lt_of_lt_of_le hi h.next), h.closure hs i hi]
  prev hs i hi := by rw [g.prev (Nat.lt_of_lt_of_le hs h.next) i (Nat.lt_of_lt_of_le hi h.next), h.prev hs i hi]
  other hs i hi hne := (h.other hs i hi hne).trans (g.other (Nat.lt_of_lt_of_le hs h.next) i (Nat.lt_of_lt_of_le hi h.next) hne)
  links hs l := g.links (Nat.lt_of_lt_of_le hs h.next) (h.links hs l)

theorem Step.ext {sid : Nat} {a b : St} (h : Grows a b) : Step sid a b where
  next := h.next
  out := h.out ▸ List.prefix_refl _
  input := h.input ▸ List.suffix_refl _
  clos := h.clos
  glob _ i hi := by rw [h.scopes i hi]
  closure _ i hi := by rw [h.scopes i hi]
  prev _ i hi := by rw [h.scopes i hi]
  other _ i hi _ := .of_eq (h.scopes i hi)
  links _ l := h.links l

theorem StepOk.refl (sid : Nat) (s : St) : StepOk sid s s := ⟨Step.refl sid s, fun _ h => h, fun _ => rfl⟩
theorem StepOk.trans {sid : Nat} {a b c : St} (h : StepOk sid a b) (g : StepOk sid b c) : StepOk sid a c :=
  ⟨h.toStep.trans g.toStep, fun hs hn => g.stack (Nat.lt_of_lt_of_le hs h.next) (h.stack hs hn),
   fun hs => by rw [g.flag (Nat.lt_of_lt_of_le hs h.next), h.flag hs]⟩
theorem StepOk.ext {sid : Nat} {a b : St} (h : Grows a b) : StepOk sid a b :=
  ⟨Step.ext h, fun hs hn => by rw [h.scopes _ hs]; exact hn, fun hs => by rw [h.scopes _ hs]⟩

/-- Every outcome is related to the state before as described. -/
class Pres2 {α : Type} (sid : Nat) (m : M α) : Prop where
  rel : ∀ s, match m s with
    | .ok _ s' => StepOk sid s s'
    | .fail _ s' => Step sid s s'

variable [World] {sid : Nat} {α β : Type}

theorem Pres2.ok {m : M α} [h : Pres2 sid m] {s s' : St} {a : α} (e : m s = .ok a s') : StepOk sid s s' := by
  have := h.rel s; rwa [e] at this
theorem Pres2.failed {m : M α} [h : Pres2 sid m] {s s' : St} {f : Fail} (e : m s = .fail f s') : Step sid s s' := by
  have := h.rel s; rwa [e] at this

instance pres2_of_pres {m : M α} [h : Pres Grows m] : Pres2 sid m := ⟨fun s => by
  have := h.rel s
  cases e : m s with
  | ok a s' => rw [e] at this; exact StepOk.ext this
  | fail f s' => rw [e] at this; exact Step.ext this⟩

theorem Pres2.bind {m : M α} {k : α → M β} (h : Pres2 sid m) (hk : ∀ a, Pres2 sid (k a)) : Pres2 sid (m >>= k) := ⟨fun s => by
  have := h.rel s
  rw [M.bind_apply]
  cases hm : m s with
  | ok a s' =>
    rw [hm] at this
    have h2 := (hk a).rel s'
    cases hk' : k a s' with
    | ok b s2 => rw [hk'] at h2; simp only [hk']; exact StepOk.trans this h2
    | fail f s2 => rw [hk'] at h2; simp only [hk']; exact Step.trans this.toStep h2
  | fail f s' => rw [hm] at this; exact this⟩

/-- Proves `Pres2 sid m` by following the structure of `m`. -/
macro "pres2" : tactic => `(tactic| repeat' (first
  | infer_instance
  | assumption
  | with_reducible refine Pres2.bind ?_ fun _ => ?_
  | split
  | dsimp only))

/-! ## Primitive changes -/

theorem links_modScope {s : St} {j : Nat} {sc : Scope} (h : sc.closure = (s.scopes j).closure)
    (hp : ∀ p, sc.prev = some p → (s.scopes j).prev = some p ∨ (p < j ∧ j < s.next)) (l : Links s) :
    Links { s with scopes := fset s.scopes j sc } := by
  have : ∀ i, (fset s.scopes j sc i).closure = (s.scopes i).closure := by
    intro i; by_cases e : i = j <;> simp [fset, e, h]
  refine ⟨l.clos, fun i c hc => l.old i c (by rw [← this]; exact hc), fun i hi => by show (fset s.scopes j sc i).closure = _; rw [this]; exact l.fresh i hi, fun i p h => ?_⟩
  by_cases e : i = j
  · subst e
    simp only [fset_self] at h
    rcases hp p h with h | h
    · exact l.callers i p h
    · exact h
  · simp only [fset, e, if_false] at h; exact l.callers i p h

theorem stepOk_modScope (s : St) (g : Scope → Scope) (h : ∀ sc, (g sc).global = sc.global ∧ (g sc).closure = sc.closure ∧
    (g sc).prev = sc.prev ∧ (g sc).next = sc.next ∧ (g sc).needsLValue = sc.needsLValue) :
    StepOk sid s { s with scopes := fset s.scopes sid (g (s.scopes sid)) } := by
  obtain h := h (s.scopes sid)
  refine ⟨⟨Nat.le_refl _, List.prefix_refl _, List.suffix_refl _, fun _ _ => rfl, fun _ j _ => ?_, fun _ j _ => ?_, fun _ j _ => ?_, fun _ j _ hne => ?_, fun _ => links_modScope ?_ ?_⟩, fun _ hn => ?_, fun _ => ?_⟩
  · by_cases e : j = sid <;> simp [fset, e, h]
  · by_cases e : j = sid <;> simp [fset, e, h]
  · by_cases e : j = sid <;> simp [fset, e, h]
  · exact .of_eq (by simp [fset, hne])
  · simp [h]
  · intro p hp; exact .inl (by rw [← h.2.2.1]; exact hp)
  · simp [h, hn]
  · simp [h]

/-- Own-scope changes that keep the links of the scope. -/
theorem pres2_modScope {g : Scope → Scope} (h : ∀ sc, (g sc).global = sc.global ∧ (g sc).closure = sc.closure ∧
    (g sc).prev = sc.prev ∧ (g sc).next = sc.next ∧ (g sc).needsLValue = sc.needsLValue) : Pres2 sid (modScope sid g) :=
  ⟨fun s => stepOk_modScope s g h⟩

instance (t) : Pres2 sid (setCurTok sid t) := pres2_modScope fun _ => ⟨rfl, rfl, rfl, rfl, rfl⟩
instance (t) : Pres2 sid (modScope sid fun sc => { sc with tokens := t }) := pres2_modScope fun _ => ⟨rfl, rfl, rfl, rfl, rfl⟩
instance (t) : Pres2 sid (modScope sid fun sc => { sc with userData := t }) := pres2_modScope fun _ => ⟨rfl, rfl, rfl, rfl, rfl⟩
instance (t) : Pres2 sid (modScope sid fun sc => { sc with userDoc := t }) := pres2_modScope fun _ => ⟨rfl, rfl, rfl, rfl, rfl⟩
instance (t) : Pres2 sid (modScope sid fun sc => { sc with isInEval := t }) := pres2_modScope fun _ => ⟨rfl, rfl, rfl, rfl, rfl⟩
instance (t) : Pres2 sid (modScope sid fun sc => { sc with isInReturn := t }) := pres2_modScope fun _ => ⟨rfl, rfl, rfl, rfl, rfl⟩
instance (t : List (Str × Ptr) → List (Str × Ptr)) : Pres2 sid (modScope sid fun sc => { sc with vars := t sc.vars }) := pres2_modScope fun _ => ⟨rfl, rfl, rfl, rfl, rfl⟩
instance (t m) : Pres2 sid (modScope sid fun sc => { sc with isInEval := t, module := m }) := pres2_modScope fun _ => ⟨rfl, rfl, rfl, rfl, rfl⟩
instance (t m) : Pres2 sid (modScope sid fun sc => { sc with module := m, tracing := t }) := pres2_modScope fun _ => ⟨rfl, rfl, rfl, rfl, rfl⟩

theorem stepOk_setVar (s : St) (j : Nat) (vars : List (Str × Ptr)) :
    StepOk sid s { s with scopes := fset s.scopes j { s.scopes j with vars := vars } } := by
  refine ⟨⟨Nat.le_refl _, List.prefix_refl _, List.suffix_refl _, fun _ _ => rfl, fun _ i _ => ?_, fun _ i _ => ?_, fun _ i _ => ?_, fun _ i _ hne => ?_, fun _ => links_modScope ?_ ?_⟩, fun _ hn => ?_, fun _ => ?_⟩
  · by_cases e : i = j <;> simp [fset, e]
  · by_cases e : i = j <;> simp [fset, e]
  · by_cases e : i = j <;> simp [fset, e]
  · by_cases e : i = j
    · subst e; simp [fset]; rfl
    · exact .of_eq (by simp [fset, e])
  · rfl
  · exact fun p hp => .inl hp
  · by_cases e : sid = j
    · subst e; simp [hn]
    · simp [fset, e, hn]
  · by_cases e : sid = j
    · subst e; simp
    · simp [fset, e]

instance (j name v) : Pres2 sid (setVar j name v) := ⟨fun s => stepOk_setVar s j _⟩

/-- Changes that do not concern scopes, functions and output. -/
theorem stepOk_data {s s' : St} (h1 : s'.next = s.next) (h2 : s'.out = s.out) (h3 : s'.clos = s.clos) (h4 : s'.scopes = s.scopes)
    (h5 : s'.input <:+ s.input := by exact List.suffix_refl _) : StepOk sid s s' := by
  refine ⟨⟨Nat.le_of_eq h1.symm, h2 ▸ List.prefix_refl _, h5, fun _ _ => by rw [h3], fun _ _ _ => by rw [h4], fun _ _ _ => by rw [h4], fun _ _ _ => by rw [h4],
    fun _ _ _ _ => .of_eq (by rw [h4]), fun _ => links_same (Nat.le_of_eq h1.symm) h3 h4⟩, fun _ hn => by rw [h4]; exact hn, fun _ => by rw [h4]⟩

instance (i l) : Pres2 sid (setList i l) := ⟨fun _ => stepOk_data rfl rfl rfl rfl⟩
instance (i d) : Pres2 sid (setDict i d) := ⟨fun _ => stepOk_data rfl rfl rfl rfl⟩
instance : Pres2 sid (M.modify fun s => { s with clock := s.clock + 1 }) := ⟨fun _ => stepOk_data rfl rfl rfl rfl⟩
instance (f : List (Str × Str) → List (Str × Str)) : Pres2 sid (M.modify fun s => { s with files := f s.files }) := ⟨fun _ => stepOk_data rfl rfl rfl rfl⟩
instance (t) : Pres2 sid (write t) := ⟨fun _ => ⟨⟨Nat.le_refl _, List.prefix_append _ _, List.suffix_refl _, fun _ _ => rfl, fun _ _ _ => rfl, fun _ _ _ => rfl, fun _ _ _ => rfl,
    fun _ _ _ _ => .refl _, fun _ => links_same (Nat.le_refl _) rfl rfl⟩, fun _ hn => hn, fun _ => rfl⟩⟩
instance (t) : Pres2 sid (writeLine t) := inferInstanceAs (Pres2 sid (write _))

/-! ## Builtin functions -/

instance pres2_ret {m : M Variant} [h : Pres2 sid m] : Pres2 sid (ret m) := by unfold ret; pres2
instance (i name v) : Pres2 sid (setInScopes i name v) := by unfold setInScopes; pres2
instance (args j) : Pres2 sid (stringRep n args j) := by unfold stringRep; pres2
instance (l) : Pres2 sid (dumpVars n l) := by
  induction l with
  | nil => unfold dumpVars; pres2
  | cons a l ih => unfold dumpVars; pres2
instance (t) : Pres2 sid (dumpDocumentation t) := by unfold dumpDocumentation; pres2
instance (f args j) : Pres2 sid (searchDocumentation n f args j) := by unfold searchDocumentation; pres2
instance (j) : Pres2 sid (bHelp j) := by unfold bHelp; pres2
instance (args j) : Pres2 sid (bDoc n args j) := by unfold bDoc; pres2
instance (args j) : Pres2 sid (bSearchDoc n args j) := by unfold bSearchDoc; pres2
instance (j) : Pres2 sid (bHtmlDoc n j) := by unfold bHtmlDoc; pres2
instance (j) : Pres2 sid (bBreak j) := by unfold bBreak; pres2
instance (j) : Pres2 sid (bVars n j) := by unfold bVars; pres2
instance (args) : Pres2 sid (bDelVar n args sid) := by unfold bDelVar; pres2
instance (args) : Pres2 sid (bTrace n args sid) := by unfold bTrace; pres2
instance (args) : Pres2 sid (bTickCount args sid) := by unfold bTickCount; pres2
instance : Pres2 sid bDatetime := by unfold bDatetime; pres2
instance (args) : Pres2 sid (bReturn args sid) := by unfold bReturn; pres2
instance (args j) : Pres2 sid (bPrint n args j) := by unfold bPrint; pres2
instance (args j) : Pres2 sid (bPrintLn n args j) := by unfold bPrintLn; pres2
instance (args) : Pres2 sid (bReadLine args sid) := by
  unfold bReadLine
  refine .bind inferInstance fun _ => ⟨fun s => ?_⟩
  rw [M.bind_apply, M.get_apply]
  cases hi : s.input with
  | nil => exact (inferInstance : Pres2 sid (mkStr [])).rel s
  | cons l ls =>
    simp only [M.bind_apply, M.modify_apply]
    have h1 : StepOk sid s { s with input := ls } := stepOk_data rfl rfl rfl rfl (hi ▸ List.suffix_cons l ls)
    have h2 := (inferInstance : Pres2 sid (mkStr l)).rel { s with input := ls }
    cases e : mkStr l { s with input := ls } with
    | ok a s' => rw [e] at h2; exact h1.trans h2
    | fail f s' => rw [e] at h2; exact h1.toStep.trans h2
instance (args) : Pres2 sid (bPush n args sid) := by unfold bPush; pres2
instance (args) : Pres2 sid (bPop n args sid) := by unfold bPop; pres2
instance (args) : Pres2 sid (bDictSet n args sid) := by unfold bDictSet; pres2
instance (args) : Pres2 sid (bDictRemove n args sid) := by unfold bDictRemove; pres2
instance (args) : Pres2 sid (bDictClear args sid) := by unfold bDictClear; pres2
instance (args) : Pres2 sid (bFileWrite n args sid) := by unfold bFileWrite; pres2

/-! ## The evaluator -/

/-- Every entry point of the evaluator has the described effect. -/
class RecPres (r : Rec) : Prop where
  eval : ∀ p sid, Pres2 sid (r.eval p sid)
  call : ∀ f l sid, Pres2 sid (r.call f l sid)
  expand : ∀ p sid, Pres2 sid (r.expand p sid)
  expand3 : ∀ p sid, Pres2 sid (r.expand3 p sid)
  procQ : ∀ l sid, Pres2 sid (r.procQ l sid)
  subst : ∀ v p b l sid, Pres2 sid (r.subst v p b l)
  whileL : ∀ c b sid v w, Pres2 sid (r.whileL c b sid v w)

attribute [instance] RecPres.eval RecPres.call RecPres.expand RecPres.expand3 RecPres.procQ RecPres.subst RecPres.whileL

variable {r : Rec} [RecPres r]

instance (v) : Pres2 sid (derefV v) := by unfold derefV; pres2
instance (p) : Pres2 sid (convertList n p) := by unfold convertList; pres2
instance (p) : Pres2 sid (expandLoop r p sid) := by unfold expandLoop; pres2
instance (a b c l) : Pres2 sid (substLoop r a b c l) := by
  induction l with
  | nil => unfold substLoop; pres2
  | cons e l ih => unfold substLoop; pres2
instance (ast f i e) : Pres2 sid (replaceFormals r ast sid f i e) := by
  induction f generalizing i e with
  | nil => unfold replaceFormals; pres2
  | cons a f ih => unfold replaceFormals; pres2
instance (f a e) : Pres2 sid (replaceArgs r f a e sid) := by unfold replaceArgs; pres2
instance (l) : Pres2 sid (expandElems r sid l) := by
  induction l with
  | nil => unfold expandElems; pres2
  | cons e l ih => unfold expandElems; pres2
instance (l f) : Pres2 sid (expandMacroOrElems r l f sid) := by unfold expandMacroOrElems; pres2
instance (p) : Pres2 sid (expandStep r p sid) := by unfold expandStep; pres2
instance (p) : Pres2 sid (spliced n p) := by unfold spliced; pres2
instance (a l) : Pres2 sid (evalArgs r a sid l) := by
  induction l with
  | nil => unfold evalArgs; pres2
  | cons e l ih => unfold evalArgs; pres2
instance (p j) : Pres2 sid (traceCall n p j) := by unfold traceCall; pres2
instance (l) : Pres2 sid (evalList r l sid) := by unfold evalList; pres2
instance (p) : Pres2 sid (evalStep r p sid) := by unfold evalStep; pres2
instance (p) : Pres2 sid (evalArgIfNeeded r p sid) := by unfold evalArgIfNeeded; pres2
instance (a b l) : Pres2 sid (bDefHelper r a b l sid) := by unfold bDefHelper; pres2
instance (l) : Pres2 sid (bDef r l sid) := by unfold bDef; pres2
instance (l) : Pres2 sid (bGdef r l sid) := by unfold bGdef; pres2
instance (p k x) : Pres2 sid (lvalSet n p k x) := by unfold lvalSet; pres2

/-- The evaluation of a place or value with the flag switched to `b` and back. -/
theorem pres2_flag {m : M α} (h : Pres2 sid m) (b : Bool) {β : Type} (k : α → M β) (hk : ∀ a, Pres2 sid (k a)) :
    Pres2 sid (do
      let original ← M.get fun s => (s.scopes sid).needsLValue
      modScope sid fun sc => { sc with needsLValue := b }
      let v ← m
      modScope sid fun sc => { sc with needsLValue := original }
      k v) := ⟨fun s => by
  have hs : ∀ (s : St) (b : Bool), Step sid s { s with scopes := fset s.scopes sid { s.scopes sid with needsLValue := b } } := by
    intro s b
    refine ⟨Nat.le_refl _, List.prefix_refl _, List.suffix_refl _, fun _ _ => rfl, fun _ j _ => ?_, fun _ j _ => ?_, fun _ j _ => ?_, fun _ j _ hne => ?_, fun _ => links_modScope ?_ ?_⟩
    · by_cases e : j = sid <;> simp [fset, e]
    · by_cases e : j = sid <;> simp [fset, e]
    · by_cases e : j = sid <;> simp [fset, e]
    · exact .of_eq (by simp [fset, hne])
    · rfl
    · exact fun p hp => .inl hp
  simp only [M.bind_apply, M.get_apply, modScope, M.modify_apply]
  have h1 := h.rel { s with scopes := fset s.scopes sid { s.scopes sid with needsLValue := b } }
  cases hm : m { s with scopes := fset s.scopes sid { s.scopes sid with needsLValue := b } } with
  | fail f s' => rw [hm] at h1; exact Step.trans (hs s b) h1
  | ok a s' =>
    rw [hm] at h1
    simp only
    have h2 : StepOk sid s { s' with scopes := fset s'.scopes sid { s'.scopes sid with needsLValue := (s.scopes sid).needsLValue } } := by
      refine ⟨((hs s b).trans h1.toStep).trans (hs s' _), fun hlt hn => ?_, fun _ => by simp⟩
      have := h1.stack hlt (by simp [hn])
      simp [this]
    have h3 := (hk a).rel { s' with scopes := fset s'.scopes sid { s'.scopes sid with needsLValue := (s.scopes sid).needsLValue } }
    cases hk' : k a { s' with scopes := fset s'.scopes sid { s'.scopes sid with needsLValue := (s.scopes sid).needsLValue } } with
    | ok c s2 => rw [hk'] at h3; exact h2.trans h3
    | fail f s2 => rw [hk'] at h3; exact h2.toStep.trans h3⟩

theorem M.bind_assoc {α β γ : Type} (m : M α) (f : α → M β) (g : β → M γ) : ((m >>= f) >>= g) = (m >>= fun a => f a >>= g) := by
  funext s
  simp only [M.bind_apply]
  cases m s <;> rfl

instance (l) : Pres2 sid (bSetf r l sid) := by
  unfold bSetf
  refine Pres2.bind inferInstance fun _ => ?_
  have := pres2_flag (sid := sid) (m := (do let p ← arg l 0; evalArgIfNeeded r p sid)) (by pres2) true (β := Variant)
  simp only [M.bind_assoc] at this
  exact this _ fun _ => by pres2

instance (l) : Pres2 sid (bRval r l sid) := by
  unfold bRval
  refine Pres2.bind inferInstance fun _ => ?_
  have := pres2_flag (sid := sid) (m := (do let p ← arg l 0; evalArgIfNeeded r p sid)) (by pres2) false (β := (Option Variant))
  simp only [M.bind_assoc] at this
  exact this _ fun _ => by pres2

instance (f l) : Pres2 sid (mapLoop r f sid l) := by
  induction l with
  | nil => unfold mapLoop; pres2
  | cons e l ih => unfold mapLoop; pres2
instance (f a l) : Pres2 sid (reduceLoop r f sid a l) := by
  induction l generalizing a with
  | nil => unfold reduceLoop; pres2
  | cons e l ih => unfold reduceLoop; pres2
instance (l) : Pres2 sid (bMap r l sid) := by unfold bMap; pres2
instance (l) : Pres2 sid (bReduce r l sid) := by unfold bReduce; pres2
instance (l) : Pres2 sid (bApply r l sid) := by unfold bApply; pres2
instance (l) : Pres2 sid (bEval r l sid) := by unfold bEval; pres2

/-! ## Calls: evaluation in a new scope -/

/-- Effect on what existed before scope number `n` was created; the scopes stay properly linked provided that `P` holds. -/
structure Older (P : Prop) (n : Nat) (s s' : St) : Prop where
  next : s.next ≤ s'.next
  out : s.out <+: s'.out
  input : s'.input <:+ s.input
  clos : ∀ i, i < n → s'.clos i = s.clos i
  scopes : ∀ j, j < n → SameButVars (s.scopes j) (s'.scopes j)
  links : P → Links s → Links s'

theorem Older.trans {P : Prop} {n : Nat} {a b c : St} (h : Older P n a b) (g : Older P n b c) : Older P n a c :=
  ⟨Nat.le_trans h.next g.next, h.out.trans g.out, g.input.trans h.input, fun i hi => by rw [g.clos i hi, h.clos i hi], fun j hj => (h.scopes j hj).trans (g.scopes j hj), fun p l => g.links p (h.links p l)⟩
theorem Step.older {P : Prop} {n : Nat} {a b : St} (h : Step n a b) (hn : n < a.next) : Older P n a b :=
  ⟨h.next, h.out, h.input, fun i hi => h.clos i (Nat.lt_trans hi hn), fun j hj => h.other hn j (Nat.lt_trans hj hn) (Nat.ne_of_lt hj), fun _ => h.links hn⟩

/-- Every outcome leaves what is older than `n` as described. -/
class PresOlder {α : Type} (P : Prop) (n : Nat) (m : M α) : Prop where
  rel : ∀ s, n < s.next → Older P n s (m s).st

variable {P : Prop}

instance presOlder_of {n : Nat} {m : M α} [h : Pres2 n m] : PresOlder P n m := ⟨fun s hs => by
  have := h.rel s
  cases e : m s with
  | ok a s' => rw [e] at this; exact this.toStep.older hs
  | fail f s' => rw [e] at this; exact this.older hs⟩

theorem PresOlder.bind {n : Nat} {m : M α} {k : α → M β} (h : PresOlder P n m) (hk : ∀ a, PresOlder P n (k a)) : PresOlder P n (m >>= k) := ⟨fun s hs => by
  have := h.rel s hs
  rw [M.bind_apply]
  cases hm : m s with
  | ok a s' => rw [hm] at this; exact this.trans ((hk a).rel s' (Nat.lt_of_lt_of_le hs this.next))
  | fail f s' => rw [hm] at this; exact this⟩

instance presOlder_closure (n c : Nat) (b : Bool) :
    PresOlder (c < n) n (modScope n fun sc => { sc with closure := some c, needsLValue := b }) := ⟨fun s hs => by
  refine ⟨Nat.le_refl _, List.prefix_refl _, List.suffix_refl _, fun _ _ => rfl, fun j hj => ?_, fun h l => ⟨l.clos, fun i d hd => ?_, fun i hi => ?_, fun i p hp => l.callers i p ?_⟩⟩
  · exact .of_eq (by simp [modScope, Out.st, fset, Nat.ne_of_lt hj])
  · simp only [modScope, Out.st, M.modify_apply] at hd
    by_cases e : i = n
    · subst e; simp at hd; omega
    · simp [fset, e] at hd; exact l.old i d hd
  · simp only [modScope, Out.st, M.modify_apply] at hi ⊢
    simp [fset, show i ≠ n by omega]
    exact l.fresh i hi
  · simp only [modScope, Out.st, M.modify_apply] at hp
    by_cases e : i = n
    · subst e; simpa using hp
    · simpa [fset, e] using hp⟩

/-- Proves `PresOlder n m` by following the structure of `m`. -/
macro "presOlder" : tactic => `(tactic| repeat' (first
  | infer_instance
  | assumption
  | with_reducible refine PresOlder.bind ?_ fun _ => ?_
  | split
  | dsimp only))

instance (k) : Pres2 sid (padNil k) := by
  induction k with
  | zero => unfold padNil; pres2
  | succ k ih => unfold padNil; pres2
instance (j f l) : Pres2 sid (bindFormals n j f l) := by
  induction f generalizing l with
  | nil => unfold bindFormals; pres2
  | cons a f ih => cases l <;> (unfold bindFormals; pres2)
instance {m : M α} [h : Pres2 sid m] : Pres2 sid (sliceExn m) := ⟨fun s => by
  have := h.rel s
  unfold sliceExn
  cases e : m s with
  | ok a s' => rw [e] at this; exact this
  | fail f s' =>
    rw [e] at this
    cases f with
    | exn x => cases x <;> exact this
    | _ => exact this⟩
instance presOlder_callBody (c : Closure) (l) (child : Nat) : PresOlder (c.scope < child) child (callBody r c l child) := by
  unfold callBody; presOlder
mutual
theorem pres_allocSx : (sx : Sx) → Pres Grows (allocSx sx)
  | .atom t => by unfold allocSx; pres
  | .sym t => by unfold allocSx; pres
  | .list l => by
    have := pres_allocSxs l
    unfold allocSx; pres
theorem pres_allocSxs : (l : List Sx) → Pres Grows (allocSxs l)
  | [] => by unfold allocSxs; pres
  | x :: l => by
    have := pres_allocSx x
    have := pres_allocSxs l
    unfold allocSxs; pres
end
attribute [instance] pres_allocSx pres_allocSxs
instance (c o) : Pres2 sid (evalCode r c sid o) := by unfold evalCode; pres2
instance (c m t o) : Pres2 sid (lispEval r c sid m t o) := by unfold lispEval; pres2
instance (l) : Pres2 sid (bEvalStr r l sid) := by unfold bEvalStr; pres2

theorem SameButVars.next {a b : Scope} (h : SameButVars a b) : b.next = a.next := by rw [← h]
theorem SameButVars.prev {a b : Scope} (h : SameButVars a b) : b.prev = a.prev := by rw [← h]
theorem SameButVars.global {a b : Scope} (h : SameButVars a b) : b.global = a.global := by rw [← h]
theorem SameButVars.closure {a b : Scope} (h : SameButVars a b) : b.closure = a.closure := by rw [← h]
theorem SameButVars.needsLValue {a b : Scope} (h : SameButVars a b) : b.needsLValue = a.needsLValue := by rw [← h]

theorem inScope_rel {P : Prop} (s : St) {sc : Scope} {body : Nat → M α} (hb : PresOlder P s.next (body s.next)) (hP : sid < s.next → Links s → P)
    (hc : sc.closure = none) (hp : sc.prev = none) : match (do
      let child ← allocScope sc
      pushNext sid child
      let res ← body child
      popNext sid
      pure res : M α) s with
    | .ok _ s' => StepOk sid s s' ∧ (sid < s.next → SameButVars { s.scopes sid with next := none } (s'.scopes sid))
    | .fail _ s' => Step sid s s' ∧ (sid < s.next → (s'.scopes sid).isInReturn = (s.scopes sid).isInReturn) := by
  simp only [M.bind_apply, allocScope, pushNext, modScope, M.modify_apply]
  generalize hs2 : ({ s with
    next := s.next + 1,
    scopes := _ } : St) = s2
  have hnext : s2.next = s.next + 1 := by rw [← hs2]
  have hout : s2.out = s.out := by rw [← hs2]
  have hinput : s2.input = s.input := by rw [← hs2]
  have hclos : s2.clos = s.clos := by rw [← hs2]
  have hother : ∀ j, j < s.next → j ≠ sid → s2.scopes j = s.scopes j := by
    intro j hj hne
    rw [← hs2]
    simp [fset, Nat.ne_of_lt hj, hne]
  have hsid : sid < s.next → s2.scopes sid = { s.scopes sid with next := some s.next } := by
    intro hj
    rw [← hs2]
    simp [fset, Nat.ne_of_lt hj]
  have hlinks : sid < s.next → Links s → Links s2 := by
    intro hs l
    rw [← hs2]
    refine links_modScope (s := { s with next := s.next + 1, scopes := fset (fset s.scopes s.next sc) sid { fset s.scopes s.next sc sid with next := some s.next } }) rfl
      (fun p h => .inr (by simp at h; simp; omega)) (links_modScope (s := { s with next := s.next + 1, scopes := fset s.scopes s.next sc }) rfl (fun p h => .inl h) ⟨?_, ?_, ?_, ?_⟩)
    · intro i; have := l.clos i; simp only; omega
    · intro i c h
      by_cases e : i = s.next
      · subst e; simp [hc] at h
      · simp [fset, e] at h; exact l.old i c h
    · intro i hi
      simp at hi
      simp [fset, show i ≠ s.next by omega]
      exact l.fresh i (by omega)
    · intro i p h
      by_cases e : i = s.next
      · subst e; simp [hp] at h
      · simp [fset, e] at h; have := l.callers i p h; simp only; omega
  have hb := hb.rel s2 (by omega)
  have key : ∀ s3, Older P s.next s2 s3 → Step sid s s3 := by
    intro s3 h
    have hS : sid < s.next → ∀ j, j < s.next → j ≠ sid → SameButVars (s.scopes j) (s3.scopes j) := by
      intro _ j hj hne
      have := h.scopes j hj
      rwa [hother j hj hne] at this
    refine ⟨by have := h.next; omega, hout ▸ h.out, hinput ▸ h.input, fun i hi => by rw [h.clos i hi, hclos], fun hs j hj => ?_, fun hs j hj => ?_, fun hs j hj => ?_, hS, fun hs l => h.links (hP hs l) (hlinks hs l)⟩ <;>
    · by_cases e : j = sid
      · subst e
        have := h.scopes j hj
        rw [hsid hs] at this
        first | exact this.global | exact this.closure | exact this.prev
      · have := hS hs j hj e
        first | exact this.global | exact this.closure | exact this.prev
  cases e : body s.next s2 with
  | fail f s3 =>
    rw [e] at hb
    refine ⟨key s3 hb, fun hs => ?_⟩
    have := hb.scopes sid hs
    rw [hsid hs] at this
    rw [← show _ = s3.scopes sid from this]
  | ok a s3 =>
    rw [e] at hb
    have h := key s3 hb
    simp only [popNext, M.bind_apply, M.get_apply]
    cases hn : (s3.scopes sid).next with
    | none =>
      refine ⟨h, fun hs => ?_⟩
      have := hb.scopes sid hs
      rw [hsid hs] at this
      rw [← show _ = s3.scopes sid from this]
    | some nx =>
      simp only [modScope, M.modify_apply, M.bind_apply, M.pure_apply]
      generalize hs4 : ({ s3 with scopes := _ } : St) = s4
      have h1 : s4.next = s3.next := by rw [← hs4]
      have h2 : s4.out = s3.out := by rw [← hs4]
      have h3 : s4.clos = s3.clos := by rw [← hs4]
      have h6 : s4.input = s3.input := by rw [← hs4]
      have hnx : sid < s.next → nx = s.next := by
        intro hs
        have := (hb.scopes sid hs).next
        simp [Out.st, hn, hsid hs] at this
        exact this
      have h4 : sid < s.next → ∀ j, j < s.next → j ≠ sid → s4.scopes j = s3.scopes j := by
        intro hs j hj hne
        rw [← hs4, hnx hs]
        simp [fset, hne, Nat.ne_of_lt hj]
      have h5 : sid < s.next → s4.scopes sid = { s3.scopes sid with next := none } := by
        intro hs
        rw [← hs4, hnx hs]
        simp [fset, Nat.ne_of_lt hs]
      refine ⟨⟨⟨h1 ▸ h.next, h2 ▸ h.out, h6 ▸ h.input, h3 ▸ h.clos, fun hs j hj => ?_, fun hs j hj => ?_, fun hs j hj => ?_, fun hs j hj hne => ?_, fun hs l => ?_⟩, fun hs _ => ?_, fun hs => ?_⟩, fun hs => ?_⟩
      · by_cases e : j = sid
        · subst e; rw [h5 hs]; exact h.glob hs j hj
        · rw [h4 hs j hj e]; exact h.glob hs j hj
      · by_cases e : j = sid
        · subst e; rw [h5 hs]; exact h.closure hs j hj
        · rw [h4 hs j hj e]; exact h.closure hs j hj
      · by_cases e : j = sid
        · subst e; rw [h5 hs]; exact h.prev hs j hj
        · rw [h4 hs j hj e]; exact h.prev hs j hj
      · rw [h4 hs j hj hne]; exact h.other hs j hj hne
      · rw [← hs4]
        exact links_modScope (s := { s3 with scopes := fset s3.scopes nx { s3.scopes nx with prev := none } }) rfl (fun _ h => .inl h) (links_modScope rfl (fun _ h => nomatch h) (h.links hs l))
      · rw [h5 hs]
      · rw [h5 hs]
        have := (hb.scopes sid hs).needsLValue
        simpa [Out.st, hsid hs] using this
      · have := hb.scopes sid hs
        rw [hsid hs] at this
        have h6 := h5 hs
        rw [← hs4] at h6
        refine (congrArg (SameButVars _) h6).mpr ?_
        unfold SameButVars at this ⊢
        rw [← show _ = s3.scopes sid from this]

instance (c l) : Pres2 sid (callClosure r c l sid) := ⟨fun s => by
  unfold callClosure
  have := inScope_rel (sid := sid) (P := (s.clos c).scope < s.next) s (body := callBody r (s.clos c) l) (sc := mkScope s (s.clos c).name (s.scopes sid).global (s.clos c).module)
    inferInstance (fun hs h => by have := h.clos c; omega) rfl rfl
  simp only [M.bind_apply, M.get_apply] at this ⊢
  split <;> simp_all⟩

instance (n g f c) : PresOlder True n (importBody r g f c n) := by
  unfold importBody
  have : ∀ (k : Ptr → M (Option Variant)), (do
      let sc' ← M.get fun s => s.scopes n
      let c ← allocScope sc'
      let o ← allocObj (.scope c)
      k o) = copyObj (.mk 0 (.scope n)) >>= k := by
    intro k; simp [copyObj, M.bind_assoc]
  simp only [this]
  presOlder
instance (f c) : Pres2 sid (importOne r sid f c) := ⟨fun s => by
  unfold importOne
  have := inScope_rel (sid := sid) s (body := importBody r (s.scopes sid).global f c) (sc := mkScope s (c!"import " ++ f) (s.scopes sid).global f)
    inferInstance (fun _ _ => trivial) rfl rfl
  simp only [M.bind_apply, M.get_apply] at this ⊢
  split <;> simp_all⟩
instance (v l) : Pres2 sid (importLoop r sid v l) := by
  induction l generalizing v with
  | nil => unfold importLoop; pres2
  | cons a l ih => unfold importLoop; pres2
instance (l) : Pres2 sid (bImport r l sid) := by unfold bImport; pres2
instance (a v l) : Pres2 sid (boolLoop r a sid v l) := by
  induction l generalizing v with
  | nil => unfold boolLoop; pres2
  | cons a l ih => unfold boolLoop; pres2
instance (a l) : Pres2 sid (bBool r a l sid) := by unfold bBool; pres2
instance (l) : Pres2 sid (bDefineMacroEval r l sid) := by unfold bDefineMacroEval; pres2
instance (l) : Pres2 sid (bDefineMacroExpand r l sid) := by unfold bDefineMacroExpand; pres2
instance (l) : Pres2 sid (procQLoop r sid l) := by
  induction l with
  | nil => unfold procQLoop; pres2
  | cons a l ih => unfold procQLoop; pres2
instance (l) : Pres2 sid (procQStep r l sid) := by unfold procQStep; pres2
instance (l) : Pres2 sid (bQuasiquote r l sid) := by unfold bQuasiquote; pres2
instance (l) : Pres2 sid (bIf r l sid) := by unfold bIf bIf.go; pres2
instance (c b v w) : Pres2 sid (whileStep r c b sid v w) := by unfold whileStep; pres2
instance (l) : Pres2 sid (bWhile r l sid) := by unfold bWhile; pres2
instance (v l) : Pres2 sid (doLoop r sid v l) := by
  induction l generalizing v with
  | nil => unfold doLoop; pres2
  | cons a l ih => unfold doLoop; pres2
instance (a b l) : Pres2 sid (allocClosure ⟨a, b, l, sid⟩) := ⟨fun s => by
  refine ⟨⟨Nat.le_succ _, List.prefix_refl _, List.suffix_refl _, fun i hi => ?_, fun _ _ _ => rfl, fun _ _ _ => rfl, fun _ _ _ => rfl, fun _ _ _ _ => .refl _, fun hs h => ⟨fun i => ?_, h.old, fun i hi => h.fresh i (by simp at hi; omega), fun i p hp => by have := h.callers i p hp; simp only; omega⟩⟩, fun _ hn => hn, fun _ => rfl⟩
  · simp [fset, Nat.ne_of_lt hi]
  · have := h.clos i
    by_cases e : i = s.next <;> simp [fset, e] <;> omega⟩
instance (l) : Pres2 sid (bFn l sid) := by unfold bFn; pres2
instance (l) : Pres2 sid (updateDoc n l sid) := by unfold updateDoc; pres2
instance (c) : Pres2 sid (globalFunction n c sid) := by unfold globalFunction; pres2
instance (c l) : Pres2 sid (bDefn r c l sid) := by unfold bDefn; pres2
instance (b l) : Pres2 sid (callPrim r b l sid) := by cases b <;> (unfold callPrim; pres2)
instance (f l) : Pres2 sid (callStep r f l sid) := by unfold callStep; pres2

instance run_pres (k : Nat) : RecPres (run k) := by
  induction k with
  | zero => constructor <;> intros <;> exact ⟨fun s => Step.refl _ s⟩
  | succ k ih =>
    constructor <;> intros
    · exact inferInstanceAs (Pres2 _ (evalStep _ _ _))
    · exact inferInstanceAs (Pres2 _ (callStep _ _ _ _))
    · exact inferInstanceAs (Pres2 _ (expandLoop _ _ _))
    · exact inferInstanceAs (Pres2 _ (expandStep _ _ _))
    · exact inferInstanceAs (Pres2 _ (procQStep _ _ _))
    · exact inferInstanceAs (Pres2 _ (substLoop _ _ _ _ _))
    · exact inferInstanceAs (Pres2 _ (whileStep _ _ _ _ _ _))

end Fuel
