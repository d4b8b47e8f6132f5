import Verif.LemValidInterp
import Verif.Lisp
/-!
# The interpreter and the functions of `Lisp` keep a state valid
-/

set_option linter.unusedSectionVars false
set_option linter.unusedSimpArgs false
set_option linter.unusedVariables false
set_option synthInstance.maxHeartbeats 20000

namespace Fuel

open Spec

variable [World] {w : Lay}

theorem run_safe : ∀ k, SafeRec (run k)
  | 0 => ⟨fun _ _ _ _ _ => inferInstanceAs (Safe _ (M.fail _)), fun _ _ _ _ _ _ _ => inferInstanceAs (Safe _ (M.fail _)),
      fun _ _ _ _ _ => inferInstanceAs (Safe _ (M.fail _)), fun _ _ _ _ _ => inferInstanceAs (Safe _ (M.fail _)),
      fun _ _ _ _ _ => inferInstanceAs (Safe _ (M.fail _)), fun _ _ _ _ _ _ _ _ => inferInstanceAs (Safe _ (M.fail _)),
      fun _ _ _ _ _ _ _ _ _ _ _ => inferInstanceAs (Safe _ (M.fail _))⟩
  | k + 1 => by
    have := run_safe k
    exact ⟨fun w p sid _ _ => inferInstanceAs (Safe w (evalStep (run k) p sid)),
      fun w f l sid _ _ _ => inferInstanceAs (Safe w (callStep (run k) f l sid)),
      fun w p sid _ _ => inferInstanceAs (Safe w (expandLoop (run k) p sid)),
      fun w p sid _ _ => inferInstanceAs (Safe w (expandStep (run k) p sid)),
      fun w p sid _ _ => inferInstanceAs (Safe w (procQStep (run k) p sid)),
      fun w v p b l _ _ _ => inferInstanceAs (Safe w (substLoop (run k) v p b l)),
      fun w c b sid x y _ _ _ _ _ => inferInstanceAs (Safe w (whileStep (run k) c b sid x y))⟩
instance (k : Nat) : SafeRec (run k) := run_safe k

instance (e : Entry) : Good w e.wrapper := ⟨fun c h => by cases h⟩
instance (sid : Nat) (e : Entry) [Is w sid .scope] : Safe w (register sid e) := by
  unfold register
  safe
theorem registerAll_safe {sid : Nat} : ∀ {w} (l : List Entry), Is w sid .scope → Safe w (registerAll sid l)
  | w, [], _ => by unfold registerAll; infer_instance
  | w, e :: l, h => by
    have hr := fun w h => registerAll_safe (w := w) (sid := sid) l h
    unfold registerAll
    safe
    all_goals exact hr _ inferInstance
instance (sid : Nat) (l : List Entry) [h : Is w sid .scope] : Safe w (registerAll sid l) := registerAll_safe l h

/-- The first two steps of `createDefaultScope`. -/
theorem rootScope_bind {β : Type} [HasGood β] {name : Str} {k : Nat → M β}
    (hk : ∀ w' i, Ext w w' → Is w' i .scope → Safe w' (k i)) :
    Safe w (allocScope { name := name } >>= fun sid => modScope sid (fun sc => { sc with global := sid }) >>= fun _ => k sid) := ⟨fun s hs => by
  have h1 := hs.addScope (sc := { name := name, global := s.next }) fun hi hk =>
      ⟨.nil, by simp, by simp [Lay.add], by simp, by simp, by simp⟩
  have h2 : Ext w (w.add s.next .scope hs.fresh fun _ e => by cases e) := Lay.add_ext
  have h3 := (hk _ s.next h2 Lay.add_is).ok _ h1
  have h4 : (allocScope { name := name } >>= fun sid => modScope sid (fun sc => { sc with global := sid }) >>= fun _ => k sid) s =
      k s.next { s with next := s.next + 1, scopes := fset s.scopes s.next { name := name, global := s.next } } := by
    show k s.next { s with next := s.next + 1, scopes := fset (fset s.scopes s.next { name := name }) s.next _ } = _
    congr 2
    funext i
    by_cases e : i = s.next <;> simp [fset, e]
  rw [h4]
  revert h3
  cases k s.next { s with next := s.next + 1, scopes := fset s.scopes s.next { name := name, global := s.next } } with
  | ok a s' => exact fun ⟨w', a, b, c⟩ => ⟨w', h2.trans a, b, c⟩
  | fail f s' => exact fun ⟨w', a, b⟩ => ⟨w', h2.trans a, b⟩⟩

/-- The number of a scope. -/
structure ScopeId where
  id : Nat
instance : HasGood ScopeId := ⟨fun w i => w.k i.id = some .scope, fun h g => h.grows _ _ g⟩
instance (i : Nat) [h : Is w i .scope] : Good w (ScopeId.mk i) := ⟨h.ok⟩

theorem mbind_assoc {α β γ : Type} (m : M α) (k : α → M β) (j : β → M γ) : (m >>= k) >>= j = m >>= fun a => k a >>= j := by
  funext s
  simp only [M.bind_apply]
  cases m s <;> rfl

theorem mpure_bind {α β : Type} (a : α) (k : α → M β) : (Pure.pure a : M α) >>= k = k a := rfl
instance (n : Str) (g : Nat) [h : Is w g .scope] : Good w ({ name := n, global := g } : Scope) := ⟨⟨.nil, by simp, h.ok, by simp, by simp, by simp⟩⟩
theorem create_safe : Safe w (createDefaultScope >>= fun i => Pure.pure (ScopeId.mk i)) := by
  unfold createDefaultScope
  generalize defaultTable = tab
  simp only [mbind_assoc, mpure_bind]
  refine rootScope_bind fun w' i hx hi => ?_
  clear hx
  safe

theorem safe_id {m : M Nat} (h : Safe w (m >>= fun i => Pure.pure (ScopeId.mk i))) (s : St) (hs : Ok w s) : match m s with
      | .ok i s' => ∃ w', Ext w w' ∧ Ok w' s' ∧ Is w' i .scope
      | .fail _ s' => ∃ w', Ext w w' ∧ Ok w' s' := by
  have := h.ok s hs
  rw [M.bind_apply] at this
  cases hm : m s with
  | ok i s' => rw [hm] at this; obtain ⟨w', a, b, c⟩ := this; exact ⟨w', a, b, ⟨c.ok⟩⟩
  | fail f s' => rw [hm] at this; exact this

instance (k : Nat) (code m : Str) (t o : Bool) : Safe w (lispEvalNew k code m t o) := by
  have h : Safe w _ := create_safe
  unfold lispEvalNew
  generalize createDefaultScope = c at h ⊢
  exact Safe.bind_post (fun w i => Is w i .scope) (fun s hs => by
    have := safe_id h s hs
    cases hc : c s <;> rw [hc] at this <;> exact this) fun _ _ _ _ => inferInstance
instance (msg : Str) : Safe w (errorValue msg) := by
  unfold errorValue
  safe
instance (b : Bool) (msg : Str) : Safe w (writeErr b msg) := by
  unfold writeErr
  safe

/-- The statement about an outcome. -/
inductive OutOk (w : Lay) : Out (Option Variant) → Prop
  | ok {w' a s} : Ext w w' → Ok w' s → Good w' a → OutOk w (.ok a s)
  | fail {w' f s} : Ext w w' → Ok w' s → OutOk w (.fail f s)

theorem OutOk.of_safe {w' : Lay} {s' : St} (h1 : Ext w w') (h2 : Ok w' s') {j : M (Option Variant)} (hj : Safe w' j) : OutOk w (j s') := by
  have := hj.ok s' h2
  cases hm : j s' with
  | ok a s'' => rw [hm] at this; obtain ⟨w2, a, b, c⟩ := this; exact .ok (h1.trans a) b c
  | fail f s'' => rw [hm] at this; obtain ⟨w2, a, b⟩ := this; exact .fail (h1.trans a) b
theorem safe_of_out {m : M (Option Variant)} (h : ∀ s, Ok w s → OutOk w (m s)) : Safe w m := ⟨fun s hs => by
  have := h s hs
  cases hm : m s with
  | ok a s'' => rw [hm] at this; cases this with | ok a b c => exact ⟨_, a, b, c⟩
  | fail f s'' => rw [hm] at this; cases this with | fail a b => exact ⟨_, a, b⟩⟩

theorem safe_out {m : M (Option Variant)} (h : Safe w m) : ∀ s, Ok w s → OutOk w (m s) := fun s hs => OutOk.of_safe (.refl w) hs h

instance (k : Nat) (stack : Str) (outp : Bool) (code m : Str) (v t o : Bool) : Safe w (saveEval k stack outp code m v t o) := by
  refine safe_of_out fun s hs => ?_
  have h : Safe w (lispEvalNew k code m t o) := inferInstance
  have := safe_out h s hs
  cases hm : lispEvalNew k code m t o s with
  | ok a s' => rw [hm] at this; simp only [saveEval, hm]; exact this
  | fail f s' =>
    rw [hm] at this
    cases this with | fail h1 h2 =>
    cases f with
    | exn e =>
      cases e with
      | lisp full msg line start stop mod =>
        cases full
        · simp only [saveEval, hm]
          refine OutOk.of_safe h1 h2 ?_
          safe
        · simp only [saveEval, hm]
          refine OutOk.of_safe h1 h2 ?_
          safe
      | _ => simp only [saveEval, hm]; exact .fail h1 h2
    | _ => simp only [saveEval, hm]; exact .fail h1 h2

end Fuel
