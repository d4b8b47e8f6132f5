import Verif.PropsRun
/-!
# Concrete states for the examples about evaluation

Programs are loaded from source text into a new interpreter (parsed, expanded, but not evaluated), so that the examples
talk about reachable states.  The functions ending in `B` check the predicates of the specification.
-/

set_option linter.unusedSectionVars false

namespace Fuel

open Spec

section
variable [World]

/-- Evaluates the scripts `setup` in a new interpreter and loads the code: scope, first statement of the code, state. -/
def demoLoad (setup : List Str) (code : Str) : Option (Nat × Ptr × St) :=
  match createDefaultScope {} with
  | .ok sid st => go sid setup st
  | .fail _ _ => none
where
  /-- the scripts that are left -/
  go (sid : Nat) : List Str → St → Option (Nat × Ptr × St)
    | [], st => match lispEval (run 60) code sid [] false true st with
      | .ok (some v) st' => match v.value with
        | .mk i .list => match st'.lists i with
          | _ :: p :: _ => some (sid, p, st')
          | _ => none
        | _ => none
      | _ => none
    | c :: t, st => match lispEval (run 60) c sid [] false false st with
      | .ok _ st' => go sid t st'
      | .fail _ _ => none

theorem demoLoad_go {code : Str} {sid : Nat} : ∀ {l : List Str} {st : St} {r : Nat × Ptr × St}, Reachable st → sid < st.next →
    demoLoad.go code sid l st = some r → Reachable r.2.2 ∧ r.1 < r.2.2.next
  | [], st, r, h, hs, e => by
    simp only [demoLoad.go] at e
    have h1 := Reachable.script 60 code sid [] false true h hs
    have h2 : st.next ≤ (Out.after (lispEval (run 60) code sid [] false true st)).next := by
      rw [after_eq]; exact (Pres2.any (sid := sid) (m := lispEval (run 60) code sid [] false true) st).next
    generalize lispEval (run 60) code sid [] false true st = o at e h1 h2
    split at e
    · split at e
      · split at e
        · cases e; exact ⟨h1, by simp only [Out.after] at h2; simp; omega⟩
        · cases e
      · cases e
    · cases e
  | c :: t, st, r, h, hs, e => by
    simp only [demoLoad.go] at e
    have h1 := Reachable.script 60 c sid [] false false h hs
    have h2 : st.next ≤ (Out.after (lispEval (run 60) c sid [] false false st)).next := by
      rw [after_eq]; exact (Pres2.any (sid := sid) (m := lispEval (run 60) c sid [] false false) st).next
    generalize lispEval (run 60) c sid [] false false st = o at e h1 h2
    split at e
    · exact demoLoad_go h1 (Nat.lt_of_lt_of_le hs h2) e
    · cases e

theorem demoLoad_reachable {setup : List Str} {code : Str} {sid : Nat} {ast : Ptr} {st : St} (h : demoLoad setup code = some (sid, ast, st)) :
    Reachable st ∧ sid < st.next := by
  unfold demoLoad at h
  have h0 : Reachable ({} : St) := .init rfl (fun _ => rfl) (fun _ => rfl) (fun _ => rfl) (fun _ => rfl)
  have h1 := Reachable.create h0
  obtain ⟨s', h2, h3⟩ := create_ok ({} : St)
  rw [h2] at h h1
  exact demoLoad_go h1 h3 h

/-- Checks a property of the loaded code. -/
def demoB (setup : List Str) (code : Str) (P : St → Nat → Ptr → Bool) : Bool :=
  match demoLoad setup code with
  | some (sid, ast, st) => P st sid ast
  | none => false

theorem demo_of {setup : List Str} {code : Str} {P : St → Nat → Ptr → Bool} (h : demoB setup code P = true) :
    ∃ st sid ast, Reachable st ∧ sid < st.next ∧ P st sid ast = true := by
  unfold demoB at h
  split at h
  · rename_i sid ast st e; exact ⟨st, sid, ast, (demoLoad_reachable e).1, (demoLoad_reachable e).2, h⟩
  · cases h

/-- The name of a symbol. -/
def symB (v : Variant) : Option Str :=
  if v.type = .symbol then match v.value with | .mk _ (.str s) => some s | _ => none else none

theorem symB_ok {v : Variant} {s : Str} (h : symB v = some s) : IsSym v s := by
  unfold symB at h
  split at h
  · rename_i ht
    split at h
    · rename_i i s' hv; cases h; exact ⟨ht, i, hv⟩
    · cases h
  · cases h

/-- A function value. -/
def fnB : Ptr → Option FnW
  | .mk _ (.var v) => if v.type = .function then match v.value with | .mk _ (.fn f) => some f | _ => none else none
  | _ => none

theorem fnB_ok {p : Ptr} {w : FnW} (h : fnB p = some w) : Holds p (IsFn · w) := by
  unfold fnB at h
  split at h
  · rename_i i v
    split at h
    · rename_i ht
      split at h
      · rename_i j f hv; cases h; exact ⟨i, v, rfl, ht, j, hv⟩
      · cases h
    · cases h
  · cases h

/-- The boolean. -/
def boolB (v : Variant) : Option Bool :=
  if v.type = .bool then match v.value with | .mk _ (.bool s) => some s | _ => none else none

theorem boolB_ok {v : Variant} {s : Bool} (h : boolB v = some s) : IsBool v s := by
  unfold boolB at h
  split at h
  · rename_i ht
    split at h
    · rename_i i s' hv; cases h; exact ⟨ht, i, hv⟩
    · cases h
  · cases h

/-- The integer. -/
def intB (v : Variant) : Option Int :=
  if v.type = .int then match v.value with | .mk _ (.int s) => some s | _ => none else none

theorem intB_ok {v : Variant} {s : Int} (h : intB v = some s) : IsInt v s := by
  unfold intB at h
  split at h
  · rename_i ht
    split at h
    · rename_i i s' hv; cases h; exact ⟨ht, i, hv⟩
    · cases h
  · cases h

/-- The string. -/
def strB (v : Variant) : Option Str :=
  if v.type = .string then match v.value with | .mk _ (.str s) => some s | _ => none else none

theorem strB_ok {v : Variant} {s : Str} (h : strB v = some s) : IsStr v s := by
  unfold strB at h
  split at h
  · rename_i ht
    split at h
    · rename_i i s' hv; cases h; exact ⟨ht, i, hv⟩
    · cases h
  · cases h

/-- A local or global variable. -/
def lookupB (st : St) (s : Nat) (name : Str) : Option Ptr :=
  match binding st s name with
  | some p => some p
  | none => binding st (st.scopes s).global name

theorem lookupB_ok {st : St} {s : Nat} {name : Str} {p : Ptr} (h : lookupB st s name = some p) : Lookup st s name (some p) := by
  unfold lookupB at h
  split at h
  · rename_i q hb; cases h; exact .locally hb
  · rename_i hb; exact .globally hb h

/-- No macro has the name. -/
def noMacroB (st : St) (s : Nat) (name : Str) : Bool :=
  match binding st (st.scopes s).global c!"###macros###" with
  | none => true
  | some (.mk _ (.scope m)) => decide (binding st m name = none)
  | _ => false

theorem noMacroB_ok {st : St} {s : Nat} {name : Str} (h : noMacroB st s name = true) : NoMacro st s name := by
  unfold noMacroB at h
  split at h
  · rename_i hb; exact .inl hb
  · rename_i i m hb; exact .inr ⟨i, m, hb, by simpa using h⟩
  · cases h

/-- Not the result of an unquote-splicing. -/
def notSplicedB : Ptr → Bool
  | .null => false
  | .mk _ (.var v) => decide (v.unq ≠ .splicing)
  | .mk _ _ => true

theorem notSplicedB_ok {p : Ptr} (h : notSplicedB p = true) : NotSpliced p := by
  cases p with
  | null => cases h
  | mk i o => cases o <;> first | trivial | (next v => exact (of_decide_eq_true h : v.unq ≠ .splicing))

/-- A call: the function, the code of the arguments and the state in which the call starts. -/
def formB (st : St) (s : Nat) : Ptr → Option (FnW × List Ptr × St)
  | .mk i .list => match st.lists i with
    | .mk _ (.var v) :: args => match symB v with
      | some name => match lookupB st s name with
        | some p => match fnB p with
          | some w => if noMacroB st s name && args.all notSplicedB && decide ((st.scopes (st.scopes s).global).tracing = some false) then
              some (w, args, atToken st s v.tok) else none
          | none => none
        | none => none
      | none => none
    | _ => none
  | _ => none

theorem formB_ok {st : St} {s : Nat} {ast : Ptr} {w : FnW} {args : List Ptr} {st' : St} (h : formB st s ast = some (w, args, st')) :
    IsForm st s ast w args st' := by
  unfold formB at h
  split at h
  · rename_i i
    split at h
    · rename_i j v args' hl
      split at h
      · rename_i name hn
        split at h
        · rename_i p hp
          split at h
          · rename_i w' hw
            split at h
            · rename_i hc
              simp only [Bool.and_eq_true, List.all_eq_true, decide_eq_true_eq] at hc
              cases h
              exact ⟨⟨i, .mk j (.var v), rfl, hl, ⟨name, p, ⟨j, v, rfl, symB_ok hn⟩, noMacroB_ok hc.1.1, lookupB_ok hp, fnB_ok hw⟩, rfl⟩,
                fun a ha => notSplicedB_ok (hc.1.2 a ha), hc.2⟩
            · cases h
          · cases h
        · cases h
      · cases h
    · cases h
  · cases h

/-- A special form: the code of the arguments and the state in which it starts. -/
def specialB (st : St) (s : Nat) (ast : Ptr) (b : Builtin) : Option (List Ptr × St) :=
  match formB st s ast with
  | some (w, args, st') => if w.kind = .prim b ∧ w.special = true then some (args, st') else none
  | none => none

theorem specialB_ok {st : St} {s : Nat} {ast : Ptr} {b : Builtin} {args : List Ptr} {st' : St} (h : specialB st s ast b = some (args, st')) :
    IsSpecial st s ast b args st' := by
  unfold specialB at h
  split at h
  · rename_i w a s' hf
    split at h
    · rename_i hw; cases h; exact ⟨w, formB_ok hf, hw.1, hw.2⟩
    · cases h
  · cases h

/-- The result of an evaluation. -/
def evalB (ast : Ptr) (s : Nat) (st : St) : Option (Variant × St) :=
  match (run 60).eval ast s st with
  | .ok (some v) st' => some (v, st')
  | _ => none

theorem evalB_ok {ast : Ptr} {s : Nat} {st : St} {v : Variant} {st' : St} (h : evalB ast s st = some (v, st')) :
    Evals ast s st (.ok (some v) st') := by
  unfold evalB at h
  split at h
  · rename_i w s' he; cases h; exact ⟨ends_ok _ _, 60, he⟩
  · cases h

/-- The list object of a list. -/
def listB (v : Variant) : Option Nat :=
  if v.type = .list then match v.value with | .mk i .list => some i | _ => none else none

theorem listB_ok {v : Variant} {j : Nat} (h : listB v = some j) : IsListAt v j := by
  unfold listB at h
  split at h
  · rename_i ht
    split at h
    · rename_i i hv; cases h; exact ⟨ht, hv⟩
    · cases h
  · cases h

/-- The arguments with their names replaced by their values. -/
def resolvedB (st : St) (s : Nat) : List Ptr → Option (List Ptr)
  | [] => some []
  | .mk i (.var v) :: t => match resolvedB st s t with
    | some t' => match symB v with
      | some name => match lookupB st s name with
        | some p => some (p :: t')
        | none => none
      | none => if v.type ≠ .symbol then some (.mk i (.var v) :: t') else none
    | none => none
  | .mk i .list :: t => match resolvedB st s t with
    | some t' => some (.mk i .list :: t')
    | none => none
  | _ :: _ => none

theorem resolvedB_ok {st : St} {s : Nat} : ∀ {l l' : List Ptr}, resolvedB st s l = some l' → All2 (Resolved st s) l l'
  | [], l', h => by cases h; exact .nil
  | p :: t, l', h => by
    unfold resolvedB at h
    split at h
    · rename_i e; cases e
    · rename_i i v t0 e; cases e
      split at h
      · rename_i t' ht
        split at h
        · rename_i name hn
          split at h
          · rename_i p hp; cases h; exact .cons (.symbol (symB_ok hn) (lookupB_ok hp)) (resolvedB_ok ht)
          · cases h
        · split at h
          · rename_i hs; cases h; exact .cons (.value hs) (resolvedB_ok ht)
          · cases h
      · cases h
    · rename_i i t0 e; cases e
      split at h
      · rename_i t' ht; cases h; exact .cons .list (resolvedB_ok ht)
      · cases h
    · cases h

/-- The values of the arguments. -/
def evalArgsB (s : Nat) : List Ptr → St → Option (List Ptr × St)
  | [], st => some ([], st)
  | .null :: _, _ => none
  | .mk i o :: t, st => if o = .list then match evalB (.mk i .list) s st with
      | some (v, st1) => if v.unq ≠ .splicing then match evalArgsB s t { st1 with next := st1.next + 1 } with
          | some (vs, st') => some (.mk st1.next (.var v) :: vs, st')
          | none => none
        else none
      | none => none
    else if notSplicedB (.mk i o) then match evalArgsB s t st with
      | some (vs, st') => some (.mk i o :: vs, st')
      | none => none
    else none

theorem evalArgsB_ok {s : Nat} : ∀ {l vs : List Ptr} {st st' : St}, evalArgsB s l st = some (vs, st') → EvalArgs s l st vs st'
  | [], vs, st, st', h => by cases h; exact .nil
  | .null :: t, vs, st, st', h => by cases h
  | .mk i o :: t, vs, st, st', h => by
    unfold evalArgsB at h
    split at h
    · rename_i ho; subst ho
      split at h
      · rename_i v st1 he
        split at h
        · rename_i hv
          split at h
          · rename_i vs' st2 ht; cases h; exact .call (evalB_ok he) hv (evalArgsB_ok ht)
          · cases h
        · cases h
      · cases h
    · rename_i ho
      split at h
      · rename_i hn
        split at h
        · rename_i vs' st2 ht; cases h; exact .value ho (notSplicedB_ok hn) (evalArgsB_ok ht)
        · cases h
      · cases h

/-- Checks the state in which a script ends, also if it fails. -/
def demoAfterB (code : Str) (P : St → Bool) : Bool :=
  match createDefaultScope {} with
  | .ok sid st => P (Out.after (lispEval (run 60) code sid [] false false st))
  | .fail _ _ => false

theorem demoAfter_of {code : Str} {P : St → Bool} (h : demoAfterB code P = true) : ∃ st, Reachable st ∧ P st = true := by
  have h0 : Reachable ({} : St) := .init rfl (fun _ => rfl) (fun _ => rfl) (fun _ => rfl) (fun _ => rfl)
  have h1 := Reachable.create h0
  obtain ⟨s', h2, h3⟩ := create_ok ({} : St)
  unfold demoAfterB at h
  rw [h2] at h h1
  exact ⟨_, Reachable.script 60 code _ [] false false h1 h3, h⟩

end

end Fuel
