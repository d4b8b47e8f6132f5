import Verif.LemValidBuiltin
/-!
# The tokenizer and the parser create valid objects
-/

set_option linter.unusedSectionVars false
set_option linter.unusedSimpArgs false
set_option linter.unusedVariables false
set_option synthInstance.maxHeartbeats 20000

namespace Fuel

open Spec

variable [World] {w : Lay}

theorem stoi_range {s : Str} {x : Int} {n : Nat} (h : stoi s = .ok (x, n)) : IsInt32 x := by
  unfold stoi at h
  split at h
  · cases h
  · split at h
    · cases h; assumption
    · cases h

theorem int32TryParse_range {t : Str} {x : Int} (h : int32TryParse t = .ok (some x)) : IsInt32 x := by
  unfold int32TryParse at h
  split at h
  · split at h
    · cases h
    · cases h
      rename_i v p hv
      exact stoi_range hv
  · cases h
  · cases h

/-- The text and the type of a token agree. -/
def ClassOk (r : R (TokType × TVal)) : Prop := ∀ t v, r = .ok (t, v) → (∀ x, v = .int x → IsInt32 x) ∧ (t = .symbol → ∃ s, v = .str s)

theorem ClassOk.ite {c : Prop} [Decidable c] {a b : R (TokType × TVal)} (ha : ClassOk a) (hb : ClassOk b) : ClassOk (if c then a else b) := by
  split
  · exact ha
  · exact hb
theorem ClassOk.str {t : TokType} {s : Str} : ClassOk (.ok (t, .str s)) := fun _ _ e => by
  cases e; exact ⟨fun _ e => (by cases e), fun _ => ⟨_, rfl⟩⟩
theorem ClassOk.bool {t : TokType} {s : Bool} (h : t ≠ .symbol) : ClassOk (.ok (t, .bool s)) := fun _ _ e => by
  cases e; exact ⟨fun _ e => (by cases e), fun e => absurd e h⟩
theorem ClassOk.dbl {t : TokType} {s : Dbl} (h : t ≠ .symbol) : ClassOk (.ok (t, .dbl s)) := fun _ _ e => by
  cases e; exact ⟨fun _ e => (by cases e), fun e => absurd e h⟩
theorem ClassOk.int {t : TokType} {s : Int} (h : t ≠ .symbol) (hs : IsInt32 s) : ClassOk (.ok (t, .int s)) := fun _ _ e => by
  cases e; exact ⟨fun _ e => (by cases e; exact hs), fun e => absurd e h⟩
theorem ClassOk.err {f : Fail} : ClassOk (.error f) := fun _ _ e => by cases e

theorem classify_ok {text : Str} : ClassOk (classify text) := by
  unfold classify
  refine .ite ?_ <| .ite .str <| .ite .str <| .ite .str <| .ite .str <| .ite .str <| .ite .str ?_
  · cases substr text 1 (if text.length == 1 then text.length else text.length - 2) with
    | ok s => exact .str
    | error f => exact .err
  cases hi : int32TryParse text with
  | error f => exact .err
  | ok o =>
    cases o with
    | some i => exact .int (by simp) (int32TryParse_range hi)
    | none =>
      cases doubleTryParse text with
      | error f => exact .err
      | ok o =>
        cases o with
        | some d => exact .dbl (by simp)
        | none => exact .ite (.bool (by simp)) <| .ite (.bool (by simp)) <| .ite (.int (by simp) (by decide)) <| .ite .str .str

instance (text : Str) (a b c : Int) : RGood w (mkToken text a b c) := ⟨fun t h => by
  unfold mkToken at h
  split at h
  · rename_i h'
    cases h
    exact ⟨⟨(classify_ok _ _ h').1, (classify_ok _ _ h').2⟩⟩
  · cases h⟩
instance (off : Int) (ts : TS) (text : Str) (pos line : Int) : RGood w (addToken off ts text pos line) := by
  unfold addToken
  safe
instance (off i : Int) (rest : Str) (ts : TS) : RGood w (processComment off i rest ts) := by
  unfold processComment
  safe
instance (off i : Int) (c : Char) (rest : Str) (ts : TS) : RGood w (tokStep off i c rest ts) := by
  unfold tokStep
  safe
theorem tokLoop_good {off : Int} : ∀ {n : Nat} {i : Int} {s : Str} {ts : TS}, RGood w (tokLoop off n i s ts)
  | 0, _, _, _ => by unfold tokLoop; infer_instance
  | n + 1, i, [], ts => by unfold tokLoop; safe
  | n + 1, i, c :: s, ts => by
    have := fun i s ts => tokLoop_good (off := off) (n := n) (i := i) (s := s) (ts := ts)
    unfold tokLoop
    safe
instance (code : Str) (off : Int) : RGood w (tokenize code off) := tokLoop_good

instance (t : Token) [h : Good w t] : Good w (Sx.atom t) := ⟨.atom h.ok⟩
instance (n : Str) : Good w (Sx.sym n) := ⟨.sym⟩
instance (l : List Sx) [h : Good w l] : Good w (Sx.list l) := ⟨.list h.ok⟩
instance (x : Sx) (l : List (List Sx)) [h : Good w x] [g : Good w l] : Good w (pushTop x l) := by
  unfold pushTop
  split
  · infer_instance
  · saturate; infer_instance
theorem parseLoop_good {m : Str} {last : Option Token} : ∀ {n : Nat} {top : Bool} {l : List Token} {st : List (List Sx)},
    Good w l → Good w st → RGood w (parseLoop m last n top l st)
  | 0, _, _, _, _, _ => by unfold parseLoop; infer_instance
  | n + 1, top, [], st, _, h => by
    unfold parseLoop; safe
  | n + 1, top, t :: l, st, h1, h2 => by
    have := fun top l st h1 h2 => parseLoop_good (m := m) (last := last) (n := n) (top := top) (l := l) (st := st) h1 h2
    unfold parseLoop
    safe
    all_goals exact this _ _ _ inferInstance inferInstance
instance (m : Str) (l : List Token) [h : Good w l] : RGood w (parseTokens m l) := by
  unfold parseTokens
  have := parseLoop_good (m := m) (last := l.getLast?) (n := 2 * l.length + 2) (top := true) (st := []) h inferInstance
  safe
instance (code : Str) (off : Int) (m : Str) : RGood w (parse code off m) := by
  unfold parse
  safe

theorem tok_value {t : Token} (h : TokOk t) {i : Nat} (hi : Is w i (.obj t.value.obj)) : Good w (⟨t.lispType, .mk i t.value.obj, .none, some t⟩ : Variant) := by
  refine ⟨⟨hi.ok, ?_⟩⟩
  unfold Token.lispType
  split
  · trivial
  split
  · rename_i hs
    obtain ⟨s, hs⟩ := h.sym hs
    exact ⟨i, s, by rw [hs]; rfl⟩
  split <;> rename_i e <;> rw [e] <;> exact ⟨_, _, rfl⟩

mutual
theorem allocSx_safe : ∀ {w} {x : Sx}, SxOk x → Safe w (allocSx x)
  | w, .atom t, h => by
    cases h with | atom h =>
    unfold allocSx
    refine Safe.allocObj_bind ⟨?_⟩ fun w' i _ hi => ?_
    · cases hv : t.value <;> simp [TVal.obj, ObjOk]
      exact h.int _ hv
    · have := tok_value h hi
      infer_instance
  | w, .sym n, _ => by unfold allocSx; safe
  | w, .list l, h => by
    cases h with | list h =>
    have hr := fun w => allocSxs_safe (w := w) h
    unfold allocSx
    safe
theorem allocSxs_safe : ∀ {w} {l : List Sx}, (∀ x ∈ l, SxOk x) → Safe w (allocSxs l)
  | w, [], _ => by unfold allocSxs; infer_instance
  | w, x :: l, h => by
    have hr := fun w => allocSx_safe (w := w) (h x (List.mem_cons_self ..))
    have hr2 := fun w => allocSxs_safe (w := w) fun y hy => h y (List.mem_cons_of_mem _ hy)
    unfold allocSxs
    safe
end
instance (x : Sx) [h : Good w x] : Safe w (allocSx x) := allocSx_safe h.ok

end Fuel
