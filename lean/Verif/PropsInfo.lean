import Verif.PropsDict
import Verif.PropsDoc
/-!
# Properties of the functions that tell something about the interpreter and its environment (C68), of `not` (C36) and of `dict-contains-value` (C25)
-/

set_option linter.unusedSectionVars false
set_option linter.unusedSimpArgs false
set_option linter.unusedVariables false

namespace Fuel

open Spec

section
variable [World]

/-- C36: `(not b)` is the negation. -/
theorem C36_not (k : Nat) {p : Ptr} {b : Bool} (sid : Nat) (st : St) (hp : Holds p (IsBool · b)) :
    Returns (callPrim (run k) .not [p] sid) st fun v st' => IsBool v (!b) ∧ Extends st st' := by
  obtain ⟨i, v, rfl, hv⟩ := hp
  refine returns_bool _ ?_ fun _ _ he hi => ⟨hi, he⟩
  simp [callPrim, bNot, ret, checkArgs, argV, arg, toVariant_var, M.rd_apply, boolValue_bool hv]

/-- C25: `(dict-contains-value d v)` for an integer, a truth value or a text `v` tells whether it is stored under some key. -/
theorem C25_contains_value (k : Nat) {d q : Ptr} {id : Nat} {kd : KeyKind} {f : Key → Option Ptr} {o : Obj} (sid : Nat) (st : St)
    (hd : Holds d (IsDictAt · id)) (hm : IsMap st id kd f) (hf : ∀ κ, f κ ≠ some .null) (hq : Holds q fun v => ∃ j, v.value = .mk j o)
    (ho : (∃ x, o = .int x) ∨ (∃ s, o = .str s) ∨ ∃ b, o = .bool b) :
    Returns (callPrim (run k) .dictContainsValue [d, q] sid) st fun u st' => ∃ b, IsBool u b ∧ (b = true ↔ ∃ κ i, f κ = some (.mk i o)) ∧ Extends st st' := by
  obtain ⟨i1, dv, rfl, hd⟩ := hd
  obtain ⟨i2, u, rfl, j, hu⟩ := hq
  obtain ⟨b, h1, h2⟩ := containsValue_ok (st := st) hu ho (st.dicts id) fun e he h => by
    obtain ⟨κ, hκ, -⟩ := hm.keys e he
    exact hf κ ((hm.entries κ .null).2 ⟨e, he, hκ, h⟩)
  refine returns_bool b ?_ fun _ _ he hi => ⟨b, hi, h2.trans ?_, he⟩
  · simp [callPrim, bDictContainsValue, ret, checkArgs, argDict, argV, arg, toVariant_var, dictOf, hd.2, M.rd_apply, h1]
  · constructor
    · rintro ⟨e, he, i, h⟩
      obtain ⟨κ, hκ, -⟩ := hm.keys e he
      exact ⟨κ, i, (hm.entries κ _).2 ⟨e, he, hκ, h⟩⟩
    · rintro ⟨κ, i, h⟩
      obtain ⟨e, he, -, h⟩ := (hm.entries κ _).1 h
      exact ⟨e, he, i, h⟩

/-! ## C68 -/

/-- C68: `(help)` writes and returns the names of all variables of the current scope, one per line, in the order of the names. -/
theorem C68_help (k : Nat) (st : St) (s : Nat) : Returns (callPrim (run k) .help [] s) st fun v st' => ∃ text,
    text = c!"available functions:\n" ++ ((st.scopes s).vars.map fun e => e.1 ++ c!"\n").flatten ∧ IsStr v text ∧ Extends { st with out := st.out ++ text ++ c!"\n" } st' := by
  refine ⟨_, _, rfl, _, rfl, isStr_mk _ _ _ _, ?_⟩
  rw [List.append_assoc]
  exact extends_next _ _ (Nat.le_succ _)

/-- C68: the version. -/
theorem C68_version (k : Nat) (args : List Ptr) (st : St) (s : Nat) :
    (Returns (callPrim (run k) .version args s) st fun v st' => IsStr v c!"v0.99.6" ∧ Extends st st') ∧
    (Returns (callPrim (run k) .fuel args s) st fun v st' => IsStr v c!"fuel version v0.99.6 from 16.12.2023" ∧ Extends st st') :=
  ⟨returns_str _ rfl fun _ _ he hi => ⟨hi, he⟩, returns_str _ rfl fun _ _ he hi => ⟨hi, he⟩⟩

/-- C68: `(tickcount)` is the current reading of the clock of the platform, as a 32-bit number; every call reads the clock once. -/
theorem C68_tickcount (k : Nat) (st : St) (s : Nat) :
    Returns (callPrim (run k) .tickcount [] s) st fun v st' => IsInt v (wrap32 (World.tick st.clock)) ∧ Extends { st with clock := st.clock + 1 } st' := by
  refine ⟨_, _, rfl, isInt_mk _ _ _ _, extends_next _ _ (Nat.le_succ _)⟩

theorem extends_alloc (st : St) (n : Nat) (l : List Ptr) : Extends st { st with next := st.next + n + 1, lists := fset st.lists (st.next + n) l } := by
  constructor <;> simp
  · omega
  · intro i hi
    simp [fset, show i ≠ st.next + n by omega]

/-- C68: `(date-time)` is the list of year, month, day, hour, minute and second of the platform's local time. -/
theorem C68_datetime (k : Nat) (args : List Ptr) (st : St) (s : Nat) {y mo d h mi sec : Int} (ht : World.localtime st.clock = (y, mo, d, h, mi, sec)) :
    Returns (callPrim (run k) .datetime args s) st fun v st' => ∃ ps, IsList st' v ps ∧
      All2 (fun p x => ∃ i, p = Ptr.mk i (.int (wrap32 x))) ps [y, mo, d, h, mi, sec] ∧ Extends { st with clock := st.clock + 1 } st' := by
  refine ⟨⟨.list, .mk (st.next + 6) .list, .none, none⟩, _, ?_, _, ⟨st.next + 6, ⟨rfl, rfl⟩, ?_⟩, .cons ⟨st.next, rfl⟩ (.cons ⟨st.next + 1, rfl⟩ (.cons ⟨st.next + 2, rfl⟩ (.cons ⟨st.next + 3, rfl⟩
    (.cons ⟨st.next + 4, rfl⟩ (.cons ⟨st.next + 5, rfl⟩ .nil))))), extends_alloc { st with clock := st.clock + 1 } 6
      [.mk st.next (.int (wrap32 y)), .mk (st.next + 1) (.int (wrap32 mo)), .mk (st.next + 2) (.int (wrap32 d)), .mk (st.next + 3) (.int (wrap32 h)),
        .mk (st.next + 4) (.int (wrap32 mi)), .mk (st.next + 5) (.int (wrap32 sec))]⟩
  · simp only [callPrim, ret, bDatetime, M.bind_apply, M.get_apply, M.modify_apply, ht, allocObj, mkList, allocList, M.pure_apply]
  · simp

/-- C68: `(platform)` is the list of the name of the operating system, the text `C++` and the word size. -/
theorem C68_platform (k : Nat) (args : List Ptr) (st : St) (s : Nat) :
    Returns (callPrim (run k) .platform args s) st fun v st' => ∃ a b c, IsList st' v [.mk a (.str World.osName), .mk b (.str c!"C++"), .mk c (.str World.wordSize)] ∧ Extends st st' := by
  refine ⟨⟨.list, .mk (st.next + 3) .list, .none, none⟩, _, ?_, st.next, st.next + 1, st.next + 2, ⟨st.next + 3, ⟨rfl, rfl⟩, ?_⟩, extends_alloc st 3
    [.mk st.next (.str World.osName), .mk (st.next + 1) (.str c!"C++"), .mk (st.next + 2) (.str World.wordSize)]⟩
  · simp only [callPrim, ret, bPlatform, M.bind_apply, allocObj, mkList, allocList, M.pure_apply]
  · simp

/-- C68: `(sleep n)`, `(flush)` and `(nop ...)` change nothing. -/
theorem C68_nothing (k : Nat) {p : Ptr} {x : Int} (hp : Holds p (IsInt · x)) (args : List Ptr) (st : St) (s : Nat) :
    callPrim (run k) .sleep [p] s st = .ok (some undefinedV) st ∧ callPrim (run k) .flush [] s st = .ok (some undefinedV) st ∧
    callPrim (run k) .nop args s st = .ok (some undefinedV) st := by
  refine ⟨?_, rfl, rfl⟩
  obtain ⟨i, v, rfl, hv⟩ := hp
  simp [callPrim, bSleep, ret, argMk, arg, mkVariant_var, M.rd_apply, Variant.toInt, hv.1, intValue_int hv]

end

section
attribute [local instance] demoWorld

/-- C68, C36 and C25 for a whole script. -/
example : demoScripts [c!"(println (platform) (date-time) (tickcount) (tickcount) (not (< 2 1))) (def d (make-dict)) (dict-set d 1 \"a\") (println (dict-contains-value d \"a\") (dict-contains-value d 1))"] =
    c!"(linux C++ 64bit) (2020 1 2 3 4 5) 1 2 #t\n#t #f\n" := by decide +kernel

end

end Fuel
