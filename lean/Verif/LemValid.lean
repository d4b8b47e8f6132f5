import Lean.Elab.Tactic
import Verif.LemInv
import Verif.SpecValid
import Verif.LemParse
/-!
# Computations that keep a state valid
-/

set_option linter.unusedSectionVars false
set_option linter.unusedSimpArgs false
set_option linter.unusedVariables false

namespace Fuel

open Spec

set_option synthInstance.maxHeartbeats 20000

/-- A layout whose objects are fine, and a part of the state that must stay as it is in the state `old`; the layout knows nothing about this part. -/
structure Lay where
  k : Layout
  objs : ∀ i o, k i = some (.obj o) → ObjOk k o
  frozen : Nat → Prop
  old : St
  apart : ∀ i, frozen i → k i = none

/-- The layout without a frozen part. -/
def Lay.all (L : Layout) (h : ∀ i o, L i = some (.obj o) → ObjOk L o) (st : St) : Lay := ⟨L, h, fun _ => False, st, fun _ h => h.elim⟩

/-- Growth of layouts. -/
structure Ext (w w' : Lay) : Prop where
  grows : w.k.Grows w'.k
  frozen : w'.frozen = w.frozen
  old : w'.old = w.old

theorem Ext.refl (w : Lay) : Ext w w := ⟨fun _ _ h => h, rfl, rfl⟩
theorem Ext.trans {a b c : Lay} (h : Ext a b) (g : Ext b c) : Ext a c :=
  ⟨fun i k e => g.grows i k (h.grows i k e), g.frozen.trans h.frozen, g.old.trans h.old⟩

theorem refOk_mono {L L' : Layout} (h : L.Grows L') {p : Ptr} (hp : RefOk L p) : RefOk L' p := by
  cases p with
  | null => trivial
  | mk i o => exact h i _ hp
theorem valueOk_mono {L L' : Layout} (h : L.Grows L') {v : Variant} (hp : ValueOk L v) : ValueOk L' v := ⟨refOk_mono h hp.1, hp.2⟩
theorem fnOk_mono {L L' : Layout} (h : L.Grows L') {f : FnW} (hp : FnOk L f) : FnOk L' f := fun c e => h c _ (hp c e)
theorem objOk_mono {L L' : Layout} (h : L.Grows L') {o : Obj} (hp : ObjOk L o) : ObjOk L' o := by
  cases o <;> simp only [ObjOk] at *
  · exact hp
  · exact fnOk_mono h hp
  · exact refOk_mono h hp
  · exact h _ _ hp
  · exact ⟨h _ _ hp.1, h _ _ hp.2⟩
  · exact ⟨h _ _ hp.1, h _ _ hp.2⟩
  · exact valueOk_mono h hp
theorem scopeOk_mono {L L' : Layout} (h : L.Grows L') {sc : Scope} (g : ScopeOk L sc) : ScopeOk L' sc :=
  ⟨g.names, fun e he => refOk_mono h (g.vars e he), h _ _ g.global, fun c e => h _ _ (g.closure c e), fun c e => h _ _ (g.next c e),
    fun c e => h _ _ (g.prev c e)⟩

/-- The number stands for something of this kind. -/
class Is (w : Lay) (i : Nat) (k : Kind) : Prop where
  ok : w.k i = some k

theorem Is.mono {w w' : Lay} {i : Nat} {k : Kind} (h : Ext w w') (g : Is w i k) : Is w' i k := ⟨h.grows i k g.ok⟩

/-- The content of a token agrees with its type. -/
structure TokOk (t : Token) : Prop where
  int : ∀ x, t.value = .int x → IsInt32 x
  sym : t.type = .symbol → ∃ s, t.value = .str s

/-- All tokens in a parse tree are fine. -/
inductive SxOk : Sx → Prop
  | atom {t} : TokOk t → SxOk (.atom t)
  | sym {n} : SxOk (.sym n)
  | list {l} : (∀ x ∈ l, SxOk x) → SxOk (.list l)

/-- What it means for a result to be fine. -/
class HasGood (α : Type) where
  good : Lay → α → Prop
  mono : ∀ {w w' a}, Ext w w' → good w a → good w' a

/-- The result is fine. -/
class Good {α : Type} [HasGood α] (w : Lay) (a : α) : Prop where
  ok : HasGood.good w a

theorem Good.mono {α : Type} [HasGood α] {w w' : Lay} {a : α} (h : Ext w w') (g : Good w a) : Good w' a := ⟨HasGood.mono h g.ok⟩

/-- Nothing to say. -/
@[instance_reducible] def trivialGood (α : Type) : HasGood α := ⟨fun _ _ => True, fun _ _ => trivial⟩

instance : HasGood Str := trivialGood _
instance : HasGood Bool := trivialGood _
instance : HasGood Nat := trivialGood _
instance : HasGood Unit := trivialGood _
instance : HasGood Dbl := trivialGood _
/-- Types about which there is nothing to say. -/
class TrivGood (α : Type) [HasGood α] : Prop where
  ok : ∀ w (a : α), HasGood.good w a

instance : TrivGood Str := ⟨fun _ _ => trivial⟩
instance : TrivGood Bool := ⟨fun _ _ => trivial⟩
instance : TrivGood Nat := ⟨fun _ _ => trivial⟩
instance : TrivGood Unit := ⟨fun _ _ => trivial⟩
instance : TrivGood Dbl := ⟨fun _ _ => trivial⟩
instance {α : Type} [HasGood α] [TrivGood α] (w : Lay) (x : α) : Good w x := ⟨TrivGood.ok w x⟩

instance : HasGood Char := trivialGood _
instance : TrivGood Char := ⟨fun _ _ => trivial⟩
instance : HasGood TS := trivialGood _
instance : TrivGood TS := ⟨fun _ _ => trivial⟩
instance : HasGood Token := ⟨fun _ x => TokOk x, fun _ h => h⟩
instance : HasGood Sx := ⟨fun _ x => SxOk x, fun _ h => h⟩
instance : HasGood Int := ⟨fun _ x => IsInt32 x, fun _ h => h⟩
instance : HasGood Ptr := ⟨fun w p => RefOk w.k p, fun h g => refOk_mono h.grows g⟩
instance : HasGood Variant := ⟨fun w v => ValueOk w.k v, fun h g => valueOk_mono h.grows g⟩
instance : HasGood FnW := ⟨fun w v => FnOk w.k v, fun h g => fnOk_mono h.grows g⟩
instance : HasGood Scope := ⟨fun w v => ScopeOk w.k v, fun h g => scopeOk_mono h.grows g⟩
instance : HasGood Closure := ⟨fun w c => (∀ p ∈ c.args, RefOk w.k p) ∧ w.k c.scope = some .scope,
  fun h g => ⟨fun p hp => refOk_mono h.grows (g.1 p hp), h.grows _ _ g.2⟩⟩
instance {α β : Type} [HasGood α] [HasGood β] : HasGood (α × β) :=
  ⟨fun w x => HasGood.good w x.1 ∧ HasGood.good w x.2, fun h g => ⟨HasGood.mono h g.1, HasGood.mono h g.2⟩⟩
instance {α : Type} [HasGood α] : HasGood (Option α) :=
  ⟨fun w x => ∀ a, x = some a → HasGood.good w a, fun h g a e => HasGood.mono h (g a e)⟩
instance {α : Type} [HasGood α] : HasGood (List α) :=
  ⟨fun w x => ∀ a ∈ x, HasGood.good w a, fun h g a e => HasGood.mono h (g a e)⟩
instance {α β : Type} [HasGood α] [HasGood β] [TrivGood α] [TrivGood β] : TrivGood (α × β) := ⟨fun w x => ⟨TrivGood.ok w x.1, TrivGood.ok w x.2⟩⟩
instance {α : Type} [HasGood α] [TrivGood α] : TrivGood (Option α) := ⟨fun w _ a _ => TrivGood.ok w a⟩
instance {α : Type} [HasGood α] [TrivGood α] : TrivGood (List α) := ⟨fun w _ a _ => TrivGood.ok w a⟩

section
variable {α β : Type} [HasGood α] [HasGood β] {w : Lay}

instance : Good w (none : Option α) := ⟨fun _ h => by cases h⟩
instance (a : α) [h : Good w a] : Good w (some a) := ⟨fun _ e => by cases e; exact h.ok⟩
theorem Good.some_inv {a : α} (h : Good w (some a)) : Good w a := ⟨h.ok a rfl⟩
instance : Good w ([] : List α) := ⟨fun _ h => by cases h⟩
instance (a : α) (l : List α) [h : Good w a] [g : Good w l] : Good w (a :: l) :=
  ⟨fun b hb => by
    rcases List.mem_cons.1 hb with rfl | hb
    · exact h.ok
    · exact g.ok b hb⟩
theorem Good.head {a : α} {l : List α} (h : Good w (a :: l)) : Good w a := ⟨h.ok a (List.mem_cons_self ..)⟩
theorem Good.tail {a : α} {l : List α} (h : Good w (a :: l)) : Good w l := ⟨fun b hb => h.ok b (List.mem_cons_of_mem _ hb)⟩
theorem Good.mem {a : α} {l : List α} (h : Good w l) (ha : a ∈ l) : Good w a := ⟨h.ok a ha⟩
theorem Good.sub {l m : List α} (h : Good w l) (hs : ∀ x ∈ m, x ∈ l) : Good w m := ⟨fun b hb => h.ok b (hs b hb)⟩
instance (l m : List α) [h : Good w l] [g : Good w m] : Good w (l ++ m) :=
  ⟨fun b hb => by
    rcases List.mem_append.1 hb with hb | hb
    · exact h.ok b hb
    · exact g.ok b hb⟩
instance (l : List α) (n : Nat) [h : Good w l] : Good w (l.take n) := h.sub fun _ => List.mem_of_mem_take
instance (l : List α) (n : Nat) [h : Good w l] : Good w (l.drop n) := h.sub fun _ => List.mem_of_mem_drop
instance (l : List α) [h : Good w l] : Good w l.reverse := h.sub fun _ => List.mem_reverse.1
instance (l : List α) (n : Nat) (a : α) [h : Good w l] [g : Good w a] : Good w (l.set n a) :=
  ⟨fun b hb => by
    rcases List.mem_or_eq_of_mem_set hb with hb | rfl
    · exact h.ok b hb
    · exact g.ok⟩
theorem Good.get {l : List α} {n : Nat} {a : α} (h : Good w l) (e : l[n]? = some a) : Good w a := h.mem (List.mem_of_getElem? e)
theorem Good.last {l : List α} {a : α} (h : Good w l) (e : l.getLast? = some a) : Good w a := h.mem (List.mem_of_getLast? e)
instance (a : α) (b : β) [h : Good w a] [g : Good w b] : Good w (a, b) := ⟨⟨h.ok, g.ok⟩⟩
instance (l : List α) (n : Nat) [h : Good w l] : Good w l[n]? := ⟨fun a e => (h.get e).ok⟩
instance (l : List α) [h : Good w l] : Good w l.getLast? := ⟨fun a e => (h.last e).ok⟩
instance (c : Prop) [Decidable c] (a b : α) [h : Good w a] [g : Good w b] : Good w (if c then a else b) := by split <;> assumption
theorem Good.of_eq {a b : α} (e : a = b) (h : Good w a) : Good w b := e ▸ h
theorem Good.fst {x : α × β} (h : Good w x) : Good w x.1 := ⟨h.ok.1⟩
theorem Good.snd {x : α × β} (h : Good w x) : Good w x.2 := ⟨h.ok.2⟩
theorem Good.left {a : α} {b : β} (h : Good w (a, b)) : Good w a := ⟨h.ok.1⟩
theorem Good.right {a : α} {b : β} (h : Good w (a, b)) : Good w b := ⟨h.ok.2⟩
end

section
variable {w : Lay}

instance : Good w Ptr.null := ⟨trivial⟩
instance (i : Nat) (o : Obj) [h : Is w i (.obj o)] : Good w (Ptr.mk i o) := ⟨h.ok⟩
theorem Good.is {i : Nat} {o : Obj} (h : Good w (Ptr.mk i o)) : Is w i (.obj o) := ⟨h.ok⟩
theorem Is.var {i : Nat} {v : Variant} (h : Is w i (.obj (.var v))) : Good w v := ⟨w.objs i _ h.ok⟩
theorem Is.fn {i : Nat} {v : FnW} (h : Is w i (.obj (.fn v))) : Good w v := ⟨w.objs i _ h.ok⟩
theorem Is.lval {i : Nat} {p : Ptr} {k : LKind} (h : Is w i (.obj (.lval p k))) : Good w p := ⟨w.objs i _ h.ok⟩
theorem Is.scope {i s : Nat} (h : Is w i (.obj (.scope s))) : Is w s .scope := ⟨w.objs i _ h.ok⟩
theorem Is.int {i : Nat} {x : Int} (h : Is w i (.obj (.int x))) : Good w x := ⟨w.objs i _ h.ok⟩
theorem Is.rt1 {i a b : Nat} (h : Is w i (.obj (.macroRt a b))) : Is w a .vec := ⟨(w.objs i _ h.ok).1⟩
theorem Is.rt2 {i a b : Nat} (h : Is w i (.obj (.macroRt a b))) : Is w b .vec := ⟨(w.objs i _ h.ok).2⟩
theorem Is.ct1 {i a b : Nat} (h : Is w i (.obj (.macroCt a b))) : Is w a .vec := ⟨(w.objs i _ h.ok).1⟩
theorem Is.ct2 {i a b : Nat} (h : Is w i (.obj (.macroCt a b))) : Is w b .vec := ⟨(w.objs i _ h.ok).2⟩
theorem Good.value {v : Variant} (h : Good w v) : Good w v.value := ⟨h.ok.1⟩
theorem Good.tagged {v : Variant} (h : Good w v) : Tagged v := h.ok.2
theorem Good.unq {v : Variant} (u : Unq) (h : Good w v) : Good w { v with unq := u } := ⟨⟨h.ok.1, h.ok.2⟩⟩
theorem Good.int32 (w : Lay) {x : Int} (h : IsInt32 x) : Good w x := ⟨h⟩
instance (x : Int) : Good w (wrap32 x) := ⟨wrap32_range x⟩
instance (t : LispType) : Good w t.code := ⟨show IsInt32 _ by cases t <;> decide⟩
instance (b : Bool) : Good w (if b then 1 else 0 : Int) := ⟨show IsInt32 _ by cases b <;> decide⟩
instance : Good w (0 : Int) := ⟨show IsInt32 _ by decide⟩
instance : Good w (1 : Int) := ⟨show IsInt32 _ by decide⟩
instance : Good w (-1 : Int) := ⟨show IsInt32 _ by decide⟩
instance (u t) : Good w (⟨.nil, .null, u, t⟩ : Variant) := ⟨⟨trivial, trivial⟩⟩
instance : Good w (Variant.ofType .nil) := ⟨⟨trivial, trivial⟩⟩
instance : Good w nilV := ⟨⟨trivial, trivial⟩⟩
instance : Good w undefinedV := ⟨⟨trivial, trivial⟩⟩
instance (i u t) [h : Is w i (.obj .list)] : Good w (⟨.list, .mk i .list, u, t⟩ : Variant) := ⟨⟨h.ok, _, rfl⟩⟩
instance (i s u t) [h : Is w i (.obj (.str s))] : Good w (⟨.string, .mk i (.str s), u, t⟩ : Variant) := ⟨⟨h.ok, _, _, rfl⟩⟩
instance (i s u t) [h : Is w i (.obj (.str s))] : Good w (⟨.symbol, .mk i (.str s), u, t⟩ : Variant) := ⟨⟨h.ok, _, _, rfl⟩⟩
instance (i s) [h : Is w i (.obj (.str s))] : Good w (Variant.ofType .symbol (.mk i (.str s)) : Variant) := ⟨⟨h.ok, _, _, rfl⟩⟩
instance (i s) [h : Is w i (.obj (.str s))] : Good w (Variant.ofType .error (.mk i (.str s)) : Variant) := ⟨⟨h.ok, _, _, rfl⟩⟩
instance (i) [h : Is w i (.obj .dict)] : Good w (Variant.ofType .native (.mk i .dict) : Variant) := ⟨⟨h.ok, _, rfl⟩⟩
instance (i f) [h : Is w i (.obj (.fn f))] : Good w (Variant.ofType .function (.mk i (.fn f)) : Variant) := ⟨⟨h.ok, _, _, rfl⟩⟩
instance (i t k) [h : Is w i (.obj (.lval t k))] : Good w (Variant.ofType .lvalue (.mk i (.lval t k)) : Variant) := ⟨⟨h.ok, _, _, _, rfl⟩⟩
theorem good_tagged {i : Nat} {o : Obj} {u t} (h : Is w i (.obj o)) (hv : ∀ v, o ≠ .var v) : Good w (⟨o.lispType, .mk i o, u, t⟩ : Variant) :=
  ⟨⟨h.ok, by cases o <;> simp [Obj.lispType, Tagged] at *⟩⟩

theorem Good.vars {sc : Scope} (h : Good w sc) : Good w sc.vars := ⟨fun e he => ⟨trivial, h.ok.vars e he⟩⟩
theorem Good.global {sc : Scope} (h : Good w sc) : Is w sc.global .scope := ⟨h.ok.global⟩
theorem Good.cargs {c : Closure} (h : Good w c) : Good w c.args := ⟨h.ok.1⟩
theorem Good.cscope {c : Closure} (h : Good w c) : Is w c.scope .scope := ⟨h.ok.2⟩

/-- The number, if there is one, stands for a scope. -/
class IsO (w : Lay) (o : Option Nat) : Prop where
  ok : ∀ c, o = some c → Is w c .scope

theorem IsO.mono {w w' : Lay} {o : Option Nat} (h : Ext w w') (g : IsO w o) : IsO w' o := ⟨fun c e => (g.ok c e).mono h⟩
theorem IsO.some_inv {c : Nat} {o : Option Nat} (e : o = some c) (g : IsO w o) : Is w c .scope := g.ok c e
theorem Good.closure {sc : Scope} (h : Good w sc) : IsO w sc.closure := ⟨fun c e => ⟨h.ok.closure c e⟩⟩
theorem Good.next {sc : Scope} (h : Good w sc) : IsO w sc.next := ⟨fun c e => ⟨h.ok.next c e⟩⟩

/-- The content of a new object is fine. -/
class GoodObj (w : Lay) (o : Obj) : Prop where
  ok : ObjOk w.k o

instance : GoodObj w .undef := ⟨trivial⟩
instance (b) : GoodObj w (.bool b) := ⟨trivial⟩
instance (x) [h : Good w x] : GoodObj w (.int x) := ⟨h.ok⟩
instance (b) : GoodObj w (.dbl b) := ⟨trivial⟩
instance (b) : GoodObj w (.str b) := ⟨trivial⟩
instance : GoodObj w .list := ⟨trivial⟩
instance : GoodObj w .dict := ⟨trivial⟩
instance (f) [h : Good w f] : GoodObj w (.fn f) := ⟨h.ok⟩
instance (p k) [h : Good w p] : GoodObj w (.lval p k) := ⟨h.ok⟩
instance (s) [h : Is w s .scope] : GoodObj w (.scope s) := ⟨h.ok⟩
instance (a b) [h : Is w a .vec] [g : Is w b .vec] : GoodObj w (.macroRt a b) := ⟨⟨h.ok, g.ok⟩⟩
instance (a b) [h : Is w a .vec] [g : Is w b .vec] : GoodObj w (.macroCt a b) := ⟨⟨h.ok, g.ok⟩⟩
instance (v) [h : Good w v] : GoodObj w (.var v) := ⟨h.ok⟩

end

/-! ## Computations -/

variable [World]

/-- The state agrees with the layout, and the frozen part is as it was. -/
structure LayOk (w : Lay) (st : St) : Prop where
  fresh : ∀ i, st.next ≤ i → w.k i = none
  blank : ∀ i, st.next ≤ i → st.lists i = [] ∧ st.dicts i = []
  lists : ∀ i, w.k i = some (.obj .list) ∨ w.k i = some .vec → ∀ p ∈ st.lists i, RefOk w.k p
  dicts : ∀ i, w.k i = some (.obj .dict) → ∀ e ∈ st.dicts i, ValueOk w.k e.1 ∧ RefOk w.k e.2
  clos : ∀ i, w.k i = some .closure → (∀ p ∈ (st.clos i).args, RefOk w.k p) ∧ w.k (st.clos i).scope = some .scope
  scopes : ∀ i, w.k i = some .scope → ScopeOk w.k (st.scopes i)
  frame : ∀ i, w.frozen i → i < st.next ∧ st.lists i = w.old.lists i ∧ st.dicts i = w.old.dicts i ∧ st.clos i = w.old.clos i ∧ st.scopes i = w.old.scopes i

/-- The state agrees with the layout. -/
class Ok (w : Lay) (s : St) : Prop where
  ok : LayOk w s

theorem Ok.state {w : Lay} {s : St} (h : Ok w s) : StateOk w.k s :=
  ⟨h.ok.fresh, h.ok.blank, w.objs, h.ok.lists, h.ok.dicts, h.ok.clos, h.ok.scopes⟩
theorem Ok.of_state {L : Layout} {s : St} (h : StateOk L s) : Ok (Lay.all L h.objs s) s :=
  ⟨⟨h.fresh, h.blank, h.lists, h.dicts, h.clos, h.scopes, fun _ h => h.elim⟩⟩
theorem Is.lt {w : Lay} {i : Nat} {k : Kind} {s : St} (h : Is w i k) (hs : Ok w s) : i < s.next := Nat.lt_of_not_le fun hn => by
  have := hs.ok.fresh i hn; rw [h.ok] at this; cases this
theorem Is.warm {w : Lay} {i : Nat} {k : Kind} (h : Is w i k) : ¬ w.frozen i := fun hf => by
  have := w.apart i hf; rw [h.ok] at this; cases this

/-- The computation keeps the state valid and its result is fine. -/
class Safe {α : Type} [HasGood α] (w : Lay) (m : M α) : Prop where
  ok : ∀ s, Ok w s → match m s with
    | .ok a s' => ∃ w', Ext w w' ∧ Ok w' s' ∧ Good w' a
    | .fail _ s' => ∃ w', Ext w w' ∧ Ok w' s'

/-- The result of a computation that reads the state is fine. -/
class RGood {α : Type} [HasGood α] (w : Lay) (r : R α) : Prop where
  ok : ∀ a, r = .ok a → Good w a

section
variable {α β : Type} [HasGood α] [HasGood β] {w : Lay}

instance RGood.pure (a : α) [h : Good w a] : RGood w (.ok a : R α) := ⟨fun _ e => by cases e; exact h⟩
instance (f : Fail) : RGood w (.error f : R α) := ⟨fun _ e => by cases e⟩
instance (u : UB) : RGood w (R.ub u : R α) := ⟨fun _ e => by cases e⟩
instance (m : Str) : RGood w (throwBase m : R α) := ⟨fun _ e => by cases e⟩
theorem RGood.of_eq {a : α} {r : R α} (e : r = .ok a) (h : RGood w r) : Good w a := h.ok a e
theorem RGood.bind {m : R α} {k : α → R β} (h : RGood w m) (hk : ∀ a, Good w a → RGood w (k a)) : RGood w (m >>= k) := ⟨fun b e => by
  cases m with
  | error f => cases e
  | ok a => exact (hk a (h.ok a rfl)).ok b e⟩
theorem RGood.bind' {γ : Type} {m : R γ} {k : γ → R β} (hk : ∀ a, m = .ok a → RGood w (k a)) : RGood w (m >>= k) := ⟨fun b e => by
  cases m with
  | error f => cases e
  | ok a => exact (hk a rfl).ok b e⟩
instance [TrivGood α] (r : R α) : RGood w r := ⟨fun _ _ => inferInstance⟩

instance Safe.pure (a : α) [h : Good w a] : Safe w (Pure.pure a : M α) := ⟨fun s hs => ⟨w, .refl w, hs, h⟩⟩
instance (f : Fail) : Safe w (M.fail f : M α) := ⟨fun s hs => ⟨w, .refl w, hs⟩⟩
instance (u : UB) : Safe w (ub u : M α) := ⟨fun s hs => ⟨w, .refl w, hs⟩⟩
instance (m : Str) (sid : Nat) : Safe w (throwScope m sid : M α) := ⟨fun s hs => ⟨w, .refl w, hs⟩⟩
instance (m : Str) (t : Option Token) (sid : Nat) : Safe w (throwTok m t sid : M α) := ⟨fun s hs => ⟨w, .refl w, hs⟩⟩
theorem Safe.rd' (g : St → R α) (h : ∀ s, Ok w s → RGood w (g s)) : Safe w (M.rd g) := ⟨fun s hs => by
  rw [M.rd_apply]
  have := h s hs
  cases hg : g s with
  | ok a => exact ⟨w, .refl w, hs, this.ok a hg⟩
  | error f => exact ⟨w, .refl w, hs⟩⟩
instance Safe.lift (r : R α) [h : RGood w r] : Safe w (M.lift r) := Safe.rd' _ fun _ _ => h
theorem Safe.get' (g : St → α) (h : ∀ s, Ok w s → Good w (g s)) : Safe w (M.get g) := ⟨fun s hs => ⟨w, .refl w, hs, h s hs⟩⟩

theorem Safe.bind {m : M α} {k : α → M β} (h : Safe w m) (hk : ∀ w' a, Ext w w' → Good w' a → Safe w' (k a)) : Safe w (m >>= k) := ⟨fun s hs => by
  have := h.ok s hs
  rw [M.bind_apply]
  cases hm : m s with
  | fail f s' => rw [hm] at this; exact this
  | ok a s' =>
    rw [hm] at this
    obtain ⟨w', h1, h2, h3⟩ := this
    have := (hk w' a h1 h3).ok s' h2
    show match k a s' with | .ok _ _ => _ | .fail _ _ => _
    cases hk : k a s' with
    | ok b s2 =>
      rw [hk] at this
      obtain ⟨w2, h4, h5, h6⟩ := this
      exact ⟨w2, h1.trans h4, h5, h6⟩
    | fail f s2 =>
      rw [hk] at this
      obtain ⟨w2, h4, h5⟩ := this
      exact ⟨w2, h1.trans h4, h5⟩⟩

/-- Reading from the state. -/
theorem Safe.get_bind {γ : Type} {g : St → γ} {k : γ → M β} (h : ∀ s, Ok w s → Safe w (k (g s))) : Safe w (M.get g >>= k) :=
  ⟨fun s hs => (h s hs).ok s hs⟩
/-- Reading from the state. -/
theorem Safe.rd_bind {γ : Type} {g : St → R γ} {k : γ → M β} (h : ∀ s a, Ok w s → g s = .ok a → Safe w (k a)) : Safe w (M.rd g >>= k) :=
  ⟨fun s hs => by
    rw [M.bind_apply, M.rd_apply]
    cases hg : g s with
    | ok a => exact (h s a hs hg).ok s hs
    | error f => exact ⟨w, .refl w, hs⟩⟩

/-- The layout with one more entry. -/
def Lay.add (w : Lay) (i : Nat) (k : Kind) (hi : w.k i = none ∧ ¬ w.frozen i) (hk : ∀ o, k = .obj o → ObjOk w.k o) : Lay where
  k := fun j => if j = i then some k else w.k j
  frozen := w.frozen
  old := w.old
  apart := fun j hj => by
    by_cases e : j = i
    · subst e; exact (hi.2 hj).elim
    · simpa [e] using w.apart j hj
  objs := by
    have hg : Layout.Grows w.k (fun j => if j = i then some k else w.k j) := fun j k' h => by
      by_cases e : j = i
      · subst e; rw [hi.1] at h; cases h
      · simpa [e] using h
    intro j o h
    by_cases e : j = i
    · subst e
      simp at h
      exact objOk_mono hg (hk o h)
    · simp [e] at h
      exact objOk_mono hg (w.objs j o h)

theorem Lay.add_ext {w : Lay} {i : Nat} {k : Kind} {hi hk} : Ext w (w.add i k hi hk) := by
  refine ⟨fun j k' h => ?_, rfl, rfl⟩
  by_cases e : j = i
  · subst e; rw [hi.1] at h; cases h
  · simpa [Lay.add, e] using h
theorem Lay.add_is {w : Lay} {i : Nat} {k : Kind} {hi hk} : Is (w.add i k hi hk) i k := ⟨by simp [Lay.add]⟩

/-- A new list or dictionary has no elements yet. -/
theorem Lay.add_lists {w : Lay} {s : St} {k : Kind} {hi hk} (hb : s.lists s.next = []) (h : ∀ i, w.k i = some (.obj .list) ∨ w.k i = some .vec → ∀ p ∈ s.lists i, RefOk w.k p)
    (i : Nat) (hc : (w.add s.next k hi hk).k i = some (.obj .list) ∨ (w.add s.next k hi hk).k i = some .vec) : ∀ p ∈ s.lists i, RefOk (w.add s.next k hi hk).k p := by
  by_cases e : i = s.next
  · subst e; rw [hb]; simp
  · have hc : w.k i = some (.obj .list) ∨ w.k i = some .vec := by simpa [Lay.add, e] using hc
    exact fun p hp => refOk_mono Lay.add_ext.grows (h i hc p hp)
theorem Lay.add_dicts {w : Lay} {s : St} {k : Kind} {hi hk} (hb : s.dicts s.next = []) (h : ∀ i, w.k i = some (.obj .dict) → ∀ e ∈ s.dicts i, ValueOk w.k e.1 ∧ RefOk w.k e.2)
    (i : Nat) (hc : (w.add s.next k hi hk).k i = some (.obj .dict)) :
    ∀ e ∈ s.dicts i, ValueOk (w.add s.next k hi hk).k e.1 ∧ RefOk (w.add s.next k hi hk).k e.2 := by
  by_cases e : i = s.next
  · subst e; rw [hb]; simp
  · have hc : w.k i = some (.obj .dict) := by simpa [Lay.add, e] using hc
    exact fun p hp => ⟨valueOk_mono Lay.add_ext.grows (h i hc p hp).1, refOk_mono Lay.add_ext.grows (h i hc p hp).2⟩

theorem Lay.add_inv {w : Lay} {i j : Nat} {k k' : Kind} {hi hk} (h : (w.add i k hi hk).k j = some k') (hn : k ≠ k') : w.k j = some k' := by
  by_cases e : j = i
  · subst e; simp [Lay.add, hn] at h
  · simpa [Lay.add, e] using h

/-- A new object, vector. -/
theorem Ok.add {s : St} {k : Kind} {hk} (h : Ok w s) (h1 : k ≠ .closure) (h2 : k ≠ .scope) {hi} :
    Ok (w.add s.next k hi hk) { s with next := s.next + 1 } := by
  have hx : Layout.Grows w.k (w.add s.next k hi hk).k := Lay.add_ext.grows
  refine ⟨⟨fun i hn => ?_, fun i hn => h.ok.blank i (Nat.le_of_succ_le hn), Lay.add_lists (h.ok.blank _ (Nat.le_refl _)).1 h.ok.lists,
    Lay.add_dicts (h.ok.blank _ (Nat.le_refl _)).2 h.ok.dicts, fun i hc => ?_, fun i hc => ?_, fun i hi => ?_⟩⟩
  · have : s.next + 1 ≤ i := hn
    simp [Lay.add, show i ≠ s.next by omega, h.ok.fresh i (by omega)]
  · have := h.ok.clos i (Lay.add_inv hc h1)
    exact ⟨fun p hp => refOk_mono hx (this.1 p hp), hx _ _ this.2⟩
  · exact scopeOk_mono hx (h.ok.scopes i (Lay.add_inv hc h2))
  · have := h.ok.frame i hi
    exact ⟨Nat.lt_succ_of_lt this.1, this.2⟩

theorem Ok.setList {s : St} (h : Ok w s) {i : Nat} (hn : i < s.next) {l : List Ptr} (hi : ¬ w.frozen i) (g : Good w l) : Ok w { s with lists := fset s.lists i l } := by
  refine ⟨⟨h.ok.fresh, fun j hj => ?_, fun j hj p hp => ?_, h.ok.dicts, h.ok.clos, h.ok.scopes, fun j hj => ?_⟩⟩
  · have e : j ≠ i := Nat.ne_of_gt (Nat.lt_of_lt_of_le hn hj)
    simp only [fset_ne _ _ e]
    exact h.ok.blank j hj
  · by_cases e : j = i
    · subst e; simp only [fset_self] at hp; exact (g.mem hp).ok
    · simp only [fset_ne _ _ e] at hp; exact h.ok.lists j hj p hp
  · have e : j ≠ i := fun e => hi (e ▸ hj)
    simp only [fset_ne _ _ e]
    exact h.ok.frame j hj
theorem Ok.setDict {s : St} (h : Ok w s) {i : Nat} (hn : i < s.next) {l : List (Variant × Ptr)} (hi : ¬ w.frozen i) (g : Good w l) : Ok w { s with dicts := fset s.dicts i l } := by
  refine ⟨⟨h.ok.fresh, fun j hj => ?_, h.ok.lists, fun j hj p hp => ?_, h.ok.clos, h.ok.scopes, fun j hj => ?_⟩⟩
  · have e : j ≠ i := Nat.ne_of_gt (Nat.lt_of_lt_of_le hn hj)
    simp only [fset_ne _ _ e]
    exact h.ok.blank j hj
  · by_cases e : j = i
    · subst e; simp only [fset_self] at hp; exact (g.mem hp).ok
    · simp only [fset_ne _ _ e] at hp; exact h.ok.dicts j hj p hp
  · have e : j ≠ i := fun e => hi (e ▸ hj)
    simp only [fset_ne _ _ e]
    exact h.ok.frame j hj

instance goodList (s : St) [h : Ok w s] (i : Nat) [g : Is w i (.obj .list)] : Good w (s.lists i) := ⟨h.ok.lists i (.inl g.ok)⟩
instance goodVec (s : St) [h : Ok w s] (i : Nat) [g : Is w i .vec] : Good w (s.lists i) := ⟨h.ok.lists i (.inr g.ok)⟩
instance goodDict (s : St) [h : Ok w s] (i : Nat) [g : Is w i (.obj .dict)] : Good w (s.dicts i) := ⟨h.ok.dicts i g.ok⟩
instance (s : St) [h : Ok w s] (i : Nat) [g : Is w i .scope] : Good w (s.scopes i) := ⟨h.ok.scopes i g.ok⟩
instance (s : St) [h : Ok w s] (i : Nat) [g : Is w i .closure] : Good w (s.clos i) := ⟨h.ok.clos i g.ok⟩
instance (s : St) [h : Ok w s] (i : Nat) [g : Is w i .scope] : Good w (s.scopes i).vars := Good.vars inferInstance
instance (s : St) [h : Ok w s] (i : Nat) [g : Is w i .scope] : Is w (s.scopes i).global .scope := Good.global inferInstance
instance (s : St) [h : Ok w s] (i : Nat) [g : Is w i .scope] : IsO w (s.scopes i).closure := Good.closure inferInstance
instance (s : St) [h : Ok w s] (i : Nat) [g : Is w i .scope] : IsO w (s.scopes i).next := Good.next inferInstance
theorem Ok.fresh {s : St} (h : Ok w s) : w.k s.next = none ∧ ¬ w.frozen s.next :=
  ⟨h.ok.fresh _ (Nat.le_refl _), fun hf => Nat.lt_irrefl _ (h.ok.frame _ hf).1⟩

theorem good_fset {α : Type} [HasGood α] {f : Nat → α} {k : Nat} {a : α} (h : ∀ i, Good w (f i)) (ha : Good w a) (i : Nat) : Good w (fset f k a i) := by
  by_cases e : i = k
  · subst e; simpa using ha
  · simpa [fset, e] using h i

theorem Safe.allocObj_bind {o : Obj} {k : Ptr → M β} (h : GoodObj w o)
    (hk : ∀ w' i, Ext w w' → Is w' i (.obj o) → Safe w' (k (.mk i o))) : Safe w (allocObj o >>= k) := ⟨fun s hs => by
  have h1 : Ext w (w.add s.next (.obj o) hs.fresh fun _ e => by cases e; exact h.ok) := Lay.add_ext
  have h2 : Ok (w.add s.next (.obj o) hs.fresh fun _ e => by cases e; exact h.ok) { s with next := s.next + 1 } := hs.add (by simp) (by simp)
  have := (hk _ s.next h1 Lay.add_is).ok _ h2
  rw [M.bind_apply, allocObj_apply]
  show match k (.mk s.next o) _ with | .ok _ _ => _ | .fail _ _ => _
  cases hm : k (.mk s.next o) { s with next := s.next + 1 } with
  | ok a s' => rw [hm] at this; obtain ⟨w', a, b, c⟩ := this; exact ⟨w', h1.trans a, b, c⟩
  | fail f s' => rw [hm] at this; obtain ⟨w', a, b⟩ := this; exact ⟨w', h1.trans a, b⟩⟩

/-- Binding with a stronger property of the result. -/
theorem Safe.bind_post {γ : Type} {m : M γ} {k : γ → M β} (Q : Lay → γ → Prop)
    (h : ∀ s, Ok w s → match m s with
      | .ok a s' => ∃ w', Ext w w' ∧ Ok w' s' ∧ Q w' a
      | .fail _ s' => ∃ w', Ext w w' ∧ Ok w' s')
    (hk : ∀ w' a, Ext w w' → Q w' a → Safe w' (k a)) : Safe w (m >>= k) := ⟨fun s hs => by
  have := h s hs
  rw [M.bind_apply]
  cases hm : m s with
  | fail f s' => rw [hm] at this; exact this
  | ok a s' =>
    rw [hm] at this
    obtain ⟨w', h1, h2, h3⟩ := this
    have := (hk w' a h1 h3).ok s' h2
    show match k a s' with | .ok _ _ => _ | .fail _ _ => _
    cases hk : k a s' with
    | ok b s2 =>
      rw [hk] at this
      obtain ⟨w2, h4, h5, h6⟩ := this
      exact ⟨w2, h1.trans h4, h5, h6⟩
    | fail f s2 =>
      rw [hk] at this
      obtain ⟨w2, h4, h5⟩ := this
      exact ⟨w2, h1.trans h4, h5⟩⟩

theorem Safe.box_bind {v : Variant} {k : Ptr → M β} (h : Good w v)
    (hk : ∀ w' i, Ext w w' → Is w' i (.obj (.var v)) → Safe w' (k (.mk i (.var v)))) : Safe w (box v >>= k) :=
  Safe.allocObj_bind inferInstance hk

theorem Ext.good {w w' : Lay} {a : α} (h : Ext w w') [g : Good w a] : Good w' a := g.mono h

theorem Safe.allocList_bind {l : List Ptr} {k : Ptr → M β} (h : Good w l)
    (hk : ∀ w' i, Ext w w' → Is w' i (.obj .list) → Safe w' (k (.mk i .list))) : Safe w (allocList l >>= k) := by
  refine Safe.bind_post (fun w' p => ∃ i, p = .mk i .list ∧ Is w' i (.obj .list)) (fun s hs => ?_) ?_
  · refine ⟨w.add s.next (.obj .list) hs.fresh fun _ e => by cases e; trivial, Lay.add_ext, ?_, _, rfl, Lay.add_is⟩
    exact (hs.add (by simp) (by simp)).setList (Nat.lt_succ_self _) hs.fresh.2 (h.mono Lay.add_ext)
  · rintro w' _ hx ⟨i, rfl, hi⟩
    exact hk w' i hx hi

theorem Safe.allocDict_bind {l : List (Variant × Ptr)} {k : Ptr → M β} (h : Good w l)
    (hk : ∀ w' i, Ext w w' → Is w' i (.obj .dict) → Safe w' (k (.mk i .dict))) : Safe w (allocDict l >>= k) := by
  refine Safe.bind_post (fun w' p => ∃ i, p = .mk i .dict ∧ Is w' i (.obj .dict)) (fun s hs => ?_) ?_
  · refine ⟨w.add s.next (.obj .dict) hs.fresh fun _ e => by cases e; trivial, Lay.add_ext, ?_, _, rfl, Lay.add_is⟩
    exact (hs.add (by simp) (by simp)).setDict (Nat.lt_succ_self _) hs.fresh.2 (h.mono Lay.add_ext)
  · rintro w' _ hx ⟨i, rfl, hi⟩
    exact hk w' i hx hi

theorem Safe.allocVec_bind {l : List Ptr} {k : Nat → M β} (h : Good w l)
    (hk : ∀ w' i, Ext w w' → Is w' i .vec → Safe w' (k i)) : Safe w (allocVec l >>= k) := by
  refine Safe.bind_post (fun w' i => Is w' i .vec) (fun s hs => ?_) hk
  refine ⟨w.add s.next .vec hs.fresh (fun _ e => by cases e), Lay.add_ext, ?_, Lay.add_is⟩
  exact (hs.add (by simp) (by simp)).setList (Nat.lt_succ_self _) hs.fresh.2 (h.mono Lay.add_ext)

theorem Safe.allocClosure_bind {c : Closure} {k : Nat → M β} (h : Good w c.args) (hc : Is w c.scope .scope)
    (hk : ∀ w' i, Ext w w' → Is w' i .closure → Safe w' (k i)) : Safe w (allocClosure c >>= k) := by
  refine Safe.bind_post (fun w' i => Is w' i .closure) (fun s hs => ?_) hk
  have hx' : Ext w (w.add s.next .closure hs.fresh fun _ e => by cases e) := Lay.add_ext
  have hx := hx'.grows
  refine ⟨_, hx', ⟨⟨fun i hn => ?_, fun i hn => hs.ok.blank i (Nat.le_of_succ_le hn), Lay.add_lists (hs.ok.blank _ (Nat.le_refl _)).1 hs.ok.lists,
    Lay.add_dicts (hs.ok.blank _ (Nat.le_refl _)).2 hs.ok.dicts, fun i hi => ?_, fun i hi => ?_, fun i hi => ?_⟩⟩, Lay.add_is⟩
  · have : s.next + 1 ≤ i := hn
    simp [Lay.add, show i ≠ s.next by omega, hs.ok.fresh i (by omega)]
  · by_cases e : i = s.next
    · subst e
      simp only [fset_self]
      exact ⟨fun p hp => refOk_mono hx (h.mem hp).ok, hx _ _ hc.ok⟩
    · simp only [fset_ne _ _ e]
      have : w.k i = some .closure := by simpa [Lay.add, e] using hi
      have := hs.ok.clos i this
      exact ⟨fun p hp => refOk_mono hx (this.1 p hp), hx _ _ this.2⟩
  · exact scopeOk_mono hx (hs.ok.scopes i (Lay.add_inv hi (by simp)))
  · have := hs.ok.frame i hi
    have e : i ≠ s.next := fun e => hs.fresh.2 (e ▸ hi)
    simp only [fset_ne _ _ e]
    exact ⟨Nat.lt_succ_of_lt this.1, this.2⟩

theorem Ok.addScope {s : St} {sc : Scope} (hs : Ok w s)
    (hsc : ∀ hi hk, ScopeOk (w.add s.next .scope hi hk).k sc) :
    Ok (w.add s.next .scope hs.fresh fun _ e => by cases e) { s with next := s.next + 1, scopes := fset s.scopes s.next sc } := by
  have hx := (Lay.add_ext : Ext w (w.add s.next .scope hs.fresh fun _ e => by cases e)).grows
  refine ⟨⟨fun i hn => ?_, fun i hn => hs.ok.blank i (Nat.le_of_succ_le hn), Lay.add_lists (hs.ok.blank _ (Nat.le_refl _)).1 hs.ok.lists,
    Lay.add_dicts (hs.ok.blank _ (Nat.le_refl _)).2 hs.ok.dicts, fun i hi => ?_, fun i hi => ?_, fun i hi => ?_⟩⟩
  · have : s.next + 1 ≤ i := hn
    simp [Lay.add, show i ≠ s.next by omega, hs.ok.fresh i (by omega)]
  · have := hs.ok.clos i (Lay.add_inv hi (by simp))
    exact ⟨fun p hp => refOk_mono hx (this.1 p hp), hx _ _ this.2⟩
  · by_cases e : i = s.next
    · subst e
      simp only [fset_self]
      exact hsc _ _
    · simp only [fset_ne _ _ e]
      have : w.k i = some .scope := by simpa [Lay.add, e] using hi
      exact scopeOk_mono hx (hs.ok.scopes i this)
  · have := hs.ok.frame i hi
    have e : i ≠ s.next := fun e => hs.fresh.2 (e ▸ hi)
    simp only [fset_ne _ _ e]
    exact ⟨Nat.lt_succ_of_lt this.1, this.2⟩

theorem Safe.allocScope_bind {c : Scope} {k : Nat → M β} (h : Good w c)
    (hk : ∀ w' i, Ext w w' → Is w' i .scope → Safe w' (k i)) : Safe w (allocScope c >>= k) := by
  refine Safe.bind_post (fun w' i => Is w' i .scope) (fun s hs => ?_) hk
  exact ⟨_, Lay.add_ext, hs.addScope fun _ _ => scopeOk_mono Lay.add_ext.grows h.ok, Lay.add_is⟩

theorem safe_of_bind {m : M α} (h : Safe w (m >>= fun a => Pure.pure a)) : Safe w m := ⟨fun s hs => by
  have := h.ok s hs
  rw [M.bind_apply] at this
  cases hm : m s with
  | ok a s' => rw [hm] at this; exact this
  | fail f s' => rw [hm] at this; exact this⟩

instance (o : Obj) [h : GoodObj w o] : Safe w (allocObj o) := safe_of_bind (Safe.allocObj_bind h fun _ _ _ _ => inferInstance)
instance (v : Variant) [h : Good w v] : Safe w (box v) := inferInstanceAs (Safe w (allocObj _))
instance (l : List Ptr) [h : Good w l] : Safe w (allocList l) := safe_of_bind (Safe.allocList_bind h fun _ _ _ _ => inferInstance)

instance (l : List (Variant × Ptr)) [h : Good w l] : Safe w (allocDict l) := safe_of_bind (Safe.allocDict_bind h fun _ _ _ _ => inferInstance)

instance (id : Nat) (l : List Ptr) [g : Is w id (.obj .list)] [h : Good w l] : Safe w (setList id l) :=
  ⟨fun s hs => ⟨w, .refl w, hs.setList (g.lt hs) g.warm h, inferInstance⟩⟩
instance (id : Nat) (l : List Ptr) [g : Is w id .vec] [h : Good w l] : Safe w (setList id l) :=
  ⟨fun s hs => ⟨w, .refl w, hs.setList (g.lt hs) g.warm h, inferInstance⟩⟩
instance (id : Nat) (l : List (Variant × Ptr)) [g : Is w id (.obj .dict)] [h : Good w l] : Safe w (setDict id l) :=
  ⟨fun s hs => ⟨w, .refl w, hs.setDict (g.lt hs) g.warm h, inferInstance⟩⟩
theorem Safe.modScope {sid : Nat} {g : Scope → Scope} (hs : Is w sid .scope) (h : ∀ sc, Good w sc → Good w (g sc)) : Safe w (modScope sid g) :=
  ⟨fun s ho => ⟨w, .refl w, ⟨⟨ho.ok.fresh, ho.ok.blank, ho.ok.lists, ho.ok.dicts, ho.ok.clos, fun i hi => by
    by_cases e : i = sid
    · subst e; simp only [fset_self]; exact (h _ ⟨ho.ok.scopes i hi⟩).ok
    · simp only [fset_ne _ _ e]; exact ho.ok.scopes i hi, fun i hi => by
    have e : i ≠ sid := fun e => hs.warm (e ▸ hi)
    simp only [fset_ne _ _ e]
    exact ho.ok.frame i hi⟩⟩, inferInstance⟩⟩
theorem good_scope_same {sc sc' : Scope} (h : Good w sc) (h1 : sc'.vars = sc.vars) (h2 : sc'.global = sc.global) (h3 : sc'.closure = sc.closure)
    (h4 : sc'.next = sc.next) (h5 : sc'.prev = sc.prev) : Good w sc' :=
  ⟨⟨h1 ▸ h.ok.names, h1 ▸ h.ok.vars, h2 ▸ h.ok.global, h3 ▸ h.ok.closure, h4 ▸ h.ok.next, h5 ▸ h.ok.prev⟩⟩
instance (t : Str) : Safe w (write t) := ⟨fun s ho => ⟨w, .refl w, ⟨⟨ho.ok.fresh, ho.ok.blank, ho.ok.lists, ho.ok.dicts, ho.ok.clos, ho.ok.scopes, ho.ok.frame⟩⟩, inferInstance⟩⟩
instance (t : Str) : Safe w (writeLine t) := inferInstanceAs (Safe w (write _))
theorem Safe.modify {g : St → St} (h1 : ∀ s, (g s).next = s.next) (h2 : ∀ s, (g s).lists = s.lists) (h3 : ∀ s, (g s).dicts = s.dicts)
    (h4 : ∀ s, (g s).clos = s.clos) (h5 : ∀ s, (g s).scopes = s.scopes) : Safe w (M.modify g) :=
  ⟨fun s ho => ⟨w, .refl w, ⟨⟨by rw [h1]; exact ho.ok.fresh, by rw [h1, h2, h3]; exact ho.ok.blank, by rw [h2]; exact ho.ok.lists, by rw [h3]; exact ho.ok.dicts,
    by rw [h4]; exact ho.ok.clos, by rw [h5]; exact ho.ok.scopes, by rw [h1, h2, h3, h4, h5]; exact ho.ok.frame⟩⟩, inferInstance⟩⟩

/-- The global scope of a scope. -/
theorem Safe.global_bind {sid : Nat} {k : Nat → M β} (h : Is w sid .scope) (hk : ∀ g, Is w g .scope → Safe w (k g)) :
    Safe w ((M.get fun s => (s.scopes sid).global) >>= k) := ⟨fun s hs => (hk _ inferInstance).ok s hs⟩

/-- The tokens of a scope. -/
theorem Safe.tokens_bind {sid : Nat} {k : List Token → M β} (hk : ∀ t, Safe w (k t)) :
    Safe w ((M.get fun s => (s.scopes sid).tokens) >>= k) := ⟨fun s hs => (hk _).ok s hs⟩
/-- A token for a message. -/
theorem Safe.tok_bind {g : St → R (Option Token)} {k : Option Token → M β} (hk : ∀ t, Safe w (k t)) :
    Safe w (M.rd g >>= k) := Safe.rd_bind fun _ a _ _ => hk a
/-- A token for a message. -/
theorem Safe.lift_tok_bind {g : R (Option Token)} {k : Option Token → M β} (hk : ∀ t, Safe w (k t)) :
    Safe w (M.lift g >>= k) := Safe.rd_bind fun _ a _ _ => hk a

end

/-! ## Tactics -/

section
open Lean Meta Elab Tactic

/-- Adds a hypothesis unless it is known. -/
def addFact (g : MVarId) (name : Name) (pf : Expr) : MetaM (MVarId × Bool) := g.withContext do
  let t ← instantiateMVars (← inferType pf)
  for d in ← getLCtx do
    unless d.isImplementationDetail do
      if (← instantiateMVars d.type) == t then return (g, false)
  let g ← g.assert name t pf
  let (_, g) ← g.intro1P
  return (g, true)

/-- Moves all facts about a layout to a later layout. -/
def transportCore (g : MVarId) : MetaM MVarId := do
  let mut g := g
  let exts ← g.withContext do (← getLCtx).foldlM (init := #[]) fun a d => do
    if (← instantiateMVars d.type).isAppOfArity ``Ext 2 then pure (a.push d.fvarId) else pure a
  for x in exts do
    let w ← g.withContext do return (← instantiateMVars (← x.getType)).getArg! 0
    let ds ← g.withContext do (← getLCtx).foldlM (init := #[]) fun a d => do
      if d.isImplementationDetail then return a
      let t ← instantiateMVars d.type
      if t.isAppOfArity ``Good 4 && t.getArg! 2 == w then return a.push (d.fvarId, ``Good.mono)
      else if t.isAppOfArity ``Is 3 && t.getArg! 0 == w then return a.push (d.fvarId, ``Is.mono)
      else if t.isAppOfArity ``IsO 2 && t.getArg! 0 == w then return a.push (d.fvarId, ``IsO.mono)
      else return a
    for (f, n) in ds do
      let pf ← g.withContext <| mkAppM n #[.fvar x, .fvar f]
      let nm ← g.withContext f.getUserName
      (g, _) ← addFact g nm pf
      g ← g.tryClear f
    g ← g.tryClear x
  return g

elab "transport" : tactic => do replaceMainGoal [← transportCore (← getMainGoal)]

/-- The facts that follow from a fact; the fact can be forgotten if the flag is set. -/
def consequences (w : Expr) (d : LocalDecl) : MetaM (Array Expr × Bool) := do
  let t ← instantiateMVars d.type
  let h := d.toExpr
  if t.isAppOfArity ``Good 4 then
    let e := t.getArg! 3
    if e.isAppOf ``Ptr.mk then return (#[← mkAppM ``Good.is #[h]], true)
    if e.isAppOf ``List.cons then return (#[← mkAppM ``Good.head #[h], ← mkAppM ``Good.tail #[h]], true)
    if e.isAppOf ``Option.some then return (#[← mkAppM ``Good.some_inv #[h]], true)
    if e.isAppOf ``Prod.mk then return (#[← mkAppM ``Good.left #[h], ← mkAppM ``Good.right #[h]], true)
    if e.isFVar then
      let α := t.getArg! 0
      if α.isConstOf ``Variant then return (#[← mkAppM ``Good.value #[h]], false)
      if α.isConstOf ``Scope then
        return (#[← mkAppM ``Good.vars #[h], ← mkAppM ``Good.global #[h], ← mkAppM ``Good.closure #[h], ← mkAppM ``Good.next #[h]], false)
      if α.isAppOf ``Prod then return (#[← mkAppM ``Good.fst #[h], ← mkAppM ``Good.snd #[h]], false)
      if α.isConstOf ``Closure then return (#[← mkAppM ``Good.cargs #[h], ← mkAppM ``Good.cscope #[h]], false)
    return (#[], false)
  if t.isAppOfArity ``Is 3 then
    let k := t.getArg! 2
    if k.isAppOfArity ``Kind.obj 1 then
      let o := k.getArg! 0
      if o.isAppOf ``Obj.var then return (#[← mkAppM ``Is.var #[h]], false)
      if o.isAppOf ``Obj.fn then return (#[← mkAppM ``Is.fn #[h]], false)
      if o.isAppOf ``Obj.lval then return (#[← mkAppM ``Is.lval #[h]], false)
      if o.isAppOf ``Obj.scope then return (#[← mkAppM ``Is.scope #[h]], false)
      if o.isAppOf ``Obj.int then return (#[← mkAppM ``Is.int #[h]], false)
      if o.isAppOf ``Obj.macroRt then return (#[← mkAppM ``Is.rt1 #[h], ← mkAppM ``Is.rt2 #[h]], false)
      if o.isAppOf ``Obj.macroCt then return (#[← mkAppM ``Is.ct1 #[h], ← mkAppM ``Is.ct2 #[h]], false)
    return (#[], false)
  if t.isAppOf ``IsInt32 then return (#[← mkAppM ``Good.int32 #[w, h]], false)
  if t.isAppOfArity ``Eq 3 then
    let lhs := t.getArg! 1
    let rhs := t.getArg! 2
    if rhs.isAppOfArity ``Except.ok 3 then
      try
        let c ← mkAppM ``RGood #[w, lhs]
        if let some i ← synthInstance? c then return (#[← mkAppM ``RGood.of_eq #[h, i]], true)
      catch _ => pure ()
    else if rhs.isAppOf ``Option.some && (t.getArg! 0).isAppOf ``Option && ((t.getArg! 0).getArg! 0).isConstOf ``Nat then
      try
        let c ← mkAppM ``IsO #[w, lhs]
        if let some i ← synthInstance? c then return (#[← mkAppM ``IsO.some_inv #[h, i]], true)
      catch _ => pure ()
    else unless rhs.isFVar do
      try
        let c ← mkAppM ``Good #[w, lhs]
        if let some i ← synthInstance? c then return (#[← mkAppM ``Good.of_eq #[h, i]], true)
      catch _ => pure ()
    return (#[], false)
  return (#[], false)

/-- Closes the known facts under their consequences. -/
partial def saturateCore (g : MVarId) (w : Expr) (fuel : Nat) : MetaM MVarId := do
  if fuel = 0 then return g
  let ds ← g.withContext do return (← getLCtx).foldl (init := #[]) fun a d => if d.isImplementationDetail then a else a.push d.fvarId
  let mut g := g
  let mut any := false
  for f in ds do
    let (cs, del) ← g.withContext do
      match (← getLCtx).find? f with
      | some d => consequences w d
      | none => pure (#[], false)
    for c in cs do
      let (g', b) ← addFact g `hg c
      g := g'
      if b then any := true
    if del then g ← g.tryClear f
  if any then saturateCore g w (fuel - 1) else return g

elab "saturate_at" w:ident : tactic => do
  let g ← getMainGoal
  let w ← g.withContext do Term.elabTerm w none
  replaceMainGoal [← saturateCore g w 20]

elab "saturate" : tactic => do
  let g ← getMainGoal
  let t := (← instantiateMVars (← g.getType)).headBeta.consumeMData
  let ws ← g.withContext do t.getAppArgs.filterM fun a => do return (← whnfR (← instantiateMVars (← inferType a))).isConstOf ``Lay
  match ws[0]? with
  | some w => replaceMainGoal [← saturateCore g w 20]
  | none => g.withContext do throwError "no layout: {← g.getType}"

end

/-- One step of a proof that a computation is safe. -/
macro "safe1" : tactic => `(tactic| first
  | infer_instance
  | assumption
  | (with_reducible refine Safe.allocObj_bind inferInstance fun _ _ _ _ => ?_); transport; saturate
  | (with_reducible refine Safe.box_bind inferInstance fun _ _ _ _ => ?_); transport; saturate
  | (with_reducible refine Safe.allocList_bind inferInstance fun _ _ _ _ => ?_); transport; saturate
  | (with_reducible refine Safe.allocDict_bind inferInstance fun _ _ _ _ => ?_); transport; saturate
  | (with_reducible refine Safe.allocVec_bind inferInstance fun _ _ _ _ => ?_); transport; saturate
  | (with_reducible refine Safe.allocScope_bind inferInstance fun _ _ _ _ => ?_); transport; saturate
  | (with_reducible refine Safe.global_bind inferInstance fun _ _ => ?_); saturate
  | (with_reducible refine Safe.tokens_bind fun _ => ?_)
  | (with_reducible refine Safe.tok_bind fun _ => ?_)
  | (with_reducible refine Safe.lift_tok_bind fun _ => ?_)
  | (with_reducible refine Safe.bind ?_ fun _ _ _ _ => ?_); (rotate_left; transport; saturate; rotate_right)
  | (with_reducible refine RGood.bind ?_ fun _ _ => ?_); (rotate_left; saturate; rotate_right)
  | exact Safe.modScope inferInstance fun _ h => good_scope_same h rfl rfl rfl rfl rfl
  | exact Safe.modify (fun _ => rfl) (fun _ => rfl) (fun _ => rfl) (fun _ => rfl) (fun _ => rfl)
  | (with_reducible refine Safe.rd' _ fun _ _ => ?_); saturate
  | (with_reducible refine Safe.get' _ fun _ _ => ?_); saturate
  | split <;> saturate
  | dsimp only)

/-- Proves that a computation is safe by following its structure. -/
macro "safe" : tactic => `(tactic| (saturate; repeat' safe1))

end Fuel
