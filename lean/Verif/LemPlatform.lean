import Verif.LemRun2
import Verif.PropsInfo
/-!
# The name of the platform
-/

set_option linter.unusedSectionVars false

namespace Fuel

open Spec Spec.Core

variable [World] {o : Origin} {st : St} {μ : Emb} {R : Conf}

theorem platform_list (k : Nat) (st : St) (s : Nat) : ∃ v st', callPrim (run k) .platform [] s st = .ok (some v) st' ∧ v.unq = .none ∧
    ∃ a b c, IsList st' v [.mk a (.str World.osName), .mk b (.str c!"C++"), .mk c (.str World.wordSize)] ∧ Extends st st' := by
  refine ⟨⟨.list, .mk (st.next + 3) .list, .none, none⟩, _, ?_, rfl, st.next, st.next + 1, st.next + 2, ⟨st.next + 3, ⟨rfl, rfl⟩, ?_⟩, extends_alloc st 3
    [.mk st.next (.str World.osName), .mk (st.next + 1) (.str c!"C++"), .mk (st.next + 2) (.str World.wordSize)]⟩
  · simp only [callPrim, ret, bPlatform, M.bind_apply, allocObj, mkList, allocList, M.pure_apply]
  · simp

theorem nth_atom {k sid : Nat} {i : Nat} {j l : Nat} {u v : Variant} {ps : List Ptr} {a : Nat} {s : Str} (hu : IsInt u i) (hi : i < 3) (hv : IsList st v ps)
    (hp : ps[i]? = some (.mk a (.str s))) (hl : (st.scopes sid).needsLValue = false) :
    callPrim (run k) .nth [.mk j (.var u), .mk l (.var v)] sid st = .ok (some ⟨.string, .mk a (.str s), .none, none⟩) st := by
  obtain ⟨b, hb, hls⟩ := hv
  have hs : sizeT (i : Int) = i := by unfold sizeT; omega
  simp [callPrim, bNth, ret, checkArgs, argV, arg, toVariant, hb.1, hb.2, M.lift_apply, run_n, intValue_int hu, Variant.listValue, toEnumerable, hls, hs, hp, hl,
    mkVariant, M.get_apply, Obj.lispType]

theorem exec_platform {f : Nat} {e q : Sexp} {h hq s : Str} {i : Nat} (hF : Form e h [.int i, q]) (hV : Head R f h (.prim c!"nth")) (hF' : Form q hq [])
    (hV' : Head R f hq (.prim c!"platform")) (hi : [World.osName, c!"C++", World.wordSize][i]? = some s) : ExecOk f e R (.str s) R := by
  intro o st μ p hs hf hC
  obtain ⟨u, tl, st0, h1, h2, h3, h3', h4⟩ := isForm_of hs hf hF hC hV
  obtain ⟨p1, p2, rfl, c1, c2⟩ := codes_two h3
  obtain ⟨p1', p2', he, c1', c2'⟩ := codes_two h3'
  cases he
  have hs0 := h4.sim
  obtain ⟨u', tl', st1, g1, g2, g3, -, g4⟩ := isForm_of hs0 hf hF' c2' hV'
  have htl := codes_nil g3
  subst htl
  obtain ⟨en, hen, hn, hw⟩ := isVal_prim_inv g1
  obtain ⟨k1, k2⟩ := core_entry hen (c!"platform", .platform, false) (by decide) hn
  -- the list
  obtain ⟨v, st2, hc, hq0, a, b, c, hv, hx⟩ := platform_list 0 st1 (μ f)
  have hP : Calls en.wrapper [] (μ f) st1 (.ok (some v) st2) := (calls_prim (show en.wrapper.kind = .prim .platform by simpa [Entry.wrapper] using k1)).2 (lim_of (ends_ok _ _) 0 hc)
  have hE : Evals p2 (μ f) st0 (.ok (some v) st2) := (evals_call hs0.links.old (g2 _ hw) (by simpa [Entry.wrapper] using k2) .nil .nil).2 hP
  have g5 : Res o st1 μ R.count st2 μ R := Res.of_extends g4.sim hx (calls_links hP g4.sim.links (g4.sim.old f hf))
  have g6 : Res o st2 μ R.count { st2 with next := st2.next + 1 } μ R :=
    Res.of_extends g5.sim (extends_next _ _ (Nat.le_succ _)) (links_next g5.sim.links _ (Nat.le_succ _))
  -- the call
  obtain ⟨en', hen', hn', hw'⟩ := isVal_prim_inv h1
  obtain ⟨k3, k4⟩ := core_entry hen' (c!"nth", .nth, false) (by decide) hn'
  obtain ⟨cc, hc1, hc2⟩ := c1
  cases hc2 with
  | @int y _ hy hyu =>
    cases hc1 with
    | @val j =>
    have hlt : i < 3 := by
      have := (List.getElem?_eq_some_iff.1 hi).1
      simpa using this
    obtain ⟨z, hz⟩ : ∃ z, [Ptr.mk a (.str World.osName), .mk b (.str c!"C++"), .mk c (.str World.wordSize)][i]? = some (.mk z (.str s)) := by
      match i, hlt with
      | 0, _ => exact ⟨a, by simpa using hi⟩
      | 1, _ => exact ⟨b, by simpa using hi⟩
      | 2, _ => exact ⟨c, by simpa using hi⟩
    have hN := nth_atom (st := { st2 with next := st2.next + 1 }) (k := 0) (j := j) (l := st2.next) (sid := μ f) hy hlt (v := v) (by
      obtain ⟨m, hm, hm'⟩ := hv
      exact ⟨m, hm, hm'⟩) hz (g6.sim.place f hf)
    have hcall : Calls en'.wrapper [.mk j (.var y), .mk st2.next (.var v)] (μ f) { st2 with next := st2.next + 1 } (.ok (some ⟨.string, .mk z (.str s), .none, none⟩) { st2 with next := st2.next + 1 }) :=
      (calls_prim (show en'.wrapper.kind = .prim .nth by simpa [Entry.wrapper] using k3)).2 (lim_of (ends_ok _ _) 0 hN)
    obtain ⟨i2, hp2, hl2⟩ : ∃ i2, p2 = .mk i2 .list ∧ True := by
      obtain ⟨i2, _, _, _, e2, _⟩ := form_code hF' c2
      exact ⟨i2, e2, trivial⟩
    subst hp2
    refine ⟨_, _, μ, (evals_call hs.links.old (h2 _ hw') (by simpa [Entry.wrapper] using k4) (.cons (.value (by simp [hy.1])) (.cons .list .nil))
      (.value (by simp) (by simp [NotSpliced, hyu]) (.call hE (by simp [hq0]) .nil))).2 hcall, .str ⟨rfl, _, rfl⟩ (by simp), (h4.trans (g4.trans g5)).trans g6⟩

end Fuel
