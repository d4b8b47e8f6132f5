import Verif.LemMacro
import Verif.PropsImport
/-!
# `readline` and `evalstr`: the interpreter executes them as the reference semantics says
-/

set_option linter.unusedSectionVars false
set_option linter.unusedSimpArgs false

namespace Fuel

open Spec Spec.Core

section
variable [World]

variable {o : Origin} {st : St} {μ : Emb} {R : Conf}

theorem started_links {module : Str} {s : Nat} {st st' : St} (h : Started module s st st') (hl : Links st) : Links st' := by
  obtain ⟨toks, hsc⟩ := h.scopes
  have h1 := links_next (links_modScope (s := st) (j := s) (sc := { st.scopes s with module := module, tracing := some false, tokens := toks }) rfl (fun p hp => .inl hp) hl) _ h.next
  rw [h.rest, hsc]
  exact ⟨h1.clos, h1.old, h1.fresh, h1.callers⟩

/-- The start of a script in an existing scope changes nothing that the configuration says. -/
theorem Sim.started (h : Sim o st μ R) {f : Nat} {module : Str} {st' : St} (hst : Started module (μ f) st st') : Res o st μ R.count st' μ R := by
  have hl := started_links hst h.links
  obtain ⟨toks, hsc⟩ := hst.scopes
  have hr := hst.rest
  have gr : Grow st μ R.count st' μ R.count := ⟨hst.next, hst.lists, fun i _ => by rw [hr], Nat.le_refl _, fun _ _ => rfl, fun _ _ h => h⟩
  have hb : ∀ i n, binding st' i n = binding st i n := by
    intro i n
    simp only [binding, hsc]
    by_cases e : i = μ f <;> simp [fset, e]
  have hvars : ∀ i, (st'.scopes i).vars = (st.scopes i).vars := by
    intro i
    rw [hsc]
    by_cases e : i = μ f <;> simp [fset, e]
  have hk : ∀ i, (st'.scopes i).global = (st.scopes i).global ∧ (st'.scopes i).needsLValue = (st.scopes i).needsLValue ∧
      (st'.scopes i).isInReturn = (st.scopes i).isInReturn ∧ (st'.scopes i).closure = (st.scopes i).closure := by
    intro i
    rw [hsc]
    by_cases e : i = μ f <;> simp [fset, e]
  refine ⟨⟨hl, h.pos, fun f hf => Nat.lt_of_lt_of_le (h.old f hf) hst.next, h.inj, fun f hf => ?_, fun f hf => ?_, fun f hf => ?_, fun f hf => ?_, h.below,
    fun f hf n hn hv => ?_, fun f hf n hn v hv => ?_, fun f hf => ?_, ?_, ?_, h.names, fun f hf h0 => by rw [hb]; exact h.inner f hf h0, ?_, ?_, ?_, ?_, ?_⟩, gr⟩
  · rw [(hk _).1, h.global f hf]
  · rw [(hk _).2.1, h.place f hf]
  · rw [(hk _).2.2.1, h.ret f hf]
  · rw [(hk _).2.2.2, h.parent f hf]
  · rw [hb]; exact h.unbound f hf n hn hv
  · rw [hb]
    obtain ⟨p, h1, i, w, rfl, h2⟩ := h.bound f hf n hn v hv
    exact ⟨_, h1, i, w, rfl, isVal_grow gr h2⟩
  · rw [hb, hb]; exact h.buffer f hf
  · obtain ⟨i, m, h1, h2, h3, h4⟩ := h.macros
    exact ⟨i, m, by rw [hb, h1], Nat.lt_of_lt_of_le h2 hst.next, h3, fun n => by rw [hb]; exact macroAt_grow gr (h4 n)⟩
  · obtain ⟨i, m, h1, h2, h3, h4, h5⟩ := h.modules
    exact ⟨i, m, by rw [hb, h1], Nat.lt_of_lt_of_le h2 hst.next, h3, fun j m' => by rw [hb]; exact h4 j m', by rw [hvars]; exact h5⟩
  · rw [hsc]
    by_cases e : μ 0 = μ f
    · rw [e, fset_self]
    · simp [fset, e, h.tracing]
  · rw [hr]; exact h.out
  · rw [hr]; exact h.input
  · exact h.dicts.keep gr rfl fun _ _ => by rw [hr]
  · exact fun name file xs hx => (h.lib name file xs hx).congr (by rw [hr]) (by rw [hr])

/-- A source text that is run in an existing scope. -/
theorem runsIn_ok {f : Nat} {xs : List Sexp} {text : Str} {v : Val} {R' : Conf} (hx : Sexp.WFs xs) (hw : Written xs text)
    (hl : Literal R f (.list (.sym c!"do" :: xs))) (hE : ExecOk f (.list (.sym c!"do" :: xs)) R v R') (hs : Sim o st μ R) (hf : f < R.count) (module : Str) :
    ∃ w st' μ', RunsIn text module (μ f) st (.ok (some w) st') ∧ IsVal st' μ' R'.count w v ∧ Res o st μ R.count st' μ' R' := by
  obtain ⟨p, c, st1, h1, h2, h3, h4⟩ := script_code hx hw (heads_imp (fun n hn => hs.inert hf hn.1 hn.2) hl) module
  have h5 := hs.started h1
  obtain ⟨w, st', μ', g1, g2, g3⟩ := hE o st1 μ p h5.sim hf ⟨_, h2, .list h3⟩
  exact ⟨w, st', μ', (h4 _).2 g1, g2, h5.trans g3⟩

theorem links_scope_same {st : St} {s : Nat} {sc : Scope} (hc : sc.closure = (st.scopes s).closure) (hp : sc.prev = (st.scopes s).prev) (h : Links st) :
    Links { st with scopes := fset st.scopes s sc } :=
  links_modScope (s := st) (j := s) hc (fun _ h => .inl (hp ▸ h)) h

theorem apply_evalstr {f : Nat} {xs : List Sexp} {text : Str} {v : Val} {R' : Conf} (hx : Sexp.WFs xs) (hw : Written xs text)
    (hl : Literal R f (.list (.sym c!"do" :: xs))) (hE : ExecOk f (.list (.sym c!"do" :: xs)) R v R') : ApplyOk f (.prim c!"evalstr") [.str text] R v R' := by
  intro o st μ u args hs hf hu ha
  obtain ⟨e, he, hne, hfn⟩ := isVal_prim_inv hu
  obtain ⟨h5, h6⟩ := core_entry he (c!"evalstr", .evalstr, false) (by decide) hne
  obtain ⟨i, y, rfl, hy⟩ := args_one ha
  have hs1 : Same st [] (inEvalStr st (μ f)) := same_modScope st (μ f) rfl rfl
  have hr1 := Res.of_same hs hs1 (links_scope_same rfl rfl hs.links)
  obtain ⟨w, st2, μ2, g1, g2, g3⟩ := runsIn_ok hx hw hl hE hr1.sim hf (evalStrModule st (μ f) text)
  have hs2 : Same st2 [] { st2 with scopes := fset st2.scopes (μ f) { st2.scopes (μ f) with isInEval := false, module := (st.scopes (μ f)).module } } :=
    same_modScope st2 (μ f) rfl rfl
  have hr2 := Res.of_same g3.sim hs2 (links_scope_same rfl rfl g3.sim.links)
  refine ⟨_, hfn, h6, w, _, μ2, (C62_evalstr (by simpa [Entry.wrapper] using h5) ⟨i, y, rfl, isVal_str_inv hy⟩).2 ⟨_, g1, rfl⟩, isVal_grow hr2.grow g2, (hr1.trans g3).trans hr2⟩

/-- One line of the standard input was read. -/
theorem Sim.read (h : Sim o st μ R) {l : Str} {ls : List Str} (hi : R.input = l :: ls) :
    ∃ rest, st.input = l :: rest ∧ Res o st μ R.count { st with input := rest } μ { R with input := ls } := by
  refine ⟨ls ++ o.rest, by rw [h.input, hi]; rfl, ⟨⟨?_, ?_, ?_, ?_⟩, h.pos, h.old, h.inj, h.global, h.place, h.ret, h.parent, h.below, h.unbound, fun f hf n hn v hv => ?_, h.buffer, ?_, ?_,
    h.names, h.inner, h.tracing, h.out, rfl, ?_, fun name file xs hx => (h.lib name file xs hx).congr rfl rfl⟩, ⟨Nat.le_refl _, fun _ _ => rfl, fun _ _ => rfl, Nat.le_refl _, fun _ _ => rfl, fun _ _ h => h⟩⟩
  · exact h.links.clos
  · exact h.links.old
  · exact h.links.fresh
  · exact h.links.callers
  · have gr : Grow st μ R.count { st with input := ls ++ o.rest } μ R.count := ⟨Nat.le_refl _, fun _ _ => rfl, fun _ _ => rfl, Nat.le_refl _, fun _ _ => rfl, fun _ _ h => h⟩
    obtain ⟨p, h1, i, w, rfl, h2⟩ := h.bound f hf n hn v hv
    exact ⟨_, h1, i, w, rfl, isVal_grow gr h2⟩
  · have gr : Grow st μ R.count { st with input := ls ++ o.rest } μ R.count := ⟨Nat.le_refl _, fun _ _ => rfl, fun _ _ => rfl, Nat.le_refl _, fun _ _ => rfl, fun _ _ h => h⟩
    obtain ⟨i, m, h1, h2, h3, h4⟩ := h.macros
    exact ⟨i, m, h1, h2, h3, fun n => macroAt_grow gr (h4 n)⟩
  · exact h.modules
  · exact h.dicts.keep (st' := { st with input := ls ++ o.rest }) ⟨Nat.le_refl _, fun _ _ => rfl, fun _ _ => rfl, Nat.le_refl _, fun _ _ => rfl, fun _ _ h => h⟩ rfl fun _ _ => rfl

theorem apply_readline {f : Nat} {l : Str} {ls : List Str} (hi : R.input = l :: ls) : ApplyOk f (.prim c!"readline") [] R (.str l) { R with input := ls } := by
  intro o st μ u args hs hf hu ha
  obtain ⟨e, he, hne, hfn⟩ := isVal_prim_inv hu
  obtain ⟨h5, h6⟩ := core_entry he (c!"readline", .readline, false) (by decide) hne
  cases ha
  obtain ⟨rest, h1, h2⟩ := hs.read hi
  have hC : Calls e.wrapper [] (μ f) st (.ok (some (.ofType .string (.mk st.next (.str l)))) { st with input := rest, next := st.next + 1 }) :=
    (calls_prim rfl).2 (lim_of (ends_ok _ _) 0 (by
      rw [h5]
      simp [callPrim, ret, bReadLine, checkArgs, M.get, h1, M.modify, mkStr, mkAtom, allocObj, Obj.lispType, Variant.ofType]))
  have hx : Extends { st with input := rest } { st with input := rest, next := st.next + 1 } := extends_next _ _ (Nat.le_succ _)
  have h3 := Res.of_extends h2.sim hx (calls_links hC hs.links (hs.old f hf))
  exact ⟨_, hfn, h6, _, _, μ, hC, .str ⟨rfl, _, rfl⟩ (nsp rfl), h2.trans h3⟩

end

end Fuel
