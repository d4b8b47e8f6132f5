import Verif.PropsProg
import Verif.LemImport
/-!
# C86: programs that import modules
-/

namespace Fuel

open Spec Spec.Core

variable [World]

theorem Sim.withLib {o : Origin} {st : St} {μ : Emb} {R : Conf} (h : Sim o st μ R) {lib : Str → Option (Str × List Sexp)} (hl : Provides st lib) :
    Sim o st μ { R with lib := lib } :=
  ⟨h.links, h.pos, h.old, h.inj, h.global, h.place, h.ret, h.parent, h.below, h.unbound, h.bound, h.buffer, h.macros, h.modules, h.names, h.inner, h.tracing, h.out, h.input,
    h.dicts, hl⟩

theorem Spec.Core.Provides.congr {st st' : St} (hf : st'.files = st.files) (hl : st'.libPath = st.libPath) {lib : Str → Option (Str × List Sexp)} (h : Provides st lib) :
    Provides st' lib := fun name file xs hx => (h name file xs hx).congr hf hl

/-- C86: the interpreter executes programs with modules as the reference semantics says: if the files contain the modules `lib`, `ls` are the
first lines of the standard input, and the reference semantics gives the program a value and an output, then running the text in a new interpreter,
at any time, ends with this value, writes this output and reads these lines. -/
theorem C86_modules {xs : List Sexp} (hx : Sexp.WFs xs) {text : Str} (hw : Written xs text)
    (hh : Sexp.HeadsAll (fun n => n ∉ hidden ∧ n ≠ c!"define-macro-expand") xs) {st : St} (hr : Reachable st) (module : Str) {ls rest : List Str}
    (hi : st.input = ls ++ rest) {lib : Str → Option (Str × List Sexp)} (hlib : Provides st lib) {v : Val} {R : Conf}
    (h : Seq 0 (some .undef) xs (Conf.startWith lib ls) v R) :
    ∃ w st' μ, Runs text module st (.ok (some w) st') ∧ IsVal st' μ R.count w v ∧ st'.out = st.out ++ R.out ∧ st'.input = R.input ++ rest := by
  obtain ⟨p, c, st0, st1, h1, h2, h3, h4, h5, h6⟩ := script_new hx hw hh module st
  have hl0 : Links st0 := by
    have := (Reachable.create hr).links
    rwa [h1] at this
  have hf : st1.files = st.files := by rw [h3.rest]; exact h2.frame.2.2.2.2.2.2.1
  have hlp : st1.libPath = st.libPath := by rw [h3.rest]; exact h2.frame.2.2.2.2.2.2.2.2
  have hs := (start_sim h2 h3 (started_links h3 hl0) hi).withLib (hlib.congr hf hlp)
  have hE : Exec 0 (.list (.sym c!"do" :: xs)) (Conf.startWith lib ls) v R :=
    .block .list (head_of_frames (R := Conf.start) rfl rfl (value_start 0 (n := c!"do") (b := .do_) (s := true) (by decide) (by decide))) (by simp) h
  obtain ⟨w, st', μ, g1, g2, g3⟩ := exec_ok hE _ _ _ p hs Nat.one_pos ⟨_, h4, .list h5⟩
  exact ⟨w, st', μ, (h6 _).2 g1, g2, g3.sim.out, g3.sim.input⟩

/-! ## A module with a function -/

/-- `(defn twice (n) (* 2 n))` -/
def twiceBody : Sexp := .list [.sym c!"*", .int 2, .sym c!"n"]
def twiceModule : List Sexp := [.list [.sym c!"defn", .sym c!"twice", .list [.sym c!"n"], twiceBody]]

/-- `(import "calc") (println (twice k))` -/
def twiceProgram (k : Int) : List Sexp := [.list [.sym c!"import", .str c!"calc"], .list [.sym c!"println", .list [.sym c!"twice", .int k]]]

theorem twice_derivation (k : Int) (hk : IsInt32 (2 * k)) {lib : Str → Option (Str × List Sexp)} (hlib : lib c!"calc" = some (c!"calc", twiceModule)) (ls : List Str) :
    ∃ v R, Seq 0 (some .undef) (twiceProgram k) (Conf.startWith lib ls) v R ∧ R.out = intStr (2 * k) ++ c!"\n" := by
  let R0 := Conf.startWith lib ls
  let F : Val := .clo [c!"n"] twiceBody 1
  let R1 := R0.openModule.set 1 c!"twice" F
  let R2 := R1.closeModule 1 [(c!"calc", 2)]
  let R3 := R2.enter [c!"n"] [.int k] 1
  have hs : ∀ {n : Str} {b : Builtin} {s : Bool}, (n, b, s) ∈ coreTable → (R0.frames 0).vars n = some (.prim n) := fun h => start_vars h
  have h0 : R2.frames 0 = R0.frames 0 := rfl
  have e1 : Exec 1 (.list [.sym c!"defn", .sym c!"twice", .list [.sym c!"n"], twiceBody]) R0.openModule F R1 :=
    .defn (ps := [c!"n"]) .list ⟨rfl, .globally (by decide) rfl (hs (n := c!"defn") (b := .defn) (s := true) (by decide))⟩ (by decide)
      (hs (n := c!"fn") (b := .fn) (s := true) (by decide)) (hs (n := c!"def") (b := .def_) (s := true) (by decide))
  have e2 : Exec 1 (.list (.sym c!"do" :: twiceModule)) R0.openModule F R1 :=
    .block (d := c!"do") .list ⟨rfl, .globally (by decide) rfl (hs (n := c!"do") (b := .do_) (s := true) (by decide))⟩ (by simp) (.next ⟨_, _, .list⟩ e1 rfl .done)
  have hlit : Literal R0.openModule 1 (.list (.sym c!"do" :: twiceModule)) := by
    have : ∀ n v, ((R0.openModule).frames 1).vars n = some v → Passive v := fun n v h => by cases h
    simp only [Literal, twiceModule, twiceBody, Sexp.Heads, Sexp.HeadsAll]
    simp only [Sexp.text, hidden]
    refine ⟨⟨by decide, this _⟩, trivial, ⟨⟨by decide, this _⟩, trivial, trivial, ⟨⟨by decide, this _⟩, trivial, trivial⟩, ⟨⟨by decide, this _⟩, trivial, trivial, trivial, trivial⟩, trivial⟩, trivial⟩
  have e3 : Exec 0 (.list [.sym c!"import", .str c!"calc"]) R0 F R2 :=
    .call .list ⟨rfl, .locally (by decide) (hs (n := c!"import") (b := .import_) (s := false) (by decide))⟩ (.other (by simp) .str .nil)
      (.import .str hlib (by decide) hlit e2 (.new (a := []) (b := []) (by simp) (by simp)))
  have e4 : Exec R2.count twiceBody R3 (.int (2 * k)) R3 :=
    .call .list ⟨rfl, .globally (by decide) rfl (hs (n := c!"*") (b := .mul) (s := false) (by decide))⟩ (.other (by simp) .int (.name (.locally (by decide) rfl) .nil))
      (.fn (.mul (l := [k]) (by simp) (.cons hk .nil)))
  have hin : ∀ g, ¬ Innermost R2 c!"twice" 0 g := fun g h => by
    have hn : (R0.frames 0).vars c!"twice" = none := by simp only [R0, Conf.startWith, Conf.start]; exact if_neg (by decide +kernel)
    cases h with
    | here h1 => cases hn.symm.trans h1
    | up _ h1 _ => cases h1
  have e5 : Exec 0 (.list [.sym c!"twice", .int k]) R2 (.int (2 * k)) R3 :=
    .call .list ⟨rfl, .module (a := []) (b := []) (by decide) (by simp only [h0, R0, Conf.startWith, Conf.start]; exact if_neg (by decide +kernel)) hin rfl (by simp) rfl⟩
      (.other (by simp) .int .nil) (.clo (by decide) (by decide) e4)
  have e6 : Exec 0 (.list [.sym c!"println", .list [.sym c!"twice", .int k]]) R2 (.str (intStr (2 * k))) (R3.write (intStr (2 * k) ++ c!"\n")) := by
    have := Prints.println (ShownAll.cons (Shown.int (i := 2 * k)) .nil)
    rw [intStr_shown] at this
    exact .call .list ⟨rfl, .locally (by decide) (hs (n := c!"println") (b := .println) (s := false) (by decide))⟩ (.other (by simp) e5 .nil) (.prints this)
  exact ⟨_, _, .next ⟨_, _, .list⟩ e3 rfl (.next ⟨_, _, .list⟩ e6 rfl .done), rfl⟩

/-- C86: if the file `calc` contains the module, in any layout and with any comments, then the program writes twice the number. -/
theorem C86_twice (k : Int) (hk : IsInt32 k) (hk2 : IsInt32 (2 * k)) {text mtext : Str} (hw : Written (twiceProgram k) text) (hm : Written twiceModule mtext) (hne : mtext ≠ [])
    {st : St} (hr : Reachable st) (hf : st.files.lookup c!"calc" = some mtext) (module : Str) :
    ∃ w st', Runs text module st (.ok (some w) st') ∧ st'.out = st.out ++ intStr (2 * k) ++ c!"\n" := by
  let lib : Str → Option (Str × List Sexp) := fun n => if n = c!"calc" then some (c!"calc", twiceModule) else none
  have hmw : Sexp.WFs twiceModule := by
    simp [twiceModule, twiceBody, Sexp.WF, Sexp.WFs, SymbolName, Spec.Plain, White, NumberLike, dropSign, Digit, reserved, IsInt32]
  have hlib : Provides st lib := by
    intro name file xs h
    simp only [lib] at h
    split at h
    · rename_i hn
      subst hn
      cases h
      exact ⟨mtext, ⟨[], _, rfl, by simp, hf⟩, hne, hm, hmw⟩
    · cases h
  obtain ⟨v, R, h1, h2⟩ := twice_derivation k hk2 (lib := lib) rfl []
  have hx : Sexp.WFs (twiceProgram k) := by
    simp [twiceProgram, Sexp.WF, Sexp.WFs, SymbolName, Spec.Plain, White, NumberLike, dropSign, Digit, reserved, hk]
  obtain ⟨w, st', μ, g1, -, g3, -⟩ := C86_modules hx hw (by simp [twiceProgram, Sexp.Heads, Sexp.HeadsAll, Sexp.text, hidden]) hr module (ls := []) (rest := st.input) rfl hlib h1
  exact ⟨w, st', g1, by rw [g3, h2, List.append_assoc]⟩

/-- The same for a number, the module and the program in one line each: `C86_twice` applies to an interpreter whose file `calc` holds the module. -/
example : ∃ w st', Runs (Sexp.sources (twiceProgram 21)) [] { files := [(c!"calc", Sexp.sources twiceModule)] } (.ok (some w) st') ∧ st'.out = intStr 42 ++ c!"\n" := by
  have hm : Sexp.WFs twiceModule := by
    simp [twiceModule, twiceBody, Sexp.WF, Sexp.WFs, SymbolName, Spec.Plain, White, NumberLike, dropSign, Digit, reserved, IsInt32]
  have hx : Sexp.WFs (twiceProgram 21) := by
    simp [twiceProgram, Sexp.WF, Sexp.WFs, SymbolName, Spec.Plain, White, NumberLike, dropSign, Digit, reserved, IsInt32]
  obtain ⟨w, st', h1, h2⟩ := C86_twice 21 (by unfold IsInt32; omega) (by unfold IsInt32; omega) (written_sources hx) (written_sources hm) (by simp [twiceModule, Sexp.sources, Sexp.source])
    (.init (st := { files := [(c!"calc", Sexp.sources twiceModule)] }) rfl (fun _ => rfl) (fun _ => rfl) (fun _ => rfl) (fun _ => rfl)) rfl []
  exact ⟨w, st', h1, h2⟩

end Fuel
