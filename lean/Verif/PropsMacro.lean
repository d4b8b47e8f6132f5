import Verif.SpecMacro
import Verif.PropsProg
import Verif.PropsRun
/-!
# Templates and run-time macros (C41, C43)
-/

set_option linter.unusedSectionVars false
set_option linter.unusedSimpArgs false

namespace Fuel
open Spec Spec.Core

section
variable [World]

/-- Programs in sequence. -/
theorem seq_append {f : Nat} {r : Option Val} {xs ys : List Sexp} {R R' R'' : Conf} {v v' : Val} : Seq f r xs R v R' → (R'.frames f).ret = false →
    Seq f (some v) ys R' v' R'' → Seq f r (xs ++ ys) R v' R''
  | .done, _, h => h
  | .next h1 h2 h3 h4, hr, h => .next h1 h2 h3 (seq_append h4 hr h)
  | .ret _ _ h3, hr, _ => by rw [hr] at h3; cases h3
  | .skip h1 h2 h3 h4 h5, hr, h => .skip h1 h2 h3 h4 (seq_append h5 hr h)
  | .macro_ h1 h2 h3 h4 h5 h6, hr, h => .macro_ h1 h2 h3 h4 h5 (seq_append h6 hr h)

/-! ## Templates -/

/-- C41: after any core program, the value of a quasiquoted expression is the expression with `,x` replaced by the value of `x` and `,@x` by the
elements of the list `x`, at every depth (`Filled`); lists of exactly two elements are not looked into. -/
theorem C41_quasiquote {xs : List Sexp} {x : Sexp} (hx : Sexp.WFs (xs ++ [.list [.sym c!"quasiquote", x]])) {text : Str}
    (hw : Written (xs ++ [.list [.sym c!"quasiquote", x]]) text)
    (hh : Sexp.HeadsAll (fun n => n ∉ hidden ∧ n ≠ c!"define-macro-expand") (xs ++ [.list [.sym c!"quasiquote", x]])) {st : St} (hr : Reachable st) (module : Str)
    {r v : Val} {R R' : Conf} (h1 : Seq 0 (some .undef) xs Conf.start r R) (h2 : (R.frames 0).ret = false) (h3 : Head R 0 c!"quasiquote" (.prim c!"quasiquote"))
    (h4 : Filled 0 x R v R') : ∃ w st' μ, Runs text module st (.ok (some w) st') ∧ IsVal st' μ R'.count w v ∧ st'.out = st.out ++ R'.out := by
  have hE : Exec 0 (.list [.sym c!"quasiquote", x]) R v R' := .quasi .list h3 h4
  refine C55_core hx hw hh hr module (seq_append h1 h2 ?_)
  cases hb : (R'.frames 0).ret with
  | false => exact .next ⟨_, _, .list⟩ hE hb .done
  | true => exact .ret ⟨_, _, .list⟩ hE hb

/-! ## Macros -/

mutual
theorem uses_replace_none {σ : Str → Option Sexp} : ∀ x : Sexp, (∀ n, Uses n x → σ n = none) → replace σ x = x
  | .sym n, h => by simp [replace, h n rfl]
  | .pre k x, h => by rw [replace, uses_replace_none x (fun n hn => h n (.inr hn))]
  | .list l, h => by rw [replace, uses_replaces_none l (fun n hn => h n hn)]
  | .int _, _ => rfl
  | .str _, _ => rfl
  | .bool _, _ => rfl
  | .float _, _ => rfl
  | .nil, _ => rfl
theorem uses_replaces_none {σ : Str → Option Sexp} : ∀ l : List Sexp, (∀ n, UsesAny n l → σ n = none) → replaces σ l = l
  | [], _ => rfl
  | x :: l, h => by rw [replaces, uses_replace_none x (fun n hn => h n (.inl hn)), uses_replaces_none l (fun n hn => h n (.inr hn))]
end

mutual
theorem replace_subst {p : Str} {a : Sexp} {σ : Str → Option Sexp} (hp : σ p = none) (ha : replace σ a = a) :
    ∀ x : Sexp, replace σ (subst p a x) = replace (fun n => if n = p then some a else σ n) x
  | .sym n => by
    by_cases h : n = p
    · simp [subst, replace, h, ha]
    · simp [subst, replace, h]
  | .pre k x => by rw [subst, replace, replace, replace_subst hp ha x]
  | .list l => by rw [subst, replace, replace, replaces_substs hp ha l]
  | .int _ => rfl
  | .str _ => rfl
  | .bool _ => rfl
  | .float _ => rfl
  | .nil => rfl
theorem replaces_substs {p : Str} {a : Sexp} {σ : Str → Option Sexp} (hp : σ p = none) (ha : replace σ a = a) :
    ∀ l : List Sexp, replaces σ (substs p a l) = replaces (fun n => if n = p then some a else σ n) l
  | [] => rfl
  | x :: l => by rw [substs, replaces, replaces, replace_subst hp ha x, replaces_substs hp ha l]
end

theorem pairing_none {n : Str} : ∀ {ps : List Str} {as : List Sexp}, n ∉ ps → pairing ps as n = none
  | [], _, _ => by simp [pairing]
  | p :: ps, [], _ => by simp [pairing]
  | p :: ps, a :: as, h => by
    rw [pairing, if_neg (show n ≠ p from fun e => h (e ▸ List.mem_cons_self)), pairing_none (fun hn => h (List.mem_cons_of_mem _ hn))]

theorem pairing_uses {a : Sexp} {ps : List Str} {as : List Sexp} (h : ∀ q ∈ ps, ¬ Uses q a) : replace (pairing ps as) a = a :=
  uses_replace_none a (fun n hn => pairing_none (fun hp => h n hp hn))

/-- Replacing one parameter after the other is replacing all of them at once. -/
theorem instantiate_replace : ∀ {ps : List Str} {as : List Sexp} (body : List Sexp), Apart ps as → instantiate ps as body = replaces (pairing ps as) body
  | [], as, body, _ => by rw [instantiate, uses_replaces_none]; · simp [pairing]
                          · simp
  | p :: ps, [], body, _ => by rw [instantiate, uses_replaces_none]; · simp [pairing]
                               · simp
  | p :: ps, a :: as, body, h => by
    rw [instantiate, instantiate_replace _ h.2.2, replaces_substs (pairing_none h.1) (pairing_uses h.2.1)]
    rfl

/-- C43: after any core program, the definition of a run-time macro followed by a call of it has the value and the effects of the body of the
macro in which all parameters are replaced at once, at every depth, by the arguments that were written in the call. -/
theorem C43_macro {xs body args : List Sexp} {n : Str} {ps : List Str} {prog : List Sexp}
    (hprog : prog = xs ++ [.list [.sym c!"define-macro", .sym n, .list (ps.map .sym), .list body], .list (.sym n :: args)])
    (hx : Sexp.WFs prog) {text : Str} (hw : Written prog text) (hh : Sexp.HeadsAll (fun n => n ∉ hidden ∧ n ≠ c!"define-macro-expand") prog)
    {st : St} (hr : Reachable st) (module : Str) {r v : Val} {R R' : Conf} (h1 : Seq 0 (some .undef) xs Conf.start r R) (h2 : (R.frames 0).ret = false)
    (h3 : Head R 0 c!"define-macro" (.prim c!"define-macro")) (hn : n ∉ hidden) (hc : MacroCall R 0 ps args body) (ha : Apart ps args)
    (h4 : Exec 0 (.list (replaces (pairing ps args) body)) (R.defMacro n ps body) v R') :
    ∃ w st' μ, Runs text module st (.ok (some w) st') ∧ IsVal st' μ R'.count w v ∧ st'.out = st.out ++ R'.out := by
  subst hprog
  rw [← instantiate_replace body ha] at h4
  have hE : Exec 0 (.list (.sym n :: args)) (R.defMacro n ps body) v R' :=
    .macro_ .list (if_pos rfl) ⟨hc.enough, hc.clean, hc.rest, hc.heads⟩ h4
  refine C55_core hx hw hh hr module (seq_append h1 h2 (.macro_ .list h3 (by simp) hn h2 ?_))
  cases hb : (R'.frames 0).ret with
  | false => exact .next ⟨_, _, .list⟩ hE hb .done
  | true => exact .ret ⟨_, _, .list⟩ hE hb

end

/-! ## The hypotheses are met -/

section
attribute [local instance] demoWorld

/-- `(def x 3) (def l (quote (4 5)))` -/
def tmplSetup : List Sexp := [.list [.sym c!"def", .sym c!"x", .int 3], .list [.sym c!"def", .sym c!"l", .pre .quote (.list [.int 4, .int 5])]]

/-- `(1 ,x ,@l (a ,x b))` -/
def tmpl : Sexp := .list [.int 1, .pre .unquote (.sym c!"x"), .pre .splice (.sym c!"l"), .list [.sym c!"a", .pre .unquote (.sym c!"x"), .sym c!"b"]]

theorem tmpl_wf : Sexp.WFs (tmplSetup ++ [.list [.sym c!"quasiquote", tmpl]]) := by
  simp [tmplSetup, tmpl, Sexp.WF, Sexp.WFs, Sexp.Quotable, SymbolName, Spec.Plain, White, NumberLike, dropSign, Digit, reserved, IsInt32]

/-- The value of the template is `(1 3 4 5 (a 3 b))` (C41). -/
example : ∃ w st' μ n, Runs (Sexp.sources (tmplSetup ++ [.list [.sym c!"quasiquote", tmpl]])) c!"demo" ({} : St) (.ok (some w) st') ∧
    IsVal st' μ n w (.list [.int 1, .int 3, .int 4, .int 5, .list [.sym c!"a", .int 3, .sym c!"b"]]) := by
  have e1 : Exec 0 (.list [.sym c!"def", .sym c!"x", .int 3]) Conf.start (.int 3) (Conf.start.set 0 c!"x" (.int 3)) :=
    .def_ .list (value_start 0 (b := .def_) (s := true) (by decide) (by decide)) (by decide) .int
  have e2 : Exec 0 (.list [.sym c!"def", .sym c!"l", .pre .quote (.list [.int 4, .int 5])]) (Conf.start.set 0 c!"x" (.int 3)) (.list [.int 4, .int 5])
      ((Conf.start.set 0 c!"x" (.int 3)).set 0 c!"l" (.list [.int 4, .int 5])) :=
    .def_ .list ⟨rfl, .locally (by decide) (by rw [set_other (by decide)]; exact start_vars (b := .def_) (s := true) (by decide))⟩ (by decide)
      (.quote .pre ⟨rfl, .locally (by decide) (by rw [set_other (by decide)]; exact start_vars (b := .quote) (s := true) (by decide))⟩
        (.list (.cons .int (.cons .int .nil))))
  have hx : Exec 0 (.sym c!"x") ((Conf.start.set 0 c!"x" (.int 3)).set 0 c!"l" (.list [.int 4, .int 5])) (.int 3)
      ((Conf.start.set 0 c!"x" (.int 3)).set 0 c!"l" (.list [.int 4, .int 5])) := .var (.locally (by decide) (by rw [set_other (by decide)]; exact set_same))
  have hl : Exec 0 (.sym c!"l") ((Conf.start.set 0 c!"x" (.int 3)).set 0 c!"l" (.list [.int 4, .int 5])) (.list [.int 4, .int 5])
      ((Conf.start.set 0 c!"x" (.int 3)).set 0 c!"l" (.list [.int 4, .int 5])) := .var (.locally (by decide) set_same)
  have hf : Filled 0 tmpl ((Conf.start.set 0 c!"x" (.int 3)).set 0 c!"l" (.list [.int 4, .int 5]))
      (.list (.int 1 :: .int 3 :: ([.int 4, .int 5] ++ [.list [.sym c!"a", .int 3, .sym c!"b"]])))
      ((Conf.start.set 0 c!"x" (.int 3)).set 0 c!"l" (.list [.int 4, .int 5])) :=
    .list (by decide) (.one (.atom (by simp) (by simp) .int) (.one (.unquote .pre hx) (.splice .pre hl .list
      (.one (.list (by decide) (.one (.atom (by simp) (by simp) .sym) (.one (.unquote .pre hx) (.one (.atom (by simp) (by simp) .sym) .nil)))) .nil))))
  obtain ⟨w, st', μ, h1, h2, -⟩ := C41_quasiquote tmpl_wf (written_sources tmpl_wf)
    (by simp [tmplSetup, tmpl, Sexp.Heads, Sexp.HeadsAll, Sexp.text, hidden, Prefix.word]; decide) (st := {})
    (.init rfl (fun _ => rfl) (fun _ => rfl) (fun _ => rfl) (fun _ => rfl)) c!"demo"
    (.next ⟨_, _, .list⟩ e1 rfl (.next ⟨_, _, .list⟩ e2 rfl .done)) rfl
    ⟨rfl, .locally (by decide) (by rw [set_other (by decide), set_other (by decide)]; exact start_vars (b := .quasiquote) (s := true) (by decide))⟩ hf
  exact ⟨w, st', μ, _, h1, h2⟩

example : Sexp.sources (tmplSetup ++ [.list [.sym c!"quasiquote", tmpl]]) = c!"(def x 3) (def l '(4 5)) (quasiquote (1 ,x ,@l (a ,x b)))" := by decide +kernel

/-- C41: in a list of exactly two elements nothing is replaced. -/
theorem C41_two_wrong : demoScripts [c!"(def x 3) (println `(a ,x c)) (println `(a ,x)) (println `(a (b ,x) c))"] =
    c!"(a 3 c)\n(a (_unquote x))\n(a (b (_unquote x)) c)\n" := by decide +kernel

/-- `(def y 5)` -/
def macroSetup : List Sexp := [.list [.sym c!"def", .sym c!"y", .int 5]]

/-- `(do e e (println f))` -/
def macroBody : List Sexp := [.sym c!"do", .sym c!"e", .sym c!"e", .list [.sym c!"println", .sym c!"f"]]

/-- `((setf y (+ y 1)) y)` -/
def macroArgs : List Sexp := [.list [.sym c!"setf", .sym c!"y", .list [.sym c!"+", .sym c!"y", .int 1]], .sym c!"y"]

/-- The program. -/
def macroProgram : List Sexp := macroSetup ++
  [.list [.sym c!"define-macro", .sym c!"twice", .list ([c!"e", c!"f"].map .sym), .list macroBody], .list (.sym c!"twice" :: macroArgs)]

theorem macro_wf : Sexp.WFs macroProgram := by
  simp [macroProgram, macroSetup, macroBody, macroArgs, Sexp.WF, Sexp.WFs, Sexp.Quotable, SymbolName, Spec.Plain, White, NumberLike, dropSign, Digit, reserved, IsInt32]

example : Sexp.sources macroProgram = c!"(def y 5) (define-macro twice (e f) (do e e (println f))) (twice (setf y (+ y 1)) y)" := by decide +kernel

/-- The argument is executed twice: 7 is written (C43). -/
example : ∃ w st', Runs (Sexp.sources macroProgram) c!"demo" ({} : St) (.ok (some w) st') ∧ st'.out = c!"7\n" := by
  let R := Conf.start.set 0 c!"y" (.int 5)
  let R1 := R.defMacro c!"twice" [c!"e", c!"f"] macroBody
  let R2 := R1.set 0 c!"y" (.int 6)
  let R3 := R2.set 0 c!"y" (.int 7)
  have e1 : Exec 0 (.list [.sym c!"def", .sym c!"y", .int 5]) Conf.start (.int 5) R :=
    .def_ .list (value_start 0 (b := .def_) (s := true) (by decide) (by decide)) (by decide) .int
  have hp := Prints.println (ShownAll.cons (Shown.int (i := 7)) .nil)
  rw [intStr_shown] at hp
  have hd : Exec 0 (.list (replaces (pairing [c!"e", c!"f"] macroArgs) macroBody)) R1 (.str c!"7") (R3.write c!"7\n") := by
    refine .block (d := c!"do") .list ⟨rfl, .locally (by decide) ?_⟩ (by simp) (.next ⟨_, _, .list⟩ (?_ : Exec 0 _ R1 (.int 6) R2) rfl
      (.next ⟨_, _, .list⟩ (?_ : Exec 0 _ R2 (.int 7) R3) rfl (.next ⟨_, _, .list⟩ (?_ : Exec 0 _ R3 _ _) rfl .done)))
    · exact (set_other (by decide)).trans (start_vars (b := .do_) (s := true) (by decide))
    · refine .setf .list ⟨rfl, .locally (by decide) ((set_other (by decide)).trans (start_vars (b := .setf) (s := true) (by decide)))⟩ (by decide) (by simp)
        (.call .list ⟨rfl, .locally (by decide) ((set_other (by decide)).trans (start_vars (b := .add) (s := false) (by decide)))⟩
          (.name (.locally (by decide) set_same) (.other (by simp) .int .nil)) (.fn (.add (a := 5) (l := [1]) (by simp) (.cons (by decide) .nil)))) (.here set_same)
    · refine .setf .list ⟨rfl, .locally (by decide) ((set_other (by decide)).trans ((set_other (by decide)).trans (start_vars (b := .setf) (s := true) (by decide))))⟩ (by decide) (by simp)
        (.call .list ⟨rfl, .locally (by decide) ((set_other (by decide)).trans ((set_other (by decide)).trans (start_vars (b := .add) (s := false) (by decide))))⟩
          (.name (.locally (by decide) set_same) (.other (by simp) .int .nil)) (.fn (.add (a := 6) (l := [1]) (by simp) (.cons (by decide) .nil)))) (.here set_same)
    · exact .call .list ⟨rfl, .locally (by decide) ((set_other (by decide)).trans ((set_other (by decide)).trans ((set_other (by decide)).trans
        (start_vars (b := .println) (s := false) (by decide)))))⟩ (.name (.locally (by decide) set_same) .nil) (.prints hp)
  obtain ⟨w, st', μ, h1, -, h3⟩ := C43_macro (r := .int 5) (R := R) rfl macro_wf (written_sources macro_wf)
    (by simp [macroProgram, macroSetup, macroBody, macroArgs, Sexp.Heads, Sexp.HeadsAll, Sexp.text, hidden]) (st := {})
    (.init rfl (fun _ => rfl) (fun _ => rfl) (fun _ => rfl) (fun _ => rfl)) c!"demo"
    (.next ⟨_, _, .list⟩ e1 rfl .done) rfl
    ⟨rfl, .locally (by decide) ((set_other (by decide)).trans (start_vars (b := .defineMacroEval) (s := true) (by decide)))⟩ (by decide)
    ⟨by decide, by simp [macroBody, macroArgs, Cleans, Clean], by simp [macroBody, Cleans, Clean, UsesAny, Uses],
      by
        have h (n : Str) (b : Builtin) (s : Bool) (hb : (n, b, s) ∈ coreTable) (hy : n ≠ c!"y") (hm : n ≠ c!"define-macro-expand") (v : Val)
            (h : (R.frames 0).vars n = some v) : Passive v := by
          rw [(set_other hy).trans (start_vars hb)] at h
          cases h
          exact hm
        exact ⟨⟨⟨by decide, h _ .setf true (by decide) (by decide) (by decide)⟩, trivial, trivial,
          ⟨⟨by decide, h _ .add false (by decide) (by decide) (by decide)⟩, trivial, trivial, trivial, trivial⟩, trivial⟩, trivial, trivial⟩⟩
    (by simp [Apart, macroArgs, Uses, UsesAny]) hd
  exact ⟨w, st', h1, h3⟩

/-- C43: an argument that mentions a later parameter is replaced as well: with `b` = 7 the call `(m b 5)` is `(list 5 5)`. -/
theorem C43_capture_wrong : demoScripts [c!"(def b 7) (define-macro m (a b) (list a b)) (println (m b 5))"] = c!"(5 5)\n" := by decide +kernel

/-- C43: string literals that are equal to the name of a parameter are replaced as well. -/
theorem C43_string_wrong : demoScripts [c!"(define-macro m (a) (list \"a\" a)) (println (m 5))"] = c!"(5 5)\n" := by decide +kernel

end

end Fuel
