import Verif.LemFuellib
import Verif.PropsModule
import Verif.PropsTimes
/-!
# C87: the standard library
-/

set_option linter.unusedSectionVars false
set_option linter.unusedSimpArgs false

namespace Fuel

open Spec Spec.Core

section
variable [World]

/-! ## Further functions of the library -/

/-- C75: `isCpp` is true, `isNET` and `isHaxe` are false. -/
theorem C75_platform {g f : Nat} {R : Conf} (hS : Standard R [c!"==", c!"nth", c!"platform"]) :
    (∃ R', Apply f (.clo [] isCppBody g) [] R (.bool true) R' ∧ Kept R R') ∧ (∃ R', Apply f (.clo [] isNETBody g) [] R (.bool false) R' ∧ Kept R R') ∧
    (∃ R', Apply f (.clo [] isHaxeBody g) [] R (.bool false) R' ∧ Kept R R') := by
  have hI : In g R (R.enter [] [] g) [] := In.enter g R rfl
  have hS' : Standard (R.enter [] [] g) [c!"==", c!"nth", c!"platform"] := ⟨Nat.succ_pos _, fun n hn => by rw [hI.low 0 hS.count]; exact hS.vars n hn, hS.macros⟩
  have hv : ((R.enter [] [] g).frames R.count).vars = locals [] := by rw [hI.here]
  exact ⟨⟨_, .clo (by decide) (by simp) (exec_isPlatform hS' hv c!"C++"), hI.kept⟩, ⟨_, .clo (by decide) (by simp) (exec_isPlatform hS' hv c!".NET"), hI.kept⟩,
    ⟨_, .clo (by decide) (by simp) (exec_isPlatform hS' hv c!"haxe"), hI.kept⟩⟩

/-- C75: `dict-len` gives the number of entries of a dictionary. -/
theorem C75_dict_len {g f : Nat} {R : Conf} (hS : Standard R [c!"len"]) {a : Nat} {d : List (Key × Val)} (hd : R.dicts[a]? = some d) (hz : IsInt32 d.length) :
    ∃ R', Apply f (.clo [c!"d"] dictLenBody g) [.dict a] R (.int d.length) R' ∧ Kept R R' := by
  have h1 := In.enter g R (params_one c!"d" (.dict a))
  exact ⟨_, .clo (by decide) (by decide) (.call .list (h1.head hS (by decide) rfl (by decide)) (.name (h1.var rfl (by decide)) .nil) (.asks (.len hd hz))), h1.kept⟩

theorem In.trans {g : Nat} {R0 R R' : Conf} {l : List (Str × Val)} (h : In g R0 R l) (hk : Kept R R') : In g R0 R' l :=
  ⟨Nat.lt_of_lt_of_le h.count hk.count, fun i hi => by rw [hk.frames i (Nat.lt_trans hi h.count), h.low i hi], by rw [hk.frames _ h.count, h.here],
    by rw [hk.out, h.out], by rw [hk.macros, h.macros], by rw [hk.modules, h.modules], by rw [hk.lib, h.lib], by rw [hk.input, h.input]⟩

theorem Spec.Core.Standard.kept {R R' : Conf} {names : List Str} (h : Standard R names) (hk : Kept R R') : Standard R' names :=
  ⟨Nat.lt_of_lt_of_le h.count hk.count, fun n hn => by rw [hk.frames 0 h.count]; exact h.vars n hn, fun n hn => by rw [hk.macros]; exact h.macros n hn⟩

/-- C75: `(arg-list-with-obj-expression x n)` gives the list of `x` and the symbols p0, p1, ..., as many as requested.  It is defined in a frame where
`arg-list-expression` is known. -/
theorem C75_arg_list_with_obj {g f : Nat} {R : Conf} (hS : Standard R argListNames) (hg : g < R.count) (hg0 : (R.frames 0).vars c!"arg-list-expression" = none)
    (hl : (R.frames g).vars c!"arg-list-expression" = some (.clo [c!"argcount"] argListBody g)) (hm : R.macros c!"arg-list-expression" = none) (x : Val) (n : Nat) (hn : IsInt32 n) :
    ∃ R', Apply f (.clo [c!"obj", c!"argcount"] argListWithObjExpressionBody g) [x, .int n] R (.list (x :: paramSyms n)) R' ∧ Kept R R' := by
  have hI := In.enter g R (params_two c!"obj" c!"argcount" x (.int n))
  have h1 := hI.set c!"result" (.list [])
  have h2 := h1.set c!"result" (.list [x])
  have hS2 : Standard (((R.enter [c!"obj", c!"argcount"] [x, .int n] g).set R.count c!"result" (.list [])).set R.count c!"result" (.list [x])) argListNames := hS.kept h2.kept
  obtain ⟨R3, e3, k3⟩ := C75_arg_list (g := g) (f := R.count) hS2 n hn
  have h3 := h2.trans k3
  have h4 := h3.set c!"result" (.list (x :: paramSyms n))
  have e1 : Exec R.count (ap c!"append" [.sym c!"result", ap c!"list" [.sym c!"obj"]]) ((R.enter [c!"obj", c!"argcount"] [x, .int n] g).set R.count c!"result" (.list []))
      (.list [x]) ((R.enter [c!"obj", c!"argcount"] [x, .int n] g).set R.count c!"result" (.list [])) :=
    .call .list (h1.head hS (by decide) rfl (by decide)) (.name (h1.var rfl (by decide)) (.other (by simp [ap]) (.call .list (h1.head hS (by decide) rfl (by decide))
      (.name (h1.var rfl (by decide)) .nil) (.fn .list)) .nil)) (.fn (.append (.cons .list (.cons .list .nil))))
  have hh : Head (((R.enter [c!"obj", c!"argcount"] [x, .int n] g).set R.count c!"result" (.list [])).set R.count c!"result" (.list [x])) R.count c!"arg-list-expression"
      (.clo [c!"argcount"] argListBody g) := by
    refine ⟨by rw [h2.macros]; exact hm, .outer (g := g) (by decide) (by rw [h2.here]; rfl) (by rw [h2.low 0 hS.count]; exact hg0) ?_ (by rw [h2.low g hg]; exact hl)⟩
    exact .up (by rw [h2.here]; rfl) (by rw [h2.here]) (.here (by rw [h2.low g hg]; exact hl))
  have e2 : Exec R.count (ap c!"append" [.sym c!"result", ap c!"arg-list-expression" [.sym c!"argcount"]])
      (((R.enter [c!"obj", c!"argcount"] [x, .int n] g).set R.count c!"result" (.list [])).set R.count c!"result" (.list [x])) (.list (x :: paramSyms n)) R3 := by
    have := Exec.call (e := ap c!"append" [.sym c!"result", ap c!"arg-list-expression" [.sym c!"argcount"]]) .list (h2.head hS (by decide) rfl (by decide))
      (.name (h2.var (n := c!"result") rfl (by decide)) (.other (by simp [ap]) (.call .list hh (.name (h2.var rfl (by decide)) .nil) e3) .nil)) (.fn (.append (.cons .list (.cons .list .nil))))
    simpa using this
  exact ⟨_, .clo (by decide) (by decide) (.block .list (hI.head hS (by decide) rfl (by decide)) (by simp)
    (.next ⟨_, _, .list⟩ (.def_ .list (hI.head hS (by decide) rfl (by decide)) (by decide) (.call .list (hI.head hS (by decide) rfl (by decide)) .nil (.fn .list))) h1.ret
      (.next ⟨_, _, .list⟩ (h1.assign hS (by decide) (w := .list []) rfl rfl (by decide) (by simp) e1) h2.ret
        (.next ⟨_, _, .list⟩ (.setf .list (h2.head hS (by decide) rfl (by decide)) (by decide) (by simp) e2 (h3.innermost (v := .list [x]) rfl)) h4.ret
          (.ret ⟨_, _, .list⟩ (h4.return_var hS (by decide) rfl rfl (by decide)) (mark_ret _ _)))))), h4.kept_mark⟩

/-! ## The import -/

theorem lib_provided {st : St} {file : Str} (h : FirstFile st (moduleFiles st.libPath (slashes c!"fuellib")) file libText) : InLibrary st c!"fuellib" file libProgram :=
  ⟨libText, h, by decide +kernel, lib_written, lib_wf⟩

theorem default_names (n : Str) : (Conf.start.frames 0).vars n = if n ∈ defaultTable.map Entry.name then some (.prim n) else none := rfl

set_option maxRecDepth 20000 in
theorem lib_new : ∀ x ∈ libItems, x.name ∉ defaultTable.map Entry.name := by decide +kernel

set_option maxRecDepth 20000 in
theorem fuellib_new : c!"fuellib" ∉ defaultTable.map Entry.name := by decide +kernel

/-- The only module is the standard library. -/
def onlyLib (file : Str) : Str → Option (Str × List Sexp) := fun n => if n = c!"fuellib" then some (file, libProgram) else none

theorem provides_lib {st : St} {file : Str} (h : FirstFile st (moduleFiles st.libPath (slashes c!"fuellib")) file libText) : Provides st (onlyLib file) := by
  intro name file' xs hx
  simp only [onlyLib] at hx
  split at hx
  · rename_i hn
    subst hn
    cases hx
    exact lib_provided h
  · cases hx

/-- C87: a program that imports the standard library (`(import fuellib)` or `(import "fuellib")`, where the file that is found contains the
program of Library/fuellib.fuel) and goes on with `xs`: the library is loaded, writes nothing and changes nothing else; then the rest of the program behaves as the
reference semantics says, with the functions and macros of the library. -/
theorem C87_import {x : Sexp} (hx : x = .sym c!"fuellib" ∨ x = .str c!"fuellib") {xs : List Sexp} (hwf : Sexp.WFs xs) {text : Str} (hw : Written (ap c!"import" [x] :: xs) text)
    (hh : Sexp.HeadsAll (fun n => n ∉ hidden ∧ n ≠ c!"define-macro-expand") xs) {st : St} (hr : Reachable st) (module : Str) {ls rest : List Str}
    (hi : st.input = ls ++ rest) {file : Str} (hfile : file ∉ hidden)
    {lib : Str → Option (Str × List Sexp)} (hlib : Provides st lib) (hl : lib c!"fuellib" = some (file, libProgram)) :
    ∃ R, Loaded file (Conf.startWith lib ls) R ∧ R.modules = [(file, 3)] ∧ ∀ v R', Seq 0 (some .undef) xs R v R' →
      ∃ w st' μ, Runs text module st (.ok (some w) st') ∧ IsVal st' μ R'.count w v ∧ st'.out = st.out ++ R'.out ∧ st'.input = R'.input ++ rest := by
  have hS : Standard (Conf.startWith lib ls) libNames :=
    ⟨Nat.one_pos, fun n hn => (standard_sub standard_start (b := libNames) (by decide)).vars n hn, fun _ _ => rfl⟩
  have hunk : Unknown (Conf.startWith lib ls) 0 c!"fuellib" := by
    have hn : ((Conf.startWith lib ls).frames 0).vars c!"fuellib" = none := (default_names _).trans (if_neg fuellib_new)
    refine ⟨by decide, hn, fun g h => ?_, fun x hx => (nomatch hx)⟩
    cases h with
    | here h1 => cases hn.symm.trans h1
    | up _ h1 _ => cases h1
  have hop : ∃ w, Operands 0 (Conf.startWith lib ls) [x] (Conf.startWith lib ls) [w] (Conf.startWith lib ls) ∧ Named w c!"fuellib" := by
    rcases hx with rfl | rfl
    · exact ⟨_, .unknown hunk .nil, .sym⟩
    · exact ⟨_, .other (by simp) .str .nil, .str⟩
  obtain ⟨w, ho, hn⟩ := hop
  obtain ⟨R, h1, h2, h3⟩ := lib_import (f := 0) hn hl hfile hS rfl (ms := [(file, 3)]) (.new (a := []) (b := []) (by simp) (by simp))
  refine ⟨R, h2, h3, fun v R' hE => ?_⟩
  have e1 : Exec 0 (ap c!"import" [x]) (Conf.startWith lib ls) .undef R :=
    .call .list ⟨rfl, .locally (by decide) (start_vars (b := .import_) (s := false) (by decide))⟩ ho h1
  have hret : (R.frames 0).ret = false := by rw [h2.low 0 Nat.one_pos]; rfl
  refine C86_modules (xs := ap c!"import" [x] :: xs) ⟨?_, hwf⟩ hw ⟨?_, hh⟩ hr module hi hlib (.next ⟨_, _, .list⟩ e1 hret hE)
  · rcases hx with rfl | rfl <;> exact isWF_ok (by decide +kernel)
  · rcases hx with rfl | rfl <;> simp [ap, Sexp.Heads, Sexp.HeadsAll, Sexp.text, hidden]

/-- After the import, every function of the library can be called under its name. -/
theorem C87_value {file : Str} {lib : Str → Option (Str × List Sexp)} {ls : List Str} {R : Conf} (hL : Loaded file (Conf.startWith lib ls) R) (hm : R.modules = [(file, 3)])
    {n : Str} {ps : List Str} {body : Sexp} (hn : LibItem.fn n ps body ∈ libItems) : Head R 0 n (.clo ps body 1) := by
  have h0 : (R.frames 0).vars n = none := by
    rw [hL.low 0 Nat.one_pos]
    exact (default_names _).trans (if_neg (lib_new _ hn))
  have hp : (R.frames 0).parent = none := by rw [hL.low 0 Nat.one_pos]; rfl
  have hmac : ∀ ps body, LibItem.mac n ps body ∉ libItems := by
    have key : (libItems.all fun x => libItems.all fun y => match x, y with | .fn a _ _, .mac b _ _ => a != b | _, _ => true) = true := by decide +kernel
    intro ps' body' h
    have := List.all_eq_true.1 (List.all_eq_true.1 key _ hn) _ h
    simp at this
  refine ⟨by rw [hL.old n hmac]; rfl, .module (a := []) (b := []) (libItems_names _ hn).1 h0 (fun g hg => ?_) hm (by simp) (hL.copy ▸ hL.fns n ps body hn : (R.frames 3).vars n = _)⟩
  cases hg with
  | here h1 => cases h0.symm.trans h1
  | up _ h1 _ => cases hp.symm.trans h1

/-! ## Scripts -/

theorem hasLib_standard {file : Str} {lib : Str → Option (Str × List Sexp)} {ls : List Str} {R : Conf} (hL : Loaded file (Conf.startWith lib ls) R) : Standard R coreNames := by
  refine ⟨by rw [hL.count]; omega, fun n hn => by rw [hL.low 0 Nat.one_pos]; exact standard_start.vars n hn, fun n hn => ?_⟩
  rw [hL.old n]
  · rfl
  · intro ps body h
    have key : (libItems.all fun x => !coreNames.contains x.name) = true := by decide +kernel
    have := List.all_eq_true.1 key _ h
    simp at this
    exact this hn

/-- `(import fuellib) (println (name 'a 'b ...))` -/
def libCall (name : Str) (args : List Sexp) : List Sexp := [ap c!"import" [.sym c!"fuellib"], ap c!"println" [ap name (args.map (.pre .quote))]]

/-- C87: a script that imports the standard library and prints the result of a call of one of its functions with quoted data, in any layout and with any
comments, prints what the function gives. -/
theorem C87_call {name : Str} {ps : List Str} {body : Sexp} (hi : LibItem.fn name ps body ∈ libItems) {args : List Sexp} {vs : List Val} (hq : Each Data args vs) {v : Val} {t : Str}
    (hA : ∀ R, Standard R coreNames → 1 < R.count → (∀ n ps body, LibItem.fn n ps body ∈ libItems → (R.frames 0).vars n = none ∧ R.macros n = none ∧
      (R.frames 1).vars n = some (.clo ps body 1)) → ∃ R', Apply 0 (.clo ps body 1) vs R v R' ∧ Kept R R') (ht : Shown false v t)
    {text : Str} (hw : Written (libCall name args) text) {st : St} (hr : Reachable st) {file : Str}
    (hf : FirstFile st (moduleFiles st.libPath (slashes c!"fuellib")) file libText) (hfile : file ∉ hidden) (module : Str) :
    ∃ w st', Runs text module st (.ok (some w) st') ∧ st'.out = st.out ++ (t ++ c!"\n") ∧ st'.input = st.input := by
  have hname : isSymbolName name = true := by
    have key : (libItems.all fun x => isSymbolName x.name) = true := by decide +kernel
    exact List.all_eq_true.1 key _ hi
  have hnh : name ∉ hidden ∧ name ≠ c!"define-macro-expand" := ⟨(libItems_names _ hi).1, fun e => lib_new _ hi (e ▸ expand_name)⟩
  have hwfs : Sexp.WFs args ∧ (∀ x ∈ args, x.Quotable) ∧ Sexp.HeadsAll (fun n => n ∉ hidden ∧ n ≠ c!"define-macro-expand") args ∧ Each Quoted args vs := by
    clear hA hw hi
    induction hq with
    | nil => exact ⟨trivial, by simp, trivial, .nil⟩
    | cons h _ ih => exact ⟨⟨h.wf, ih.1⟩, by simpa using ⟨h.quotable, ih.2.1⟩, ⟨h.heads, ih.2.2.1⟩, .cons h.quoted ih.2.2.2⟩
  obtain ⟨w1, w2, w3, w4⟩ := hwfs
  have hpr : SymbolName c!"println" := isSymbolName_ok (by decide)
  obtain ⟨R, hL, hM, hE⟩ := C87_import (.inl rfl) (xs := [ap c!"println" [ap name (args.map (.pre .quote))]])
    ⟨⟨hpr, ⟨isSymbolName_ok hname, wfs_map_quote w1 w2⟩, trivial⟩, trivial⟩ hw
    ⟨⟨by simp [Sexp.text, hidden], trivial, ⟨hnh, trivial, heads_map_quote (by simp [hidden]) w3⟩, trivial⟩, trivial⟩ hr module (ls := []) (rest := st.input) rfl hfile
    (provides_lib hf) (by simp [onlyLib])
  have hS := hasLib_standard hL
  have hlib : ∀ n ps body, LibItem.fn n ps body ∈ libItems → (R.frames 0).vars n = none ∧ R.macros n = none ∧ (R.frames 1).vars n = some (.clo ps body 1) := fun n ps body h =>
    ⟨by rw [hL.low 0 Nat.one_pos]; exact (default_names _).trans (if_neg (lib_new _ h)), (C87_value hL hM h).1, hL.fns n ps body h⟩
  obtain ⟨R', h1, h2⟩ := hA R hS (by rw [hL.count]; show 1 < 4; omega) hlib
  have e2 : Exec 0 (ap name (args.map (.pre .quote))) R v R' := .call .list (C87_value hL hM hi) (quoted_operands hS w4) h1
  have hp := Prints.println (ShownAll.cons ht .nil)
  rw [joined_one] at hp
  have e3 : Exec 0 (ap c!"println" [ap name (args.map (.pre .quote))]) R (.str t) (R'.write (t ++ c!"\n")) :=
    .call .list ⟨hS.macros _ (by decide), .locally (by decide) (hS.vars _ (by decide))⟩ (.other (by simp [ap]) e2 .nil) (.prints hp)
  have hret : ((R'.write (t ++ c!"\n")).frames 0).ret = false := by
    refine (kept_ret h2 hS.count).trans ?_
    rw [hL.low 0 Nat.one_pos]
    rfl
  obtain ⟨w, st', μ, g1, g2, g3, g4⟩ := hE _ _ (.next ⟨_, _, .list⟩ e3 hret .done)
  refine ⟨w, st', g1, ?_, ?_⟩
  · rw [g3]
    show st.out ++ (R'.out ++ _) = _
    rw [h2.out, hL.out]
    rfl
  · rw [g4]
    show R'.input ++ st.input = st.input
    rw [h2.input, hL.input]
    rfl

/-- C87: `(import fuellib) (println (find 'key 'data))` prints the position of the key in the data, -1 if it is not there. -/
theorem C87_find {x y : Sexp} {key d : Val} (hx : Data x key) (hy : Data y d) {l : List Val} (hl : Elements d l) (hz : IsInt32 l.length) {i : Int} (hp : Position key l i)
    {text : Str} (hw : Written (libCall c!"find" [x, y]) text) {st : St} (hr : Reachable st) {file : Str}
    (hf : FirstFile st (moduleFiles st.libPath (slashes c!"fuellib")) file libText) (hfile : file ∉ hidden) (module : Str) :
    ∃ w st', Runs text module st (.ok (some w) st') ∧ st'.out = st.out ++ (intStr i ++ c!"\n") ∧ st'.input = st.input :=
  C87_call (by simp [libItems]) (.cons hx (.cons hy .nil)) (fun R hS _ _ => C75_find (standard_sub hS (by decide)) hl hz hp) .int hw hr hf hfile module

/-- C87: `(import fuellib) (println (length 'data))` and the same with `strlen` print the number of elements. -/
theorem C87_length {y : Sexp} {d : Val} (hy : Data y d) {l : List Val} (hl : Elements d l) (hz : IsInt32 l.length) {name : Str} (hn : name = c!"length" ∨ name = c!"strlen")
    {text : Str} (hw : Written (libCall name [y]) text) {st : St} (hr : Reachable st) {file : Str}
    (hf : FirstFile st (moduleFiles st.libPath (slashes c!"fuellib")) file libText) (hfile : file ∉ hidden) (module : Str) :
    ∃ w st', Runs text module st (.ok (some w) st') ∧ st'.out = st.out ++ (intStr l.length ++ c!"\n") ∧ st'.input = st.input := by
  rcases hn with rfl | rfl
  · exact C87_call (ps := [c!"l"]) (body := lengthBody) (by simp [libItems]) (.cons hy .nil) (fun R hS _ _ => (C75_length (standard_sub hS (by decide)) hl hz).1) .int hw hr hf hfile module
  · exact C87_call (ps := [c!"s"]) (body := strlenBody) (by simp [libItems]) (.cons hy .nil) (fun R hS _ _ => (C75_length (standard_sub hS (by decide)) hl hz).2) .int hw hr hf hfile module

/-- C87: `(import fuellib) (println (second 'data))` prints the second element. -/
theorem C87_second {y : Sexp} {d a b : Val} (hy : Data y d) {l : List Val} (hl : Elements d (a :: b :: l)) {t : Str} (ht : Shown false b t)
    {text : Str} (hw : Written (libCall c!"second" [y]) text) {st : St} (hr : Reachable st) {file : Str}
    (hf : FirstFile st (moduleFiles st.libPath (slashes c!"fuellib")) file libText) (hfile : file ∉ hidden) (module : Str) :
    ∃ w st', Runs text module st (.ok (some w) st') ∧ st'.out = st.out ++ (t ++ c!"\n") ∧ st'.input = st.input :=
  C87_call (ps := [c!"l"]) (body := secondBody) (by simp [libItems]) (.cons hy .nil) (fun R hS _ _ => C75_second (standard_sub hS (by decide)) hl) ht hw hr hf hfile module

/-- C87: `(import fuellib) (println (isCpp))` prints `#t`; `isNET` and `isHaxe` give `#f`. -/
theorem C87_platform {name : Str} {b : Bool} (hn : (name, b) ∈ [(c!"isCpp", true), (c!"isNET", false), (c!"isHaxe", false)])
    {text : Str} (hw : Written (libCall name []) text) {st : St} (hr : Reachable st) {file : Str}
    (hf : FirstFile st (moduleFiles st.libPath (slashes c!"fuellib")) file libText) (hfile : file ∉ hidden) (module : Str) :
    ∃ w st', Runs text module st (.ok (some w) st') ∧ st'.out = st.out ++ ((if b then c!"#t" else c!"#f") ++ c!"\n") ∧ st'.input = st.input := by
  simp only [List.mem_cons, Prod.mk.injEq, List.not_mem_nil, or_false] at hn
  rcases hn with ⟨rfl, rfl⟩ | ⟨rfl, rfl⟩ | ⟨rfl, rfl⟩
  · exact C87_call (ps := []) (body := isCppBody) (by simp [libItems]) .nil (fun R hS _ _ => (C75_platform (standard_sub hS (by decide))).1) .bool hw hr hf hfile module
  · exact C87_call (ps := []) (body := isNETBody) (by simp [libItems]) .nil (fun R hS _ _ => (C75_platform (standard_sub hS (by decide))).2.1) .bool hw hr hf hfile module
  · exact C87_call (ps := []) (body := isHaxeBody) (by simp [libItems]) .nil (fun R hS _ _ => (C75_platform (standard_sub hS (by decide))).2.2) .bool hw hr hf hfile module

/-- C87: `(import fuellib) (println (arg-list-with-obj-expression 'x 'n))` prints the list of `x` and the symbols p0, p1, .... -/
theorem C87_arg_list {x : Sexp} {v : Val} (hx : Data x v) {n : Nat} (hn : IsInt32 n) {t : Str} (ht : Shown false (.list (v :: paramSyms n)) t)
    {text : Str} (hw : Written (libCall c!"arg-list-with-obj-expression" [x, .int n]) text) {st : St} (hr : Reachable st) {file : Str}
    (hf : FirstFile st (moduleFiles st.libPath (slashes c!"fuellib")) file libText) (hfile : file ∉ hidden) (module : Str) :
    ∃ w st', Runs text module st (.ok (some w) st') ∧ st'.out = st.out ++ (t ++ c!"\n") ∧ st'.input = st.input :=
  C87_call (ps := [c!"obj", c!"argcount"]) (body := argListWithObjExpressionBody) (by simp [libItems]) (.cons hx (.cons ⟨.int, hn, trivial, trivial⟩ .nil))
    (fun R hS hc hlib => by
      obtain ⟨h1, h2, h3⟩ := hlib c!"arg-list-expression" [c!"argcount"] argListBody (by simp [libItems])
      exact C75_arg_list_with_obj (standard_sub hS (by decide)) hc h1 h3 h2 v n hn) ht hw hr hf hfile module

/-- C87: `(import fuellib) (foreach 'data println)` writes every element of the data in a line of its own, in order. -/
theorem C87_foreach {y : Sexp} {d : Val} (hy : Data y d) {l : List Val} (hl : Elements d l) (hz : IsInt32 l.length) {ts : List Str}
    (ht : Each (fun x t => NotList x ∧ Shown false x t) l ts) {text : Str}
    (hw : Written [ap c!"import" [.sym c!"fuellib"], ap c!"foreach" [.pre .quote y, .sym c!"println"]] text) {st : St} (hr : Reachable st) {file : Str}
    (hf : FirstFile st (moduleFiles st.libPath (slashes c!"fuellib")) file libText) (hfile : file ∉ hidden) (module : Str) :
    ∃ w st', Runs text module st (.ok (some w) st') ∧ st'.out = st.out ++ (ts.map (· ++ c!"\n")).flatten := by
  have hpr : SymbolName c!"println" := isSymbolName_ok (by decide)
  obtain ⟨R, hL, hM, hE⟩ := C87_import (.inl rfl) (xs := [ap c!"foreach" [.pre .quote y, .sym c!"println"]])
    ⟨⟨isSymbolName_ok (by decide), ⟨hy.wf, hy.quotable⟩, hpr, trivial⟩, trivial⟩ hw
    ⟨⟨by simp [Sexp.text, hidden], trivial, ⟨by simp [Prefix.word, hidden], hy.heads⟩, trivial, trivial⟩, trivial⟩ hr module (ls := []) (rest := st.input) rfl hfile
    (provides_lib hf) (by simp [onlyLib])
  have hS := hasLib_standard hL
  have hSf : Standard R foreachNames := standard_sub hS (by decide)
  have hS0 : Standard (R.enter [c!"container", c!"fcn"] [d, .prim c!"println"] 1) foreachNames :=
    standard_frame hSf (Nat.succ_pos _) ((In.enter 1 R (params_two c!"container" c!"fcn" d (.prim c!"println"))).low 0 hSf.count) rfl
  have hF : R.count ≠ 0 := Nat.ne_of_gt hS.count
  have hS2 : Standard (foreachStart 1 R d (.prim c!"println") l.length) foreachNames := standard_set (standard_set hS0 hF _ _) hF _ _
  obtain ⟨R', h1, h2, h3⟩ := callsEach_println hF ht (i := 0) hS2
  obtain ⟨v, hA⟩ := C75_foreach (g := 1) (f := 0) hSf hl hz h1
  have e2 : Exec 0 (ap c!"foreach" [.pre .quote y, .sym c!"println"]) R v R' :=
    .call .list (C87_value hL hM (by simp [libItems])) (.other (by simp) (.quote .pre ⟨hS.macros _ (by decide), .locally (by decide) (hS.vars _ (by decide))⟩ hy.quoted)
      (.name (.locally (by decide) (hS.vars _ (by decide))) .nil)) hA
  have h0 : (foreachStart 1 R d (.prim c!"println") l.length).frames 0 = R.frames 0 := by simp [foreachStart, Conf.set, Conf.withFrame, Conf.enter, hF.symm]
  have hret : (R'.frames 0).ret = false := by rw [h3 0 hF.symm, h0, hL.low 0 Nat.one_pos]; rfl
  obtain ⟨w, st', μ, g1, g2, g3, g4⟩ := hE _ _ (.next ⟨_, _, .list⟩ e2 hret .done)
  refine ⟨w, st', g1, ?_⟩
  rw [g3, h2]
  show st.out ++ (R.out ++ _) = _
  rw [hL.out]
  rfl

/-- C87: `(import fuellib) (dotimes (c k) (println c))` writes the numbers from 0 to `k - 1`, each in a line of its own. -/
theorem C87_dotimes {c : Str} (hc : c ∉ hidden) (hsy : SymbolName c) (hd : c ∉ defaultTable.map Entry.name) (hu : c ≠ c!"statements") {k : Nat} (hk : IsInt32 k)
    {text : Str} (hw : Written [ap c!"import" [.sym c!"fuellib"], timesCall c k] text) {st : St} (hr : Reachable st) {file : Str}
    (hf : FirstFile st (moduleFiles st.libPath (slashes c!"fuellib")) file libText) (hfile : file ∉ hidden) (module : Str) :
    ∃ w st', Runs text module st (.ok (some w) st') ∧ IsBool w true ∧ st'.out = st.out ++ ((List.range k).map fun (j : Nat) => intStr j ++ c!"\n").flatten := by
  have hcore : ∀ n ∈ coreNames, n ∈ defaultTable.map Entry.name := fun n hn => by
    obtain ⟨t, ht, rfl⟩ := List.mem_map.1 hn
    exact core_names t ht
  have hsub : ∀ n ∈ dotimesNames, n ∈ coreNames ∧ n ∉ hidden := by decide
  have hn : c ∉ dotimesNames := fun h => hd (hcore _ (hsub c h).1)
  have hp : c ≠ c!"println" := fun h => hd (hcore _ (by rw [h]; decide))
  have hwf : Sexp.WFs [timesCall c k] := ⟨⟨isSymbolName_ok (by decide), ⟨hsy, hk, trivial⟩, ⟨isSymbolName_ok (by decide), hsy, trivial⟩, trivial⟩, trivial⟩
  have hh : Sexp.HeadsAll (fun n => n ∉ hidden ∧ n ≠ c!"define-macro-expand") [timesCall c k] :=
    ⟨⟨by simp [Sexp.text, hidden], trivial, ⟨⟨hc, fun h => hd ((show c = c!"define-macro-expand" from h) ▸ expand_name)⟩, trivial, trivial, trivial⟩,
      ⟨by simp [Sexp.text, hidden], trivial, trivial, trivial⟩, trivial⟩, trivial⟩
  obtain ⟨R, hL, hM, hE⟩ := C87_import (.inl rfl) (xs := [timesCall c k]) hwf hw hh hr module (ls := []) (rest := st.input) rfl hfile (provides_lib hf) (by simp [onlyLib])
  have hS := hasLib_standard hL
  have hret0 : (R.frames 0).ret = false := by rw [hL.low 0 Nat.one_pos]; rfl
  have hhead : ∀ n ∈ coreNames, n ∉ hidden → Head R 0 n (.prim n) := fun n h1 h2 => ⟨hS.macros n h1, .locally h2 (hS.vars n h1)⟩
  have hU : Usual dotimesNames R 0 := ⟨fun n h => hhead n (hsub n h).1 (hsub n h).2, fun t => by rw [hL.old _ (by simp [libItems])]; rfl⟩
  have hP : Head R 0 c!"println" (.prim c!"println") := hhead _ (by decide) (by decide)
  obtain ⟨R', h1, h2, h3⟩ := counts_println hc hn hp (k := k) k 0 (R := R) (by omega) hU hP hret0
  have hvar : (R.frames 0).vars c = none := by rw [hL.low 0 Nat.one_pos]; exact (default_names _).trans (if_neg hd)
  have hMC : MacroCall R 0 dotimesParams [.list [.sym c, .int k], ap c!"println" [.sym c]] dotimesBody := by
    refine ⟨Nat.le_refl 2, by simp [dotimesParams, dotimesBody, dotimesCode, counterCode, dotimesCond, dotimesIncr, ap, Cleans, Clean, Prefix.word],
      by simp [dotimesBody, dotimesCode, counterCode, dotimesCond, dotimesIncr, ap, Cleans, Clean, UsesAny, Uses, Prefix.word], ?_⟩
    refine ⟨⟨⟨hc, by simp [Sexp.text, hvar]⟩, trivial, trivial, trivial⟩, ⟨⟨by simp [Sexp.text, hidden], fun v hv => ?_⟩, trivial, trivial, trivial⟩, trivial⟩
    have : (R.frames 0).vars c!"println" = some (.prim c!"println") := hS.vars _ (by decide)
    have hv' : (R.frames 0).vars c!"println" = some v := hv
    rw [this] at hv'
    cases hv'
    exact show c!"println" ≠ c!"define-macro-expand" by decide
  have hX := C79_dotimes_counts (R := R) (hL.macros c!"dotimes" dotimesParams dotimesBody (by simp [libItems, dotimesParams])) hMC hu hU hret0 hc hsy.1 hn hk ⟨_, _, .list⟩ h1
  have hret : ((R'.unset 0 c).frames 0).ret = false := by simpa [Conf.unset, Conf.withFrame] using h3
  obtain ⟨w, st', μ, g1, g2, g3, -⟩ := hE _ _ (.next ⟨_, _, .list⟩ hX hret .done)
  refine ⟨w, st', g1, isVal_bool_inv g2, ?_⟩
  rw [g3]
  show st.out ++ R'.out = _
  rw [h2, hL.out, ← List.range_eq_range']
  rfl

end

/-! ## The hypotheses are met -/

section
attribute [local instance] demoWorld

/-- A process in a directory with the standard library. -/
def libState : St := { files := [(c!"./Library/fuellib.fuel", libText)] }

theorem libState_reachable : Reachable libState := .init rfl (fun _ => rfl) (fun _ => rfl) (fun _ => rfl) (fun _ => rfl)

theorem libState_file : FirstFile libState (moduleFiles libState.libPath (slashes c!"fuellib")) c!"./Library/fuellib.fuel" libText :=
  ⟨[c!"fuellib", c!"/fuellib.fuel"], [c!"./lib/fuel/fuellib.fuel"], by decide +kernel, by simp [libState, List.lookup], by simp [libState, List.lookup]⟩

/-- `(import fuellib) (println (find 'a '(3 a "x")))` prints 1. -/
example : ∃ w st', Runs c!"(import fuellib)\n(println (find 'a '(3 a \"x\"))) ; position\n" c!"demo" libState (.ok (some w) st') ∧ st'.out = c!"1\n" := by
  have hp : Position (.sym c!"a") [.int 3, .sym c!"a", .str c!"x"] 1 := .at_ (l := [.int 3]) (by simpa using Alike.symLeft (s := c!"a") (by simp)) (.sym (a := c!"a") (b := c!"a"))
  have hw : Written (libCall c!"find" [.sym c!"a", .list [.int 3, .sym c!"a", .str c!"x"]]) c!"(import fuellib)\n(println (find 'a '(3 a \"x\"))) ; position\n" :=
    written_of_check (n := 40) (by decide +kernel)
  obtain ⟨w, st', h1, h2, -⟩ := C87_find data_sym data_list .list (by decide) hp hw libState_reachable libState_file (by decide) c!"demo"
  exact ⟨w, st', h1, h2⟩

/-- `(import fuellib) (dotimes (i 3) (println i))` prints 0, 1 and 2. -/
example : ∃ w st', Runs c!"(import fuellib)\n(dotimes (i 3)\n  (println i))\n" c!"demo" libState (.ok (some w) st') ∧ IsBool w true ∧ st'.out = c!"0\n1\n2\n" :=
  C87_dotimes (c := c!"i") (k := 3) (by decide) (isSymbolName_ok (by decide)) (by decide) (by decide) (by decide)
    (written_of_check (n := 40) (by decide +kernel)) libState_reachable libState_file (by decide) c!"demo"

end

end Fuel
