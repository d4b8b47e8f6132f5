import Verif.LemDict
import Verif.LemRun2
import Verif.LemImport
import Verif.LemPlatform
/-!
# Whole programs: the interpreter executes the core language as the reference semantics says
-/

set_option linter.unusedSectionVars false
set_option linter.unusedSimpArgs false

namespace Fuel

open Spec Spec.Core

section
variable [World]

mutual
theorem exec_ok : ∀ {f : Nat} {e : Sexp} {R : Conf} {v : Val} {R' : Conf}, Exec f e R v R' → ExecOk f e R v R'
  | _, _, _, _, _, .int => exec_atom (.inl ⟨_, rfl, rfl⟩)
  | _, _, _, _, _, .float h => exec_float h
  | _, _, _, _, _, .str => exec_atom (.inr (.inl ⟨_, rfl, rfl⟩))
  | _, _, _, _, _, .bool => exec_atom (.inr (.inr (.inl ⟨_, rfl, rfl⟩)))
  | _, _, _, _, _, .nil => exec_atom (.inr (.inr (.inr (.inl ⟨rfl, rfl⟩))))
  | _, _, _, _, _, .empty => exec_atom (.inr (.inr (.inr (.inr ⟨rfl, rfl⟩))))
  | _, _, _, _, _, .var h => exec_var h
  | _, _, _, _, _, .quote hF hV hq => exec_quote hF hV hq
  | _, _, _, _, _, .quasi hF hV hx => exec_quasi hF hV (filled_ok hx)
  | _, _, _, _, _, .if_ hF hV hc hb => exec_if hF hV (exec_ok hc) (exec_ok hb)
  | _, _, _, _, _, .ifThen hF hV hc hb => exec_ifThen hF hV (exec_ok hc) (exec_ok hb)
  | _, _, _, _, _, .while_ hF hV hl => exec_while hF hV (loop_ok hl)
  | _, _, _, _, _, .block hF hV hd hs => exec_block hF hV hd (seq_ok hs)
  | _, _, _, _, _, .and_ hF hV hd hs => exec_and hF hV hd (conj_ok hs)
  | _, _, _, _, _, .def_ hF hV hn hx => exec_def hF hV hn (exec_ok hx)
  | _, _, _, _, _, .gdef hF hV hn hx => exec_gdef hF hV hn (exec_ok hx)
  | _, _, _, _, _, .setf hF hV hn hne hx hi => exec_setf hF hV hn hne (exec_ok hx) hi
  | _, _, _, _, _, .unknown h => exec_unknown h
  | _, _, _, _, _, .defAt hF hV hq h0 hv hn hx => exec_defAt hF hV hq (exec_ok h0) hv hn (exec_ok hx)
  | _, _, _, _, _, .setfAt hF hV hQ hW hy h0 hv hn hne hx hi => exec_setfAt hF hV hQ hW hy (exec_ok h0) hv hn hne (exec_ok hx) hi
  | _, _, _, _, _, .rval hF hV hq hx => exec_rval hF hV hq (exec_ok hx)
  | _, _, _, _, _, .evalCode hF hV hQ hW hx hX => exec_evalCode hF hV hQ hW hx (exec_ok hX)
  | _, _, _, _, _, .orFalse hF hV hd hx => exec_orFalse hF hV hd (exec_ok hx)
  | _, _, _, _, _, .orTrue hF hV hd hx hb => exec_orTrue hF hV hd (exec_ok hx) (bools_ok hb)
  | _, _, _, _, _, .fn hF hV hd => exec_fn hF hV hd
  | _, _, _, _, _, .defn hF hV hn h1 h2 => exec_defns false hF hV hn h1 h2
  | _, _, _, _, _, .gdefn hF hV hn h1 h2 => exec_defns true hF hV hn h1 h2
  | _, _, _, _, _, .call hF hV ho ha => exec_call hF hV (operands_ok ho) (apply_ok ha)
  | _, _, _, _, _, .platform hF hV hF' hV' hi => exec_platform hF hV hF' hV' hi
  | _, _, _, _, _, .macro_ hF hR hm hx => exec_macro hF hR hm (exec_ok hx)
theorem filled_ok : ∀ {f : Nat} {x : Sexp} {R : Conf} {v : Val} {R' : Conf}, Filled f x R v R' → FilledOk f x R v R'
  | _, _, _, _, _, .atom h1 h2 hq => filled_atom h1 h2 hq
  | _, _, _, _, _, .unquote hF he => filled_unquote hF (exec_ok he)
  | _, _, _, _, _, .two hF h1 h2 hq => filled_two hF h1 h2 hq
  | _, _, _, _, _, .pair ha hq => filled_pair ha hq
  | _, _, _, _, _, .list hl ha => filled_list hl (filledAll_ok ha)
theorem filledAll_ok : ∀ {f : Nat} {l : List Sexp} {R : Conf} {vs : List Val} {R' : Conf}, FilledAll f l R vs R' → FilledAllOk f l R vs R'
  | _, _, _, _, _, .nil => filledAll_nil
  | _, _, _, _, _, .one hx hl => filledAll_one (filled_ok hx) (filledAll_ok hl)
  | _, _, _, _, _, .splice hF he hw hl => filledAll_splice hF (exec_ok he) hw (filledAll_ok hl)
theorem operands_ok : ∀ {f : Nat} {R0 : Conf} {es : List Sexp} {R : Conf} {vs : List Val} {R' : Conf}, Operands f R0 es R vs R' → OperandsOk f R0 es R vs R'
  | _, _, _, _, _, _, .nil => operands_nil
  | _, _, _, _, _, _, .name hv ht => operands_name hv (operands_ok ht)
  | _, _, _, _, _, _, .unknown hv ht => operands_unknown hv (operands_ok ht)
  | _, _, _, _, _, _, .other hn he ht => operands_other hn (exec_ok he) (operands_ok ht)
theorem loop_ok : ∀ {f : Nat} {c b : Sexp} {r : Val} {R : Conf} {v : Val} {R' : Conf}, Loop f c b r R v R' → LoopOk f c b r R v R'
  | _, _, _, _, _, _, _, .stop hc hv => loop_stop (exec_ok hc) hv
  | _, _, _, _, _, _, _, .again hc hv hb hn hl => loop_again (exec_ok hc) hv (exec_ok hb) hn (loop_ok hl)
  | _, _, _, _, _, _, _, .ret hc hv hb hn => loop_ret (exec_ok hc) hv (exec_ok hb) hn
theorem seq_ok : ∀ {f : Nat} {r : Option Val} {es : List Sexp} {R : Conf} {v : Val} {R' : Conf}, Seq f r es R v R' → SeqOk f r es R v R'
  | _, _, _, _, _, _, .done => seq_done
  | _, _, _, _, _, _, .next hF he hn ht => seq_next hF (exec_ok he) hn (seq_ok ht)
  | _, _, _, _, _, _, .ret hF he hn => seq_ret hF (exec_ok he) hn
  | _, _, _, _, _, _, .skip hF hV hc hn ht => seq_skip hF hV (exec_ok hc) hn (seq_ok ht)
  | _, _, _, _, _, _, .macro_ hF hV hd hn hr ht => seq_macro hF hV hd hn hr (seq_ok ht)
theorem conj_ok : ∀ {f : Nat} {es : List Sexp} {R : Conf} {b : Bool} {R' : Conf}, Conj f es R b R' → ConjOk f es R b R'
  | _, _, _, _, _, .all => conj_all
  | _, _, _, _, _, .stop he => conj_stop (exec_ok he)
  | _, _, _, _, _, .next he ht => conj_next (exec_ok he) (conj_ok ht)
theorem bools_ok : ∀ {f : Nat} {es : List Sexp} {R : Conf} {R' : Conf}, Bools f es R R' → BoolsOk f es R R'
  | _, _, _, _, .nil => bools_nil
  | _, _, _, _, .cons he ht => bools_cons (exec_ok he) (bools_ok ht)
theorem apply_ok : ∀ {f : Nat} {w : Val} {vs : List Val} {R : Conf} {v : Val} {R' : Conf}, Apply f w vs R v R' → ApplyOk f w vs R v R'
  | _, _, _, _, _, _, .fn h => apply_fn h
  | _, _, _, _, _, _, .prints h => apply_prints h
  | _, _, _, _, _, _, .eval h => apply_eval h
  | _, _, _, _, _, _, .evalEmpty => apply_evalNone (.inl rfl)
  | _, _, _, _, _, _, .evalCall hc hl hA => apply_evalCall hc hl (apply_ok hA)
  | _, _, _, _, _, _, .delvar hv hn => apply_delvar hv hn
  | _, _, _, _, _, _, .readline hi => apply_readline hi
  | _, _, _, _, _, _, .evalstr hx hw hl he => apply_evalstr hx hw hl (exec_ok he)
  | _, _, _, _, _, _, .import hn hl hf hq he hi => apply_import hn hl hf hq (exec_ok he) hi
  | _, _, _, _, _, _, .asks h => apply_asks h
  | _, _, _, _, _, _, .changes h => apply_changes h
  | _, _, _, _, _, _, .return_ => apply_return
  | _, _, _, _, _, _, .clo hd hh hb => apply_clo hd hh (exec_ok hb)
  | _, _, _, _, _, _, .map hw hc => apply_map hw (calls1_ok hc)
  | _, _, _, _, _, _, .reduce hw hc => apply_reduce hw (calls2_ok hc)
  | _, _, _, _, _, _, .apply hl hc => apply_apply hl (apply_ok hc)
theorem calls1_ok : ∀ {f : Nat} {w : Val} {l : List Val} {R : Conf} {vs : List Val} {R' : Conf}, Calls1 f w l R vs R' → Calls1Ok f w l R vs R'
  | _, _, _, _, _, _, .nil => calls1_nil
  | _, _, _, _, _, _, .cons hx ha ht => calls1_cons hx (apply_ok ha) (calls1_ok ht)
theorem calls2_ok : ∀ {f : Nat} {w a : Val} {l : List Val} {R : Conf} {v : Val} {R' : Conf}, Calls2 f w a l R v R' → Calls2Ok f w a l R v R'
  | _, _, _, _, _, _, _, .nil => calls2_nil
  | _, _, _, _, _, _, _, .cons hx ha ht => calls2_cons hx (apply_ok ha) (calls2_ok ht)
end

/-! ## The start of a program -/

/-- A new interpreter represents the start configuration. -/
theorem start_sim {st st0 st1 : St} {module : Str} (hn : NewInterpreter st st.next st0) (hs : Started module st.next st0 st1) (hl : Links st1)
    {ls rest : List Str} (hi : st.input = ls ++ rest) : Sim ⟨st.out, rest⟩ st1 ⟨fun _ => st.next, fun _ => none⟩ { Conf.start with input := ls } := by
  obtain ⟨toks, hsc⟩ := hs.scopes
  have hb : ∀ i n, binding st1 i n = binding st0 i n := by
    intro i n
    simp only [binding, hsc]
    by_cases h : i = st.next <;> simp [fset, h]
  obtain ⟨vars, hsc0⟩ := hn.scope
  have hg : st1.scopes st.next = { name := c!"<main>", global := st.next, vars := vars, module := module, tracing := some false, tokens := toks } := by
    rw [hsc, fset_self, hsc0]
  have hout : st1.out = st.out := by rw [hs.rest]; exact hn.frame.2.2.2.2.1
  have hfresh := hn.fresh.2
  refine ⟨hl, Nat.one_pos, fun f _ => Nat.lt_of_lt_of_le hfresh hs.next, fun f g hf hg _ => ?_, fun f _ => by rw [hg], fun f _ => by rw [hg], fun f _ => by rw [hg]; rfl,
    fun f _ => by rw [hg]; rfl, fun f _ p hp => (nomatch hp), fun f _ n hh hv => ?_, fun f _ n hh v hv => ?_, fun f _ => .inr ?_, ?_, ?_, fun _ _ => rfl, fun f hf h0 => ?_, by rw [hg], by simp [hout, Conf.start], by rw [hs.rest]; exact hn.frame.2.2.2.2.2.1.trans hi,
    ⟨fun _ _ h => (nomatch h), fun _ _ _ h => (nomatch h), fun _ _ h => (nomatch h), fun _ _ => rfl⟩, fun _ _ _ h => (nomatch h)⟩
  · simp only [Conf.start] at hf hg; omega
  · rw [hb]
    refine hn.others n (fun e he hen => ?_) (fun h => hh ?_)
    · have : n ∈ defaultTable.map Entry.name := List.mem_map.2 ⟨e, he, hen⟩
      simp only [Conf.start, if_pos this] at hv
      cases hv
    · simp only [hidden, List.mem_cons, List.not_mem_nil, or_false] at h ⊢
      rcases h with h | h | h | h <;> simp [h]
  · by_cases h : n ∈ defaultTable.map Entry.name
    · simp only [Conf.start, if_pos h, Option.some.injEq] at hv
      subst hv
      obtain ⟨e, he, rfl⟩ := List.mem_map.1 h
      obtain ⟨p, h1, i, w, rfl, h2, h3⟩ := hn.functions e he
      exact ⟨_, by rw [hb]; exact h1, i, w, rfl, .prim he h2 (nsp h3)⟩
    · simp only [Conf.start, if_neg h] at hv
      cases hv
  · obtain ⟨i, j, h, -⟩ := hn.trace
    exact ⟨i, [], by rw [hb]; exact h⟩
  · obtain ⟨i, m, h1, h2, h3, h4⟩ := hn.macros
    exact ⟨i, m, by rw [hb]; exact h1, Nat.lt_of_lt_of_le h3 hs.next, fun f _ => Nat.ne_of_lt h2, fun n => by
      rw [hb]
      have : binding st0 m n = none := by simp [binding, h4]
      rw [this]
      exact .none⟩
  · obtain ⟨i, m, h1, h2, h3, h4⟩ := hn.modules
    exact ⟨i, m, by rw [hb]; exact h1, Nat.lt_of_lt_of_le h3 hs.next, fun f _ => Nat.ne_of_lt h2, fun j m' h => hn.apart i j m m' h1 (by rw [hb] at h; exact h), by
      have : (st1.scopes m).vars = [] := by
        rw [hsc]
        by_cases h : m = st.next <;> simp [fset, h]
        · exact absurd h.symm (Nat.ne_of_lt h2)
        · exact h4
      rw [this]; exact .nil⟩
  · simp only [Conf.start] at hf; omega

/-- The names of built-in functions mean these functions where they are not redefined. -/
theorem value_start (f : Nat) {n : Str} {b : Builtin} {s : Bool} (hn : (n, b, s) ∈ coreTable) (hh : n ∉ hidden) : Head Conf.start f n (.prim n) :=
  ⟨rfl, .locally hh (if_pos (core_names _ hn))⟩

/-- The meaning of a name depends only on the frames, the macros and the modules. -/
theorem head_of_frames {R R' : Conf} {f : Nat} {n : Str} {v : Val} (hf : R'.frames = R.frames) (hm : R'.macros = R.macros) (h : Head R f n v)
    (hmod : R'.modules = R.modules := by rfl) : Head R' f n v := by
  obtain ⟨h1, h2⟩ := h
  refine ⟨hm ▸ h1, ?_⟩
  have hi : ∀ {f g}, Innermost R n f g → Innermost R' n f g := by
    intro f g h
    induction h with
    | here h => exact .here (hf ▸ h)
    | up h p _ ih => exact .up (hf ▸ h) (hf ▸ p) ih
  have hi' : ∀ {f g}, Innermost R' n f g → Innermost R n f g := by
    intro f g h
    induction h with
    | here h => exact .here (hf ▸ h)
    | up h p _ ih => exact .up (hf ▸ h) (hf ▸ p) ih
  cases h2 with
  | module a b c d e g => exact .module a (by rw [hf]; exact b) (fun g h => c g (hi' h)) (hmod.trans d) (by rw [hf]; exact e) (by rw [hf]; exact g)
  | locally a b => exact .locally a (hf ▸ b)
  | globally a b c => exact .globally a (hf ▸ b) (hf ▸ c)
  | outer a b c d e => exact .outer a (hf ▸ b) (hf ▸ c) (hi d) (hf ▸ e)

/-- C55: the same for programs that read the standard input: if `ls` are the first lines of the standard input, then the program reads
these lines as the reference semantics says, and the lines it does not read can be read afterwards. -/
theorem C55_input {xs : List Sexp} (hx : Sexp.WFs xs) {text : Str} (hw : Written xs text)
    (hh : Sexp.HeadsAll (fun n => n ∉ hidden ∧ n ≠ c!"define-macro-expand") xs) {st : St} (hr : Reachable st) (module : Str) {ls rest : List Str}
    (hi : st.input = ls ++ rest) {v : Val} {R : Conf} (h : Seq 0 (some .undef) xs { Conf.start with input := ls } v R) :
    ∃ w st' μ, Runs text module st (.ok (some w) st') ∧ IsVal st' μ R.count w v ∧ st'.out = st.out ++ R.out ∧ st'.input = R.input ++ rest := by
  obtain ⟨p, c, st0, st1, h1, h2, h3, h4, h5, h6⟩ := script_new hx hw hh module st
  have hl0 : Links st0 := by
    have := (Reachable.create hr).links
    rwa [h1] at this
  have hs := start_sim h2 h3 (started_links h3 hl0) hi
  have hE : Exec 0 (.list (.sym c!"do" :: xs)) { Conf.start with input := ls } v R :=
    .block .list (head_of_frames (R := Conf.start) rfl rfl (value_start 0 (n := c!"do") (b := .do_) (s := true) (by decide) (by decide))) (by simp) h
  obtain ⟨w, st', μ, g1, g2, g3⟩ := exec_ok hE _ _ _ p hs Nat.one_pos ⟨_, h4, .list h5⟩
  exact ⟨w, st', μ, (h6 _).2 g1, g2, g3.sim.out, g3.sim.input⟩

/-- C55: the interpreter executes every program of the core language as the reference semantics says: if a source text is a notation of the
program, in any layout and with any comments, and the reference semantics gives the program a value and an output, then running the text
in a new interpreter, at any time, ends with this value and writes this output. -/
theorem C55_core {xs : List Sexp} (hx : Sexp.WFs xs) {text : Str} (hw : Written xs text)
    (hh : Sexp.HeadsAll (fun n => n ∉ hidden ∧ n ≠ c!"define-macro-expand") xs) {st : St} (hr : Reachable st) (module : Str) {v : Val} {R : Conf}
    (h : Seq 0 (some .undef) xs Conf.start v R) :
    ∃ w st' μ, Runs text module st (.ok (some w) st') ∧ IsVal st' μ R.count w v ∧ st'.out = st.out ++ R.out := by
  obtain ⟨w, st', μ, h1, h2, h3, -⟩ := C55_input hx hw hh hr module (ls := []) (rest := st.input) rfl h
  exact ⟨w, st', μ, h1, h2, h3⟩

/-- The usual notation is a notation. -/
theorem written_sources {xs : List Sexp} (h : Sexp.WFs xs) : Written xs (Sexp.sources xs) := by
  obtain ⟨h1, h2, h3⟩ := sexpsItems_spec [] (by simp) xs h
  refine ⟨sexpsItems [] xs, [], by simp, h3 [] (by simp [EndsWord]), by rw [h1]; exact lexemess_code _, ?_⟩
  rw [h2]
  cases xs <;> simp

/-! ## Arithmetic -/

theorem operands_two {f : Nat} {R0 R : Conf} {a b : Sexp} {x y : Val} (ha : ∀ n, a ≠ .sym n) (hb : ∀ n, b ≠ .sym n) (h1 : Exec f a R x R) (h2 : Exec f b R y R) :
    Operands f R0 [a, b] R [x, y] R := .other ha h1 (.other hb h2 .nil)

theorem expr_not_sym (e : Expr) (n : Str) : e.code ≠ .sym n := by cases e <;> simp [Expr.code]

theorem expr_exec (e : Expr) (h : e.Fits) : Exec 0 e.code Conf.start (.int e.value) Conf.start := by
  induction e with
  | num i => exact .int
  | add a b iha ihb =>
    exact .call .list (value_start 0 (b := .add) (s := false) (by decide) (by decide)) (operands_two (expr_not_sym a) (expr_not_sym b) (iha h.1) (ihb h.2.1))
      (.fn (.add (l := [b.value]) (by simp) (.cons h.2.2 .nil)))
  | sub a b iha ihb =>
    exact .call .list (value_start 0 (b := .sub) (s := false) (by decide) (by decide)) (operands_two (expr_not_sym a) (expr_not_sym b) (iha h.1) (ihb h.2.1))
      (.fn (.sub (l := []) (by simp) (.cons h.2.2 .nil)))
  | mul a b iha ihb =>
    exact .call .list (value_start 0 (b := .mul) (s := false) (by decide) (by decide)) (operands_two (expr_not_sym a) (expr_not_sym b) (iha h.1) (ihb h.2.1))
      (.fn (.mul (l := [b.value]) (by simp) (.cons h.2.2 .nil)))

theorem symbolName_op {c : Char} (h : c ∈ ['+', '-', '*']) : SymbolName [c] := by
  simp only [List.mem_cons, List.not_mem_nil, or_false] at h
  rcases h with rfl | rfl | rfl <;> simp [SymbolName, Spec.Plain, White, NumberLike, dropSign, Digit, reserved]

theorem expr_wf (e : Expr) (h : e.Fits) : e.code.WF := by
  induction e with
  | num i => exact h
  | add a b iha ihb => exact ⟨symbolName_op (by simp), iha h.1, ihb h.2.1, trivial⟩
  | sub a b iha ihb => exact ⟨symbolName_op (by simp), iha h.1, ihb h.2.1, trivial⟩
  | mul a b iha ihb => exact ⟨symbolName_op (by simp), iha h.1, ihb h.2.1, trivial⟩

theorem expr_heads (e : Expr) : e.code.Heads (fun n => n ∉ hidden ∧ n ≠ c!"define-macro-expand") := by
  induction e with
  | num i => trivial
  | add a b iha ihb => exact ⟨by simp [Sexp.text, hidden], trivial, iha, ihb, trivial⟩
  | sub a b iha ihb => exact ⟨by simp [Sexp.text, hidden], trivial, iha, ihb, trivial⟩
  | mul a b iha ihb => exact ⟨by simp [Sexp.text, hidden], trivial, iha, ihb, trivial⟩

/-- C46: the source text of an expression over integers and `+`, `-`, `*`, of any depth, in any layout and with any comments, evaluates to the
mathematical value of the expression, if all intermediate results have 32 bits; nothing is written.  (The expression is no single number.) -/
theorem C46_arithmetic {e : Expr} (hf : e.Fits) (hn : ∀ i, e ≠ .num i) {text : Str} (hw : Written [e.code] text) {st : St} (hr : Reachable st) (module : Str) :
    ∃ w st', Runs text module st (.ok (some w) st') ∧ IsInt w e.value ∧ st'.out = st.out := by
  have hF : ∃ h args, Form e.code h args := by
    cases e with
    | num i => exact absurd rfl (hn i)
    | add a b => exact ⟨_, _, .list⟩
    | sub a b => exact ⟨_, _, .list⟩
    | mul a b => exact ⟨_, _, .list⟩
  obtain ⟨w, st', μ, h1, h2, h3⟩ := C55_core (xs := [e.code]) ⟨expr_wf e hf, trivial⟩ hw ⟨expr_heads e, trivial⟩ hr module
    (.next hF (expr_exec e hf) rfl .done)
  exact ⟨w, st', h1, isVal_int_inv h2, by simpa [Conf.start] using h3⟩

/-- C47: printing a string literal writes exactly this string and a newline, and returns the string. -/
theorem C47_println {s text : Str} (hw : Written [.list [.sym c!"println", .str s]] text) {st : St} (hr : Reachable st) (module : Str) :
    ∃ w st', Runs text module st (.ok (some w) st') ∧ IsStr w s ∧ st'.out = st.out ++ (s ++ c!"\n") := by
  have hj : joined [s] = s := by cases s <;> simp [joined, List.dropWhile, List.intercalate]
  have hE : Exec 0 (.list [.sym c!"println", .str s]) Conf.start (.str s) (Conf.start.write (s ++ c!"\n")) := by
    have := Prints.println (ShownAll.cons (Shown.str (s := s)) .nil)
    rw [hj] at this
    exact .call .list (value_start 0 (b := .println) (s := false) (by decide) (by decide)) (.other (by simp) .str .nil) (.prints this)
  obtain ⟨w, st', μ, h1, h2, h3⟩ := C55_core (xs := [.list [.sym c!"println", .str s]])
    ⟨⟨by simp [Sexp.WF, SymbolName, Spec.Plain, White, NumberLike, dropSign, Digit, reserved], trivial, trivial⟩, trivial⟩ hw
    ⟨⟨by simp [Sexp.text, hidden], trivial, trivial, trivial⟩, trivial⟩ hr module (.next ⟨_, _, .list⟩ hE rfl .done)
  exact ⟨w, st', h1, isVal_str_inv h2, by simpa [Conf.start, Conf.write] using h3⟩

end

/-! ## The hypotheses are met -/

section
attribute [local instance] demoWorld

/-- `(- (* 7 (+ 2 -3)) 40)` is -47 (C46).  For C55 see the programs in PropsProg. -/
example : ∃ w st', Runs (Sexp.sources [Expr.code (.sub (.mul (.num 7) (.add (.num 2) (.num (-3)))) (.num 40))]) c!"demo" ({} : St) (.ok (some w) st') ∧
    IsInt w (-47) ∧ st'.out = [] := by
  have hf : Expr.Fits (.sub (.mul (.num 7) (.add (.num 2) (.num (-3)))) (.num 40)) := by
    simp [Expr.Fits, Expr.value, IsInt32]
  exact C46_arithmetic hf (by intro i h; cases h) (written_sources ⟨expr_wf _ hf, trivial⟩) (st := {})
    (.init rfl (fun _ => rfl) (fun _ => rfl) (fun _ => rfl) (fun _ => rfl)) c!"demo"

example : Sexp.sources [Expr.code (.sub (.mul (.num 7) (.add (.num 2) (.num (-3)))) (.num 40))] = c!"(- (* 7 (+ 2 -3)) 40)" := by decide +kernel

/-- A string with quotes, a semicolon and brackets (C47). -/
example : ∃ w st', Runs (Sexp.sources [.list [.sym c!"println", .str c!"a \"b\" ; (c"]]) c!"demo" ({} : St) (.ok (some w) st') ∧
    IsStr w c!"a \"b\" ; (c" ∧ st'.out = c!"a \"b\" ; (c\n" :=
  C47_println (written_sources (by simp [Sexp.WF, Sexp.WFs, SymbolName, Spec.Plain, White, NumberLike, dropSign, Digit, reserved])) (st := {})
    (.init rfl (fun _ => rfl) (fun _ => rfl) (fun _ => rfl) (fun _ => rfl)) c!"demo"

/-- A program that reads its code from the standard input: `(evalstr (readline))` with the line `(def y 7)`. -/
example : ∃ w st' μ, Runs c!"(evalstr (readline))" c!"demo" ({ input := [c!"(def y 7)", c!"rest"] } : St) (.ok (some w) st') ∧
    IsVal st' μ 1 w (.int 7) ∧ st'.out = [] ∧ st'.input = [c!"rest"] := by
  have hw : Sexp.WFs [.list [.sym c!"evalstr", .list [.sym c!"readline"]]] := by
    simp [Sexp.WF, Sexp.WFs, SymbolName, Spec.Plain, White, NumberLike, dropSign, Digit, reserved]
  have hw2 : Sexp.WFs [.list [.sym c!"def", .sym c!"y", .int 7]] := by
    simp [Sexp.WF, Sexp.WFs, SymbolName, Spec.Plain, White, NumberLike, dropSign, Digit, reserved, IsInt32]
  have hh : ∀ {R : Conf} {n : Str}, R.frames = Conf.start.frames → R.macros = Conf.start.macros → n ∉ hidden → (Conf.start.frames 0).vars n = some (.prim n) → Head R 0 n (.prim n) :=
    fun h1 h2 h3 h4 => ⟨congrFun h2 _, .locally h3 ((congrArg (fun F : Nat → Frame => (F 0).vars _) h1).trans h4)⟩
  have hp : ∀ {n : Str}, n ≠ c!"define-macro-expand" → ∀ v, (Conf.start.frames 0).vars n = some v → Passive v := by
    intro n hn v hv
    simp only [Conf.start] at hv
    split at hv
    · cases hv; exact hn
    · cases hv
  have hr : Apply 0 (.prim c!"readline") [] { Conf.start with input := [c!"(def y 7)"] } (.str c!"(def y 7)") Conf.start := .readline rfl
  have he : Apply 0 (.prim c!"evalstr") [.str c!"(def y 7)"] Conf.start (.int 7) (Conf.start.set 0 c!"y" (.int 7)) :=
    .evalstr (xs := [.list [.sym c!"def", .sym c!"y", .int 7]]) hw2 (written_sources hw2)
      ⟨⟨by simp [Sexp.text, hidden], hp (by simp [Sexp.text])⟩, trivial, ⟨⟨by simp [Sexp.text, hidden], hp (by simp [Sexp.text])⟩, trivial, trivial, trivial, trivial⟩, trivial⟩
      (.block .list (hh rfl rfl (by decide) rfl) (by simp) (.next ⟨_, _, .list⟩ (.def_ .list (hh rfl rfl (by decide) rfl) (by decide) .int) rfl .done))
  obtain ⟨w, st', μ, h1, h2, h3, h4⟩ := C55_input hw (written_sources hw) (by simp [Sexp.Heads, Sexp.HeadsAll, Sexp.text, hidden]) (st := { input := [c!"(def y 7)", c!"rest"] })
    (.init rfl (fun _ => rfl) (fun _ => rfl) (fun _ => rfl) (fun _ => rfl)) c!"demo" (ls := [c!"(def y 7)"]) (rest := [c!"rest"]) rfl
    (.next ⟨_, _, .list⟩ (.call .list (hh rfl rfl (by decide) rfl) (.other (by simp) (.call .list (hh rfl rfl (by decide) rfl) .nil hr) .nil) he) rfl .done)
  exact ⟨w, st', μ, h1, h2, h3, h4⟩

end

end Fuel
