import Verif.SpecError
import Verif.PropsArity
import Verif.LemMacro
/-!
# Errors of the core language: one lemma for every rule of the reference semantics
-/

set_option linter.unusedSectionVars false
set_option linter.unusedSimpArgs false
set_option linter.unusedVariables false

namespace Fuel

open Spec Spec.Core

section
variable [World]

/-- A Lisp exception with this message. -/
def ErrIs (msg : Str) (x : Fail) : Prop := ∃ full l a b m, x = .exn (.lisp full msg l a b m)

theorem errIs_exn {msg : Str} {x : Fail} (h : ErrIs msg x) {α : Type} (s : St) : Ends (.fail x s : Out α) := by
  obtain ⟨_, _, _, _, _, rfl⟩ := h
  exact ends_exn _ _

theorem errIs_noScope (msg : Str) (t : Option Token) : ErrIs msg (exnNoScope msg t) := by
  cases t <;> exact ⟨_, _, _, _, _, rfl⟩

theorem errIs_scope (msg : Str) (sc : Scope) : ErrIs msg (scopeExn sc msg) := by
  unfold scopeExn
  split <;> exact ⟨_, _, _, _, _, rfl⟩

theorem errIs_at (msg module : Str) (t : Option Token) : ErrIs msg (exnAt msg module t) := by
  cases t <;> exact ⟨_, _, _, _, _, rfl⟩

theorem errIs_base (msg : Str) : ErrIs msg (.exn (.base msg)) := ⟨_, _, _, _, _, rfl⟩

/-! ## Messages -/

theorem sound_of {s : Str} (h : BraceFree s) (h' : s ≠ c!"##<NULL>##") : Sound s := ⟨h, h'⟩

theorem format_castMsg {s n m : Str} (hs : Sound s) (hn : Sound n) (hm : Sound m) :
    format c!"Invalid cast for {2}, value={1} {0}" m s n = .ok (castText n s m) := by
  obtain ⟨hs, hs'⟩ := hs
  obtain ⟨hn, hn'⟩ := hn
  obtain ⟨hm, hm'⟩ := hm
  have := format_pieces (args := [m, s, n])
    (ps := [.lit c!"Invalid cast for ", .hole 2, .lit c!", value=", .hole 1, .lit c!" ", .hole 0])
    (by simp [BraceFree]) (by simp [nullString, BraceFree] at *; exact ⟨⟨hm, hm'⟩, ⟨hs, hs'⟩, hn, hn'⟩) (by simp [holes]) (by simp [holes])
  simpa [argOr, sources, Piece.source, fill, nullString, castText] using this

theorem format_convert {t n : Str} (ht : Sound t) (hn : Sound n) :
    format c!"can not convert {0} to {1}" t n = .ok (c!"can not convert " ++ t ++ c!" to " ++ n) := by
  obtain ⟨ht, ht'⟩ := ht
  obtain ⟨hn, hn'⟩ := hn
  have := format_pieces (args := [t, n])
    (ps := [.lit c!"can not convert ", .hole 0, .lit c!" to ", .hole 1])
    (by simp [BraceFree]) (by simp [nullString, BraceFree] at *; exact ⟨⟨ht, ht'⟩, hn, hn'⟩) (by simp [holes]) (by simp [holes])
  simpa [argOr, sources, Piece.source, fill, nullString] using this

theorem format_operator {a b c : Str} (ha : Sound a) (hb : Sound b) (hc : Sound c) :
    format c!"no {0} operator for types {1} and {2}" a b c = .ok (c!"no " ++ a ++ c!" operator for types " ++ b ++ c!" and " ++ c) := by
  obtain ⟨ha, ha'⟩ := ha
  obtain ⟨hb, hb'⟩ := hb
  obtain ⟨hc, hc'⟩ := hc
  have := format_pieces (args := [a, b, c])
    (ps := [.lit c!"no ", .hole 0, .lit c!" operator for types ", .hole 1, .lit c!" and ", .hole 2])
    (by simp [BraceFree]) (by simp [nullString, BraceFree] at *; exact ⟨⟨ha, ha'⟩, ⟨hb, hb'⟩, hc, hc'⟩) (by simp [holes]) (by simp [holes])
  simpa [argOr, sources, Piece.source, fill, nullString] using this

theorem format_unary {t : Str} (ht : Sound t) :
    format c!"Unary operator - not available for {0}" t = .ok (c!"Unary operator - not available for " ++ t) := by
  obtain ⟨ht, ht'⟩ := ht
  have := format_pieces (args := [t]) (ps := [.lit c!"Unary operator - not available for ", .hole 0])
    (by simp [BraceFree]) (by simp [nullString, BraceFree] at *; exact ⟨ht, ht'⟩) (by simp [holes]) (by simp [holes])
  simpa [argOr, sources, Piece.source, fill, nullString] using this

variable {o : Origin} {st : St} {μ : Emb} {N : Nat}

theorem castExn_eq {α : Type} {n : Nat} {v : Variant} {name msg s : Str} (h : v.stringValue st n = .ok s) (hs : Sound s) (hn : Sound name) (hm : Sound msg) :
    (castExn st n v name msg : R α) = .error (exnNoScope (castText name s msg) v.tok) := by
  simp only [castExn, h, bind_ok_R, format_castMsg hs hn hm]

theorem sound_no : Sound c!"no" := ⟨by simp [BraceFree], by simp⟩
theorem sound_bool : Sound c!"bool" := ⟨by simp [BraceFree], by simp⟩
theorem sound_int : Sound c!"int" := ⟨by simp [BraceFree], by simp⟩
theorem sound_double : Sound c!"double" := ⟨by simp [BraceFree], by simp⟩
theorem sound_list : Sound c!"list" := ⟨by simp [BraceFree], by simp⟩

theorem sound_typeOf (x : Val) : Sound (typeOf x).2 := by
  cases x <;> exact ⟨by simp [BraceFree, typeOf], by simp [typeOf]⟩

theorem sound_convert (x : Val) {to : Str} (h : BraceFree to) : Sound (convertText x to) := by
  refine ⟨?_, by simp [convertText]⟩
  intro c hc
  simp only [convertText, List.mem_append] at hc
  rcases hc with ((hc | hc) | hc) | hc
  · revert hc; revert c; decide
  · exact (sound_typeOf x).1 c hc
  · revert hc; revert c; decide
  · exact h c hc

theorem raw_string {v : Variant} {x : Val} {s : Str} (h : IsVal st μ N v x) (hr : Raw x s) (n : Nat) : v.stringValue st (n + 1) = .ok s := by
  cases hr with
  | int => obtain ⟨-, i, h⟩ := isVal_int_inv h; simp [Variant.stringValue, h, ptrStr]
  | dbl => obtain ⟨-, i, h⟩ := isVal_dbl_inv h; simp [Variant.stringValue, h, ptrStr]
  | str => obtain ⟨-, i, h⟩ := isVal_str_inv h; simp [Variant.stringValue, h, ptrStr]
  | sym => obtain ⟨-, i, h⟩ := isVal_sym_inv h; simp [Variant.stringValue, h, ptrStr]
  | bool => obtain ⟨-, i, h⟩ := isVal_bool_inv h; simp [Variant.stringValue, h, ptrStr]

theorem convExn_eq {α : Type} {n : Nat} {v : Variant} {x : Val} {to s : Str} (h : IsVal st μ N v x) (hr : Raw x s) (hs : Sound s) (ht : Sound to) :
    (convExn st (n + 1) v to : R α) = .error (exnNoScope (castText to s (convertText x to)) v.tok) := by
  simp only [convExn, (typeOf_ok h).2, bind_ok_R, format_convert (sound_typeOf x) ht]
  exact castExn_eq (raw_string h hr n) hs ht (sound_convert x ht.1)

theorem sound_char {t : LispType} {x : Val} (h : t.code = (typeOf x).1) : Sound t.charStr ∧ t.charStr = [Char.ofNat (typeOf x).1.toNat] := by
  have : t.charStr = [Char.ofNat (typeOf x).1.toNat] := by
    simp only [LispType.charStr, h]
    cases x <;> rfl
  refine ⟨?_, this⟩
  rw [this]
  cases x <;> exact ⟨by simp [BraceFree, typeOf], by simp [typeOf]⟩

theorem opExn_eq {α : Type} {op : Str} {l r : Variant} {a b : Val} (ho : Sound op) (hl : IsVal st μ N l a) (hr : IsVal st μ N r b) :
    (opExn op l r : R α) = .error (exnNoScope (operatorText op a b) l.tok) := by
  obtain ⟨h1, h2⟩ := sound_char (typeOf_ok hl).1
  obtain ⟨h3, h4⟩ := sound_char (typeOf_ok hr).1
  simp only [opExn, format_operator ho h1 h3, bind_ok_R, operatorText]
  rw [h2, h4]

theorem boolValue_bad {v : Variant} {x : Val} {s : Str} (h : IsVal st μ N v x) (hx : ∀ b, x ≠ .bool b) (hr : Raw x s) (hs : Sound s) (n : Nat) :
    v.boolValue st (n + 1) = .error (exnNoScope (castText c!"bool" s c!"no") v.tok) := by
  have : v.type ≠ .bool := by
    rw [isVal_type h]; cases x <;> simp [kindOf]
    exact absurd rfl (hx _)
  simp only [Variant.boolValue, if_pos this]
  exact castExn_eq (raw_string h hr n) hs sound_bool sound_no

theorem intValue_bad {v : Variant} {x : Val} {s : Str} (h : IsVal st μ N v x) (hx : ∀ i, x ≠ .int i) (hr : Raw x s) (hs : Sound s) (n : Nat) :
    v.intValue st (n + 1) = .error (exnNoScope (castText c!"int" s c!"no") v.tok) := by
  have : v.type ≠ .int := by
    rw [isVal_type h]; cases x <;> simp [kindOf]
    exact absurd rfl (hx _)
  simp only [Variant.intValue, if_pos this]
  exact castExn_eq (raw_string h hr n) hs sound_int sound_no

theorem listValue_bad {v : Variant} {x : Val} {s : Str} (h : IsVal st μ N v x) (hx : Scalar x) (hr : Raw x s) (hs : Sound s) (n : Nat) :
    v.listValue st (n + 1) = .error (exnNoScope (castText c!"list" s c!"no") v.tok) ∧ v.type ≠ .string ∧ v.type ≠ .native := by
  have : v.type ≠ .nil ∧ v.type ≠ .list ∧ v.type ≠ .string ∧ v.type ≠ .native := by
    rw [isVal_type h]; cases x <;> simp [kindOf] <;> cases hx
  simp only [Variant.listValue, if_neg this.1, if_pos this.2.1]
  exact ⟨castExn_eq (raw_string h hr n) hs sound_list sound_no, this.2.2⟩

theorem toBool_bad {v : Variant} {x : Val} {s : Str} (h : IsVal st μ N v x) (hx : Named x s) (hs : Sound s) (n : Nat) :
    v.toBool st (n + 1) = .error (exnNoScope (castText c!"bool" s (convertText x c!"bool")) v.tok) := by
  have ht := isVal_type h
  cases hx with
  | str => simp only [Variant.toBool, ht, kindOf]; exact convExn_eq h .str hs sound_bool
  | sym => simp only [Variant.toBool, ht, kindOf]; exact convExn_eq h .sym hs sound_bool

theorem toInt_bad {v : Variant} {s : Str} (h : IsVal st μ N v (.sym s)) (hs : Sound s) (n : Nat) :
    v.toInt st (n + 1) = .error (exnNoScope (castText c!"int" s (convertText (.sym s) c!"int")) v.tok) := by
  have ht := isVal_type h
  simp only [Variant.toInt, ht, kindOf]; exact convExn_eq h .sym hs sound_int

theorem toDouble_bad {v : Variant} {s : Str} (h : IsVal st μ N v (.sym s)) (hs : Sound s) (n : Nat) :
    v.toDouble st (n + 1) = .error (exnNoScope (castText c!"double" s (convertText (.sym s) c!"double")) v.tok) := by
  have ht := isVal_type h
  simp only [Variant.toDouble, ht, kindOf]; exact convExn_eq h .sym hs sound_double

theorem notCallable_type {v : Variant} {x : Val} (h : IsVal st μ N v x) (hx : ¬ Callable x) : v.type ≠ .function := by
  rw [isVal_type h]; cases x <;> simp [kindOf] <;> exact hx trivial

theorem notAsList_type {v : Variant} {x : Val} (h : IsVal st μ N v x) (hx : ∀ l, ¬ AsList x l) : (v.type ≠ .native ∨ ∃ i, v.value = .mk i .dict) ∧ v.isList = false := by
  have := isVal_type h
  cases x <;> simp [kindOf] at this <;> simp [Variant.isList, this]
  · exact hx _ .nil
  · exact hx _ .list
  · cases h with | dict h => exact ⟨_, h.2⟩

theorem checkForList_bad {n i sid : Nat} {v : Variant} {x : Val} (h : IsVal st μ N v x) (hx : ∀ l, ¬ AsList x l) (name : Str) :
    ∃ y, checkForList n name (.mk i (.var v)) sid st = .fail y st ∧ ErrIs (c!"No list in " ++ name) y := by
  obtain ⟨h1, h2⟩ := notAsList_type h hx
  refine ⟨_, ?_, errIs_at _ (st.scopes sid).module (previousToken (st.scopes sid).tokens v.tok)⟩
  have hd : checkForList n name (.mk i (.var v)) sid st = checkForList.notList name sid v st := by
    by_cases ht : v.type = .native
    · rcases h1 with h1 | ⟨j, h1⟩
      · exact absurd ht h1
      · simp [checkForList, toVariant_var, ht, h1]
    · simp [checkForList, toVariant_var, ht, h2]
  rw [hd]
  simp [checkForList.notList, throwTok]
  cases previousToken (st.scopes sid).tokens v.tok <;> rfl

/-! ## Built-in functions -/

theorem table_unique : ∀ e ∈ defaultTable, ∀ e' ∈ defaultTable, e.name = e'.name → e.fn = e'.fn ∧ e.special = e'.special := by decide +kernel

theorem meansFn_entry {n : Str} {b : Builtin} {s : Bool} (h : Means n b s) {e : Entry} (he : e ∈ defaultTable) (hn : e.name = n) : e.fn = b ∧ e.special = s := by
  obtain ⟨e', he', hn', rfl, rfl⟩ := h
  exact table_unique e he e' he' (hn.trans hn'.symm)

theorem means_core {n : Str} {b : Builtin} {s : Bool} (h : (n, b, s) ∈ coreTable) {e : Entry} (he : e ∈ defaultTable) (hn : e.name = n) : e.fn = b ∧ e.special = s :=
  core_entry he _ h hn

/-- The call ends with an error and writes nothing. -/
def Errs {α : Type} (m : M α) (st : St) (msg : Str) : Prop := ∃ x st', m st = .fail x st' ∧ ErrIs msg x ∧ st'.out = st.out

theorem args_length {ps : List Ptr} {vs : List Val} (h : Args st μ N ps vs) : ps.length = vs.length := by
  induction h with
  | nil => rfl
  | cons _ _ ih => simp [ih]

theorem operator_builtin {n op : Str} {g : Int → Int → Int} (h : Operator n op g) :
    ∃ a : ArithOp, ∃ b, (n, b, false) ∈ coreTable ∧ a.text = op ∧ (∀ x y, a.int x y = chk32 (g x y)) ∧ Sound op ∧ (a = .add ↔ op = c!"+") ∧
      ∀ k (p q : Ptr) l s, callPrim (run k) b (p :: q :: l) s = arithFold k a (p :: q :: l) := by
  cases h with
  | add hm =>
    refine ⟨.add, .add, ?_, rfl, fun _ _ => rfl, ⟨by simp [BraceFree], by simp⟩, by simp, fun k p q l s => by simp [callPrim, run_n]⟩
    simp only [List.mem_cons, List.not_mem_nil, or_false] at hm
    rcases hm with rfl | rfl | rfl <;> decide
  | sub hm =>
    refine ⟨.sub, .sub, ?_, rfl, fun _ _ => rfl, ⟨by simp [BraceFree], by simp⟩, by simp, fun k p q l s => by simp [callPrim, run_n, bSub]⟩
    simp only [List.mem_cons, List.not_mem_nil, or_false] at hm
    rcases hm with rfl | rfl <;> decide
  | mul hm =>
    refine ⟨.mul, .mul, ?_, rfl, fun _ _ => rfl, ⟨by simp [BraceFree], by simp⟩, by simp, fun k p q l s => by simp [callPrim, run_n]⟩
    simp only [List.mem_cons, List.not_mem_nil, or_false] at hm
    rcases hm with rfl | rfl <;> decide

theorem odd_type {v : Variant} {x : Val} (h : IsVal st μ N v x) (hx : Odd x) : v.type ≠ .string ∧ v.type ≠ .int ∧ v.type ≠ .double := by
  rw [isVal_type h]; cases x <;> simp [kindOf] <;> cases hx

theorem vLt_odd {n : Nat} {v w : Variant} {a b : Val} (hv : IsVal st μ N v a) (hw : IsVal st μ N w b) (ha : Odd a) (hb : Odd b) :
    vLt st n v w = .error (exnNoScope (operatorText c!"< or >" a b) v.tok) := by
  have e1 := odd_type hv ha
  have e2 := odd_type hw hb
  unfold vLt
  rw [if_neg (by simp [e1, e2]), if_neg (by simp [e1, e2]), if_neg (by simp [e1, e2]), opExn_eq ⟨by simp [BraceFree], by simp⟩ hv hw]

theorem arith_clash {op msg : Str} {a b : Val} (h : Clash op a b msg) {A : ArithOp} (hA : A.text = op) (hp : A = .add ↔ op = c!"+") (ho : Sound op) {v w : Variant}
    (hv : IsVal st μ N v a) (hw : IsVal st μ N w b) (n : Nat) : ∃ x, arith (n + 1) A v w st = .fail x st ∧ ErrIs msg x := by
  have tv := isVal_type hv
  have tw := isVal_type hw
  cases h with
  | right hs =>
    refine ⟨_, ?_, errIs_noScope _ w.tok⟩
    simp [arith, tv, tw, kindOf, M.rd_apply, Variant.toInt, intValue_int (isVal_int_inv hv)]
    have := toInt_bad hw hs n
    simp only [Variant.toInt, tw, kindOf] at this
    simp [this]
  | left hs =>
    refine ⟨_, ?_, errIs_noScope _ v.tok⟩
    simp [arith, tv, tw, kindOf, M.rd_apply, toInt_bad hv hs n]
  | rightDbl hs =>
    refine ⟨_, ?_, errIs_noScope _ w.tok⟩
    have := toDouble_bad hw hs n
    simp only [Variant.toDouble, tw, kindOf] at this
    simp [arith, tv, tw, kindOf, M.rd_apply, Variant.toDouble, doubleValue_dbl (isVal_dbl_inv hv), this]
  | leftDbl hs =>
    refine ⟨_, ?_, errIs_noScope _ v.tok⟩
    simp [arith, tv, tw, kindOf, M.rd_apply, toDouble_bad hv hs n]
  | types h1 h2 h3 =>
    refine ⟨_, ?_, errIs_noScope _ v.tok⟩
    have e1 := odd_type hv h1
    have e2 := odd_type hw h2
    have e3 : ¬ (A = .add ∧ v.isList = true ∧ w.isList = true) := by
      rintro ⟨g1, g2, g3⟩
      simp only [Variant.isList, decide_eq_true_eq] at g2 g3
      rw [tv] at g2
      rw [tw] at g3
      have ha : ∃ l, AsList a l := by cases a <;> simp [kindOf] at g2 <;> first | exact ⟨_, .nil⟩ | exact ⟨_, .list⟩
      have hb : ∃ l, AsList b l := by cases b <;> simp [kindOf] at g3 <;> first | exact ⟨_, .nil⟩ | exact ⟨_, .list⟩
      obtain ⟨l, ha⟩ := ha
      obtain ⟨l', hb⟩ := hb
      exact h3 (hp.1 g1) l l' ha hb
    unfold arith
    rw [if_neg (by simp [e1, e2]), if_neg (by simp [e1, e2]), if_neg (by simp [e1, e2]), if_neg e3, hA, opExn_eq ho hv hw]
    rfl

theorem arithLoop_clash {op msg : Str} {g : Int → Int → Int} {A : ArithOp} (hA : A.text = op) (hg : ∀ x y, A.int x y = chk32 (g x y)) (hp : A = .add ↔ op = c!"+") (ho : Sound op)
    {a : Int} {l : List Int} {r : Int} (h : Folds g a l r) {b : Val} {l' : List Val} (hc : Clash op (.int r) b msg) (n : Nat) :
    ∀ {st : St} {v : Variant} {ps : List Ptr}, IsVal st μ N v (.int a) → Args st μ N ps (l.map .int ++ b :: l') → Errs (arithLoop (n + 1) A v ps) st msg := by
  induction h with
  | nil =>
    intro st v ps hv hps
    cases hps with
    | cons h t =>
      obtain ⟨i, w, rfl, hw⟩ := h
      obtain ⟨x, h1, h2⟩ := arith_clash hc hA hp ho hv hw n
      exact ⟨x, st, by simp [arithLoop, mkVariant_var, h1], h2, rfl⟩
  | @cons a c l r hi _ ih =>
    intro st v ps hv hps
    cases hps with
    | cons h t =>
      obtain ⟨i, w, rfl, hw⟩ := h
      obtain ⟨x, st', h1, h2, h3⟩ := ih hc (st := { st with next := st.next + 1 }) (v := ⟨.int, .mk st.next (.int (g a c)), .none, none⟩)
        (.int (isInt_mk _ _ _ _) (nsp rfl)) (args_grow (grow_of_extends (extends_next st _ (Nat.le_succ _)) μ N) t)
      have : arith (n + 1) A v w st = mkInt (g a c) st := by
        simp [arith_int (isVal_int_inv hv) (isVal_int_inv hw), hg, chk32, hi]
      exact ⟨x, st', by simpa [arithLoop, mkVariant_var, this] using h1, h2, h3⟩

theorem fnErr_ok {n msg : Str} {vs : List Val} (h : FnErr n vs msg) {e : Entry} (he : e ∈ defaultTable) (hn : e.name = n) {st : St} {sid : Nat}
    {ps : List Ptr} (hp : Args st μ N ps vs) (hl : (st.scopes sid).needsLValue = false) :
    e.special = false ∧ ∃ k, Errs (callPrim (run k) e.fn ps sid) st msg := by
  have mem : ∀ {b : Builtin}, (n, b, false) ∈ coreTable → (∃ k, Errs (callPrim (run k) b ps sid) st msg) → e.special = false ∧ ∃ k, Errs (callPrim (run k) e.fn ps sid) st msg := by
    intro b hb hx
    obtain ⟨h1, h2⟩ := means_core hb he hn
    exact ⟨h2, by rw [h1]; exact hx⟩
  cases h with
  | count hm ha hc =>
    obtain ⟨h1, h2⟩ := meansFn_entry hm he hn
    refine ⟨h2, 0, ?_⟩
    rw [h1]
    obtain ⟨x, st', g1, rfl, l, a, b, m, rfl⟩ := C63_arity 0 sid st ha (args := ps) (by rw [args_length hp]; exact hc)
    exact ⟨_, _, g1, by rw [args_length hp]; exact ⟨_, _, _, _, _, rfl⟩, rfl⟩
  | not hm hx hr hs =>
    refine mem (b := .not) (by simp only [List.mem_cons, List.not_mem_nil, or_false] at hm; rcases hm with rfl | rfl <;> decide) ?_
    obtain ⟨i, v, rfl, hv⟩ := args_one hp
    refine ⟨1, _, st, ?_, errIs_noScope _ v.tok, rfl⟩
    simp [callPrim, ret, bNot, checkArgs, argV, arg, toVariant_var, M.rd_apply, run_n, boolValue_bad hv hx hr hs 0]
  | list hm hx hr hs =>
    obtain ⟨i, v, rfl, hv⟩ := args_one hp
    obtain ⟨h1, h2, h3⟩ := listValue_bad hv hx hr hs 0
    simp only [List.mem_cons, List.not_mem_nil, or_false] at hm
    rcases hm with rfl | rfl | rfl | rfl | rfl | rfl | rfl
    · refine mem (b := .first) (by decide) ⟨1, _, st, ?_, errIs_noScope _ v.tok, rfl⟩
      simp [callPrim, ret, bFirst, checkArgs, argV, arg, toVariant_var, M.rd_apply, run_n, h1, h2, hl]
    · refine mem (b := .first) (by decide) ⟨1, _, st, ?_, errIs_noScope _ v.tok, rfl⟩
      simp [callPrim, ret, bFirst, checkArgs, argV, arg, toVariant_var, M.rd_apply, run_n, h1, h2, hl]
    · refine mem (b := .rest) (by decide) ⟨1, _, st, ?_, errIs_noScope _ v.tok, rfl⟩
      simp [callPrim, ret, bRest, checkArgs, argV, arg, toVariant_var, M.rd_apply, run_n, h1, h2, hl]
    · refine mem (b := .rest) (by decide) ⟨1, _, st, ?_, errIs_noScope _ v.tok, rfl⟩
      simp [callPrim, ret, bRest, checkArgs, argV, arg, toVariant_var, M.rd_apply, run_n, h1, h2, hl]
    · refine mem (b := .last) (by decide) ⟨1, _, st, ?_, errIs_noScope _ v.tok, rfl⟩
      simp [callPrim, ret, bLast, checkArgs, argV, arg, toVariant_var, M.rd_apply, run_n, h1, h2, hl]
    · refine mem (b := .len) (by decide) ⟨1, _, st, ?_, errIs_noScope _ v.tok, rfl⟩
      simp [callPrim, ret, bLen, lenRest, checkArgs, argV, arg, toVariant_var, M.rd_apply, run_n, h1, h2, h3, hl]
    · refine mem (b := .reverse) (by decide) ⟨1, _, st, ?_, errIs_noScope _ v.tok, rfl⟩
      simp [callPrim, ret, bReverse, checkArgs, argV, arg, toVariant_var, M.rd_apply, run_n, h1, h2, hl]
  | nthIndex hx hr hs =>
    obtain ⟨i, v, j, w, rfl, hv, hw⟩ := args_two hp
    refine mem (b := .nth) (by decide) ⟨1, _, st, ?_, errIs_noScope _ v.tok, rfl⟩
    simp [callPrim, ret, bNth, checkArgs, argV, arg, toVariant_var, M.rd_apply, run_n, intValue_bad hv hx hr hs 0]
  | nthList hx hr hs =>
    obtain ⟨i, v, j, w, rfl, hv, hw⟩ := args_two hp
    obtain ⟨h1, h2, h3⟩ := listValue_bad hw hx hr hs 0
    refine mem (b := .nth) (by decide) ⟨1, _, st, ?_, errIs_noScope _ w.tok, rfl⟩
    simp [callPrim, ret, bNth, checkArgs, argV, arg, toVariant_var, M.rd_apply, run_n, intValue_int (isVal_int_inv hv), h1, h2, hl]
  | mapFn hx =>
    obtain ⟨i, v, j, w, rfl, hv, hw⟩ := args_two hp
    have ht := notCallable_type hv hx
    refine mem (b := .map) (by decide) ⟨1, _, st, ?_, errIs_scope _ (st.scopes sid), rfl⟩
    simp [callPrim, ret, bMap, checkArgs, arg, checkForFunction, toVariant_var, ht, throwScope]
  | mapList hx hy =>
    obtain ⟨i, v, j, w, rfl, hv, hw⟩ := args_two hp
    obtain ⟨fw, hfw⟩ := isVal_callable hx hv
    obtain ⟨y, h1, h2⟩ := checkForList_bad (n := 1) (i := j) (sid := sid) hw hy c!"map"
    refine mem (b := .map) (by decide) ⟨1, y, st, ?_, h2, rfl⟩
    simp [callPrim, ret, bMap, checkArgs, arg, checkForFunction, toVariant_var, hfw.1, functionValue_fn hfw, M.rd_apply, run_n, h1]
  | reduceFn hx =>
    obtain ⟨i, v, j, w, k, z, rfl, hv, hw, hz⟩ := args_three hp
    have ht := notCallable_type hv hx
    refine mem (b := .reduce) (by decide) ⟨1, _, st, ?_, errIs_scope _ (st.scopes sid), rfl⟩
    simp [callPrim, ret, bReduce, checkArgs, arg, checkForFunction, toVariant_var, ht, throwScope]
  | reduceList hx hy =>
    obtain ⟨i, v, j, w, k, z, rfl, hv, hw, hz⟩ := args_three hp
    obtain ⟨fw, hfw⟩ := isVal_callable hx hv
    obtain ⟨y, h1, h2⟩ := checkForList_bad (n := 1) (i := j) (sid := sid) hw hy c!"reduce"
    refine mem (b := .reduce) (by decide) ⟨1, y, st, ?_, h2, rfl⟩
    simp [callPrim, ret, bReduce, checkArgs, arg, checkForFunction, toVariant_var, hfw.1, functionValue_fn hfw, M.rd_apply, run_n, h1]
  | applyList hx hy =>
    obtain ⟨i, v, j, w, rfl, hv, hw⟩ := args_two hp
    obtain ⟨fw, hfw⟩ := isVal_callable hx hv
    obtain ⟨-, h1⟩ := notAsList_type hw hy
    have hev : (run 1).eval (.mk i (.var v)) sid st = .ok (some v) st := by
      show (run (0 + 1)).eval _ _ _ = _
      rw [run_eval]; simp [evalStep, hfw.1]
    refine mem (b := .apply) (by decide) ⟨1, _, st, ?_, errIs_scope _ (st.scopes sid), rfl⟩
    simp [callPrim, bApply, checkArgs, arg, argV, toVariant_var, hev, h1, throwScope]
  | first ho hc =>
    obtain ⟨A, b, hb, hA, hg, hs, hadd, hcall⟩ := operator_builtin ho
    refine mem hb ⟨1, ?_⟩
    cases hp with
    | cons h t =>
      cases t with
      | cons h' t =>
        obtain ⟨i, v, rfl, hv⟩ := h
        obtain ⟨j, w, rfl, hw⟩ := h'
        obtain ⟨x, h1, h2⟩ := arith_clash hc hA hadd hs hv hw 0
        exact ⟨x, st, by simp [hcall, arithFold, arithLoop, mkVariant_var, h1], h2, rfl⟩
  | @later n op g a r b l l' msg ho hf hc =>
    obtain ⟨A, B, hb, hA, hg, hs, hadd, hcall⟩ := operator_builtin ho
    refine mem hb ⟨1, ?_⟩
    cases hp with
    | @cons _ _ qs _ h t =>
      obtain ⟨i, v, rfl, hv⟩ := h
      obtain ⟨x, st', h1, h2, h3⟩ := arithLoop_clash hA hg hadd hs hf hc 0 hv t
      cases qs with
      | nil => exact absurd (args_length t) (by simp)
      | cons => exact ⟨x, st', by simp [hcall, arithFold, mkVariant_var, h1], h2, h3⟩
  | negate hm hx hy =>
    obtain ⟨i, v, rfl, hv⟩ := args_one hp
    have ht := isVal_type hv
    refine mem (b := .sub) (by simp only [List.mem_cons, List.not_mem_nil, or_false] at hm; rcases hm with rfl | rfl <;> decide) ⟨1, _, st, ?_, errIs_base _, rfl⟩
    have e1 : v.type ≠ .int ∧ v.type ≠ .double := by rw [ht]; rename_i y; cases y <;> simp [kindOf] <;> first | exact hx _ rfl | exact hy _ rfl
    simp [callPrim, run_n, bSub, mkVariant_var, e1, (typeOf_ok hv).2, format_unary (sound_typeOf _), throwBase]
  | bits hm hx hr hs =>
    obtain ⟨i, v, j, w, rfl, hv, hw⟩ := args_two hp
    simp only [List.mem_cons, List.not_mem_nil, or_false] at hm
    have hi := intValue_bad hv hx hr hs 0
    rcases hm with rfl | rfl | rfl | rfl | rfl
    · refine mem (b := .band) (by decide) ⟨1, _, st, ?_, errIs_noScope _ v.tok, rfl⟩
      simp [callPrim, ret, bBit, checkArgs, argV, arg, toVariant_var, M.rd_apply, run_n, hi]
    · refine mem (b := .bor) (by decide) ⟨1, _, st, ?_, errIs_noScope _ v.tok, rfl⟩
      simp [callPrim, ret, bBit, checkArgs, argV, arg, toVariant_var, M.rd_apply, run_n, hi]
    · refine mem (b := .bxor) (by decide) ⟨1, _, st, ?_, errIs_noScope _ v.tok, rfl⟩
      simp [callPrim, ret, bBit, checkArgs, argV, arg, toVariant_var, M.rd_apply, run_n, hi]
    · refine mem (b := .shl) (by decide) ⟨1, _, st, ?_, errIs_noScope _ v.tok, rfl⟩
      simp [callPrim, ret, bBit, checkArgs, argV, arg, toVariant_var, M.rd_apply, run_n, hi]
    · refine mem (b := .shr) (by decide) ⟨1, _, st, ?_, errIs_noScope _ v.tok, rfl⟩
      simp [callPrim, ret, bBit, checkArgs, argV, arg, toVariant_var, M.rd_apply, run_n, hi]
  | bitsRight hm hx hr hs =>
    obtain ⟨i, v, j, w, rfl, hv, hw⟩ := args_two hp
    simp only [List.mem_cons, List.not_mem_nil, or_false] at hm
    have hj := intValue_int (n := 1) (st := st) (isVal_int_inv hv)
    have hi := intValue_bad hw hx hr hs 0
    rcases hm with rfl | rfl | rfl | rfl | rfl
    · refine mem (b := .band) (by decide) ⟨1, _, st, ?_, errIs_noScope _ w.tok, rfl⟩
      simp [callPrim, ret, bBit, checkArgs, argV, arg, toVariant_var, M.rd_apply, run_n, hi, hj]
    · refine mem (b := .bor) (by decide) ⟨1, _, st, ?_, errIs_noScope _ w.tok, rfl⟩
      simp [callPrim, ret, bBit, checkArgs, argV, arg, toVariant_var, M.rd_apply, run_n, hi, hj]
    · refine mem (b := .bxor) (by decide) ⟨1, _, st, ?_, errIs_noScope _ w.tok, rfl⟩
      simp [callPrim, ret, bBit, checkArgs, argV, arg, toVariant_var, M.rd_apply, run_n, hi, hj]
    · refine mem (b := .shl) (by decide) ⟨1, _, st, ?_, errIs_noScope _ w.tok, rfl⟩
      simp [callPrim, ret, bBit, checkArgs, argV, arg, toVariant_var, M.rd_apply, run_n, hi, hj]
    · refine mem (b := .shr) (by decide) ⟨1, _, st, ?_, errIs_noScope _ w.tok, rfl⟩
      simp [callPrim, ret, bBit, checkArgs, argV, arg, toVariant_var, M.rd_apply, run_n, hi, hj]
  | bnot hx hr hs =>
    obtain ⟨i, v, rfl, hv⟩ := args_one hp
    refine mem (b := .bnot) (by decide) ⟨1, _, st, ?_, errIs_noScope _ v.tok, rfl⟩
    simp [callPrim, ret, bBitNot, checkArgs, argV, arg, toVariant_var, M.rd_apply, run_n, intValue_bad hv hx hr hs 0]
  | lt h1 h2 =>
    obtain ⟨i, v, j, w, rfl, hv, hw⟩ := args_two hp
    refine mem (b := .lt) (by decide) ⟨1, _, st, ?_, errIs_noScope _ v.tok, rfl⟩
    simp [callPrim, ret, run_n, bCmp, checkArgs, CmpOp.text, argV, arg, toVariant_var, M.rd_apply, CmpOp.run, vLt_odd hv hw h1 h2]
  | gt h1 h2 =>
    obtain ⟨i, v, j, w, rfl, hv, hw⟩ := args_two hp
    refine mem (b := .gt) (by decide) ⟨1, _, st, ?_, errIs_noScope _ w.tok, rfl⟩
    simp [callPrim, ret, run_n, bCmp, checkArgs, CmpOp.text, argV, arg, toVariant_var, M.rd_apply, CmpOp.run, vLt_odd hw hv h2 h1]
  | format h h5 hs hd hlt hb hi h1 h2 =>
    cases hp with
    | cons hv ht =>
      obtain ⟨j, v, rfl, hv⟩ := hv
      obtain ⟨K, hK⟩ := shown_args ht h
      have hlen := shownAll_length h
      exact mem (b := .format) (by decide) ⟨K + 3, _, st, C13_format_missing (by omega) sid st ⟨j, v, rfl, isVal_str_inv hv⟩ (by omega) (hK (K + 3) (by omega)) hs hb hlt hd hi
        (by omega) h2, errIs_base _, rfl⟩

end
end Fuel
