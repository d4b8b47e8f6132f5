import Verif.CsString
/-!
# Specifications for texts

Small declarative definitions used in the statements of the properties about strings.  They do not refer to the
functions of the model.
-/

namespace Fuel.Spec

/-- White space of the "C" locale: blank, tab, newline, carriage return, vertical tab, form feed. -/
def White (c : Char) : Prop := c ∈ [' ', '\t', '\n', '\r', Char.ofNat 11, Char.ofNat 12]

instance (c : Char) : Decidable (White c) := by unfold White; infer_instance

/-- `pat` occurs in `txt` at offset `k`. -/
def OccursAt (pat txt : Str) (k : Nat) : Prop := ∃ a b, txt = a ++ pat ++ b ∧ a.length = k

/-- `k` is the offset of the first occurrence. -/
def FirstAt (pat txt : Str) (k : Nat) : Prop := OccursAt pat txt k ∧ ∀ j, j < k → ¬ OccursAt pat txt j

/-- `out` is `txt` with every occurrence of `search` replaced by `new`, scanning from left to right; a replaced
occurrence is not looked at again. -/
inductive Replaced (search new : Str) : Str → Str → Prop
  | done : Replaced search new [] []
  | hit {t o} : Replaced search new t o → Replaced search new (search ++ t) (new ++ o)
  | skip {c t o} : ¬ search <+: c :: t → Replaced search new t o → Replaced search new (c :: t) (c :: o)

/-- `t` neither starts nor ends with white space. -/
def Tight (t : Str) : Prop := (∀ c, t.head? = some c → ¬ White c) ∧ (∀ c, t.getLast? = some c → ¬ White c)

/-- `d` is the upper case form of `c` (ASCII letters only). -/
def Upper (c d : Char) : Prop :=
  if 'a'.toNat ≤ c.toNat ∧ c.toNat ≤ 'z'.toNat then d.toNat + 32 = c.toNat else d = c

/-- `d` is the lower case form of `c` (ASCII letters only). -/
def Lower (c d : Char) : Prop :=
  if 'A'.toNat ≤ c.toNat ∧ c.toNat ≤ 'Z'.toNat then d.toNat = c.toNat + 32 else d = c

/-- The characters of `out` are related to those of `txt` one by one. -/
def Pointwise (R : Char → Char → Prop) (txt out : Str) : Prop :=
  out.length = txt.length ∧ ∀ (i : Nat) (c d : Char), txt[i]? = some c → out[i]? = some d → R c d

/-- The pieces separated by a character, put together again. -/
def join (c : Char) : List Str → Str
  | [] => []
  | [p] => p
  | p :: q :: ps => p ++ c :: join c (q :: ps)

/-- Value of a decimal digit sequence, most significant digit first. -/
def decimal : Str → Nat → Nat
  | [], acc => acc
  | c :: t, acc => decimal t (acc * 10 + (c.toNat - '0'.toNat))

/-- A decimal digit. -/
def Digit (c : Char) : Prop := '0'.toNat ≤ c.toNat ∧ c.toNat ≤ '9'.toNat

/-- `s` is an optionally signed sequence of at least one digit denoting `i`. -/
def Numeral (s : Str) (i : Int) : Prop :=
  ∃ ds, ds ≠ [] ∧ (∀ c ∈ ds, Digit c) ∧
    ((s = ds ∧ i = decimal ds 0) ∨ (s = '+' :: ds ∧ i = decimal ds 0) ∨ (s = '-' :: ds ∧ i = -(decimal ds 0 : Int)))

/-- A piece of a format text: literal text or the placeholder `{i}`. -/
inductive Piece where
  | lit (s : Str)
  | hole (i : Nat)

/-- No curly brackets. -/
def BraceFree (s : Str) : Prop := ∀ c ∈ s, c ≠ '{' ∧ c ≠ '}'

/-- The format text made of pieces. -/
def Piece.source : Piece → Str
  | .lit s => s
  | .hole i => ['{', Char.ofNat (48 + i), '}']

/-- The format text made of a list of pieces. -/
def sources (ps : List Piece) : Str := (ps.map Piece.source).flatten

/-- The numbers of the placeholders. -/
def holes : List Piece → List Nat
  | [] => []
  | .lit _ :: t => holes t
  | .hole i :: t => i :: holes t

/-- The text with argument `args[i]` for `{i}`. -/
def fill (args : List Str) : List Piece → Str
  | [] => []
  | .lit s :: t => s ++ fill args t
  | .hole i :: t => (match args[i]? with | some a => a | none => []) ++ fill args t

end Fuel.Spec
