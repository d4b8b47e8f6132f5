import Verif.SpecText
/-!
# Specification of `format` with field widths
-/

namespace Fuel.Spec

/-- A piece of a format text: literal text, the placeholder `{i}` or the placeholder `{i,t}`, where `t` denotes the width `w`. -/
inductive Slot where
  | lit (s : Str)
  | hole (i : Nat)
  | wide (i : Nat) (t : Str) (w : Int)

/-- The format text made of pieces. -/
def Slot.source : Slot → Str
  | .lit s => s
  | .hole i => ['{', Char.ofNat (48 + i), '}']
  | .wide i t _ => '{' :: Char.ofNat (48 + i) :: ',' :: (t ++ ['}'])

/-- The format text made of a list of pieces. -/
def slotSources (ps : List Slot) : Str := (ps.map Slot.source).flatten

/-- The numbers of the placeholders. -/
def slotNums : List Slot → List Nat
  | [] => []
  | .lit _ :: t => slotNums t
  | .hole i :: t => i :: slotNums t
  | .wide i _ _ :: t => i :: slotNums t

/-- The text in a field of width `w`: a positive width puts it to the right end, a negative width to the left end; a longer text
is not cut. -/
def pad (w : Int) (a : Str) : Str :=
  if 0 < w then List.replicate (w.natAbs - a.length) ' ' ++ a else a ++ List.replicate (w.natAbs - a.length) ' '

/-- The piece with argument `args[i]` for its placeholder. -/
def Slot.filled (args : List Str) : Slot → Str
  | .lit s => s
  | .hole i => (match args[i]? with | some a => a | none => [])
  | .wide i _ w => pad w (match args[i]? with | some a => a | none => [])

/-- The text with the arguments for the placeholders. -/
def slotFill (args : List Str) (ps : List Slot) : Str := (ps.map (Slot.filled args)).flatten

/-- The literal texts have no curly brackets, the widths are decimal numbers of 32 bits (and not the smallest one, whose
absolute value has no 32 bits). -/
def SlotOk : Slot → Prop
  | .lit s => BraceFree s
  | .hole _ => True
  | .wide _ t w => Numeral t w ∧ IsInt32 w ∧ w ≠ -2147483648

end Fuel.Spec
