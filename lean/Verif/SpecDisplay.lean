import Verif.SpecCode
import Verif.SpecEval
/-!
# Specification of display strings
-/

namespace Fuel.Spec

variable [World]

/-- The text of a key of a dictionary. -/
inductive KeyText : Variant → Str → Prop
  | text {v s} : IsStr v s → KeyText v (c!"\"" ++ s ++ c!"\"")
  | symbol {v s} : IsSym v s → KeyText v (c!"\"" ++ s ++ c!"\"")
  | int {v x} : IsInt v x → KeyText v (intStr x)
  | double {v d} : IsDbl v d → KeyText v (World.dToStr d)
  | bool {v b} : IsBool v b → KeyText v (if b then c!"true" else c!"false")

mutual
/-- The display string of a value: `1`, `2.500000`, `#t`, `NIL`, `text`, `(1 "text" (sym))`, `{ [1 : "text"] }`. -/
inductive Displays (st : St) : Variant → Str → Prop
  | undefined {v} : IsUndef v → Displays st v c!"<undefined>"
  | nil {v} : IsNil v → Displays st v c!"NIL"
  | bool {v b} : IsBool v b → Displays st v (if b then c!"#t" else c!"#f")
  | int {v x} : IsInt v x → Displays st v (intStr x)
  | double {v d} : IsDbl v d → Displays st v (World.dToStr d)
  | text {v s} : IsStr v s → Displays st v s
  | symbol {v s} : IsSym v s → Displays st v s
  | function {v f} : IsFn v f → Displays st v (c!"function " ++ f.signature)
  | list {v i ts} : IsListAt v i → Items st (st.lists i) ts → Displays st v (c!"(" ++ List.intercalate c!" " ts ++ c!")")
  | dict {v i ts} : IsDictAt v i → Entries st (st.dicts i) ts → Displays st v (c!"{ " ++ List.intercalate c!", " ts ++ c!" }")
/-- The text of an element of a list or of a value in a dictionary: strings are put into quotation marks. -/
inductive Item (st : St) : Ptr → Str → Prop
  | text {p s} : Holds p (IsStr · s) → Item st p (c!"\"" ++ s ++ c!"\"")
  | value {i v t} : (∀ s, ¬ IsStr v s) → Displays st v t → t ≠ [] → Item st (.mk i (.var v)) t
  | code {i ts} : Items st (st.lists i) ts → Item st (.mk i .list) (c!"(" ++ List.intercalate c!" " ts ++ c!")")
/-- The texts of the elements of a list. -/
inductive Items (st : St) : List Ptr → List Str → Prop
  | nil : Items st [] []
  | cons {p ps t ts} : Item st p t → Items st ps ts → Items st (p :: ps) (t :: ts)
/-- The texts of the entries of a dictionary.  Values are never raw lists. -/
inductive Entries (st : St) : List (Variant × Ptr) → List Str → Prop
  | nil : Entries st [] []
  | cons {k i v l a b ts} : KeyText k a → Item st (.mk i (.var v)) b → Entries st l ts →
      Entries st ((k, .mk i (.var v)) :: l) ((c!"[" ++ a ++ c!" : " ++ b ++ c!"]") :: ts)
end

end Fuel.Spec
