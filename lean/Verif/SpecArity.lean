import Verif.SpecValue
/-!
# Specification of the numbers of arguments
-/

namespace Fuel.Spec

/-- The functions and special forms that check the number of their arguments: the name that is reported, the smallest and the largest number. -/
def arity : Builtin → Option (Str × Nat × Nat)
  | .delvar => some (c!"delvar", 1, 1)
  | .needLValue => some (c!"need-l-value", 0, 0)
  | .tickcount => some (c!"tickcount", 0, 0)
  | .type => some (c!"type", 1, 1)
  | .typestr => some (c!"typestr", 1, 1)
  | .format => some (c!"format", 1, 6)
  | .flush => some (c!"flush", 0, 0)
  | .readline => some (c!"readline", 0, 0)
  | .parseInteger => some (c!"parse-integer", 1, 1)
  | .parseFloat => some (c!"parse-float", 1, 1)
  | .toInt => some (c!"int", 1, 1)
  | .toFloat => some (c!"float", 1, 1)
  | .search => some (c!"search", 2, 4)
  | .slice => some (c!"slice", 3, 3)
  | .replace => some (c!"replace", 3, 3)
  | .trim => some (c!"trim", 1, 1)
  | .lower => some (c!"lower-case", 1, 1)
  | .upper => some (c!"upper-case", 1, 1)
  | .shr => some (c!"right-shift", 2, 2)
  | .shl => some (c!"lef-shift", 2, 2)
  | .bor => some (c!"lef-shift", 2, 2)
  | .band => some (c!"lef-shift", 2, 2)
  | .bxor => some (c!"lef-shift", 2, 2)
  | .bnot => some (c!"binary-not", 1, 1)
  | .lt => some (c!"<", 2, 2)
  | .gt => some (c!">", 2, 2)
  | .le => some (c!"<=", 2, 2)
  | .ge => some (c!">=", 2, 2)
  | .eq => some (c!"==", 2, 2)
  | .ne => some (c!"!=", 2, 2)
  | .not => some (c!"not", 1, 1)
  | .map => some (c!"map", 2, 2)
  | .reduce => some (c!"reduce", 3, 3)
  | .len => some (c!"len", 1, 1)
  | .first => some (c!"first", 1, 1)
  | .last => some (c!"last", 1, 1)
  | .rest => some (c!"rest", 1, 1)
  | .nth => some (c!"nth", 2, 2)
  | .push => some (c!"push", 2, 3)
  | .pop => some (c!"pop", 1, 2)
  | .reverse => some (c!"reverse", 1, 1)
  | .rval => some (c!"rval", 1, 1)
  | .sym => some (c!"sym", 1, 1)
  | .str => some (c!"str", 1, 1)
  | .argscount => some (c!"argscount", 0, 0)
  | .args => some (c!"args", 0, 0)
  | .arg => some (c!"arg", 1, 1)
  | .apply => some (c!"apply", 2, 2)
  | .eval => some (c!"eval", 1, 1)
  | .evalstr => some (c!"evalstr", 1, 1)
  | .makeDict => some (c!"make-dict", 0, 0)
  | .dictSet => some (c!"dict-set", 3, 3)
  | .dictGet => some (c!"dict-get", 2, 2)
  | .dictRemove => some (c!"dict-remove", 2, 2)
  | .dictKeys => some (c!"dict-keys", 1, 1)
  | .dictClear => some (c!"dict-clean", 1, 1)
  | .dictContainsKey => some (c!"dict-contains-key", 2, 2)
  | .dictContainsValue => some (c!"dict-contains-value", 2, 2)
  | .def_ => some (c!"def", 2, 2)
  | .gdef => some (c!"gdef", 2, 2)
  | .setf => some (c!"setf", 2, 2)
  | .defineMacroEval => some (c!"define-macro-eval", 3, 3)
  | .defineMacroExpand => some (c!"define-macro-expand", 3, 3)
  | .quote => some (c!"quote", 1, 1)
  | .quasiquote => some (c!"quasiquote", 1, 1)
  | .unquote => some (c!"_unquote", 1, 1)
  | .unquotesplicing => some (c!"_unquotesplicing", 1, 1)
  | .while_ => some (c!"while", 2, 2)
  | .defn => some (c!"def", 3, 3)
  | .gdefn => some (c!"gdef", 3, 3)
  | .fileExists => some (c!"File-Exits", 1, 1)
  | .fileRead => some (c!"File-ReadAllText", 1, 1)
  | .fileWrite => some (c!"File-WriteAllText", 2, 2)
  | .mathPi => some (c!"Math-Pi", 0, 0)
  | .mathPow => some (c!"Math-Pow", 2, 2)
  | .math f => some (match f with
    | .sin => c!"Math-Sin" | .sinh => c!"Math-Sinh" | .asin => c!"Math-Asin" | .cos => c!"Math-Cos"
    | .cosh => c!"Math-Cosh" | .acos => c!"Math-Acos" | .tan => c!"Math-Tan" | .tanh => c!"Math-Tanh"
    | .atan => c!"Math-Atan" | .exp => c!"Math-Exp" | .log => c!"Math-Log" | .log10 => c!"Math-Log10"
    | .sqrt => c!"Math-Sqrt" | .round => c!"Math-Round" | .trunc => c!"Math-Truncated" | .fabs => c!"Math-Abs"
    | .floor => c!"Math-Floor" | .ceil => c!"Math-Ceiling", 1, 1)
  | _ => none

/-- The message for a wrong number of arguments. -/
def arityMessage (name : Str) (lo hi has : Nat) : Str :=
  c!"Bad argument count in " ++ name ++ c!", has " ++ natStr has ++
    if lo = hi then c!" expected " ++ natStr lo else c!" expected between " ++ natStr lo ++ c!" and " ++ natStr hi

end Fuel.Spec
