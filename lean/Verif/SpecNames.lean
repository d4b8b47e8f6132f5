import Verif.SpecDefault
/-!
# Specification of the names of the functions

Which name is bound to which function (Environment.cpp 2307-2493 and the documentation in README.md, which describes what the functions are for).
-/

namespace Fuel.Spec

set_option maxRecDepth 20000 in
/-- The functions: their arguments are evaluated. -/
def functionNames : List (Str × Builtin) :=
  [(c!"fuel", .fuel), (c!"version", .version), (c!"copyright", .copyright), (c!"help", .help), (c!"doc", .doc),
   (c!"searchdoc", .searchdoc), (c!"htmldoc", .htmldoc), (c!"break", .brk), (c!"vars", .vars), (c!"delvar", .delvar), (c!"trace", .trace),
   (c!"gettrace", .gettrace), (c!"need-l-value", .needLValue), (c!"import", .import_), (c!"tickcount", .tickcount), (c!"sleep", .sleep),
   (c!"date-time", .datetime), (c!"platform", .platform), (c!"type", .type), (c!"typestr", .typestr), (c!"nop", .nop),
   (c!"return", .return_), (c!"print", .print), (c!"println", .println), (c!"format", .format), (c!"flush", .flush),
   (c!"readline", .readline), (c!"parse-integer", .parseInteger), (c!"parse-float", .parseFloat), (c!"int", .toInt), (c!"float", .toFloat),
   (c!"search", .search), (c!"slice", .slice), (c!"replace", .replace), (c!"trim", .trim), (c!"lower-case", .lower),
   (c!"upper-case", .upper), (c!"string", .add), (c!"add", .add), (c!"+", .add), (c!"sub", .sub), (c!"-", .sub), (c!"mul", .mul),
   (c!"*", .mul), (c!"div", .div), (c!"/", .div), (c!"mod", .mod), (c!"%", .mod), (c!">>", .shr), (c!"<<", .shl), (c!"|", .bor),
   (c!"&", .band), (c!"^", .bxor), (c!"~", .bnot), (c!"<", .lt), (c!">", .gt), (c!"<=", .le), (c!">=", .ge), (c!"equal", .eq),
   (c!"=", .eq), (c!"==", .eq), (c!"!=", .ne), (c!"not", .not), (c!"!", .not), (c!"list", .list), (c!"map", .map), (c!"reduce", .reduce),
   (c!"cons", .cons), (c!"len", .len), (c!"first", .first), (c!"last", .last), (c!"car", .first), (c!"rest", .rest), (c!"cdr", .rest),
   (c!"nth", .nth), (c!"push", .push), (c!"pop", .pop), (c!"append", .append), (c!"reverse", .reverse), (c!"sym", .sym), (c!"str", .str),
   (c!"argscount", .argscount), (c!"args", .args), (c!"arg", .arg), (c!"apply", .apply), (c!"eval", .eval), (c!"evalstr", .evalstr),
   (c!"make-dict", .makeDict), (c!"dict-set", .dictSet), (c!"dict-get", .dictGet), (c!"dict-remove", .dictRemove),
   (c!"dict-keys", .dictKeys), (c!"dict-clear", .dictClear), (c!"dict-contains-key", .dictContainsKey),
   (c!"dict-contains-value", .dictContainsValue), (c!"define-macro-expand", .defineMacroExpand), (c!"File-Exists", .fileExists),
   (c!"File-ReadAllText", .fileRead), (c!"File-WriteAllText", .fileWrite), (c!"Math-Pi", .mathPi), (c!"Math-Sin", .math .sin),
   (c!"Math-Sinh", .math .sinh), (c!"Math-Asin", .math .asin), (c!"Math-Cos", .math .cos), (c!"Math-Cosh", .math .cosh),
   (c!"Math-Acos", .math .acos), (c!"Math-Tan", .math .tan), (c!"Math-Tanh", .math .tanh), (c!"Math-Atan", .math .atan),
   (c!"Math-Exp", .math .exp), (c!"Math-Log", .math .log), (c!"Math-Log10", .math .log10), (c!"Math-Sqrt", .math .sqrt),
   (c!"Math-Round", .math .round), (c!"Math-Truncate", .math .trunc), (c!"Math-Abs", .math .fabs), (c!"Math-Floor", .math .floor),
   (c!"Math-Ceiling", .math .ceil), (c!"Math-Pow", .mathPow)]

/-- The special forms: their arguments are not evaluated. -/
def formNames : List (Str × Builtin) :=
  [(c!"rval", .rval), (c!"and", .and), (c!"&&", .and), (c!"or", .or), (c!"||", .or), (c!"def", .def_), (c!"gdef", .gdef),
   (c!"setf", .setf), (c!"define-macro", .defineMacroEval), (c!"define-macro-eval", .defineMacroEval), (c!"quote", .quote),
   (c!"quasiquote", .quasiquote), (c!"_unquote", .unquote), (c!"_unquotesplicing", .unquotesplicing), (c!"if", .if_), (c!"while", .while_),
   (c!"do", .do_), (c!"begin", .do_), (c!"lambda", .fn), (c!"fn", .fn), (c!"defn", .defn), (c!"gdefn", .gdefn)]

/-- The name `name` means the built-in function or special form `b` in the scope `s`. -/
def Means (st : St) (s : Nat) (name : Str) (b : Builtin) (special : Bool) : Prop :=
  ∃ p, binding st s name = some p ∧ Holds p fun v => ∃ w, IsFn v w ∧ w.kind = .prim b ∧ w.special = special

end Fuel.Spec
