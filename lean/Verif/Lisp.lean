import Verif.Interp
/-!
# Model of `CreateDefaultScope` (Environment.cpp 2298-2500) and of `Lisp::Eval`, `Lisp::SaveEval` (Lisp.cpp)
-/

namespace Fuel

variable [World]

/-- One line `(*scope)[name] = CreateFunction(function, signature, documentation, ...)` of `CreateDefaultScope`;
`isBuiltin` is always true and the module name is always `<builtin>` (Environment.cpp 232-243). -/
structure Entry where
  name : Str
  fn : Builtin
  signature : Str
  doc : Str
  special : Bool
  evalInExpand : Bool
deriving DecidableEq

set_option maxRecDepth 20000 in
/-- Environment.cpp 2307-2493 in program order (`do` and `if` are registered twice). -/
def defaultTable : List Entry :=
  [
    ⟨c!"fuel", .fuel, c!"(fuel)", c!"Returns and shows information about the fuel language.", false, false⟩,
    ⟨c!"version", .version, c!"(version)", c!"Returns the version of the fuel language.", false, false⟩,
    ⟨c!"copyright", .copyright, c!"(copyright)", c!"Returns and shows the copyright of the fuel language.", false, false⟩,
    ⟨c!"help", .help, c!"(help)", c!"Returns and shows the available builtin functions.", false, false⟩,
    ⟨c!"doc", .doc, c!"(doc functionname ...)", c!"Returns and shows the documentation of all builtin functions or for the given function name(s).", false, false⟩,
    ⟨c!"searchdoc", .searchdoc, c!"(searchdoc name ...)", c!"Returns and shows the documentation of functions containing name(s).", false, false⟩,
    ⟨c!"htmldoc", .htmldoc, c!"(htmldoc)", c!"Returns and shows the documentation of all builtin functions in html format.", false, false⟩,
    ⟨c!"break", .brk, c!"(break)", c!"Sets a breakpoint in the code.", false, false⟩,
    ⟨c!"vars", .vars, c!"(vars)", c!"Returns a dump of all variables.", false, false⟩,
    ⟨c!"delvar", .delvar, c!"(delvar name)", c!"Deletes a local variable with the given name and returns a success flag.", false, false⟩,
    ⟨c!"trace", .trace, c!"(trace value)", c!"Switches the trace modus on or off.", false, false⟩,
    ⟨c!"gettrace", .gettrace, c!"(gettrace)", c!"Returns the trace output.", false, false⟩,
    ⟨c!"need-l-value", .needLValue, c!"(need-l-value)", c!"Returns #t if a l-value is needed as return value of the current function.", false, false⟩,
    ⟨c!"import", .import_, c!"(import module1 ...)", c!"Imports modules with fuel code.", false, false⟩,
    ⟨c!"tickcount", .tickcount, c!"(tickcount)", c!"Returns the current tick count in milliseconds, can be used to measure times.", false, false⟩,
    ⟨c!"sleep", .sleep, c!"(sleep time-in-ms)", c!"Sleeps the given number of milliseconds.", false, false⟩,
    ⟨c!"date-time", .datetime, c!"(date-time)", c!"Returns a list with informations about the current date and time: (year month day hours minutes seconds).", false, false⟩,
    ⟨c!"platform", .platform, c!"(platform)", c!"Returns a list with informations about the current platform: (operating_system runtime_environment).", false, false⟩,
    ⟨c!"type", .type, c!"(type expr)", c!"Returns the type id of the value of the expression.", false, false⟩,
    ⟨c!"typestr", .typestr, c!"(typestr expr)", c!"Returns a readable string representing the type of the value of the expression.", false, false⟩,
    ⟨c!"nop", .nop, c!"(nop)", c!"Does nothing (no operation).", false, false⟩,
    ⟨c!"return", .return_, c!"(return expr)", c!"Returns the value of the expression and quits the function.", false, false⟩,
    ⟨c!"print", .print, c!"(print expr1 expr2 ...)", c!"Prints the values of the given expressions on the console.", false, false⟩,
    ⟨c!"println", .println, c!"(println expr1 expr2 ...)", c!"Prints the values of the given expressions on the console adding a new line at the end of the output.", false, false⟩,
    ⟨c!"format", .format, c!"(format format-str expr1 expr2 ...)", c!"Formats the content of the format string with the values of the given expressions and returns a string.", false, false⟩,
    ⟨c!"flush", .flush, c!"(flush)", c!"Flushes the output to the console.", false, false⟩,
    ⟨c!"readline", .readline, c!"(readline)", c!"Reads a line from the console input.", false, false⟩,
    ⟨c!"parse-integer", .parseInteger, c!"(parse-integer expr)", c!"Convert the string expr into an integer value", false, false⟩,
    ⟨c!"parse-float", .parseFloat, c!"(parse-float expr)", c!"Convert the string expr into a float value", false, false⟩,
    ⟨c!"int", .toInt, c!"(int expr)", c!"Convert the expr into an integer value", false, false⟩,
    ⟨c!"float", .toFloat, c!"(float expr)", c!"Convert the expr into a float value", false, false⟩,
    ⟨c!"search", .search, c!"(search searchtxt expr [pos] [len])", c!"Returns the first position of the searchtxt in the string, starting from position pos.", false, false⟩,
    ⟨c!"slice", .slice, c!"(slice expr1 pos len)", c!"Returns a substring of the given string expr1, starting from position pos with length len.", false, false⟩,
    ⟨c!"replace", .replace, c!"(replace expr1 searchtxt replacetxt)", c!"Returns a string of the given string expr1 with replacing searchtxt with replacetxt.", false, false⟩,
    ⟨c!"trim", .trim, c!"(trim expr1)", c!"Returns a string with no starting and trailing whitespaces.", false, false⟩,
    ⟨c!"lower-case", .lower, c!"(lower-case expr1)", c!"Returns a string with only lower case characters.", false, false⟩,
    ⟨c!"upper-case", .upper, c!"(upper-case expr1)", c!"Returns a string with only upper case characters.", false, false⟩,
    ⟨c!"string", .add, c!"(string expr1 expr2 ...)", c!"see: add", false, false⟩,
    ⟨c!"add", .add, c!"(add expr1 expr2 ...)", c!"Returns value of expr1 added with expr2 added with ...", false, false⟩,
    ⟨c!"+", .add, c!"(+ expr1 expr2 ...)", c!"see: add", false, false⟩,
    ⟨c!"sub", .sub, c!"(sub expr1 expr2 ...)", c!"Returns value of expr1 subtracted with expr2 subtracted with ...", false, false⟩,
    ⟨c!"-", .sub, c!"(- expr1 expr2 ...)", c!"see: sub", false, false⟩,
    ⟨c!"mul", .mul, c!"(mul expr1 expr2 ...)", c!"Returns value of expr1 multipied by expr2 multiplied by ...", false, false⟩,
    ⟨c!"*", .mul, c!"(* expr1 expr2 ...)", c!"see: mul", false, false⟩,
    ⟨c!"div", .div, c!"(div expr1 expr2 ...)", c!"Returns value of expr1 divided by expr2 divided by ...", false, false⟩,
    ⟨c!"/", .div, c!"(/ expr1 expr2 ...)", c!"see: div", false, false⟩,
    ⟨c!"mod", .mod, c!"(mod expr1 expr2)", c!"Returns value of modulo operation between expr1 and expr2", false, false⟩,
    ⟨c!"%", .mod, c!"(% expr1 expr2)", c!"see: mod", false, false⟩,
    ⟨c!">>", .shr, c!"(>> expr1 expr2)", c!"Integer right shift. Returns integer expression1 right shifted for expression2 binary digits.", false, false⟩,
    ⟨c!"<<", .shl, c!"(>> expr1 expr2)", c!"Integer left shift. Returns integer expression1 left shifted for expression2 binary digits.", false, false⟩,
    ⟨c!"|", .bor, c!"(| expr1 expr2)", c!"Binary or for integer numbers (bitwise or).", false, false⟩,
    ⟨c!"&", .band, c!"(& expr1 expr2)", c!"Binary and for integer numbers (bitwise and).", false, false⟩,
    ⟨c!"^", .bxor, c!"(^ expr1 expr2)", c!"Binary xor for integer numbers (bitwise xor).", false, false⟩,
    ⟨c!"~", .bnot, c!"(~ expr1)", c!"Binary not for integer numbers (bitwise not).", false, false⟩,
    ⟨c!"<", .lt, c!"(< expr1 expr2)", c!"Returns #t if value of expression1 is smaller than value of expression2 and returns #f otherwiese.", false, false⟩,
    ⟨c!">", .gt, c!"(> expr1 expr2)", c!"Returns #t if value of expression1 is larger than value of expression2 and returns #f otherwiese.", false, false⟩,
    ⟨c!"<=", .le, c!"(<= expr1 expr2)", c!"Returns #t if value of expression1 is equal or smaller than value of expression2 and returns #f otherwiese.", false, false⟩,
    ⟨c!">=", .ge, c!"(>= expr1 expr2)", c!"Returns #t if value of expression1 is equal or larger than value of expression2 and returns #f otherwiese.", false, false⟩,
    ⟨c!"equal", .eq, c!"(equal expr1 expr2)", c!"Returns #t if value of expression1 is equal with value of expression2 and returns #f otherwiese.", false, false⟩,
    ⟨c!"=", .eq, c!"(= expr1 expr2)", c!"see: equal", false, false⟩,
    ⟨c!"==", .eq, c!"(== expr1 expr2)", c!"see: equal", false, false⟩,
    ⟨c!"!=", .ne, c!"(!= expr1 expr2)", c!"Returns #t if value of expression1 is not equal with value of expression2 and returns #f otherwiese.", false, false⟩,
    ⟨c!"not", .not, c!"(not expr)", c!"Returns the inverted bool value of the expression.", false, false⟩,
    ⟨c!"!", .not, c!"(! expr)", c!"see: not", false, false⟩,
    ⟨c!"list", .list, c!"(list item1 item2 ...)", c!"Returns a new list with the given elements.", false, false⟩,
    ⟨c!"map", .map, c!"(map function list)", c!"Returns a new list with elements, where all elements of the list where applied to the function.", false, false⟩,
    ⟨c!"reduce", .reduce, c!"(reduce function list initial)", c!"Reduce function.", false, false⟩,
    ⟨c!"cons", .cons, c!"(cons item list)", c!"Returns a new list containing the item and the elements of the list.", false, false⟩,
    ⟨c!"len", .len, c!"(len list)", c!"Returns the length of the list.", false, false⟩,
    ⟨c!"first", .first, c!"(first list)", c!"see: car", false, false⟩,
    ⟨c!"last", .last, c!"(last list)", c!"Returns the last element of the list.", false, false⟩,
    ⟨c!"car", .first, c!"(car list)", c!"Returns the first element of the list.", false, false⟩,
    ⟨c!"rest", .rest, c!"(rest list)", c!"see: cdr", false, false⟩,
    ⟨c!"cdr", .rest, c!"(cdr list)", c!"Returns a new list containing all elements except the first of the given list.", false, false⟩,
    ⟨c!"nth", .nth, c!"(nth number list)", c!"Returns the [number] element of the list.", false, false⟩,
    ⟨c!"push", .push, c!"(push elem list [index])", c!"Inserts the element at the given index (default value 0) into the list (implace) and returns the updated list.", false, false⟩,
    ⟨c!"pop", .pop, c!"(pop list [index])", c!"Removes the element at the given index (default value 0) from the list and returns the removed element.", false, false⟩,
    ⟨c!"append", .append, c!"(append list1 list2 ...)", c!"Returns a new list containing all given lists elements.", false, false⟩,
    ⟨c!"reverse", .reverse, c!"(reverse expr)", c!"Returns a list or string with a reverted order.", false, false⟩,
    ⟨c!"rval", .rval, c!"(rval expr)", c!"Returns a RValue of the expr, disables LValue evaluation.", true, false⟩,
    ⟨c!"sym", .sym, c!"(sym expr)", c!"Returns the evaluated expression as symbol.", false, false⟩,
    ⟨c!"str", .str, c!"(str expr)", c!"Returns the evaluated expression as string.", false, false⟩,
    ⟨c!"argscount", .argscount, c!"(argscount)", c!"Returns the number of arguments for the current function.", false, false⟩,
    ⟨c!"args", .args, c!"(args)", c!"Returns all the values of the arguments for the current function.", false, false⟩,
    ⟨c!"arg", .arg, c!"(arg number)", c!"Returns the value of the [number] argument for the current function.", false, false⟩,
    ⟨c!"apply", .apply, c!"(apply function arguments-list)", c!"Calls the function with the arguments.", false, false⟩,
    ⟨c!"eval", .eval, c!"(eval ast)", c!"Evaluates the abstract syntax tree (ast).", false, false⟩,
    ⟨c!"evalstr", .evalstr, c!"(evalstr string)", c!"Evaluates the string.", false, false⟩,
    ⟨c!"make-dict", .makeDict, c!"(make-dict)", c!"Returns a new dictionary.", false, false⟩,
    ⟨c!"dict-set", .dictSet, c!"(dict-set dict key value)", c!"Sets the value for the key in the dictionary.", false, false⟩,
    ⟨c!"dict-get", .dictGet, c!"(dict-get dict key)", c!"Returns the value for the key or nil if key is not in dictionary.", false, false⟩,
    ⟨c!"dict-remove", .dictRemove, c!"(dict-remove dict key)", c!"Removes the value / key pair from the directory and returns success flag.", false, false⟩,
    ⟨c!"dict-keys", .dictKeys, c!"(dict-keys dict)", c!"Returns all keys in the dictionary.", false, false⟩,
    ⟨c!"dict-clear", .dictClear, c!"(dict-clear dict)", c!"Clears the dictionary.", false, false⟩,
    ⟨c!"dict-contains-key", .dictContainsKey, c!"(dict-contains-key dict key)", c!"Returns #t if key is contained in dictionary, otherwise #f.", false, false⟩,
    ⟨c!"dict-contains-value", .dictContainsValue, c!"(dict-contains-value dict value)", c!"Returns #t if value is contained in dictionary, otherwise #f.", false, false⟩,
    ⟨c!"and", .and, c!"(and expr1 expr2 ...)", c!"And operator with short cut.", true, false⟩,
    ⟨c!"&&", .and, c!"(&& expr1 expr2 ...)", c!"See: and", true, false⟩,
    ⟨c!"or", .or, c!"(or expr1 expr2 ...)", c!"Or operator with short cut.", true, false⟩,
    ⟨c!"||", .or, c!"(|| expr1 expr2 ...)", c!"See: or", true, false⟩,
    ⟨c!"def", .def_, c!"(def symbol expression)", c!"Creates a new variable with name of symbol in current scope. Evaluates expression and sets the value of the expression as the value of the symbol.", true, false⟩,
    ⟨c!"gdef", .gdef, c!"(gdef symbol expression)", c!"Creates a new variable with name of symbol in global scope. Evaluates expression and sets the value of the expression as the value of the symbol.", true, false⟩,
    ⟨c!"setf", .setf, c!"(setf symbol expression)", c!"Evaluates expression and sets the value of the expression as the value of the symbol.", true, false⟩,
    ⟨c!"define-macro", .defineMacroEval, c!"(define-macro name (arguments) statement)", c!"see: define-macro-eval", true, false⟩,
    ⟨c!"define-macro-eval", .defineMacroEval, c!"(define-macro-eval name (arguments) statement)", c!"Special form: Defines a macro which will be evaluated at run time.", true, false⟩,
    ⟨c!"define-macro-expand", .defineMacroExpand, c!"(define-macro-expand name (arguments) statement)", c!"Special form: Defines a macro which will be evaluated at compile time.", false, true⟩,
    ⟨c!"quote", .quote, c!"(quote expr)", c!"Returns expression without evaluating it.", true, false⟩,
    ⟨c!"quasiquote", .quasiquote, c!"(quasiquote expr)", c!"Returns expression without evaluating it, but processes evaluation operators , and ,@.", true, false⟩,
    ⟨c!"_unquote", .unquote, c!"(unquote expr)", c!"Special form for unquoting expressions in quasiquote functions.", true, false⟩,
    ⟨c!"_unquotesplicing", .unquotesplicing, c!"(unquotesplicing expr)", c!"Special form for unquotingsplicing expressions in quasiquote functions.", true, false⟩,
    ⟨c!"if", .if_, c!"(if cond then-block [else-block])", c!"The if statement.", true, false⟩,
    ⟨c!"while", .while_, c!"(while cond block)", c!"The while loop.", true, false⟩,
    ⟨c!"do", .do_, c!"(do statement1 statement2 ...)", c!"Returns a sequence of statements.", true, false⟩,
    ⟨c!"begin", .do_, c!"(begin statement1 statement2 ...)", c!"see: do", true, false⟩,
    ⟨c!"lambda", .fn, c!"(lambda (arguments) block)", c!"Returns a lambda function.", true, false⟩,
    ⟨c!"fn", .fn, c!"(fn (arguments) block)", c!"Returns a function.", true, false⟩,
    ⟨c!"defn", .defn, c!"(defn name (args) block)", c!"Defines a function in the current scope.", true, false⟩,
    ⟨c!"gdefn", .gdefn, c!"(gdefn name (args) block)", c!"Defines a function in the global scope.", true, false⟩,
    ⟨c!"do", .do_, c!"(do statement1 statement2 ...)", c!"Returns a sequence of statements.", true, false⟩,
    ⟨c!"if", .if_, c!"(if cond then-block [else-block])", c!"The if statement.", true, false⟩,
    ⟨c!"File-Exists", .fileExists, c!"(File-Exists name)", c!"Returns #t if the file exists, otherwise returns #f.", false, false⟩,
    ⟨c!"File-ReadAllText", .fileRead, c!"(File-ReadAllText name)", c!"Returns the content of the file with name.", false, false⟩,
    ⟨c!"File-WriteAllText", .fileWrite, c!"(File-WriteAllText name content)", c!"Writes the content to the file with name.", false, false⟩,
    ⟨c!"Math-Pi", .mathPi, c!"(Math-Pi)", c!"Returns the pi value", false, false⟩,
    ⟨c!"Math-Sin", .math .sin, c!"(Math-Sin expr)", c!"Returns sin value of expr", false, false⟩,
    ⟨c!"Math-Sinh", .math .sinh, c!"(Math-Sinh expr)", c!"Returns sinh value of expr", false, false⟩,
    ⟨c!"Math-Asin", .math .asin, c!"(Math-Asin expr)", c!"Returns asin value of expr", false, false⟩,
    ⟨c!"Math-Cos", .math .cos, c!"(Math-Cos expr)", c!"Returns cos value of expr", false, false⟩,
    ⟨c!"Math-Cosh", .math .cosh, c!"(Math-Cosh expr)", c!"Returns cosh value of expr", false, false⟩,
    ⟨c!"Math-Acos", .math .acos, c!"(Math-Acos expr)", c!"Returns acos value of expr", false, false⟩,
    ⟨c!"Math-Tan", .math .tan, c!"(Math-Tan expr)", c!"Returns tan value of expr", false, false⟩,
    ⟨c!"Math-Tanh", .math .tanh, c!"(Math-Tanh expr)", c!"Returns tanh value of expr", false, false⟩,
    ⟨c!"Math-Atan", .math .atan, c!"(Math-Atan expr)", c!"Returns atan value of expr", false, false⟩,
    ⟨c!"Math-Exp", .math .exp, c!"(Math-Exp expr)", c!"Returns exp value of expr", false, false⟩,
    ⟨c!"Math-Log", .math .log, c!"(Math-Log expr)", c!"Returns log value of expr", false, false⟩,
    ⟨c!"Math-Log10", .math .log10, c!"(Math-Log10 expr)", c!"Returns log value of expr", false, false⟩,
    ⟨c!"Math-Sqrt", .math .sqrt, c!"(Math-Sqrt expr)", c!"Returns sqrt value of expr", false, false⟩,
    ⟨c!"Math-Round", .math .round, c!"(Math-Round expr)", c!"Returns rounded value of expr", false, false⟩,
    ⟨c!"Math-Truncate", .math .trunc, c!"(Math-Truncate expr)", c!"Returns truncated value of expr", false, false⟩,
    ⟨c!"Math-Abs", .math .fabs, c!"(Math-Abs expr)", c!"Returns absolute value of expr", false, false⟩,
    ⟨c!"Math-Floor", .math .floor, c!"(Math-Floor expr)", c!"Returns floor value of expr", false, false⟩,
    ⟨c!"Math-Ceiling", .math .ceil, c!"(Math-Ceiling expr)", c!"Returns ceiling value of expr", false, false⟩,
    ⟨c!"Math-Pow", .mathPow, c!"(Math-Pow expr1 expr2)", c!"Returns power of expr1 with expr2 value of expr", false, false⟩
  ]

/-- Environment.cpp 232-243 `CreateFunction`: the wrapper. -/
def Entry.wrapper (e : Entry) : FnW :=
  ⟨.prim e.fn, e.signature, e.doc, c!"<builtin>", true, e.special, e.evalInExpand⟩

/-- `(*scope)[name] = CreateFunction(...)`. -/
def register (sid : Nat) (e : Entry) : M Unit := do
  let f ← allocObj (.fn e.wrapper)
  let b ← box (.ofType .function f)
  setVar sid e.name b

/-- All registrations of a table. -/
def registerAll (sid : Nat) : List Entry → M Unit
  | [] => pure ()
  | e :: t => do
    register sid e
    registerAll sid t

/-- Environment.cpp 2298-2500 `CreateDefaultScope`.  `GlobalScope` of the new scope is set first instead of last
(`PrivateInitForCpp`, Scope.h 188-191); nothing reads it in between. -/
def createDefaultScope : M Nat := do
  let sid ← allocScope { name := c!"<main>" }
  modScope sid fun sc => { sc with global := sid }
  let m ← allocScope { name := modulesKey, global := sid }
  let mo ← allocObj (.scope m)
  setVar sid modulesKey mo
  let k ← allocScope { name := macrosKey, global := sid }
  let ko ← allocObj (.scope k)
  setVar sid macrosKey ko
  let tb ← allocObj (.str [])
  setVar sid tracebufferKey tb
  let tn ← allocObj (.bool false)
  setVar sid traceonKey tn
  registerAll sid defaultTable
  pure sid

/-- Lisp.cpp 114-141 `Lisp::Eval` without a given scope.  The first argument is the budget. -/
def lispEvalNew (k : Nat) (code module : Str) (tracing onlyExpand : Bool) : M (Option Variant) := do
  let sid ← createDefaultScope
  lispEval (run k) code sid module tracing onlyExpand

/-- Variant.cpp 101-105 `CreateErrorValue`. -/
def errorValue (msg : Str) : M Variant := do
  let p ← allocObj (.str msg)
  pure (.ofType .error p)

/-- `std::cout << errMsg << std::endl; if (outp != null) outp->WriteLine(errMsg);` (e.g. Lisp.cpp 154-158): with a
given writer, which writes to `std::cout` too, the line appears twice. -/
def writeErr (outp : Bool) (t : Str) : M Unit := do
  writeLine t
  if outp then writeLine t else pure ()

/-- Lisp.cpp 143-195 `Lisp::SaveEval`; `outp`: is a writer given?  The text of the call stack stored in an exception is
not modelled: it is the parameter `stack`.  Lisp.cpp 151-158 writes the message, 159-167 the call stack,
168-177 the fixed lines of the verbose mode. -/
def saveEval (k : Nat) (stack : Str) (outp : Bool) (code module : Str) (verbose tracing onlyExpand : Bool) :
    M (Option Variant) := fun s =>
  match lispEvalNew k code module tracing onlyExpand s with
  | .fail (.exn (.lisp true msg line start stop mod)) s' =>
    (do
      let m ← M.lift (format c!"\nError executing script.\n\n{0} --> line={1} start={2} stop={3} module={4}" msg
        (intStr line) (intStr start) (intStr stop) mod)
      writeErr outp m
      let cs ← M.lift (format c!"\nCallstack:\n{0}" stack)
      writeErr outp cs
      if verbose then do
        writeLine c!"\nNative callstack:"
        writeErr outp c!"Exception in eval(): exc->ToString() \ndata=exc.Data"
      else pure ()
      let v ← errorValue msg
      pure (some v) : M (Option Variant)) s'
  | .fail (.exn (.lisp false msg _ _ _ _)) s' => (do
      let v ← errorValue msg
      pure (some v) : M (Option Variant)) s'
  | o => o

end Fuel
