{"id": "C01", "title": "Tokenising is total and memory safe", "statement": "Tokenize(code, offset) always finishes, never reads outside the text, and ends in exactly one of three ways: a token list, the Lisp exception 'Invalid character after backslash' or a native std::out_of_range raised by a number that does not fit.", "quantifier": "every code string (any characters, any length) and every offset", "why_tests_cant": "Tests sample a few scripts; the index arithmetic (look-ahead for @, rest-of-line scan, size_t wrap-around) must be in bounds for every text.", "anchors": ["CppLisp/CppLispInterpreter/Tokenizer.cpp: LispTokenizer::Tokenize", "CppLisp/CppLispInterpreter/Tokenizer.cpp: ProcessComment", "CppLisp/CppLispInterpreter/Tokenizer.cpp: GetRestOfLine"]}
{"id": "C02", "title": "String literals read back exactly", "statement": "Writing any string between double quotes, with backslash and double quote escaped by a backslash, gives a literal that is tokenised as exactly one String token whose value is the original string. In such a literal \\n, \\r and \\t stand for line feed, carriage return and tabulator.", "quantifier": "every string", "why_tests_cant": "The tokenizer is a hand-written state machine with escape handling; a test can only try a few strings, not every mix of brackets, quotes, semicolons, newlines and backslashes.", "anchors": ["CppLisp/CppLispInterpreter/Tokenizer.cpp: LispTokenizer::Tokenize", "CppLisp/CppLispInterpreter/Token.cpp: LispToken::LispToken"]}
{"id": "C03", "title": "White space between tokens is irrelevant", "statement": "Adding any amount of spaces, tabs or newlines before a token or at the end of the text does not change the sequence of token types and values.", "quantifier": "every text made of separated tokens and every amount of white space at each gap", "why_tests_cant": "Infinitely many layouts of the same program exist.", "anchors": ["CppLisp/CppLispInterpreter/Tokenizer.cpp: LispTokenizer::Tokenize"]}
{"id": "C04", "title": "Comments do not change the program", "statement": "A comment from ; to the end of its line, with at least one character after the semicolon and ended by a newline, contributes one Comment token and nothing else: the tokens before and after it are those of the text without the comment. (It is false for an empty comment, which swallows the rest of the text, and for a comment without final newline, whose text is tokenised.)", "quantifier": "every comment text without newline and every text after it", "why_tests_cant": "Holds for almost all comments and fails for special lengths (a comment with no character after ';' swallows the rest of the script, a comment without final newline is tokenised as code), which sampling misses.", "anchors": ["CppLisp/CppLispInterpreter/Tokenizer.cpp: ProcessComment", "CppLisp/CppLispInterpreter/Tokenizer.cpp: GetRestOfLine"]}
{"id": "C05", "title": "Integer literals denote their value", "statement": "The decimal notation of every 32-bit integer is tokenised as one Int token with that value; a decimal integer outside the 32-bit range is never read as some other number but raises a native exception.", "quantifier": "every integer", "why_tests_cant": "2^32 values plus an infinite set of out-of-range literals.", "anchors": ["CppLisp/CppLispInterpreter/Token.cpp: LispToken::LispToken", "CppLisp/CppLispInterpreter/cstypes.cpp: Int32_TryParse"]}
{"id": "C06", "title": "Printing and reading are inverse", "statement": "Reading is the inverse of writing: for every s-expression built from 32-bit integers, floating-point numbers, strings, symbols, booleans, nil, quote characters and lists, parsing its usual notation, or any other notation with arbitrary white space and comments between the lexical elements, gives back exactly that s-expression (a floating-point number is read as the value of its notation); different s-expressions without floating-point numbers have different notations. (It is false for two quote characters in sequence, which is proved.)", "quantifier": "every s-expression tree of any depth and width", "why_tests_cant": "Inductive data with unbounded nesting; the parser is a stack machine with recursion for quotes.", "anchors": ["CppLisp/CppLispInterpreter/Parser.cpp: LispParser::Parse", "CppLisp/CppLispInterpreter/Parser.cpp: ParseTokens", "CppLisp/CppLispInterpreter/Tokenizer.cpp: LispTokenizer::Tokenize"]}
{"id": "C07", "title": "Unbalanced brackets are always reported", "statement": "A token sequence without quote characters that starts with '(' is accepted by the parser exactly if its brackets are balanced and only comments follow; every other one raises one of the documented bracket exceptions and nothing else happens. With quote characters the parser can run into undefined behaviour.", "quantifier": "every token sequence", "why_tests_cant": "All sequences of brackets and atoms are inputs; tests check three or four of them.", "anchors": ["CppLisp/CppLispInterpreter/Parser.cpp: ParseTokens", "CppLisp/CppLispInterpreter/Parser.cpp: OnlyCommentTokensFrom"]}
{"id": "C08", "title": "Token line numbers and positions", "statement": "Every token reports the line on which it ends (1 + number of newlines before it) and positions that increase along the text. (It is false for a text with a semicolon inside a string literal.)", "quantifier": "every text made of ordinary characters (no backslash), string literals without semicolon, and non-empty comments ended by a newline", "why_tests_cant": "Error messages and breakpoints use these numbers; a drift appears only for particular combinations (a ';' inside a string advances the line counter).", "anchors": ["CppLisp/CppLispInterpreter/Tokenizer.cpp: LispTokenizer::Tokenize"]}
{"id": "C09", "title": "Replace replaces every occurrence, left to right", "statement": "(replace txt search new) returns txt with every non-overlapping occurrence of search, scanned left to right, replaced by new; the scan terminates also if new contains search; an empty search text leaves txt unchanged.", "quantifier": "all strings txt, search, new without NUL characters", "why_tests_cant": "Termination and completeness over all overlaps cannot be sampled.", "anchors": ["CppLisp/CppLispInterpreter/csstring.cpp: string::Replace", "CppLisp/CppLispInterpreter/csstring.cpp: do_replace", "CppLisp/CppLispInterpreter/Environment.cpp: Replace"]}
{"id": "C10", "title": "Trim removes exactly the outer white space", "statement": "(trim txt) is the longest infix of txt that neither starts nor ends with white space; (upper-case)/(lower-case) map every character and keep the length; all three are idempotent.", "quantifier": "every string", "why_tests_cant": "Universal statement about all strings.", "anchors": ["CppLisp/CppLispInterpreter/csstring.cpp: string::Trim", "CppLisp/CppLispInterpreter/csstring.cpp: string::ToUpper", "CppLisp/CppLispInterpreter/csstring.cpp: string::ToLower"]}
{"id": "C11", "title": "Splitting and joining lines", "statement": "Splitting a text at a one-character separator yields pieces without the separator whose join gives the text back; reading a text line by line returns exactly these lines. Splitting at a longer separator is wrong.", "quantifier": "every text and every one-character separator", "why_tests_cant": "Loop over all find positions; off-by-one errors appear only at particular positions.", "anchors": ["CppLisp/CppLispInterpreter/csstring.cpp: string::Split", "CppLisp/CppLispInterpreter/cstypes.cpp: TextReader"]}
{"id": "C12", "title": "len, search and slice agree with the string", "statement": "(len text) is the number of characters of the text; (search needle text) is the position of the first occurrence of the needle, -1 if there is none; (search needle text pos) starts at a position, (search needle text pos n) searches for the first n characters of the needle, and (search x list) gives the position of the first element of a list that is equal to x; (slice text pos len) is the addressed substring; out-of-range arguments raise instead of returning other text. (Lengths are returned as 32-bit integers, so len and search are claimed for texts whose length has 32 bits.) (This is false for search: a length n beyond the end of the needle is not reported, it reads memory behind the needle.)", "quantifier": "all strings and positions", "why_tests_cant": "First-occurrence is a universal statement over all earlier positions.", "anchors": ["CppLisp/CppLispInterpreter/Environment.cpp: Search", "CppLisp/CppLispInterpreter/Environment.cpp: Slice", "CppLisp/CppLispInterpreter/csstring.cpp: string::IndexOf"]}
{"id": "C13", "title": "format substitutes its arguments", "statement": "(format text a0 a1 ...) replaces the placeholders {0}, {1}, ... by the display strings of the arguments and the placeholders {i,w} by the display strings filled up with blanks to w characters (on the left for a positive width, on the right for a negative one; a longer text is not cut), as long as neither the text around them nor the arguments contain braces and every placeholder number is used at most once and has an argument. A placeholder with a number below 5 without argument raises an exception with the text. A placeholder with a number below 5 without argument raises an exception with the text. A placeholder with a number below 5 without argument raises an exception with the text. A placeholder with a number below 5 without argument raises an exception with the text. (If a placeholder is used twice, only its first use is replaced; an argument that contains a placeholder is substituted again; a width that is no number raises a native exception.)", "quantifier": "all brace-free fragments and arguments, all 32-bit widths", "why_tests_cant": "Sequential in-place substitution can re-substitute inserted text; only a universal statement separates the safe inputs from the others.", "anchors": ["CppLisp/CppLispInterpreter/csstring.cpp: string::Format", "CppLisp/CppLispInterpreter/csstring.cpp: ReplaceIn", "CppLisp/CppLispInterpreter/Environment.cpp: FormatStr"]}
{"id": "C14", "title": "Integers survive printing and parsing", "statement": "(parse-integer (str n)) = n for every integer; parse-integer never returns a number for a text that does not start with an optionally signed digit sequence.", "quantifier": "every 32-bit integer and every string", "why_tests_cant": "2^32 integers and all strings.", "anchors": ["CppLisp/CppLispInterpreter/Environment.cpp: ParseInteger", "CppLisp/CppLispInterpreter/Variant.cpp: LispVariant::ToString"]}
{"id": "C15", "title": "Integer arithmetic is exact", "statement": "On integers +, -, *, /, % return the mathematically exact (truncated for /, %) result whenever it fits in 32 bits; otherwise (overflow, division by zero) the behaviour of the program is undefined.", "quantifier": "all pairs of 32-bit integers", "why_tests_cant": "2^64 pairs per operator.", "anchors": ["CppLisp/CppLispInterpreter/Variant.cpp: LispVariant::operator +", "CppLisp/CppLispInterpreter/Variant.cpp: LispVariant::operator /"]}
{"id": "C16", "title": "Arithmetic functions fold from the left", "statement": "(op a1 ... an) is ((a1 op a2) op ...) for every number n >= 1 of arguments; one argument is returned unchanged except for unary minus, which negates. (Without arguments the functions return no value at all.)", "quantifier": "every operator, every non-empty argument list", "why_tests_cant": "Unbounded argument count.", "anchors": ["CppLisp/CppLispInterpreter/Environment.cpp: ArithmetricOperation", "CppLisp/CppLispInterpreter/Environment.cpp: Subtraction"]}
{"id": "C17", "title": "String concatenation", "statement": "If one operand of + is a string and the other one a string, a symbol, an integer or a floating-point number, the result is the string made of both display strings; (string a b ...) concatenates all display strings if the first argument is a string. (It is false for booleans, which are shown as true and false instead of #t and #f, and for nil, which is shown as null; (string 1 2) is 3.)", "quantifier": "all strings, symbols and integers, any number of arguments", "why_tests_cant": "Quantifies over all value kinds and all argument lists.", "anchors": ["CppLisp/CppLispInterpreter/Variant.cpp: LispVariant::operator +", "CppLisp/CppLispInterpreter/Environment.cpp: Addition"]}
{"id": "C18", "title": "Ordering is consistent", "statement": "On integers and on strings without zero bytes < is a strict total order (numerical, and lexicographic by character codes), (> a b) = (< b a), (<= a b) = not (> a b), (>= a b) = not (< a b). (Between a text and a number <= and >= do not agree with ==: both hold for a text without a number and 0, which are not equal.)", "quantifier": "all pairs and triples of integers and of strings", "why_tests_cant": "Order laws are universally quantified.", "anchors": ["CppLisp/CppLispInterpreter/Variant.cpp: operator <", "CppLisp/CppLispInterpreter/Variant.cpp: operator <=", "CppLisp/CppLispInterpreter/Environment.cpp: GreaterTest"]}
{"id": "C19", "title": "Equality is symmetric and != is its complement", "statement": "(== a b) and (== b a) give the same result for all values for which == is defined; on integers, strings, symbols and booleans == is true exactly for the same value, nil equals nil; (!= a b) is the negation of (== a b); lists of integers, strings and booleans are equal exactly if they have the same length and pairwise the same elements. (Lists nested in lists are not compared by content, and a symbol in a list equals a string with the same text.) Between different types, a text equals a number or truth value exactly if it is the text shown for it, a truth value counts as 1 or 0 compared with a number, and symbols and nil equal nothing of another type. (So == is not transitive.)", "quantifier": "all pairs of values", "why_tests_cant": "All combinations of value kinds and list shapes.", "anchors": ["CppLisp/CppLispInterpreter/Variant.cpp: LispVariant::EqualOp", "CppLisp/CppLispInterpreter/cstypes.h: SequenceEqual", "CppLisp/CppLispInterpreter/csobject.cpp: object::operator =="]}
{"id": "C20", "title": "List constructors and selectors", "statement": "first, rest, last, nth, len, cons, append, reverse behave like the mathematical list operations on non-empty/in-range arguments: (first (cons x l)) = x, (rest (cons x l)) = l, len of append is the sum of lengths, nth of append, reverse of reverse is the original. (Sizes are returned as 32-bit integers; the claims about len are for sizes that have 32 bits. On the empty list first, last and rest have undefined behaviour, and so has nth with a position outside the list: no exception is raised.)", "quantifier": "all lists of any length, all elements", "why_tests_cant": "Inductive data.", "anchors": ["CppLisp/CppLispInterpreter/Environment.cpp: First", "CppLisp/CppLispInterpreter/Environment.cpp: Rest", "CppLisp/CppLispInterpreter/Environment.cpp: Cons", "CppLisp/CppLispInterpreter/Environment.cpp: Append", "CppLisp/CppLispInterpreter/Environment.cpp: Reverse", "CppLisp/CppLispInterpreter/Environment.cpp: Nth"]}
{"id": "C21", "title": "map and reduce visit every element once, in order", "statement": "(map f l) calls f once per element from left to right and returns the results in that order; (reduce f l init) calls f element by element with (element, accumulator) and returns the last result, init for an empty list; side effects and exceptions happen in that order.", "quantifier": "all functions (including ones with side effects) and all lists", "why_tests_cant": "Quantifies over all functions and unbounded lists.", "anchors": ["CppLisp/CppLispInterpreter/Environment.cpp: Map", "CppLisp/CppLispInterpreter/Environment.cpp: Reduce"]}
{"id": "C22", "title": "List functions do not modify their arguments", "statement": "first, last, rest, nth, cons, append, reverse, len, list, quote, + on lists ... leave every list, dictionary and variable that existed before the call unchanged.", "quantifier": "all heaps, all arguments, including aliased and cyclic lists", "why_tests_cant": "Aliasing through shared pointers: a test sees only the values it looks at.", "anchors": ["CppLisp/CppLispInterpreter/Environment.cpp: Cons", "CppLisp/CppLispInterpreter/Environment.cpp: Append", "CppLisp/CppLispInterpreter/Variant.cpp: ListValue"]}
{"id": "C23", "title": "push and pop modify exactly one list in place", "statement": "(push e l i) with 0 <= i < len l inserts e at position i, (pop l i) removes and returns the element at position i; the change is visible through every variable that shares the list and no other list changes. push onto an empty list or at the end changes nothing.", "quantifier": "all heaps, lists, positions and aliases", "why_tests_cant": "Aliasing and positions are unbounded.", "anchors": ["CppLisp/CppLispInterpreter/Environment.cpp: Push", "CppLisp/CppLispInterpreter/Environment.cpp: Pop"]}
{"id": "C24", "title": "setf on a place changes exactly that position", "statement": "(setf (nth i l) v), (setf (first l) v), (setf (last l) v) with a position inside the list replace exactly the addressed element of the shared list by v; the other elements, all other lists, dictionaries, variables and the output stay as they are. (It is false if the position is outside the list (undefined behaviour), if first, last or nth are used inside the place, and after an exception during the evaluation of a place.)", "quantifier": "all lists, valid positions and values", "why_tests_cant": "Frame condition over all other elements and lists.", "anchors": ["CppLisp/CppLispInterpreter/Environment.cpp: setf_form", "CppLisp/CppLispInterpreter/Environment.cpp: First", "CppLisp/CppLispInterpreter/Environment.cpp: Nth", "CppLisp/CppLispInterpreter/Environment.cpp: Last"]}
{"id": "C25", "title": "Dictionaries behave like finite maps", "statement": "For dictionaries whose keys are all integers or all strings (without NUL characters), after any history of dict-set, dict-remove, dict-clear the functions dict-get, dict-contains-key, len and dict-keys answer like a finite map with that history, and nothing else is changed. (The order of keys of different types is not transitive.) (Sizes are returned as 32-bit integers; the claims about len are for sizes that have 32 bits.) dict-contains-value tells for a number, truth value or text whether it is stored under some key. (The functions do not check that they are given a dictionary: for another value their behaviour is undefined.)", "quantifier": "every operation history on keys of one kind", "why_tests_cant": "Histories are unbounded.", "anchors": ["CppLisp/CppLispInterpreter/Environment.cpp: DictSet", "CppLisp/CppLispInterpreter/Environment.cpp: DictGet", "CppLisp/CppLispInterpreter/Environment.cpp: DictRemove", "CppLisp/CppLispInterpreter/cstypes.h: Dictionary"]}
{"id": "C26", "title": "Dictionaries return the value that was stored", "statement": "dict-get returns the value given to dict-set for integers, doubles, strings, booleans, lists and functions. (It does not for nil (null pointer), symbols (become strings) and nested dictionaries (become undefined); a missing key gives the undefined value, not nil.)", "quantifier": "all storable values", "why_tests_cant": "All values and heap states.", "anchors": ["CppLisp/CppLispInterpreter/Environment.cpp: DictSet", "CppLisp/CppLispInterpreter/Environment.cpp: DictGet", "CppLisp/CppLispInterpreter/Variant.cpp: LispVariant::LispVariant"]}
{"id": "C27", "title": "Name lookup order", "statement": "A name is looked up in the local scope, then the global scope, then the chain of enclosing function scopes from inside out, then the imported modules; an unknown name evaluates to itself.", "quantifier": "all scope configurations and names", "why_tests_cant": "Arbitrary nesting of scopes.", "anchors": ["CppLisp/CppLispInterpreter/Scope.cpp: LispScope::ResolveInScopes", "CppLisp/CppLispInterpreter/Scope.cpp: IsInClosureChain"]}
{"id": "C28", "title": "Definitions and assignments change one binding", "statement": "(def n v) changes only n in the current scope, (gdef n v) only n in the global scope, (setf n v) only the innermost existing binding (local, then enclosing functions, then global); assigning an unknown name raises 'Symbol n not found' and changes nothing.", "quantifier": "all scope configurations, names and values", "why_tests_cant": "Frame condition over all other names and scopes.", "anchors": ["CppLisp/CppLispInterpreter/Scope.cpp: LispScope::SetInScopes", "CppLisp/CppLispInterpreter/Environment.cpp: def_form_helper", "CppLisp/CppLispInterpreter/Environment.cpp: setf_form"]}
{"id": "C29", "title": "Assignment followed by lookup", "statement": "After a successful (setf n v) a lookup of n in the same scope yields v, unless n is bound both in an enclosing function and globally.", "quantifier": "all scope configurations, names and values", "why_tests_cant": "The exception (closure binding shadowed by a global on reading but not on writing) exists only for a particular combination of bindings.", "anchors": ["CppLisp/CppLispInterpreter/Scope.cpp: LispScope::ResolveInScopes", "CppLisp/CppLispInterpreter/Scope.cpp: LispScope::SetInScopes"]}
{"id": "C30", "title": "Lexical scoping", "statement": "What a name means inside a function body depends only on the function's own arguments and locals, the global scope, the scopes in which the function was defined and the modules, never on the local variables of the caller.", "quantifier": "all callers, callees and names", "why_tests_cant": "Quantifies over all call sites.", "anchors": ["CppLisp/CppLispInterpreter/Environment.cpp: fn_form", "CppLisp/CppLispInterpreter/Scope.cpp: LispScope::ResolveInScopes"]}
{"id": "C31", "title": "Argument passing", "statement": "Calling a user-defined function binds the i-th parameter to the i-th argument, missing arguments to nil and makes surplus arguments available in _additionalArgs; args, arg and argscount report exactly the passed arguments, followed by the nils for the missing ones (so argscount is at least the number of parameters); arg with any other position raises an exception. (Sizes are returned as 32-bit integers; the claims about argscount are for sizes that have 32 bits.) (It is false outside of functions, for example at the top level: there args, arg and argscount have undefined behaviour.)", "quantifier": "all parameter lists and argument lists", "why_tests_cant": "All combinations of lengths.", "anchors": ["CppLisp/CppLispInterpreter/Environment.cpp: fn_form", "CppLisp/CppLispInterpreter/Environment.cpp: ArgsCount"]}
{"id": "C32", "title": "Name lookup terminates", "statement": "In every state reachable by evaluating programs the chain of enclosing scopes is finite and acyclic, so every lookup ends.", "quantifier": "all reachable states, all programs", "why_tests_cant": "Reachability over all programs.", "anchors": ["CppLisp/CppLispInterpreter/Scope.cpp: IsInClosureChain", "CppLisp/CppLispInterpreter/Environment.cpp: fn_form"]}
{"id": "C33", "title": "The result does not depend on resources", "statement": "Evaluation is deterministic and its outcome does not depend on how many steps it is granted: once a program ends with some step budget it ends in the same way with every larger one. The same holds for sessions of the interactive loop, for programs run under the debugger, and for the whole program with any arguments.", "quantifier": "all programs, sessions, arguments, states and budgets", "why_tests_cant": "All programs and all budgets.", "anchors": ["CppLisp/CppLispInterpreter/Interpreter.cpp: LispInterpreter::EvalAst", "CppLisp/CppLispDebugger/Debugger.cpp: LispDebugger::InteractiveLoop", "CppLisp/CppLispInterpreter/fuel.cpp: MainExtended"]}
{"id": "C34", "title": "Reachable states are well formed", "statement": "In every state an application can bring about by creating interpreters and running scripts in them, with or without the debugger (whatever the user enters where the program stops), or by running the program `fuel` with any arguments, input and files, including states after exceptions and in the middle of an evaluation, every reference to an object, scope, captured environment or macro body points to something that has been created and is of the expected kind, the payload of every value agrees with its type tag (so reading it according to its type succeeds), and every integer in a variable, list, dictionary or result lies in the 32-bit range. The variables of every scope are ordered by name and no name occurs twice. The same holds for evaluating valid code and calling functions with valid arguments from any valid state.", "quantifier": "all programs and all states reachable by them, also after exceptions", "why_tests_cant": "Invariant over unbounded executions.", "anchors": ["CppLisp/CppLispInterpreter/Interpreter.cpp: LispInterpreter::EvalAst", "CppLisp/CppLispInterpreter/Environment.cpp", "CppLisp/CppLispInterpreter/Scope.cpp"]}
{"id": "C35", "title": "if evaluates exactly one branch", "statement": "(if c a b) evaluates c, then exactly one of a and b, and returns its value; a condition that is not a boolean makes it fail and evaluates neither (strings and integers raise an exception that names the value). (if c a) with a false condition returns a null pointer.", "quantifier": "all expressions c, a, b with arbitrary side effects", "why_tests_cant": "All expressions.", "anchors": ["CppLisp/CppLispInterpreter/Environment.cpp: if_form"]}
{"id": "C36", "title": "and / or", "statement": "(and a b ...) evaluates from left to right, stops at the first false operand and is true exactly if all operands are true; (or a b ...) is true if its first operand is true. (It does not go on to the next operand if the first one is false: (or #f #t) is #f.) (not b) is the negation.", "quantifier": "all operand lists", "why_tests_cant": "All operand lists with side effects; the defect of or shows only if the first operand is false and a later one is true.", "anchors": ["CppLisp/CppLispInterpreter/Environment.cpp: bool_operation_form", "CppLisp/CppLispInterpreter/Environment.cpp: or_form"]}
{"id": "C37", "title": "while is the usual loop", "statement": "(while c b) is equivalent to: evaluate c; if true (a number counts as true unless it is zero) evaluate b and start again, otherwise stop with the last value of b (undefined if none); if b executes a return, stop immediately.", "quantifier": "all conditions and bodies", "why_tests_cant": "Unbounded iteration.", "anchors": ["CppLisp/CppLispInterpreter/Environment.cpp: while_form"]}
{"id": "C38", "title": "do runs its statements in order", "statement": "(do s1 ... sn) evaluates the statements in order and returns the value of the last one; a return inside a statement stops the block after that statement; a statement that is not a list raises an exception.", "quantifier": "all statement lists", "why_tests_cant": "Unbounded lists with side effects.", "anchors": ["CppLisp/CppLispInterpreter/Environment.cpp: do_form", "CppLisp/CppLispInterpreter/Environment.cpp: Return"]}
{"id": "C39", "title": "return affects only the current function call", "statement": "A return inside a function body never stops the caller's block. (A return at top level however makes every later script on the same scope stop after its first statement.)", "quantifier": "all functions, callers and later scripts", "why_tests_cant": "History property.", "anchors": ["CppLisp/CppLispInterpreter/Environment.cpp: Return", "CppLisp/CppLispInterpreter/Environment.cpp: do_form", "CppLisp/CppLispInterpreter/Lisp.cpp: Lisp::Eval"]}
{"id": "C40", "title": "quote returns code unevaluated", "statement": "(quote x) returns x without evaluating anything in it: no variable, list or output changes.", "quantifier": "all expressions and states", "why_tests_cant": "All expressions.", "anchors": ["CppLisp/CppLispInterpreter/Environment.cpp: quote_form"]}
{"id": "C41", "title": "quasiquote replaces exactly the unquoted parts", "statement": "After any program of the core language, a quasiquoted expression evaluates to the expression with ,x replaced by the value of x and ,@x by the elements of the list x, at every depth; the unquoted expressions are evaluated from left to right. (It is false of lists with exactly two elements: nothing in them is replaced.)", "quantifier": "all templates, all core programs before, all layouts of the text, all histories of the process before", "why_tests_cant": "Inductive templates; the defect depends on the length of inner lists.", "anchors": ["CppLisp/CppLispInterpreter/Environment.cpp: ProcessQuotedSExpression", "CppLisp/CppLispInterpreter/Environment.cpp: quasiquote_form"]}
{"id": "C42", "title": "Macro expansion leaves macro-free programs alone", "statement": "Code that uses no macro is not changed by macro expansion: expanding a list in which the first element of every list is neither the name of a macro nor of a function that runs during the expansion gives a list with the same structure and the same atoms, evaluates nothing, writes nothing and changes no existing list, variable, dictionary or function. (Two exceptions, which are proved: the literal nil is replaced by the empty list, and if the first element of some list, even inside a quotation, is the name of a variable that does not hold a function, the expansion raises an exception.)", "quantifier": "all macro-free programs and scopes", "why_tests_cant": "Inductive programs.", "anchors": ["CppLisp/CppLispInterpreter/Interpreter.cpp: LispInterpreter::ExpandMacros"]}
{"id": "C43", "title": "Run-time macros substitute their arguments", "statement": "Calling a run-time macro evaluates its body with every occurrence of a parameter replaced by the argument as it is written in the call, all parameters at once and at every depth, in the scope of the call. (It is false if an argument mentions a later parameter - this one is replaced as well - or if a string literal is equal to the name of a parameter.)", "quantifier": "all macro bodies and arguments, all core programs before, all layouts of the text, all histories of the process before", "why_tests_cant": "Inductive bodies.", "anchors": ["CppLisp/CppLispInterpreter/Interpreter.cpp: ReplaceFormalArgumentsInExpression", "CppLisp/CppLispInterpreter/Interpreter.cpp: ReplaceSymbolWithValueInExpression"]}
{"id": "C44", "title": "SaveEval turns Lisp errors into error values", "statement": "SaveEval never lets a Lisp exception escape: the caller gets an error value carrying the message, and the report with message, position, module and call stack is appended to the output. A script without error is not affected. (Native C++ exceptions, e.g. from a too large literal, do escape. It is also false if the message, the module name or the call stack has curly brackets or is the reserved text ##<NULL>##: the report is then garbled or another exception escapes.)", "quantifier": "all scripts and scopes", "why_tests_cant": "All scripts.", "anchors": ["CppLisp/CppLispInterpreter/Lisp.cpp: Lisp::SaveEval"]}
{"id": "C45", "title": "Call stack and place-flag are restored", "statement": "When an evaluation returns normally, the dynamic call chain and the 'value is assigned' flag of every scope that existed before are as they were before. (They are not after an exception.)", "quantifier": "all expressions and states", "why_tests_cant": "Unbounded nesting of calls.", "anchors": ["CppLisp/CppLispInterpreter/Environment.cpp: fn_form", "CppLisp/CppLispInterpreter/Environment.cpp: setf_form", "CppLisp/CppLispInterpreter/Scope.h: PushNextScope"]}
{"id": "C46", "title": "Arithmetic scripts compute the right number", "statement": "Evaluating the source text of any expression over 32-bit integers and +, -, * whose intermediate results fit in 32 bits returns its mathematical value and prints nothing. (The expression must not be a single number: a script must consist of lists.)", "quantifier": "all expression trees of any depth, starting from the source text", "why_tests_cant": "End-to-end statement over all expressions: tokenizer, parser, macro expansion, evaluator, arithmetic.", "anchors": ["CppLisp/CppLispInterpreter/Lisp.cpp: Lisp::Eval", "CppLisp/CppLispInterpreter/Interpreter.cpp: LispInterpreter::EvalAst"]}
{"id": "C47", "title": "Printing a literal outputs the literal", "statement": "Evaluating (println \"...\") with any string literal appends exactly that string and a newline to the output and returns the string.", "quantifier": "all strings", "why_tests_cant": "End-to-end over all strings.", "anchors": ["CppLisp/CppLispInterpreter/Environment.cpp: PrintLn", "CppLisp/CppLispInterpreter/Lisp.cpp: Lisp::Eval"]}
{"id": "C48", "title": "Names of the built-in functions", "statement": "In every new interpreter exactly the documented names are bound, each to its own function or special form, and for special forms the arguments are not evaluated; names documented as aliases (car/first, cdr/rest, +/add, = / == / equal, ...) are bound to functions with the same effect for all arguments; a name that is registered twice (do, if) is registered with the same function both times.", "quantifier": "the whole built-in table and all arguments", "why_tests_cant": "All arguments for every alias pair.", "anchors": ["CppLisp/CppLispInterpreter/Environment.cpp: CreateDefaultScope"]}
{"id": "C49", "title": "Breakpoints are unique per line and module", "statement": "After any sequence of add, clear and clear-all commands there is at most one breakpoint per (line, module), in order of first creation; adding an existing one replaces its condition. At most one breakpoint per (line, module) also holds at every time of a run under the debugger and for the whole program, whatever the user types at the stops (and at stops within evaluated conditions and expressions) and whatever the outcome is.", "quantifier": "all command histories, programs, inputs, arguments and outcomes", "why_tests_cant": "Unbounded histories.", "anchors": ["CppLisp/CppLispDebugger/Debugger.cpp: LispDebugger::AddBreakpoint", "CppLisp/CppLispDebugger/Debugger.cpp: ClearBreakpoint", "CppLisp/CppLispDebugger/Debugger.cpp: InteractiveLoop, DebuggerLoop"]}
{"id": "C50", "title": "clear removes exactly the numbered breakpoint", "statement": "ClearBreakpoint(no) removes exactly the no-th breakpoint of the displayed list (counted from 1) and reports success exactly if 1 <= no <= count; otherwise nothing changes. The command clear without a number asks whether all breakpoints shall be deleted; it skips lines that are neither yes nor no (or y, n, in any case), after a yes there is no breakpoint, after a no all are as before, and nothing else changes. (It is undefined behaviour for the smallest int; the number of breakpoints fits an int. If the input ends without an answer, the program asks forever.)", "quantifier": "all breakpoint lists, all integers, all inputs", "why_tests_cant": "Signed/unsigned conversion corner cases; all lists and all sequences of answers.", "anchors": ["CppLisp/CppLispDebugger/Debugger.cpp: LispDebugger::ClearBreakpoint", "CppLisp/CppLispDebugger/Debugger.cpp: ClearBreakpoints"]}
{"id": "C51", "title": "A breakpoint without condition always stops", "statement": "When execution reaches a line with an unconditional breakpoint for this module the debugger stops, provided no earlier breakpoint of the list matches the same line; the first matching breakpoint alone decides. A breakpoint with a condition stops exactly if the condition evaluates to true; a condition that cannot be evaluated is reported and does not stop (if it contains no braces). (It is false for a condition in line 1: every text that is evaluated is put into a block that counts as line 1, the text of the condition too, so its evaluation reaches the same breakpoint again and the debugger never answers.)", "quantifier": "all breakpoint lists, lines, modules", "why_tests_cant": "All lists and orders.", "anchors": ["CppLisp/CppLispDebugger/Debugger.cpp: LispDebugger::HitsBreakpoint"]}
{"id": "C52", "title": "Single stepping", "statement": "After 'step' the debugger stops at the next position, after 'over' at the next position whose call depth is not deeper, after 'out' only at shallower depth, after 'run' only at breakpoints.", "quantifier": "all positions, depths and breakpoint sets", "why_tests_cant": "All execution traces.", "anchors": ["CppLisp/CppLispDebugger/Debugger.cpp: NeedsBreak", "CppLisp/CppLispDebugger/Debugger.cpp: DoStep"]}
{"id": "C53", "title": "Command line options", "statement": "Every option is recognised wherever it stands and removed from the argument list; the script files are exactly the arguments that do not start with '-', in their order; the program runs with exactly the settings asked for if every option is known and given once, and otherwise only reports the options that are left over, in their order. Script files run one after the other in their order, each in a new interpreter, also after an error in one of them; with -e the given script runs, with -t the result is then written, and with -m the time since the start of the program. (The library path is only accepted as last argument; -e without a script is undefined behaviour; with -e the first argument that is no option is the script, even if it stands before -e.)", "quantifier": "all argument lists", "why_tests_cant": "All argument lists and orders.", "anchors": ["CppLisp/CppLispInterpreter/fuel.cpp: ContainsOptionAndRemove", "CppLisp/CppLispInterpreter/fuel.cpp: GetScriptFilesFromProgramArgs", "CppLisp/CppLispInterpreter/fuel.cpp: MainExtended"]}
{"id": "C54", "title": "Order of output and input", "statement": "Evaluating an expression only appends to the output: text printed earlier is never removed or reordered. It only takes lines from the beginning of the standard input. The same holds for the commands of the interactive loop, for code run with an attached debugger (whatever breakpoints there are and whatever is typed when it stops), and for the whole program with any arguments.", "quantifier": "all programs, arguments, debugger commands and states", "why_tests_cant": "All programs and all sessions.", "anchors": ["CppLisp/CppLispInterpreter/Environment.cpp: Print", "CppLisp/CppLispInterpreter/Environment.cpp: PrintLn", "CppLisp/CppLispDebugger/Debugger.cpp: InteractiveLoop, DebuggerLoop", "CppLisp/CppLispInterpreter/fuel.cpp: MainExtended"]}
{"id": "C55", "title": "Core programs behave like the reference semantics", "statement": "If the reference semantics (integers, floating-point numbers, strings, booleans, quotation, templates, if, while, do, and, or, eval, rval, delvar, def, gdef, setf, closures, defn, gdefn, return, run-time macros, calls with missing or surplus arguments, map, reduce, apply, arithmetic, comparison, list functions, text functions, slice, operations on bits, conversion of numbers, mathematical functions, print, println, readline, evalstr, dictionaries with integer or string keys that are shared by all who hold them) gives a program of the core language a value and an output, then evaluating any source text of the program in a new interpreter ends with the same value and appends exactly that output and reads exactly these lines of the standard input.", "quantifier": "all programs of the core language, all layouts of their text, all histories of the process before", "why_tests_cant": "All programs, including recursion and loops of any depth and closures that share variables; the statement covers tokenizer, parser, macro expansion, scopes and evaluator together.", "anchors": ["CppLisp/CppLispInterpreter/Lisp.cpp: Lisp::Eval", "CppLisp/CppLispInterpreter/Interpreter.cpp: LispInterpreter::EvalAst", "CppLisp/CppLispInterpreter/Environment.cpp: CreateDefaultScope", "CppLisp/CppLispInterpreter/Scope.cpp: LispScope::ResolveInScopes"]}
{"id": "C56", "title": "A recursive function and a loop compute what they say", "statement": "The source text of the usual recursive factorial function, called with m, prints m!, and the source text of a while loop that adds the numbers from 1 to m prints their sum, whenever the result has 32 bits.", "quantifier": "all m whose result fits, all layouts of the text, all histories of the process before", "why_tests_cant": "Holds for every argument and every layout; recursion depth and number of iterations are not bounded by a test.", "anchors": ["CppLisp/CppLispInterpreter/Lisp.cpp: Lisp::Eval", "CppLisp/CppLispInterpreter/Environment.cpp: while_form", "CppLisp/CppLispInterpreter/Environment.cpp: defn_form"]}
{"id": "C57", "title": "Selectors on texts", "statement": "(first t) is the text of the first character of t (the empty text if t is empty), (rest t) the text behind it, (last t) the text of the last character and (nth i t) the text of the character at position i (the empty text if i is the length of t); rest and last of the empty text and nth with another position raise an exception instead of returning other text.", "quantifier": "all texts (shorter than 2^63), all 32-bit positions, all states and scopes", "why_tests_cant": "Unbounded texts and all positions, including negative ones that are converted to huge unsigned numbers.", "anchors": ["CppLisp/CppLispInterpreter/Environment.cpp: First, Last, Rest, Nth"]}
{"id": "C58", "title": "Bit functions", "statement": "(& x y), (| x y), (^ x y) and (~ x) return the 32-bit integer whose bit i, for every i below 32, is the conjunction, disjunction, exclusive or, respectively negation of the bits i of the arguments, and a 32-bit integer is determined by its bits; (>> x n) is x divided by 2^n rounded down and (<< x n) is x multiplied by 2^n modulo 2^32 for 0 <= n < 32 and non-negative x with x*2^n < 2^32. All other shifts (a shift count that is negative or at least 32, a negative or too large left operand of <<) are undefined behaviour of the code and reported as such by the model.", "quantifier": "all pairs of 32-bit integers, all bit positions, all shift counts, all states and scopes", "why_tests_cant": "2^64 pairs of operands; the result of each bit has to be right for all of them.", "anchors": ["CppLisp/CppLispInterpreter/Environment.cpp: LeftShift, RightShift, BinaryOr, BinaryAnd, BinaryXOr, BinaryNot"]}
{"id": "C59", "title": "Types and conversions", "statement": "(type x) and (typestr x) are the number and the name of the type of x; number and name determine each other and no value has two types. (int x) is x for an integer, 1 or 0 for a boolean, the integral part of a floating-point number if that has 32 bits (otherwise the behaviour is undefined) and what parse-integer gives for a text; (float x) is x for a floating-point number, the same number for an integer, 1.0 or 0.0 for a boolean and what parse-float gives for a text; (sym s) is the symbol named s and (str (sym s)) is s again. (For values of every other type (int x) gives 0 instead of an error.)", "quantifier": "all values and all states", "why_tests_cant": "Ranges over all numbers, texts and states.", "anchors": ["CppLisp/CppLispInterpreter/Environment.cpp: ToInt, ToFloat, GetType, GetTypeString, SymbolFcn", "CppLisp/CppLispInterpreter/Variant.cpp: LispVariant::ToInt, ToDouble"]}
{"id": "C60", "title": "Files are read back as written", "statement": "(File-WriteAllText name text) returns #t and gives the file exactly this content, leaving all other files and the rest of the state unchanged, if the operating system allows the file to be written; otherwise it returns #f and changes no file. (File-ReadAllText name) is the content of the file, or the empty text if there is no such file, and (File-Exists name) tells whether it exists. A text that has been written is read back as long as the file is not written again.", "quantifier": "all file names, texts and states of the file system", "why_tests_cant": "Ranges over all texts, names and file system contents.", "anchors": ["CppLisp/CppLispInterpreter/Environment.cpp: FileReadAllText, FileWriteAllText, FileExits, ReadFileOrEmptyString, WriteTextFile"]}
{"id": "C61", "title": "delvar", "statement": "(delvar name) removes the variable from the current scope, returns #t exactly if it existed there, and changes no other variable, no other scope and no other object.", "quantifier": "all names and all valid states", "why_tests_cant": "Ranges over all scopes and the absence of any other effect.", "anchors": ["CppLisp/CppLispInterpreter/Environment.cpp: DelVar"]}
{"id": "C63", "title": "Wrong numbers of arguments", "statement": "For every function and special form that expects a fixed number or range of arguments, a call with fewer or more arguments raises a Lisp exception whose message names the function, the number of arguments it got and the expected number or range; it has no other effect. (For `if` the expected number in the message is wrong. return, trace and sleep do not check: without an argument their behaviour is undefined.)", "quantifier": "all built-in functions, argument lists and states", "why_tests_cant": "Ranges over all argument lists of all functions.", "anchors": ["CppLisp/CppLispInterpreter/Environment.cpp: CheckArgs, CheckOptionalArgs"]}
{"id": "C65", "title": "Floating-point numbers", "statement": "If an operand of + - * / % or of a comparison is a floating-point number and the other one is a number, then the result is that of the floating-point unit for the two operands as floating-point numbers; equality holds up to the fixed tolerance. Each mathematical function (Math-Sin, Math-Pow, ...) applies the function of the platform's mathematical library with its name to its argument as a floating-point number. Nothing else changes.", "quantifier": "all numbers and all states", "why_tests_cant": "Ranges over all floating-point numbers, including mixed operands.", "anchors": ["CppLisp/CppLispInterpreter/Variant.cpp: LispVariant operators", "CppLisp/CppLispInterpreter/Environment.cpp: ArithmetricOperation, CompareOperation, Math functions"]}
{"id": "C66", "title": "Recording of printed texts", "statement": "In the scope in which texts are recorded, every print and println appends the text of its arguments (without the end of line) to the recorded text and still writes it to the output; (gettrace) is the recorded text; (trace b) returns b and changes only the switch. A new interpreter records from the start. ((trace #f) does not stop the recording; texts printed inside functions are not recorded.)", "quantifier": "all printed values, texts and states", "why_tests_cant": "Ranges over all histories of print calls.", "anchors": ["CppLisp/CppLispInterpreter/Environment.cpp: Trace, GetTrace, Print, PrintLn, ProcessMetaScope"]}
{"id": "C67", "title": "Trace of the evaluation", "statement": "While evaluation with trace is switched on, the evaluation of every call and special form first writes a line with an arrow and the name of the function and then behaves exactly as without trace. The switch is what was asked for when the script was started. (evalstr at top level switches it off.)", "quantifier": "all calls, functions, arguments and states", "why_tests_cant": "Ranges over all programs.", "anchors": ["CppLisp/CppLispInterpreter/Interpreter.cpp: LispInterpreter::EvalAst", "CppLisp/CppLispInterpreter/Lisp.cpp: Lisp::Eval"]}
{"id": "C62", "title": "eval, evalstr and apply", "statement": "(eval x) evaluates the list x as code in the current scope; a symbol gives the value of the variable with this name and every other value gives itself. (evalstr text) has the outcome of running the text as a script in the current scope; afterwards the scope has its module name again. (apply f l) has the outcome of calling f with the elements of l. (Lists that have been put together from lists with `list` are not evaluated like quoted code: inner lists are taken as values.)", "quantifier": "all values, texts, functions, scopes and states", "why_tests_cant": "Ranges over all programs that are evaluated at run time.", "anchors": ["CppLisp/CppLispInterpreter/Environment.cpp: EvalFcn, EvalStrFcn, ApplyFcn", "CppLisp/CppLispInterpreter/Lisp.cpp: Lisp::Eval"]}
{"id": "C64", "title": "import", "statement": "(import name ...) looks for each module in the documented places in this order: the name itself, the library path, ./Library, ./lib/fuel and the path in FUELPATH, with the extension .fuel added where it is missing. What is found is evaluated in a new scope of its own and entered under its file name into the table of modules; afterwards the names of the module are known everywhere unless they mean something else there. A module that is not found is reported in one line of output and skipped; an exception in a module ends the import. The result is the value of the last module. (The table gets a copy of the scope of the module: changes that functions of the module make later to variables of the module are not visible to the importing script.)", "quantifier": "all lists of names, contents of the file system, module texts and valid states", "why_tests_cant": "Ranges over all file systems and module contents.", "anchors": ["CppLisp/CppLispInterpreter/Environment.cpp: Import, AddFileExtensionIfNeeded, ConvertToLocalDirectorySeperators", "CppLisp/CppLispInterpreter/Scope.cpp: LispScope::PushNextScope"]}
{"id": "C69", "title": "rval", "statement": "(rval x) evaluates x with places switched off, also inside setf, and has the same outcome apart from that; afterwards the switch is what it was. (rval v) is v for a value. (need-l-value) tells whether places are asked for.", "quantifier": "all code, values and states", "why_tests_cant": "Ranges over all programs.", "anchors": ["CppLisp/CppLispInterpreter/Environment.cpp: RValue, NeedLValue"]}
{"id": "C70", "title": "Macros that are expanded before the evaluation", "statement": "A list in a script that is not the call of a macro expands to the list of the expansions of its elements, in order. define-macro-expand is executed during the expansion: it stores the macro under its name with its parameters and its expanded body, changes no other macro and leaves nothing of itself in the expanded script. A call of such a macro is replaced by the list that results from evaluating, during the expansion, the body with the parameters replaced by the argument code; the result is expanded again; if the evaluation fails, the expansion fails with the same error. (It does not hold if the body gives a number or another value that is not a list: then a union member is misread. Lists that are put together with list become code one level deep only.)", "quantifier": "all scripts, macros, parameters, bodies, arguments and states", "why_tests_cant": "Ranges over all code that macros can produce and all nestings of macro calls.", "anchors": ["CppLisp/CppLispInterpreter/Interpreter.cpp: LispInterpreter::ExpandMacros, ReplaceFormalArgumentsInExpression", "CppLisp/CppLispInterpreter/Environment.cpp: definemacroexpand"]}
{"id": "C71", "title": "Documentation of user functions", "statement": "(defn name (p1 ... pn) body) and gdefn create a function whose syntax text is (name p1 ... pn) and whose documentation is the comment directly in front of the definition (empty if there is none); the function belongs to the module and the scope of the definition, has the given parameters and body, is bound to the name in the current (global) scope, and no other variable changes. (Functions without a name that are created later in the same scope carry the documentation of the last definition.) (It is false if there is anything but a list in the place of the parameters: then the behaviour is undefined and no exception is raised.)", "quantifier": "all definitions, token sequences and states", "why_tests_cant": "Ranges over all scripts and positions of comments.", "anchors": ["CppLisp/CppLispInterpreter/Environment.cpp: defn_form_helper, UpdateDocumentationInformationAtScope, GetTokenBeforeDefn, GetSignatureFromArgs, fn_form", "CppLisp/CppLispInterpreter/Scope.cpp: GetPreviousToken"]}
{"id": "C72", "title": "doc, searchdoc and htmldoc", "statement": "(doc name ...) writes and returns, for every given name and in the order of the names in the scope, the documentation (name, kind, syntax, description) of all functions whose names start with it; searchdoc does so for names that contain the text; (doc) and (htmldoc) show all built-in functions in the global scope. Nothing else changes. (It fails if a selected name is a variable that is not a function, and dereferences a null pointer if a macro is defined.)", "quantifier": "all names, scopes, functions and states", "why_tests_cant": "Ranges over all tables of functions.", "anchors": ["CppLisp/CppLispInterpreter/Environment.cpp: Documentation, SearchDocumentation, HtmlDocumentation, DoSearchDocumentation", "CppLisp/CppLispInterpreter/Scope.cpp: GetFunctionsHelpFormated, Dump", "CppLisp/CppLispInterpreter/cstypes.cpp: GetFormatedHelpString"]}
{"id": "C68", "title": "Information about the interpreter and the platform", "statement": "help writes and returns the names of all variables of the current scope, one per line and in the order of the names; tickcount is the reading of the platform's clock as a 32-bit number; date-time is the list of year, month, day, hour, minute and second of the local time; platform is the list of operating system, C++ and word size; version and fuel are the version texts; sleep, flush and nop return undefined. Besides reading the clock and writing the help nothing changes.", "quantifier": "all states and all clock readings", "why_tests_cant": "Ranges over all scopes and clock readings.", "anchors": ["CppLisp/CppLispInterpreter/Environment.cpp: Help, CurrentTickCount, Datetime, Platform, Version, Fuel, _Sleep, Flush"]}
{"id": "C74", "title": "Listings of the debugger", "statement": "The debugger command 'list' writes all breakpoints in their order with the numbers that 'clear' uses, each with its line, module and condition. The command 'code' writes every line of the current script with its number; exactly the lines with a breakpoint for this module are marked B and exactly the current line is marked by an arrow. The command 'break' with a line number, optionally a module (before a colon or in quotation marks) and a condition, sets exactly this breakpoint. None of the listings changes anything but the output. (The module names have no braces; conditions and script lines do not contain {3, or {4} or {4, - with such a text the listing raises an exception or shows another text. A script run by evalstr is listed without its first nine characters, or raises a native exception if it is shorter. A module name without its closing quotation mark raises a native exception.)", "quantifier": "all lists of breakpoints, all scripts, all modules, lines and conditions", "why_tests_cant": "The listing must be right for every script, every position and every set of breakpoints.", "anchors": ["CppLisp/CppLispDebugger/Debugger.cpp: ShowBreakpoints", "CppLisp/CppLispDebugger/Debugger.cpp: ShowSourceCode", "CppLisp/CppLispDebugger/Debugger.cpp: HasBreakpointAt", "CppLisp/CppLispDebugger/Debugger.cpp: AddBreakpoint", "CppLisp/CppLispDebugger/Debugger.cpp: InteractiveLoop"]}
{"id": "C73", "title": "Display strings", "statement": "(str x) returns the display string of x: numbers as numerals, #t/#f, NIL, strings and symbols as they are, a list as its elements in parentheses separated by single blanks and a dictionary as { [key : value], ... }, with strings inside lists and dictionaries in quotation marks, at any depth. (print a ...) and (println a ...) write the display strings of their arguments separated by single blanks and return this text; nothing else changes. A value has only one display string. (Empty texts at the beginning of a print are left out together with their blank; a truth value that is a key of a dictionary is shown as true instead of #t; quotation marks inside strings are not escaped.)", "quantifier": "all values of any nesting, all lists of arguments, all states", "why_tests_cant": "Values can be nested to any depth and mixed in any way.", "anchors": ["CppLisp/CppLispInterpreter/Variant.cpp: LispVariant::ToString", "CppLisp/CppLispInterpreter/Variant.cpp: LispVariant::ExpandContainerToString", "CppLisp/CppLispInterpreter/csobject.cpp: object::ToString", "CppLisp/CppLispInterpreter/Environment.cpp: PrintLn"]}
{"id": "C75", "title": "Functions of the standard library", "statement": "The functions that Library/fuellib.fuel defines in the language itself do what their comments say: (second x) returns the second element of a list or character of a string; (length x) and (strlen x) return the number of elements or characters; (find key x) returns the position of the first element (character) of x that is equal to key, and -1 if there is none; (foreach x f) calls f once for every element of x, from left to right; (arg-list-expression n) returns the list of the n symbols p0, p1, ... (the comment in the library says p1, p2, ...). The functions write nothing themselves and change no variable of the caller. A script with the definition of find or foreach, in any layout and with any comments, prints the result for any data.", "quantifier": "all lists and strings of any length, all keys that can be compared with the elements, all functions passed to foreach, all states of the program before the call, all layouts of the source text", "why_tests_cant": "The loops run once per element, for lists of any length and contents, and the interpreter executes them from any state.", "anchors": ["Library/fuellib.fuel: second", "Library/fuellib.fuel: find", "Library/fuellib.fuel: foreach", "Library/fuellib.fuel: arg-list-expression", "CppLisp/CppLispInterpreter/Interpreter.cpp: EvalAst", "CppLisp/CppLispInterpreter/Environment.cpp: while_form"]}
{"id": "C76", "title": "The debugger does not change the program", "statement": "If a program runs to its end under the debugger, stopping wherever breakpoints without condition, single steps or (break) make it stop, and the user only types commands that evaluate no code, then the same program without debugger has the same result, the same variables, lists, dictionaries, functions and files, and its output is the output of the debugged run without the text of the debugger and with the warning of (break). This holds for every run started by 'fuel -d'. While nothing stops the program, a debugged run that would succeed without debugger has exactly the same result, output and state, and an expression typed at the prompt is evaluated as in the interactive shell. (It is false that 'restart' at a stop starts the program again: the program goes on. At a breakpoint with a condition the position of the condition is shown. Stepping into a function whose body was computed by the program dereferences a null pointer.)", "quantifier": "all programs that do not read the standard input, all states, all sequences of lines typed by the user that evaluate no code (any number of stops and commands), all breakpoints without condition", "why_tests_cant": "The debugger can interrupt the program before every call, with any dialogue of commands at each stop.", "anchors": ["CppLisp/CppLispDebugger/Debugger.cpp: InteractiveLoop", "CppLisp/CppLispDebugger/Debugger.cpp: NeedsBreak", "CppLisp/CppLispDebugger/Debugger.cpp: DebuggerLoop", "CppLisp/CppLispInterpreter/Interpreter.cpp: EvalAst", "CppLisp/CppLispInterpreter/Environment.cpp: Break"]}
{"id": "C77", "title": "Floating-point numbers as text", "statement": "(parse-float s) is the value of the longest floating-point number of the C language (decimal, hexadecimal, infinity or nan, with optional white space and sign in front) at the beginning of s, and undefined if there is none or its value is out of range; characters behind the number are ignored. In a program, a word that is a floating-point number and no decimal integer is one number token with the value of the whole word, and a word that only starts with a number (like 1+ or 1e) is a symbol. (A word that starts with a decimal integer outside of the 32-bit range raises a native exception instead, for instance 3000000000.0.)", "quantifier": "all strings without zero bytes, all words of a program, all conversions of decimal notation to numbers", "why_tests_cant": "The set of notations is infinite, with optional parts (sign, point, exponent, its sign) whose combinations and truncations cannot be enumerated.", "anchors": ["CppLisp/CppLispInterpreter/Token.cpp: Double_TryParse", "CppLisp/CppLispInterpreter/Token.cpp: LispToken::LispToken", "CppLisp/CppLispInterpreter/Environment.cpp: ParseFloat"]}
{"id": "C78", "title": "Errors of programs", "statement": "A program of the core language that makes an error stops at the first one, wherever it occurs (in an operand, a condition, a loop, a called function at any depth, a function passed to map, reduce or apply, the expansion of a macro, a quasiquoted template): the evaluation ends with an exception of the interpreter with the message that belongs to the error (unknown function, value that is no function, wrong number of arguments, value of a wrong type, assignment to an unknown variable, statement that is no list), everything written before stays and nothing is written after. No program both has a value and makes an error. (The message can be another one if the value it shows contains curly brackets or is the text ##<NULL>##.)", "quantifier": "all programs of the core language, all source texts of a program, all places and depths of the error, all reachable states of the process", "why_tests_cant": "Errors can occur in any of infinitely many contexts; tests check single messages at single places.", "anchors": ["CppLisp/CppLispInterpreter/Interpreter.cpp: LispInterpreter::EvalAst", "CppLisp/CppLispInterpreter/Interpreter.cpp: LispInterpreter::ResolveArgsInScopes", "CppLisp/CppLispInterpreter/Variant.cpp: LispVariant::CreateInvalidCastException", "CppLisp/CppLispInterpreter/Environment.cpp: CheckArgs", "CppLisp/CppLispInterpreter/Environment.cpp: ArithmetricOperation"]}
{"id": "C79", "title": "dotimes and setq of the standard library", "statement": "(dotimes (i n) body), where n is an expression that gives an integer and body a program of the core language, runs the body with i = 0, 1, ..., n-1 in this order (never if n is not positive), evaluates n again before each run and each final test, returns #t and removes the variable i from the current scope afterwards; (setq x e) is (setf x e). Both hold for any position of the call in a program. (dotimes fails with an exception if its counter variable exists already in the current scope.)", "quantifier": "all counter names, limits and bodies of the core language, all environments and numbers of runs", "why_tests_cant": "The macros are expanded into new code that is evaluated in the caller's scope; the claim ranges over all bodies, limits and environments.", "anchors": ["Library/fuellib.fuel: dotimes", "Library/fuellib.fuel: setq", "CppLisp/CppLispInterpreter/Interpreter.cpp: LispInterpreter::EvalAst"]}
{"id": "C80", "title": "Values used as numbers", "statement": "Where a function expects an integer, #t counts as 1, #f as 0, a floating-point number as its integral part, a text as the decimal number it begins with (after white space, with an optional sign, followed by anything), and any other text as 0: slice, search, push and pop with such positions and lengths behave exactly as with that integer, and so do the arithmetic operators and comparisons of an integer with a boolean or a text (for +, == and != only with a boolean). In the debugger, clear with a text that begins with no number removes nothing.", "quantifier": "all texts, booleans and floating-point numbers whose integral part fits an int, all other arguments and states", "why_tests_cant": "Ranges over all texts and all combinations with other arguments.", "anchors": ["CppLisp/CppLispInterpreter/Variant.cpp: LispVariant::ToInt", "CppLisp/CppLispInterpreter/Environment.cpp: Slice", "CppLisp/CppLispInterpreter/Environment.cpp: ArithmetricOperation", "CppLisp/CppLispDebugger/Debugger.cpp: LispDebugger::InteractiveLoop"]}
{"id": "C81", "title": "Programs that do not end", "statement": "A program of the core language whose execution according to the reference semantics never ends, because it begins one part after the other forever (a loop whose condition stays true, a function that always calls itself, an endless call from a callback, a macro or an operand), never returns a value and never raises an exception; the interpreter executes every step of it, so that everything the program writes before any point of its endless execution is written after finitely many steps. In particular (while #t (println i)) writes as many lines as one likes, and a program cannot both run forever and have a value or an error. (The model has no limit on the depth of calls; the real program ends with a stack overflow if an endless recursion uses up its stack.)", "quantifier": "all programs of the core language with an infinite execution, all spellings of their source, all reachable interpreter states and all points of the execution", "why_tests_cant": "A test cannot wait for something that never happens; the claim is about infinite executions.", "anchors": ["CppLisp/CppLispInterpreter/Interpreter.cpp: LispInterpreter::EvalAst", "CppLisp/CppLispInterpreter/Environment.cpp: while_form", "CppLisp/CppLispInterpreter/Environment.cpp: do_form", "CppLisp/CppLispInterpreter/Environment.cpp: fn_form", "CppLisp/CppLispInterpreter/Lisp.cpp: Lisp::Eval"]}
{"id": "C82", "title": "Arithmetic expressions with floating-point numbers", "statement": "A program that prints an expression built from integers, floating-point numbers, +, -, * and /, nested to any depth and in any layout, prints the text of the value of the expression and a newline: an operation on two integers is the operation on integers (if all intermediate integers have 32 bits and no integer is divided by zero; quotients are rounded towards zero), any other operation is the operation on floating-point numbers, and an integer operand of it is converted first.", "quantifier": "all expressions over integers and floating-point numbers, all notations of floating-point numbers, all spellings of the source, all reachable interpreter states", "why_tests_cant": "Expressions have unbounded depth and there are infinitely many numbers and layouts; a test checks some of them.", "anchors": ["CppLisp/CppLispInterpreter/Variant.cpp: operator+", "CppLisp/CppLispInterpreter/Variant.cpp: operator/", "CppLisp/CppLispInterpreter/Tokenizer.cpp: LispTokenizer::Tokenize", "CppLisp/CppLispInterpreter/Environment.cpp: Addition", "CppLisp/CppLispInterpreter/Lisp.cpp: Lisp::Eval"]}
{"id": "C83", "title": "Interactive shell", "statement": "A session of `fuel -i` behaves as the language says: after the greeting, each line of the standard input that is code is executed in one global scope that keeps what earlier lines defined, its result is shown after `result=`, lines read by the code itself are taken from the same input, questions such as help, about and version are answered, an empty line, exit, quit, q or the end of the input ends the session, and a line that makes an error shows `Exception: ` with the message, after which the shell asks for the next line. The standard input is only consumed and the output only appended to. (It is false if the line defines a macro, which crashes the shell, if a list of the line starts with a global variable that is no function, such as a parameter list, if the text of the result contains braces, if the line is only a name, after an error in the place of an assignment, and after `return` only the first expression of a line is executed.)", "quantifier": "all sequences of input lines, all layouts of the lines, all states in which the program starts", "why_tests_cant": "Sessions have any number of lines, and every line depends on all lines before it.", "anchors": ["CppLisp/CppLispDebugger/Debugger.cpp: LispDebugger::InteractiveLoop", "CppLisp/CppLispInterpreter/fuel.cpp: ContainsOptionAndRemove", "CppLisp/CppLispInterpreter/Environment.cpp: ReadLine"]}
{"id": "C84", "title": "Programs with dictionaries", "statement": "The source text of the program that counts words with a dictionary (for any list of words) prints for each of the words how often it occurs in the list and the number of different words; what a function stores in a dictionary that was passed to it is seen through every other variable with this dictionary; for every dictionary and key there is exactly one answer, dict-set changes the value of its key only and dict-remove removes its key only.", "quantifier": "all lists of words (without the character 0, at most 2^31-1 of them), all keys and values, all layouts of the text, all histories of the process before", "why_tests_cant": "Holds for all lists of words and every order of insertions; the sharing of dictionaries between variables and functions has to be right in every history.", "anchors": ["CppLisp/CppLispInterpreter/Environment.cpp: DictSet, DictGet, DictContainsKey, DictRemove, MakeDict, Map", "CppLisp/CppLispInterpreter/Lisp.cpp: Lisp::Eval"]}
{"id": "C85", "title": "A session with the debugger", "statement": "`fuel -d FILE` and `fuel -d -e TEXT` for a program of the core language: the debugger greets the user, shows the position before the first step of the program and asks for commands. The user can ask for help, the version and information about the program. After `run` (and also after `restart`, which does the same here) the program runs as without a debugger: it writes what the reference semantics of the language says and reads the input lines after that command. When it has ended, `restart program` is written and the program starts again in a new interpreter, so nothing that an earlier run defined is left, and the debugger stops it again before its first step. `exit`, `quit`, `q`, an empty line and the end of the input leave the debugger.", "quantifier": "all programs of the core language that end, in every notation, all input lines, all numbers of runs in a session, all states the process can be in before; the program does not write the warning of (break)", "why_tests_cant": "A test tries one program with one list of commands. That every program behaves under the debugger as without it, reads exactly the lines that belong to it and starts afresh every time has to hold for all programs, inputs and numbers of restarts.", "anchors": ["CppLisp/CppLispDebugger/Debugger.cpp: LispDebugger::DebuggerLoop, InteractiveLoop, NeedsBreak, Reset", "CppLisp/CppLispInterpreter/fuel.cpp: MainExtended", "CppLisp/CppLispInterpreter/Interpreter.cpp: EvalAst"]}
{"id": "C86", "title": "Programs that import modules", "statement": "A program of the core language can be divided into modules: `(import \"calc\")` finds the file of the module, evaluates its text once in a scope of its own, and makes the names it defines visible to the importing program; functions of the module run with the variables of their module. If the files contain the modules in any layout, the whole program writes the output, reads the lines and has the value that the reference semantics of the language gives it. For example, with a module that defines `(defn twice (n) (* 2 n))`, the program `(import \"calc\") (println (twice k))` writes 2k for every number k.", "quantifier": "all programs of the core language that end, all sets of modules, all layouts of the program and of the modules, all places where the files are found, all input lines, all states the process can be in before", "why_tests_cant": "A test imports a few modules. That every program with modules behaves as the semantics says, wherever the files are and however they are written, has to hold for all programs and files.", "anchors": ["CppLisp/CppLispInterpreter/Environment.cpp: Import", "CppLisp/CppLispInterpreter/Scope.cpp: LispScope::ResolveInScopes", "CppLisp/CppLispInterpreter/Interpreter.cpp: EvalAst"]}
{"id": "C87", "title": "The standard library file, imported as it is shipped", "statement": "A program that starts with `(import fuellib)` in a place where the shipped file `Library/fuellib.fuel` is found, byte for byte, has all functions and macros of this file, with the definitions the file gives; importing it writes nothing and reads no input. So `(println (find 'key 'data))` prints the position of the key, `(println (length 'data))` the number of elements, `(println (second 'data))` the second element, `(println (isCpp))` prints #t, `(foreach 'data println)` prints one line per element and `(dotimes (c k) (println c))` counts from 0 to k - 1, for all data and numbers and in whatever layout the program is written.", "quantifier": "all programs that import the library and then end, all keys, data and numbers, all layouts of the program, all places where the library file is found, all states the process can be in before", "why_tests_cant": "The tests of the project call each library function on a few values. That the shipped text, read by the tokenizer and the parser and evaluated in its module scope, gives functions that are right for all arguments and in all programs, has to hold for all of these.", "anchors": ["Library/fuellib.fuel", "CppLisp/CppLispInterpreter/Environment.cpp: Import", "CppLisp/CppLispInterpreter/Tokenizer.cpp: Tokenize", "CppLisp/CppLispInterpreter/Parser.cpp: Parse"]}
{"id": "C88", "title": "Inspecting a stopped program", "statement": "Where a program is stopped in the debugger, and in the interactive shell, the commands show the state as it is and do not change it: `stack` lists the active calls, the main program first, each with its number, function name, line and module and an arrow at the selected one; `down` and `up` select the caller of the selected call and the call made from it; `locals` lists the variables of the selected call and `globals` those of the main program, each with its value and type, without the built-in functions (`(vars)` does the same in a program); `builtins` lists exactly the built-in functions; `funcs` lists all functions with the modules they come from, also those of imported modules; `macros` and `modules` list the names; `doc` shows the documentation of the built-in functions. `exit` and an empty line leave. A line that starts with a bracket is never taken for a command. `(break)` in a program under the debugger shows the call stack and asks for commands; then the program goes on where it was, or ends if the user leaves. (A value whose text contains a placeholder like {2} is shown wrongly.)", "quantifier": "all states the debugger can be in, all call stacks, all sets of variables, functions, macros and modules whose texts have no curly brackets", "why_tests_cant": "A test stops one program at a few places. That the listing has a line for each call and variable and nothing else, and that looking at the program does not change it, has to hold for every state a program can be stopped in.", "anchors": ["CppLisp/CppLispDebugger/Debugger.cpp: InteractiveLoop", "CppLisp/CppLispInterpreter/Scope.cpp: DumpStackToString, Dump, DumpFunctions, ProcessMetaScope", "CppLisp/CppLispInterpreter/Scope.h: DumpVars, DumpMacros, DumpModules, DumpBuiltinFunctions", "CppLisp/CppLispInterpreter/Environment.cpp: Vars"]}
{"id": "C89", "title": "Interpreters are independent, programs change only what they can reach", "statement": "An application can use several interpreters at the same time. A script that runs in one of them, with or without the debugger, also if it fails in the middle, changes nothing that another interpreter can see: no variable, list, dictionary, function, macro or module. Nothing can be reached from two interpreters. Creating an interpreter, running a script in an interpreter of its own, and running the whole program `fuel` change nothing that existed before. Within an interpreter, a script changes only what can be reached from its scope, and calling a function only what can be reached from the variables it captured, its arguments and the scopes of its callers; all other data stay as they are.", "quantifier": "all applications: all numbers of interpreters and all scripts that run in them in any order, all inputs to the debugger, all states they can bring about, also in the middle of an evaluation and after exceptions", "why_tests_cant": "A test can run two interpreters and compare a few variables. That no program can ever reach or change data of another interpreter has to hold for all programs and all histories.", "anchors": ["CppLisp/CppLispInterpreter/Lisp.cpp: Lisp::Eval, SaveEval", "CppLisp/CppLispInterpreter/Environment.cpp: CreateDefaultScope", "CppLisp/CppLispInterpreter/Interpreter.cpp: LispInterpreter::EvalAst", "CppLisp/CppLispInterpreter/Scope.cpp: LispScope"]}
{"id": "C90", "title": "Only files that may be written change, and none disappears", "statement": "Whatever script is evaluated, whatever function is called, whatever is done in the shell or the debugger and with whatever arguments the program fuel is started, and whether it ends with a value, an error or undefined behaviour: every file that existed before still exists, every file that the operating system does not allow to write has the same text as before (and is not created), and the clock never goes back. Where no file can be written, the program leaves all files as they are.", "quantifier": "all programs, arguments, inputs, debugger commands, breakpoints, states of the interpreter, sets of files, permissions and numbers of steps", "why_tests_cant": "a test looks at the files after some scripts; that no script and no command can remove or alter another file is a statement about all of them", "anchors": ["CppLisp/CppLispInterpreter/Environment.cpp: FileWriteAllText, FileReadAllText", "CppLisp/CppLispInterpreter/Environment.cpp: WriteTextFile", "CppLisp/CppLispDebugger/Debugger.cpp: DebuggerLoop, InteractiveLoop", "CppLisp/CppLispInterpreter/Interpreter.cpp: LispInterpreter::EvalAst"]}
{"id": "C91", "title": "A function never changes", "statement": "Once a function has been created with fn or defn, it keeps its name, its module, its parameter list, its body and the scope in which it was created, whatever the program, the shell, the debugger or the application does afterwards and whatever the outcome is. The scopes around it, in which its free names are looked up, are linked in the same way for ever, and they keep their global scope (for evaluations without a debugger). (It is false for the contents of a body that the program has built itself as a list: (push x body) changes what a function made with (eval (list 'fn '() body)) computes.)", "quantifier": "all functions, programs, arguments, inputs, debugger commands, breakpoints, states of the interpreter, outcomes and numbers of steps", "why_tests_cant": "a test calls a function again after some other code; that no code at all can exchange the environment or the body of a function is a statement about every program", "anchors": ["CppLisp/CppLispInterpreter/Environment.cpp: fn_form, defn_form, Push", "CppLisp/CppLispInterpreter/Scope.cpp: LispScope, PushNextScope, PopNextScope", "CppLisp/CppLispInterpreter/Interpreter.cpp: LispInterpreter::EvalAst", "CppLisp/CppLispDebugger/Debugger.cpp: DebuggerLoop"]}
