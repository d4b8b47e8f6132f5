# Formal model of FUEL (mneuroth/fuel-lang, C++ interpreter) in Lean 4

The C++ core under `/repo/CppLisp/CppLispInterpreter` (tokenizer, parser, values, scopes, built-in
functions, evaluator, macro expander, `Lisp::Eval`/`SaveEval`, command line program) and the debugger
logic in `/repo/CppLisp/CppLispDebugger/Debugger.cpp` are modelled as total computable Lean functions,
function by function.  The model can be executed: `#eval` of a script prints what the program prints.

## 1. How the code is modelled

* **Outcome of a C++ computation.** `M α := St → Out α`: either `ok value state` or a failure with the
  state reached so far (changes made before an exception are kept). A failure (`Fail`) is
  `exn` (a C++ exception), `ub` (undefined behaviour of the C++ abstract machine: null dereference,
  out-of-range index, signed overflow, division by zero, invalid comparator, uninitialised read ...),
  `fuel` (the step budget of the model is used up) or `unmodelled` (the model does not say what happens;
  section 5 lists every such place). Lisp exceptions and native exceptions (`std::out_of_range`,
  `std::invalid_argument`) are different, because only the first kind is caught by `SaveEval`.
  No theorem treats `ub`, `fuel` or `unmodelled` as success.
* **`std::shared_ptr<object>`** is `Ptr`: null, or an identity (a number) with the content.
  Contents that are never mutated (numbers, strings, `LispVariant`, functions, macros) are stored inline;
  contents of lists and dictionaries are mutable and stored in the heap of the state under the
  identity. The identity is kept because `==` on nested lists compares pointers.
* **Scopes** and closures live in tables of the state and are referred to by number.
* **`int`** is an integer with a range check after every operation (out of range = `ub`).
* **`double`** is a 64-bit pattern; all floating-point operations, the clock, the platform and the
  success of writing files are parameters (class `World`), so every theorem holds for every
  interpretation of them. Nothing is assumed about them unless a theorem lists it as a hypothesis.
* **Strings** are lists of characters, a character stands for one byte.
* **Recursion** of the evaluator uses a step budget. C33 proves that a result does not depend on it, and the
  statements about evaluation are of the form "for every sufficiently large budget".
* **Output, input and files** are parts of the state.

Every definition carries a comment with the file and lines it models and any simplification.

## 2. Layout (lean/Verif)

| module | contents |
|---|---|
| `Base`, `World` | outcome monad, strings; parameters |
| `CsString` | csstring.cpp/.h, `stoi`, `to_string` |
| `Token`, `Tokenizer`, `Parser` | Token.cpp, Tokenizer.cpp, Parser.cpp |
| `Value`, `VariantOps` | csobject, Variant.cpp, state and heap |
| `Scope` | Scope.cpp, Exception.cpp |
| `Builtins`, `Interp` | Environment.cpp, Interpreter.cpp (evaluator and macro expander) |
| `Lisp` | Lisp.cpp |
| `Debugger` | CppLispDebugger/Debugger.cpp |
| `DebugRun` | Interpreter.cpp `EvalAst` with a debugger, CppLispDebugger/Debugger.cpp `InteractiveLoop` and FuelMain `-d` |
| `Cli` | fuel.cpp |
| `Demo`, `DemoEval` | concrete states and worlds for the examples |
| `Spec*` | small independent specifications used in the statements |
| `Lem*` | lemma library: monad, invariants, monotonicity, text, parser, simulation, validity |
| `Props*` | the property theorems, each with an example that meets the hypotheses |

Central notions of the statements: `Returns m st P` (the C++ call returns normally with a value and state in `P`),
`Extends st st'` (nothing but fresh objects was added), `Holds p P` (the argument is a value with `P`),
`Evals`, `Calls`, `Expands`, `Runs` (an evaluation, call, macro expansion or whole script ends with this outcome for
every sufficiently large budget), `Reachable` (a state that arises from a new interpreter by any history of scripts).

## 3. How each property is proved

* **C01**: Tokenizer loop as a structural recursion over the characters; induction over the text.
* **C02**: Induction over the contents of the literal; the escapes are described by a two-clause specification.
* **C03**: Lexical specification (LemTok: texts as sequences of lexemes); equality of token sequences up to positions.
* **C04**: Same, with comments as white space; the two defects are proved on all texts around the comment.
* **C05**: Induction over digit sequences (`Numeral`).
* **C06**: Induction over code trees: every well-formed written form is read back as its tree.
* **C07**: Induction over token sequences with the parser stack as invariant.
* **C08**: Invariant: every token's position is the offset of its text, its line the number of line ends before it.
* **C09-C14**: String functions against declarative specifications (first occurrence, decomposition), induction over the text.
* **C15-C19**: Operators on values: case analysis over the kinds of values, exact integers with a range condition.
* **C20-C24**: List functions on the heap model; the frame (everything else unchanged) is part of each statement.
* **C25, C26**: Dictionaries refine finite maps `key -> option value`; induction over histories of operations.
* **C27-C32**: Scope table; C32 by the invariant that the enclosing scope has a smaller number.
* **C33**: The evaluator is an open-recursive functional of a step budget; monotonicity of every operation.
* **C34, C45, C54**: Invariants of the whole evaluator: a preservation lemma for each built-in function and special form, then induction over the budget.
* **C35-C40**: Special forms, with arbitrary sub-expressions and their effects.
* **C41, C43**: Templates and run-time macros, derived from the core-language refinement.
* **C42, C70**: Macro expansion as a relation on code trees, related to the two-pass expander by induction over trees.
* **C44, C53**: Case analysis of the outcomes of SaveEval and of the command line.
* **C46, C47, C55, C56, C75**: A reference big-step semantics (SpecCore) written without reference to the model; the evaluator refines it (forward simulation, induction over the derivation). C56 and C75 prove programs and library functions written in the language correct for all their inputs.
* **C48, C63**: Computed over the whole finite table; effects because both names hold the same function.
* **C49-C52, C74**: Debugger state as a list of breakpoints; induction over histories of commands.
* **C79**: The two macros of the standard library are programs of the core language; the claim is a derivation in the reference semantics of C55 (induction over the runs of the body), which C55 turns into a claim about the interpreter. The code of the macros is part of `SpecTimes`, copied from Library/fuellib.fuel.
* **C83**: The sessions are specified over the configurations of C55, which got the lines of the standard input (`SpecShell`: questions, code lines with `Answer`, the end of the session, `Mistake`). One lemma per kind of line over the simulation of C55 (`PropsShell`), induction over the lines; the number of rounds of the loop is shown to be no limit with an invariant of all commands (the input is only consumed).
* **C84**: The reference semantics of C55 has dictionaries: a value of the language is the number of a dictionary, the configuration has the entries in the order of the keys (`Asks`, `Changes`, `Located` in SpecCore); the simulation relates the number to one object of the heap (`Dicts`), so sharing is part of the claim. The programs are derivations in this semantics, by induction over the list of words.
* **C85**: `DebugSession` (SpecSession) says what a session writes and which lines are left, with the reference semantics of C55 for the runs of the program. Proof: the text is read and prepared by the debugged evaluator as by the plain one (`script_fam`), the first call is the `do` form around the program, where the debugger stops (`stop_first`); from there the debugger is in run mode without breakpoints, so the comparison of C76 (`free`) carries the run of the reference semantics over; induction over the session.
* **C86**: `Provides` (SpecModule) says which files contain which modules; `Conf.startWith` is the start of the reference semantics with these modules. The simulation of C55 (`Sim`, `exec_ok`) has the rule for `import` (`exec_import` in LemImport: the file search of C64, the reading of the text of C06, the evaluation of the module in a frame of its own, the copy of the frame in the table of modules). `C86_modules` puts this together with the start of an interpreter.
* **C87**: `libText` (SpecFuellib) is the text of the shipped file, character by character (CRLF line ends included); `libProgram` is the list of its definitions as expressions. `lib_written` says that the text is a way to write these expressions (checked by a verified lexer, LemNotation, evaluated by the kernel). `lib_import` evaluates the module in the reference semantics; `C87_import` says what every program that imports it does, and `C87_find`, `C87_length`, `C87_second`, `C87_platform`, `C87_arg_list`, `C87_foreach`, `C87_dotimes` combine it with the theorems on the library functions (C75, C79).
* **C88**: SpecInspect describes the listings: `CallStack` (the chain of callers), `stackLines`, `Table` (the lines for the selected entries of a scope), `ModuleTables`, `MetaTable`, `HelpTable`. The theorems on `dbgCommand` say that the command writes exactly this text and leaves the rest of the state alone; induction over the chain of callers and over the entries, with `format_slots` of C13 for the columns.
* **C91**: As for C90, a relation (`SameFns`) is shown to hold between the states before and after every step, command and builtin function, with and without the debugger, for all outcomes. The chain of the scopes around a function is read with `Enclosing`, the specification of C30; it stays because an evaluation gives a parent only to scopes that it has created itself (`Step.closure`).
* **C90**: A relation between states (`Disk`), written with the lookup of a file by its name only, is shown to hold between the states before and after every step, command and builtin function (`Pres Disk`), for all outcomes; the only step that changes the files is `File-WriteAllText`, after it has asked whether the file can be written. Simplified: a permission does not change while the program runs, and no other process touches the files.
* **C89**: The layouts of C34 get a frozen part: numbers that the layout does not know and whose content must stay the same (`Lay.frozen`, `Ext`). The same rules that keep a state valid then show that only known numbers are written. For programs the layout is restricted to what can be reached (`within_state`: the reachable part of a valid state is valid by itself); for several interpreters an induction over the history of the application gives each of them a layout of its own, and these are disjoint (`parts_session`). The specification (`SpecFrame`) defines what can be reached without layouts.
* **C82**: By induction on the expression from the reference semantics of the core language (C55): every operator is a built-in function whose result on numbers is one of the rules of `Fn`.
* **C81**: An infinite path of tasks, each a part of the one before (`SpecForever`); for every step, the run of the first task either is cut off by the budget or goes on as the run of the second one with a smaller budget. By induction on the budget and the rank of the task no budget is enough.
* **C80**: A small relation between values and integers (`SpecNumber`); each function with such a value is shown equal to the function with the integer.
* **C78**: The reference semantics of C55 is continued with a second family of relations (`SpecError`: `Fails` and its companions), which say for each construct at which place the first error occurs and what was written until then. One lemma per rule (`LemError2`) over the same simulation as C55, messages in `LemError`; the theorem is the mutual induction. Errors not covered: those of functions outside of the core language, values with curly brackets (`Sound`).
* **C77**: The notation is specified as a grammar (`SpecFloat`); the scanner of the model of `strtod` is proved to find the longest text of the grammar, and the classification of tokens and `ParseFloat` are built on it. The value of a notation is a parameter (`World.dStod`).
* **C76**: The evaluator with an attached debugger (`runD`, `DebuggerLoop`) and the plain evaluator are related by a simulation over every function of the interpreter; the dialogue at a stop is an arbitrary sequence of commands.
* **C57-C62, C64-C69, C71-C73**: Further built-in functions against small specifications.

| property | title | status | theorems |
|---|---|---|---|
| C01 | Tokenising is total and memory safe | proved | `C01_total`, `C01_outcomes` |
| C02 | String literals read back exactly | proved | `C02_string_literal`, `C02_escapes` |
| C03 | White space between tokens is irrelevant | proved | `C03_white_space`, `C03_same_tokens`, `C03_quote_after_word` |
| C04 | Comments do not change the program | proved | `C04_comment`, `C04_empty_comment_wrong`, `C04_unterminated_comment_wrong` |
| C05 | Integer literals denote their value | proved | `C05_int_literal`, `C05_int_literal_too_big`, `C05_printed_int` |
| C06 | Printing and reading are inverse | proved | `C06_read`, `C06_roundtrip`, `C06_injective`, `C06_quote_quote_wrong` |
| C07 | Unbalanced brackets are always reported | proved | `C07_accepts`, `C07_reports`, `C07_outcomes`, `C07_quote_wrong`, `C07_empty_wrong` |
| C08 | Token line numbers and positions | proved | `C08_positions`, `C08_semicolon_in_string_wrong` |
| C09 | Replace replaces every occurrence, left to right | proved | `C09_replace` |
| C10 | Trim removes exactly the outer white space | proved | `C10_trim`, `C10_trim_idem`, `C10_upper`, `C10_lower` |
| C11 | Splitting and joining lines | proved | `C11_split`, `C11_readline`, `C11_split_long_wrong` |
| C12 | len, search and slice agree with the string | proved | `C12_search_list`, `C12_search_len_wrong`, `C12_len`, `C12_search`, `C12_search_from`, `C12_search_len`, `C12_slice` |
| C13 | format substitutes its arguments | proved | `C13_format_width`, `C13_format_missing`, `C13_format_width_wrong`, `C13_program`, `C13_program_missing`, `C13_format`, `C13_format_repeated_wrong`, `C13_format_nested_wrong` |
| C14 | Integers survive printing and parsing | proved | `C14_parse_integer`, `C14_roundtrip` |
| C15 | Integer arithmetic is exact | proved | `C15_add`, `C15_sub`, `C15_mul`, `C15_div`, `C15_mod`, `C15_quotient_exists` |
| C16 | Arithmetic functions fold from the left | proved | `C16_left_fold`, `C16_single`, `C16_negate`, `C16_negate_double`, `C16_no_argument_wrong` |
| C17 | String concatenation | proved | `C17_concat`, `C17_string`, `C17_nil`, `C17_string_of_numbers_wrong`, `C17_bool_wrong` |
| C18 | Ordering is consistent | proved | `C18_lex_irrefl`, `C18_lex_trans`, `C18_lex_total`, `C18_int`, `C18_string`, `C18_swap`, `C18_equal_wrong` |
| C19 | Equality is symmetric and != is its complement | proved | `C19_int`, `C19_string`, `C19_symbol`, `C19_bool`, `C19_nil`, `C19_symmetric`, `C19_not_equal`, `C19_lists`, `C19_nested_wrong`, `C19_symbol_in_list_wrong`, `C19_text`, `C19_number_bool`, `C19_other_type`, `C19_transitive_wrong` |
| C20 | List constructors and selectors | proved | `C20_list`, `C20_cons`, `C20_first`, `C20_rest`, `C20_last`, `C20_empty`, `C20_nth_outside`, `C20_nth`, `C20_len`, `C20_append`, `C20_reverse`, `C20_first_cons`, `C20_rest_cons`, `C20_len_append`, `C20_nth_append`, `C20_reverse_reverse` |
| C21 | map and reduce visit every element once, in order | proved | `C21_map`, `C21_reduce` |
| C22 | List functions do not modify their arguments | proved | `C22_readOnly` |
| C23 | push and pop modify exactly one list in place | proved | `C23_push`, `C23_push_end`, `C23_pop`, `C23_pop_end` |
| C24 | setf on a place changes exactly that position | proved | `C24_setf_place`, `C24_out_of_range_wrong`, `C24_mode_wrong`, `C24_nested_wrong` |
| C25 | Dictionaries behave like finite maps | proved | `C25_make`, `C25_set`, `C25_remove`, `C25_clear`, `C25_contains_key`, `C25_get_missing`, `C25_keys`, `C25_len`, `C25_history`, `C25_mixed_wrong`, `C25_contains_value`, `C25_shape`, `C25_no_dictionary_wrong` |
| C26 | Dictionaries return the value that was stored | proved | `C26_get`, `C26_nil_wrong`, `C26_symbol_wrong`, `C26_dict_wrong` |
| C27 | Name lookup order | proved | `C27_lookup`, `C27_unknown`, `C27_functional`, `C27_total` |
| C28 | Definitions and assignments change one binding | proved | `C28_def`, `C28_gdef`, `C28_setf`, `C28_setf_unknown` |
| C29 | Assignment followed by lookup | proved | `C29_setf_lookup`, `C29_shadowed_wrong` |
| C30 | Lexical scoping | proved | `C30_call`, `C30_irrelevant`, `C30_fn` |
| C31 | Argument passing | proved | `C31_call`, `C31_args`, `C31_argscount`, `C31_arg`, `C31_arg_range`, `C31_form`, `C31_toplevel_wrong` |
| C32 | Name lookup terminates | proved | `C32_chain`, `C32_lookup_ends` |
| C33 | The result does not depend on resources | proved | `C33_debug`, `C33_debug_call`, `C33_shell`, `C33_program`, `C33_eval`, `C33_call`, `C33_expand`, `C33_scriptIn`, `C33_script`, `C33_saveEval`, `C33_deterministic`, `C33_deterministic_script` |
| C34 | Reachable states are well formed | proved | `C34_eval`, `C34_call`, `C34_script`, `C34_save`, `C34_create`, `C34_debug`, `C34_debug_script`, `C34_program`, `C34_session`, `C34_result`, `C34_exists`, `C34_same`, `C34_int`, `C34_read`, `C34_stored`, `C34_variable` |
| C35 | if evaluates exactly one branch | proved | `C35_if`, `C35_if_then`, `C35_if_no_else`, `C35_condition_fails`, `C35_not_bool`, `C35_not_bool_raises` |
| C36 | and / or | proved | `C36_and`, `C36_and_inv`, `C36_or`, `C36_or_wrong`, `C36_not` |
| C37 | while is the usual loop | proved | `C37_while`, `C37_while_inv` |
| C38 | do runs its statements in order | proved | `C38_do` |
| C39 | return affects only the current function call | proved | `C39_call`, `C39_toplevel_wrong` |
| C40 | quote returns code unevaluated | proved | `C40_quote` |
| C41 | quasiquote replaces exactly the unquoted parts | proved | `C41_quasiquote`, `C41_two_wrong` |
| C42 | Macro expansion leaves macro-free programs alone | proved | `C42_expand`, `C42_value`, `C42_variable_wrong`, `C42_nil_wrong` |
| C43 | Run-time macros substitute their arguments | proved | `C43_macro`, `C43_capture_wrong`, `C43_string_wrong` |
| C44 | SaveEval turns Lisp errors into error values | proved | `C44_ok`, `C44_error`, `C44_base_error`, `C44_never`, `C44_native_wrong`, `C44_brace_wrong`, `C44_module_wrong`, `C44_placeholder_wrong` |
| C45 | Call stack and place-flag are restored | proved | `C45_eval`, `C45_call`, `C45_script`, `C45_exception_wrong`, `C45_flag_wrong` |
| C46 | Arithmetic scripts compute the right number | proved | `C46_arithmetic` |
| C47 | Printing a literal outputs the literal | proved | `C47_println` |
| C48 | Names of the built-in functions | proved | `C48_table`, `C48_new`, `C48_alias`, `C48_twice_wrong`, `C48_meaning` |
| C49 | Breakpoints are unique per line and module | proved | `C49_history`, `C49_determined`, `C49_command`, `C49_loop`, `C49_debug`, `C49_stop`, `C49_debug_loop`, `C49_program` |
| C50 | clear removes exactly the numbered breakpoint | proved | `C50_clear_all`, `C50_no_answer_wrong`, `C50_clear`, `C50_smallest_wrong`, `C50_command`, `C50_command_text` |
| C51 | A breakpoint without condition always stops | proved | `C51_unconditional`, `C51_none`, `C51_condition`, `C51_bad_condition`, `C51_first_line_wrong` |
| C52 | Single stepping | proved | `C52_step`, `C52_over`, `C52_over_deeper`, `C52_out`, `C52_out_deeper`, `C52_run`, `C52_commands` |
| C53 | Command line options | proved | `C53_option_found`, `C53_option_missing`, `C53_files`, `C53_plan`, `C53_unknown`, `C53_unknown_output`, `C53_version`, `C53_help`, `C53_lib_wrong`, `C53_no_script_wrong`, `C53_script_position_wrong`, `C53_run_report`, `C53_run`, `C53_run_script` |
| C54 | Order of output and input | proved | `C54_debug`, `C54_debug_call`, `C54_debug_loop`, `C54_program`, `C54_eval`, `C54_call`, `C54_scriptIn`, `C54_script`, `C54_input_eval`, `C54_input_scriptIn`, `C54_input`, `C54_saveEval`, `C54_shell` |
| C55 | Core programs behave like the reference semantics | proved | `C55_input`, `C55_core` |
| C56 | A recursive function and a loop compute what they say | proved | `C56_factorial`, `C56_sum` |
| C57 | Selectors on texts | proved | `C57_first`, `C57_rest`, `C57_last`, `C57_nth` |
| C58 | Bit functions | proved | `C58_bits`, `C58_and`, `C58_or`, `C58_xor`, `C58_shr`, `C58_shl`, `C58_not` |
| C59 | Types and conversions | proved | `C59_type`, `C59_typestr`, `C59_one_type`, `C59_int`, `C59_int_wrong`, `C59_float`, `C59_sym` |
| C60 | Files are read back as written | proved | `C60_write`, `C60_read`, `C60_write_read` |
| C61 | delvar | proved | `C61_delvar` |
| C63 | Wrong numbers of arguments | proved | `C63_arity`, `C63_if`, `C63_unchecked_wrong` |
| C65 | Floating-point numbers | proved | `C65_arith`, `C65_compare`, `C65_math`, `C65_pow` |
| C66 | Recording of printed texts | proved | `C66_trace`, `C66_print`, `C66_gettrace`, `C66_new`, `C66_off_wrong`, `C66_function_wrong` |
| C67 | Trace of the evaluation | proved | `C67_special`, `C67_call`, `C67_switch`, `C67_evalstr_wrong` |
| C62 | eval, evalstr and apply | proved | `C62_list`, `C62_value`, `C62_constant`, `C62_symbol`, `C62_evalstr`, `C62_apply`, `C62_nested_wrong` |
| C64 | import | proved | `C64_import`, `C64_names`, `C64_variable_wrong` |
| C69 | rval | proved | `C69_rval`, `C69_value`, `C69_need` |
| C70 | Macros that are expanded before the evaluation | proved | `C70_executed`, `C70_define`, `C70_elements`, `C70_call`, `C70_number_wrong`, `C70_nested_wrong` |
| C71 | Documentation of user functions | proved | `C71_no_list_wrong`, `C71_defn`, `C71_lambda_wrong` |
| C72 | doc, searchdoc and htmldoc | proved | `C72_doc`, `C72_searchdoc`, `C72_all`, `C72_html`, `C72_variable_wrong` |
| C68 | Information about the interpreter and the platform | proved | `C68_help`, `C68_version`, `C68_tickcount`, `C68_datetime`, `C68_platform`, `C68_nothing` |
| C74 | Listings of the debugger | proved | `C74_list`, `C74_code`, `C74_break`, `C74_evalstr_wrong`, `C74_evalstr_short_wrong`, `C74_brace_wrong`, `C74_quote_wrong` |
| C73 | Display strings | proved | `C73_unique`, `C73_str`, `C73_print`, `C73_println`, `C73_bool_key_wrong`, `C73_empty_wrong` |
| C75 | Functions of the standard library | proved | `C75_platform`, `C75_dict_len`, `C75_arg_list_with_obj`, `C75_second`, `C75_length`, `C75_find`, `C75_arg_list`, `C75_foreach`, `C75_find_script`, `C75_foreach_script` |
| C76 | The debugger does not change the program | proved | `C76_same_result`, `C76_run`, `C76_free`, `C76_prompt`, `C76_restart_wrong`, `C76_position_wrong`, `C76_null_wrong` |
| C77 | Floating-point numbers as text | proved | `C77_parse_float`, `C77_literal`, `C77_symbol`, `C77_literal_range_wrong` |
| C78 | Errors of programs | proved | `C78_error`, `C78_exclusive`, `C78_unknown`, `C78_deep`, `C78_null_wrong`, `C78_brackets_wrong` |
| C79 | dotimes and setq of the standard library | proved | `C79_dotimes`, `C79_dotimes_counts`, `C79_setq`, `C79_dotimes_script`, `C79_existing_wrong` |
| C80 | Values used as numbers | proved | `C80_slice`, `C80_push_pop`, `C80_search`, `C80_arith`, `C80_compare` |
| C81 | Programs that do not end | proved | `C81_forever`, `C81_output`, `C81_exclusive`, `C81_while`, `C81_println`, `C81_recursion` |
| C82 | Arithmetic expressions with floating-point numbers | proved | `C82_numbers` |
| C83 | Interactive shell | proved | `C83_session`, `C83_mistake`, `C83_rounds`, `C83_macro_wrong`, `C83_parameter_wrong`, `C83_brace_wrong`, `C83_name_wrong`, `C83_place_wrong`, `C83_return_wrong` |
| C84 | Programs with dictionaries | proved | `C84_located`, `C84_hit`, `C84_set`, `C84_remove`, `C84_words`, `C84_shared` |
| C85 | A session with the debugger | proved | `C85_file`, `C85_text` |
| C86 | Programs that import modules | proved | `C86_modules`, `C86_twice` |
| C87 | The standard library file, imported as it is shipped | proved | `C87_import`, `C87_value`, `C87_call`, `C87_find`, `C87_length`, `C87_second`, `C87_platform`, `C87_arg_list`, `C87_foreach`, `C87_dotimes` |
| C88 | Inspecting a stopped program | proved | `C88_break`, `C88_stack`, `C88_stack_exists`, `C88_up_down`, `C88_vars`, `C88_locals`, `C88_builtins`, `C88_funcs`, `C88_macros`, `C88_doc`, `C88_expression`, `C88_exit`, `C88_brace_wrong` |
| C89 | Interpreters are independent, programs change only what they can reach | proved | `C89_script`, `C89_debug`, `C89_eval`, `C89_call`, `C89_create`, `C89_save`, `C89_program`, `C89_disjoint`, `C89_interpreters`, `C89_interpreters_debug` |
| C90 | Only files that may be written change, and none disappears | proved | `C90_eval`, `C90_call`, `C90_script`, `C90_debug`, `C90_program`, `C90_read_only` |
| C91 | A function never changes | proved | `C91_eval`, `C91_call`, `C91_script`, `C91_debug`, `C91_program`, `C91_scopes_eval`, `C91_scopes_call`, `C91_scopes_script`, `C91_body_wrong` |

## 4. Trusted base

* The Lean 4.33.0 kernel. Every theorem depends on at most the axioms `propext`, `Classical.choice` and `Quot.sound`;
  there are no axioms of our own, no `sorry`, no `native_decide` and no `bv_decide`. Some concrete examples and
  negative theorems about whole scripts are computed by the kernel (`decide +kernel`).
* The reading of the C++ code recorded in the comments of the model. It was validated (outside of this repository) by running
  the assertions of the project's own `InterpreterTests.cpp` through the executable model: 168 assertions agree,
  the other 5 need .NET, standard input or the text of a stack dump.
* The specifications in `Spec*`, which are meant to be read.
* The compiler and the C++ library: the model is of the abstract machine, sizes of containers are assumed to fit in `size_t`.

## 5. Not modelled

* The C# and Haxe versions, the Qt user interfaces and build scripts; .NET reflection (`call`, `register-native` are absent in C++).
* The text of the call stack stored in exceptions (`Data["StackInfo"]`); where the program prints it, it is a parameter.
  Its computation (`DumpStackToString`) formats the names of functions and modules; the model assumes that this does not fail (it could only fail
  if such a name contains a placeholder in curly brackets or is `##<NULL>##`).
* A run under the debugger (`-d`) is modelled (`DebugRun`), with these simplifications: the wish to restart is dropped as in the code;
  the number of restarts by `DebuggerLoop` is bounded by the budget of the model.
* A dictionary whose keys are not consistently ordered (`std::map` with an invalid comparator, C25_mixed_wrong): `unmodelled`.
* A global scope whose table of modules was deleted by the script (`###modules###`): `unmodelled`.
* Files: whether a file can be written does not change during a run, nobody else changes the files, and a write is never cut off (full disk).
* Loops over live container references iterate over the contents at the start of the loop.
* The order of evaluation of operands of one C++ expression, where C++ leaves it open, is left to right.
* The size of the C++ stack: a recursion without end uses up every budget of the model, the real program ends with a stack overflow.
* Floating-point arithmetic itself (parameters), see section 1.

## 6. Defects of the code that are proved

Where the natural English property is false of the code, properties.jsonl says so in parentheses and a theorem proves the
negation for a concrete or general case:

* `C04_empty_comment_wrong`: An empty comment swallows the rest of the text.
* `C04_unterminated_comment_wrong`: The text of a comment without a newline at its end is read as code.
* `C06_quote_quote_wrong`: It is false for two quote characters in sequence: what follows is taken instead, `(''a b)` is read as `('b)`.
* `C07_empty_wrong`: And also for a text without any token.
* `C07_quote_wrong`: With quote characters there is undefined behaviour, although the brackets are balanced: `(a ')`.
* `C08_semicolon_in_string_wrong`: A semicolon inside of a string literal is counted as a line end.
* `C11_split_long_wrong`: Splitting at a longer separator steps over one character only, so that the pieces do not give the text back.
* `C12_search_len_wrong`: Out-of-range arguments raise no exception if the given length is that of the needle plus at least 2: bytes behind the needle are read. If it is that plus 1, the zero byte behind the needle is part of what is searched.
* `C13_format_nested_wrong`: An argument that contains a placeholder is substituted again.
* `C13_format_repeated_wrong`: Only the first of two equal placeholders is replaced.
* `C13_format_width_wrong`: A width that is no number raises a native exception instead of a message of the interpreter.
* `C16_no_argument_wrong`: Without arguments there is no result (a null pointer), which makes the caller fail.
* `C17_bool_wrong`: Next to a string a boolean is shown as `true` although its text is `#t` everywhere else.
* `C17_string_of_numbers_wrong`: `(string 1 2)` is the number 3.
* `C18_equal_wrong`: <= and >= do not agree with == for a text and a number: a text without a number is both <= 0 and >= 0, but it is not equal to 0.
* `C19_nested_wrong`: Lists nested in lists are compared by the identity of their elements. The lists `((1))` and `((1))` created independently are different.
* `C19_symbol_in_list_wrong`: As elements of lists a symbol and a string with the same text are equal, although they are different by themselves.
* `C19_transitive_wrong`: So == is not transitive: `1` is equal to `#t` and `#t` to `"#t"`, but `1` is not equal to `"#t"`.
* `C24_mode_wrong`: If an exception is raised while the place is evaluated, the scope stays in place mode; from then on `first` gives no elements any more but a value that is written as `?`.
* `C24_nested_wrong`: Places cannot be nested, and `first`, `last` and `nth` cannot be used for the position.
* `C24_out_of_range_wrong`: The position is not checked. Assigning to a position behind the end of the list is undefined behaviour.
* `C25_mixed_wrong`: Keys of different types are excluded in C25 because the order by which the entries are kept is not transitive for them.
* `C25_no_dictionary_wrong`: The dictionary functions do not check their first argument: with a number, truth value or text instead of a dictionary the behaviour is undefined, no exception is raised.
* `C26_dict_wrong`: A stored dictionary comes back as the undefined value.
* `C26_nil_wrong`: Getting a stored nil dereferences a null pointer.
* `C26_symbol_wrong`: A stored symbol comes back as a string.
* `C29_shadowed_wrong`: If a name is bound in an enclosing function and globally, an assignment in the inner function changes the variable of the enclosing function, but the inner function goes on to see the global variable.
* `C31_toplevel_wrong`: C31 is about functions: in a scope that does not belong to a call, the top level for example, `args`, `argscount` and `arg` have undefined behaviour (a null pointer is dereferenced), whatever position is asked for.
* `C36_or_wrong`: `(or a b ...)` is wrong: if the first operand is false, the result is `#f` whatever the other operands are; they are not evaluated.
* `C39_toplevel_wrong`: After a return at top level, every later script on the same scope stops after its first statement.
* `C41_two_wrong`: In a list of exactly two elements nothing is replaced.
* `C42_nil_wrong`: NIL becomes the empty list, also in a quotation.
* `C42_variable_wrong`: It is false if the first element of a list is the name of a variable that is not a function, even in a quotation: there is no macro `x`, but the expansion of `(quote (x 1))` raises an exception as soon as `x` is defined.
* `C43_capture_wrong`: An argument that mentions a later parameter is replaced as well: with `b` = 7 the call `(m b 5)` is `(list 5 5)`.
* `C43_string_wrong`: String literals that are equal to the name of a parameter are replaced as well.
* `C44_brace_wrong`: The negation of C44 for curly brackets in the value of a failing conversion: the native exception `std::invalid_argument` escapes.
* `C44_module_wrong`: The negation of C44 for the module name `##<NULL>##`: a Lisp exception escapes.
* `C44_native_wrong`: The negation of C44 for native exceptions: a number literal that does not fit escapes.
* `C44_placeholder_wrong`: The negation of C44 for curly brackets in the message: the report shows the line number in place of the function name.
* `C45_exception_wrong`: After an exception inside a function the caller still refers to the abandoned scope.
* `C45_flag_wrong`: After an exception during the evaluation of a place in an assignment the place flag stays set, so that `first` returns a place instead of the value.
* `C48_twice_wrong`: `do` and `if` are registered twice.
* `C50_no_answer_wrong`: If the input ends without an answer, the program asks forever: whatever number of questions is granted, it is used up.
* `C50_smallest_wrong`: For the smallest integer the computation of the index overflows.
* `C51_first_line_wrong`: C51 does not hold for conditions in the first line: if the first breakpoint for the first line of the module has a condition, whatever it is, and the main program is about to make a call in this line, then the debugger never answers: the evaluation of the condition asks for the same condition again, and every budget of nested calls is exhausted.
* `C53_lib_wrong`: The negation of C53 for the library path: it is refused if another argument follows, although only one is given.
* `C53_no_script_wrong`: `-e` without a script is undefined behaviour.
* `C53_script_position_wrong`: With `-e` the first argument that is no option is the script, also if it stands before `-e`.
* `C59_int_wrong`: `(int x)` of NIL, of an undefined value, a list, a function, a symbol or a dictionary is the number 0, as if `x` were 0.
* `C62_nested_wrong`: A list that has been put together from lists with `list` is not evaluated like the same code that is quoted: the inner lists are taken as values (an exception ends the script).
* `C63_unchecked_wrong`: `return`, `trace` and `sleep` do not check; without argument the behaviour is undefined (they read behind the end of the argument list).
* `C64_variable_wrong`: The entry in the table of modules is a copy of the scope of the module, which the functions of the module do not see: after a function of the module has changed a variable of the module, the importing script still sees the old value.
* `C66_function_wrong`: The recorded text belongs to the scope: what a function prints is not recorded.
* `C66_off_wrong`: `(trace #f)` does not stop the recording, and texts are recorded before `(trace #t)`.
* `C67_evalstr_wrong`: `evalstr` at top level switches the trace off, for the rest of the script.
* `C70_nested_wrong`: Lists put together with `list` become code only one level deep: the inner list is evaluated as code, the list in the inner list is taken as a value (an exception ends the second script).
* `C70_number_wrong`: A macro whose body gives a number is not replaced by the number: the number is taken for a list.
* `C71_lambda_wrong`: A function without name that is created after a definition in the same scope has the documentation of that definition.
* `C71_no_list_wrong`: C71 needs a list of parameters: if there is anything else in its place, a number for example, then `defn` and `gdefn` have undefined behaviour (the value is read as a list), instead of raising an exception.
* `C72_variable_wrong`: The documentation cannot be searched if a selected name is a variable that is not a function (an exception) or if a macro is defined (a null pointer is dereferenced).
* `C73_bool_key_wrong`: The number 1 and the truth value in a list and as a key: a truth value is `#t`, but as a key of a dictionary it is `true`.
* `C73_empty_wrong`: An empty text at the beginning is printed without the blank that follows every other text.
* `C74_brace_wrong`: A script line with the text `{4}` cannot be listed; the command raises an exception.
* `C74_evalstr_short_wrong`: If a script given to `evalstr` is shorter than nine characters, the listing raises a native exception.
* `C74_evalstr_wrong`: A script given to `evalstr` in module `m` is listed without its first nine characters.
* `C74_quote_wrong`: A module name without its closing quotation mark raises a native exception.
* `C76_null_wrong`: Stepping into a function whose body was computed by the program dereferences a null pointer, although the program runs well without debugger.
* `C76_position_wrong`: At a breakpoint with a condition the debugger shows the position of the condition instead of the position of the program.
* `C76_restart_wrong`: `restart`, typed where the program stopped, does not start the program again: it goes on, as after `run`.
* `C77_literal_range_wrong`: A word that starts with a decimal integer outside of the 32-bit range raises `std::out_of_range`, even if the word is a floating-point number.
* `C78_brackets_wrong`: The same happens if the value contains a place holder that the message does not use.
* `C78_null_wrong`: The text `##<NULL>##` stands for "no argument" in the function that makes the messages, so the message of a wrong value with this text is another one.
* `C79_existing_wrong`: If the variable exists already in the current scope (also as the parameter of the function), the expansion of the macro fails, because it takes the list `(i 3)` for a call of `i`.
* `C83_brace_wrong`: A result with a brace that looks like a placeholder of the format text is not shown.
* `C83_macro_wrong`: The definition of a macro has no result, and the shell reads through a null pointer to show it.
* `C83_name_wrong`: The name of a variable alone is no line of code.
* `C83_parameter_wrong`: A parameter with the name of a global variable that is no function: the list of the parameters is taken for a call when the macros of the line are expanded.
* `C83_place_wrong`: After an error in the place of an assignment the shell does not show values any more: the scope still evaluates to places.
* `C83_return_wrong`: After a line with `return` only the first expression of every line is executed.
* `C88_brace_wrong`: A placeholder in the text of a variable is filled in, so `{2}` is shown as the type.
* `C91_body_wrong`: C91 does not hold for the code in the body: a list from which a function was made with `eval` is its body, and `push` to this list changes what the function computes.

## 7. Tests against wrong programs

`seeded/LOG.jsonl` records, for each realistic edit of the model in a scratch copy, which theorems failed to build. Where an
edit survived, the entry names the theorems that were tightened afterwards. A note marks the attempts that were
inconclusive or whose build stopped before it reached the theorem aimed at; C90 and C91 have no conclusive attempt of
their own yet.
