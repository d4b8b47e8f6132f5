{
 "claims": [
  {
   "property": "C01",
   "status": "proved",
   "theorems": [
    "Fuel.C01_total",
    "Fuel.C01_outcomes"
   ],
   "note": ""
  },
  {
   "property": "C02",
   "status": "proved",
   "theorems": [
    "Fuel.C02_string_literal",
    "Fuel.C02_escapes"
   ],
   "note": ""
  },
  {
   "property": "C03",
   "status": "proved",
   "theorems": [
    "Fuel.C03_white_space",
    "Fuel.C03_same_tokens",
    "Fuel.C03_quote_after_word"
   ],
   "note": ""
  },
  {
   "property": "C04",
   "status": "proved",
   "theorems": [
    "Fuel.C04_comment",
    "Fuel.C04_empty_comment_wrong",
    "Fuel.C04_unterminated_comment_wrong"
   ],
   "note": ""
  },
  {
   "property": "C05",
   "status": "proved",
   "theorems": [
    "Fuel.C05_int_literal",
    "Fuel.C05_int_literal_too_big",
    "Fuel.C05_printed_int"
   ],
   "note": ""
  },
  {
   "property": "C06",
   "status": "proved",
   "theorems": [
    "Fuel.C06_read",
    "Fuel.C06_roundtrip",
    "Fuel.C06_injective",
    "Fuel.C06_quote_quote_wrong"
   ],
   "note": ""
  },
  {
   "property": "C07",
   "status": "proved",
   "theorems": [
    "Fuel.C07_accepts",
    "Fuel.C07_reports",
    "Fuel.C07_outcomes",
    "Fuel.C07_quote_wrong",
    "Fuel.C07_empty_wrong"
   ],
   "note": ""
  },
  {
   "property": "C08",
   "status": "proved",
   "theorems": [
    "Fuel.C08_positions",
    "Fuel.C08_semicolon_in_string_wrong"
   ],
   "note": ""
  },
  {
   "property": "C09",
   "status": "proved",
   "theorems": [
    "Fuel.C09_replace"
   ],
   "note": ""
  },
  {
   "property": "C10",
   "status": "proved",
   "theorems": [
    "Fuel.C10_trim",
    "Fuel.C10_trim_idem",
    "Fuel.C10_upper",
    "Fuel.C10_lower"
   ],
   "note": ""
  },
  {
   "property": "C11",
   "status": "proved",
   "theorems": [
    "Fuel.C11_split",
    "Fuel.C11_readline",
    "Fuel.C11_split_long_wrong"
   ],
   "note": "the multi-character separator defect is proved in C11_split_long_wrong"
  },
  {
   "property": "C12",
   "status": "proved",
   "theorems": [
    "Fuel.C12_search_list",
    "Fuel.C12_search_len_wrong",
    "Fuel.C12_len",
    "Fuel.C12_search",
    "Fuel.C12_search_from",
    "Fuel.C12_search_len",
    "Fuel.C12_slice"
   ],
   "note": ""
  },
  {
   "property": "C13",
   "status": "proved",
   "theorems": [
    "Fuel.C13_format_width",
    "Fuel.C13_format_missing",
    "Fuel.C13_format_width_wrong",
    "Fuel.C13_program",
    "Fuel.C13_program_missing",
    "Fuel.C13_format",
    "Fuel.C13_format_repeated_wrong",
    "Fuel.C13_format_nested_wrong"
   ],
   "note": "up to five arguments (the function accepts no more); the argument text ##<NULL>## is reserved by the code; defects proved in the _wrong theorems"
  },
  {
   "property": "C14",
   "status": "proved",
   "theorems": [
    "Fuel.C14_parse_integer",
    "Fuel.C14_roundtrip"
   ],
   "note": ""
  },
  {
   "property": "C15",
   "status": "proved",
   "theorems": [
    "Fuel.C15_add",
    "Fuel.C15_sub",
    "Fuel.C15_mul",
    "Fuel.C15_div",
    "Fuel.C15_mod",
    "Fuel.C15_quotient_exists"
   ],
   "note": ""
  },
  {
   "property": "C16",
   "status": "proved",
   "theorems": [
    "Fuel.C16_left_fold",
    "Fuel.C16_single",
    "Fuel.C16_negate",
    "Fuel.C16_negate_double",
    "Fuel.C16_no_argument_wrong"
   ],
   "note": ""
  },
  {
   "property": "C17",
   "status": "proved",
   "theorems": [
    "Fuel.C17_concat",
    "Fuel.C17_string",
    "Fuel.C17_nil",
    "Fuel.C17_string_of_numbers_wrong",
    "Fuel.C17_bool_wrong"
   ],
   "note": ""
  },
  {
   "property": "C18",
   "status": "proved",
   "theorems": [
    "Fuel.C18_lex_irrefl",
    "Fuel.C18_lex_trans",
    "Fuel.C18_lex_total",
    "Fuel.C18_int",
    "Fuel.C18_string",
    "Fuel.C18_swap",
    "Fuel.C18_equal_wrong"
   ],
   "note": ""
  },
  {
   "property": "C19",
   "status": "proved",
   "theorems": [
    "Fuel.C19_int",
    "Fuel.C19_string",
    "Fuel.C19_symbol",
    "Fuel.C19_bool",
    "Fuel.C19_nil",
    "Fuel.C19_symmetric",
    "Fuel.C19_not_equal",
    "Fuel.C19_lists",
    "Fuel.C19_nested_wrong",
    "Fuel.C19_symbol_in_list_wrong",
    "Fuel.C19_text",
    "Fuel.C19_number_bool",
    "Fuel.C19_other_type",
    "Fuel.C19_transitive_wrong"
   ],
   "note": ""
  },
  {
   "property": "C20",
   "status": "proved",
   "theorems": [
    "Fuel.C20_list",
    "Fuel.C20_cons",
    "Fuel.C20_first",
    "Fuel.C20_rest",
    "Fuel.C20_last",
    "Fuel.C20_empty",
    "Fuel.C20_nth_outside",
    "Fuel.C20_nth",
    "Fuel.C20_len",
    "Fuel.C20_append",
    "Fuel.C20_reverse",
    "Fuel.C20_first_cons",
    "Fuel.C20_rest_cons",
    "Fuel.C20_len_append",
    "Fuel.C20_nth_append",
    "Fuel.C20_reverse_reverse"
   ],
   "note": ""
  },
  {
   "property": "C21",
   "status": "proved",
   "theorems": [
    "Fuel.C21_map",
    "Fuel.C21_reduce"
   ],
   "note": ""
  },
  {
   "property": "C22",
   "status": "proved",
   "theorems": [
    "Fuel.C22_readOnly"
   ],
   "note": ""
  },
  {
   "property": "C23",
   "status": "proved",
   "theorems": [
    "Fuel.C23_push",
    "Fuel.C23_push_end",
    "Fuel.C23_pop",
    "Fuel.C23_pop_end"
   ],
   "note": ""
  },
  {
   "property": "C24",
   "status": "proved",
   "theorems": [
    "Fuel.C24_setf_place",
    "Fuel.C24_out_of_range_wrong",
    "Fuel.C24_mode_wrong",
    "Fuel.C24_nested_wrong"
   ],
   "note": ""
  },
  {
   "property": "C25",
   "status": "proved",
   "theorems": [
    "Fuel.C25_make",
    "Fuel.C25_set",
    "Fuel.C25_remove",
    "Fuel.C25_clear",
    "Fuel.C25_contains_key",
    "Fuel.C25_get_missing",
    "Fuel.C25_keys",
    "Fuel.C25_len",
    "Fuel.C25_history",
    "Fuel.C25_mixed_wrong",
    "Fuel.C25_contains_value",
    "Fuel.C25_shape",
    "Fuel.C25_no_dictionary_wrong"
   ],
   "note": ""
  },
  {
   "property": "C26",
   "status": "proved",
   "theorems": [
    "Fuel.C26_get",
    "Fuel.C26_nil_wrong",
    "Fuel.C26_symbol_wrong",
    "Fuel.C26_dict_wrong"
   ],
   "note": ""
  },
  {
   "property": "C27",
   "status": "proved",
   "theorems": [
    "Fuel.C27_lookup",
    "Fuel.C27_unknown",
    "Fuel.C27_functional",
    "Fuel.C27_total"
   ],
   "note": ""
  },
  {
   "property": "C28",
   "status": "proved",
   "theorems": [
    "Fuel.C28_def",
    "Fuel.C28_gdef",
    "Fuel.C28_setf",
    "Fuel.C28_setf_unknown"
   ],
   "note": ""
  },
  {
   "property": "C29",
   "status": "proved",
   "theorems": [
    "Fuel.C29_setf_lookup",
    "Fuel.C29_shadowed_wrong"
   ],
   "note": ""
  },
  {
   "property": "C30",
   "status": "proved",
   "theorems": [
    "Fuel.C30_call",
    "Fuel.C30_irrelevant",
    "Fuel.C30_fn"
   ],
   "note": ""
  },
  {
   "property": "C31",
   "status": "proved",
   "theorems": [
    "Fuel.C31_call",
    "Fuel.C31_args",
    "Fuel.C31_argscount",
    "Fuel.C31_arg",
    "Fuel.C31_arg_range",
    "Fuel.C31_form",
    "Fuel.C31_toplevel_wrong"
   ],
   "note": ""
  },
  {
   "property": "C32",
   "status": "proved",
   "theorems": [
    "Fuel.C32_chain",
    "Fuel.C32_lookup_ends"
   ],
   "note": ""
  },
  {
   "property": "C33",
   "status": "proved",
   "theorems": [
    "Fuel.C33_debug",
    "Fuel.C33_debug_call",
    "Fuel.C33_shell",
    "Fuel.C33_program",
    "Fuel.C33_eval",
    "Fuel.C33_call",
    "Fuel.C33_expand",
    "Fuel.C33_scriptIn",
    "Fuel.C33_script",
    "Fuel.C33_saveEval",
    "Fuel.C33_deterministic",
    "Fuel.C33_deterministic_script"
   ],
   "note": ""
  },
  {
   "property": "C34",
   "status": "proved",
   "theorems": [
    "Fuel.C34_eval",
    "Fuel.C34_call",
    "Fuel.C34_script",
    "Fuel.C34_save",
    "Fuel.C34_create",
    "Fuel.C34_debug",
    "Fuel.C34_debug_script",
    "Fuel.C34_program",
    "Fuel.C34_session",
    "Fuel.C34_result",
    "Fuel.C34_exists",
    "Fuel.C34_same",
    "Fuel.C34_int",
    "Fuel.C34_read",
    "Fuel.C34_stored",
    "Fuel.C34_variable"
   ],
   "note": ""
  },
  {
   "property": "C35",
   "status": "proved",
   "theorems": [
    "Fuel.C35_if",
    "Fuel.C35_if_then",
    "Fuel.C35_if_no_else",
    "Fuel.C35_condition_fails",
    "Fuel.C35_not_bool",
    "Fuel.C35_not_bool_raises"
   ],
   "note": ""
  },
  {
   "property": "C36",
   "status": "proved",
   "theorems": [
    "Fuel.C36_and",
    "Fuel.C36_and_inv",
    "Fuel.C36_or",
    "Fuel.C36_or_wrong",
    "Fuel.C36_not"
   ],
   "note": ""
  },
  {
   "property": "C37",
   "status": "proved",
   "theorems": [
    "Fuel.C37_while",
    "Fuel.C37_while_inv"
   ],
   "note": ""
  },
  {
   "property": "C38",
   "status": "proved",
   "theorems": [
    "Fuel.C38_do"
   ],
   "note": ""
  },
  {
   "property": "C39",
   "status": "proved",
   "theorems": [
    "Fuel.C39_call",
    "Fuel.C39_toplevel_wrong"
   ],
   "note": ""
  },
  {
   "property": "C40",
   "status": "proved",
   "theorems": [
    "Fuel.C40_quote"
   ],
   "note": ""
  },
  {
   "property": "C41",
   "status": "proved",
   "theorems": [
    "Fuel.C41_quasiquote",
    "Fuel.C41_two_wrong"
   ],
   "note": ""
  },
  {
   "property": "C42",
   "status": "proved",
   "theorems": [
    "Fuel.C42_expand",
    "Fuel.C42_value",
    "Fuel.C42_variable_wrong",
    "Fuel.C42_nil_wrong"
   ],
   "note": ""
  },
  {
   "property": "C43",
   "status": "proved",
   "theorems": [
    "Fuel.C43_macro",
    "Fuel.C43_capture_wrong",
    "Fuel.C43_string_wrong"
   ],
   "note": ""
  },
  {
   "property": "C44",
   "status": "proved",
   "theorems": [
    "Fuel.C44_ok",
    "Fuel.C44_error",
    "Fuel.C44_base_error",
    "Fuel.C44_never",
    "Fuel.C44_native_wrong",
    "Fuel.C44_brace_wrong",
    "Fuel.C44_module_wrong",
    "Fuel.C44_placeholder_wrong"
   ],
   "note": ""
  },
  {
   "property": "C45",
   "status": "proved",
   "theorems": [
    "Fuel.C45_eval",
    "Fuel.C45_call",
    "Fuel.C45_script",
    "Fuel.C45_exception_wrong",
    "Fuel.C45_flag_wrong"
   ],
   "note": ""
  },
  {
   "property": "C46",
   "status": "proved",
   "theorems": [
    "Fuel.C46_arithmetic"
   ],
   "note": ""
  },
  {
   "property": "C47",
   "status": "proved",
   "theorems": [
    "Fuel.C47_println"
   ],
   "note": ""
  },
  {
   "property": "C48",
   "status": "proved",
   "theorems": [
    "Fuel.C48_table",
    "Fuel.C48_new",
    "Fuel.C48_alias",
    "Fuel.C48_twice_wrong",
    "Fuel.C48_meaning"
   ],
   "note": ""
  },
  {
   "property": "C49",
   "status": "proved",
   "theorems": [
    "Fuel.C49_history",
    "Fuel.C49_determined",
    "Fuel.C49_command",
    "Fuel.C49_loop",
    "Fuel.C49_debug",
    "Fuel.C49_stop",
    "Fuel.C49_debug_loop",
    "Fuel.C49_program"
   ],
   "note": ""
  },
  {
   "property": "C50",
   "status": "proved",
   "theorems": [
    "Fuel.C50_clear_all",
    "Fuel.C50_no_answer_wrong",
    "Fuel.C50_clear",
    "Fuel.C50_smallest_wrong",
    "Fuel.C50_command",
    "Fuel.C50_command_text"
   ],
   "note": ""
  },
  {
   "property": "C51",
   "status": "proved",
   "theorems": [
    "Fuel.C51_unconditional",
    "Fuel.C51_none",
    "Fuel.C51_condition",
    "Fuel.C51_bad_condition",
    "Fuel.C51_first_line_wrong"
   ],
   "note": ""
  },
  {
   "property": "C52",
   "status": "proved",
   "theorems": [
    "Fuel.C52_step",
    "Fuel.C52_over",
    "Fuel.C52_over_deeper",
    "Fuel.C52_out",
    "Fuel.C52_out_deeper",
    "Fuel.C52_run",
    "Fuel.C52_commands"
   ],
   "note": ""
  },
  {
   "property": "C53",
   "status": "proved",
   "theorems": [
    "Fuel.C53_option_found",
    "Fuel.C53_option_missing",
    "Fuel.C53_files",
    "Fuel.C53_plan",
    "Fuel.C53_unknown",
    "Fuel.C53_unknown_output",
    "Fuel.C53_version",
    "Fuel.C53_help",
    "Fuel.C53_lib_wrong",
    "Fuel.C53_no_script_wrong",
    "Fuel.C53_script_position_wrong",
    "Fuel.C53_run_report",
    "Fuel.C53_run",
    "Fuel.C53_run_script"
   ],
   "note": ""
  },
  {
   "property": "C54",
   "status": "proved",
   "theorems": [
    "Fuel.C54_debug",
    "Fuel.C54_debug_call",
    "Fuel.C54_debug_loop",
    "Fuel.C54_program",
    "Fuel.C54_eval",
    "Fuel.C54_call",
    "Fuel.C54_scriptIn",
    "Fuel.C54_script",
    "Fuel.C54_input_eval",
    "Fuel.C54_input_scriptIn",
    "Fuel.C54_input",
    "Fuel.C54_saveEval",
    "Fuel.C54_shell"
   ],
   "note": ""
  },
  {
   "property": "C55",
   "status": "proved",
   "theorems": [
    "Fuel.C55_input",
    "Fuel.C55_core"
   ],
   "note": ""
  },
  {
   "property": "C56",
   "status": "proved",
   "theorems": [
    "Fuel.C56_factorial",
    "Fuel.C56_sum"
   ],
   "note": ""
  },
  {
   "property": "C57",
   "status": "proved",
   "theorems": [
    "Fuel.C57_first",
    "Fuel.C57_rest",
    "Fuel.C57_last",
    "Fuel.C57_nth"
   ],
   "note": ""
  },
  {
   "property": "C58",
   "status": "proved",
   "theorems": [
    "Fuel.C58_bits",
    "Fuel.C58_and",
    "Fuel.C58_or",
    "Fuel.C58_xor",
    "Fuel.C58_shr",
    "Fuel.C58_shl",
    "Fuel.C58_not"
   ],
   "note": ""
  },
  {
   "property": "C59",
   "status": "proved",
   "theorems": [
    "Fuel.C59_type",
    "Fuel.C59_typestr",
    "Fuel.C59_one_type",
    "Fuel.C59_int",
    "Fuel.C59_int_wrong",
    "Fuel.C59_float",
    "Fuel.C59_sym"
   ],
   "note": ""
  },
  {
   "property": "C60",
   "status": "proved",
   "theorems": [
    "Fuel.C60_write",
    "Fuel.C60_read",
    "Fuel.C60_write_read"
   ],
   "note": ""
  },
  {
   "property": "C61",
   "status": "proved",
   "theorems": [
    "Fuel.C61_delvar"
   ],
   "note": ""
  },
  {
   "property": "C63",
   "status": "proved",
   "theorems": [
    "Fuel.C63_arity",
    "Fuel.C63_if",
    "Fuel.C63_unchecked_wrong"
   ],
   "note": ""
  },
  {
   "property": "C65",
   "status": "proved",
   "theorems": [
    "Fuel.C65_arith",
    "Fuel.C65_compare",
    "Fuel.C65_math",
    "Fuel.C65_pow"
   ],
   "note": ""
  },
  {
   "property": "C66",
   "status": "proved",
   "theorems": [
    "Fuel.C66_trace",
    "Fuel.C66_print",
    "Fuel.C66_gettrace",
    "Fuel.C66_new",
    "Fuel.C66_off_wrong",
    "Fuel.C66_function_wrong"
   ],
   "note": ""
  },
  {
   "property": "C67",
   "status": "proved",
   "theorems": [
    "Fuel.C67_special",
    "Fuel.C67_call",
    "Fuel.C67_switch",
    "Fuel.C67_evalstr_wrong"
   ],
   "note": ""
  },
  {
   "property": "C62",
   "status": "proved",
   "theorems": [
    "Fuel.C62_list",
    "Fuel.C62_value",
    "Fuel.C62_constant",
    "Fuel.C62_symbol",
    "Fuel.C62_evalstr",
    "Fuel.C62_apply",
    "Fuel.C62_nested_wrong"
   ],
   "note": ""
  },
  {
   "property": "C64",
   "status": "proved",
   "theorems": [
    "Fuel.C64_import",
    "Fuel.C64_names",
    "Fuel.C64_variable_wrong"
   ],
   "note": ""
  },
  {
   "property": "C69",
   "status": "proved",
   "theorems": [
    "Fuel.C69_rval",
    "Fuel.C69_value",
    "Fuel.C69_need"
   ],
   "note": ""
  },
  {
   "property": "C70",
   "status": "proved",
   "theorems": [
    "Fuel.C70_executed",
    "Fuel.C70_define",
    "Fuel.C70_elements",
    "Fuel.C70_call",
    "Fuel.C70_number_wrong",
    "Fuel.C70_nested_wrong"
   ],
   "note": ""
  },
  {
   "property": "C71",
   "status": "proved",
   "theorems": [
    "Fuel.C71_no_list_wrong",
    "Fuel.C71_defn",
    "Fuel.C71_lambda_wrong"
   ],
   "note": ""
  },
  {
   "property": "C72",
   "status": "proved",
   "theorems": [
    "Fuel.C72_doc",
    "Fuel.C72_searchdoc",
    "Fuel.C72_all",
    "Fuel.C72_html",
    "Fuel.C72_variable_wrong"
   ],
   "note": ""
  },
  {
   "property": "C68",
   "status": "proved",
   "theorems": [
    "Fuel.C68_help",
    "Fuel.C68_version",
    "Fuel.C68_tickcount",
    "Fuel.C68_datetime",
    "Fuel.C68_platform",
    "Fuel.C68_nothing"
   ],
   "note": ""
  },
  {
   "property": "C74",
   "status": "proved",
   "theorems": [
    "Fuel.C74_list",
    "Fuel.C74_code",
    "Fuel.C74_break",
    "Fuel.C74_evalstr_wrong",
    "Fuel.C74_evalstr_short_wrong",
    "Fuel.C74_brace_wrong",
    "Fuel.C74_quote_wrong"
   ],
   "note": ""
  },
  {
   "property": "C73",
   "status": "proved",
   "theorems": [
    "Fuel.C73_unique",
    "Fuel.C73_str",
    "Fuel.C73_print",
    "Fuel.C73_println",
    "Fuel.C73_bool_key_wrong",
    "Fuel.C73_empty_wrong"
   ],
   "note": ""
  },
  {
   "property": "C75",
   "status": "proved",
   "theorems": [
    "Fuel.C75_platform",
    "Fuel.C75_dict_len",
    "Fuel.C75_arg_list_with_obj",
    "Fuel.C75_second",
    "Fuel.C75_length",
    "Fuel.C75_find",
    "Fuel.C75_arg_list",
    "Fuel.C75_foreach",
    "Fuel.C75_find_script",
    "Fuel.C75_foreach_script"
   ],
   "note": ""
  },
  {
   "property": "C76",
   "status": "proved",
   "theorems": [
    "Fuel.C76_same_result",
    "Fuel.C76_run",
    "Fuel.C76_free",
    "Fuel.C76_prompt",
    "Fuel.C76_restart_wrong",
    "Fuel.C76_position_wrong",
    "Fuel.C76_null_wrong"
   ],
   "note": ""
  },
  {
   "property": "C77",
   "status": "proved",
   "theorems": [
    "Fuel.C77_parse_float",
    "Fuel.C77_literal",
    "Fuel.C77_symbol",
    "Fuel.C77_literal_range_wrong"
   ],
   "note": ""
  },
  {
   "property": "C78",
   "status": "proved",
   "theorems": [
    "Fuel.C78_error",
    "Fuel.C78_exclusive",
    "Fuel.C78_unknown",
    "Fuel.C78_deep",
    "Fuel.C78_null_wrong",
    "Fuel.C78_brackets_wrong"
   ],
   "note": ""
  },
  {
   "property": "C79",
   "status": "proved",
   "theorems": [
    "Fuel.C79_dotimes",
    "Fuel.C79_dotimes_counts",
    "Fuel.C79_setq",
    "Fuel.C79_dotimes_script",
    "Fuel.C79_existing_wrong"
   ],
   "note": ""
  },
  {
   "property": "C80",
   "status": "proved",
   "theorems": [
    "Fuel.C80_slice",
    "Fuel.C80_push_pop",
    "Fuel.C80_search",
    "Fuel.C80_arith",
    "Fuel.C80_compare"
   ],
   "note": ""
  },
  {
   "property": "C81",
   "status": "proved",
   "theorems": [
    "Fuel.C81_forever",
    "Fuel.C81_output",
    "Fuel.C81_exclusive",
    "Fuel.C81_while",
    "Fuel.C81_println",
    "Fuel.C81_recursion"
   ],
   "note": ""
  },
  {
   "property": "C82",
   "status": "proved",
   "theorems": [
    "Fuel.C82_numbers"
   ],
   "note": ""
  },
  {
   "property": "C83",
   "status": "proved",
   "theorems": [
    "Fuel.C83_session",
    "Fuel.C83_mistake",
    "Fuel.C83_rounds",
    "Fuel.C83_macro_wrong",
    "Fuel.C83_parameter_wrong",
    "Fuel.C83_brace_wrong",
    "Fuel.C83_name_wrong",
    "Fuel.C83_place_wrong",
    "Fuel.C83_return_wrong"
   ],
   "note": ""
  },
  {
   "property": "C84",
   "status": "proved",
   "theorems": [
    "Fuel.C84_located",
    "Fuel.C84_hit",
    "Fuel.C84_set",
    "Fuel.C84_remove",
    "Fuel.C84_words",
    "Fuel.C84_shared"
   ],
   "note": ""
  },
  {
   "property": "C85",
   "status": "proved",
   "theorems": [
    "Fuel.C85_file",
    "Fuel.C85_text"
   ],
   "note": ""
  },
  {
   "property": "C86",
   "status": "proved",
   "theorems": [
    "Fuel.C86_modules",
    "Fuel.C86_twice"
   ],
   "note": ""
  },
  {
   "property": "C87",
   "status": "proved",
   "theorems": [
    "Fuel.C87_import",
    "Fuel.C87_value",
    "Fuel.C87_call",
    "Fuel.C87_find",
    "Fuel.C87_length",
    "Fuel.C87_second",
    "Fuel.C87_platform",
    "Fuel.C87_arg_list",
    "Fuel.C87_foreach",
    "Fuel.C87_dotimes"
   ],
   "note": ""
  },
  {
   "property": "C88",
   "status": "proved",
   "theorems": [
    "Fuel.C88_break",
    "Fuel.C88_stack",
    "Fuel.C88_stack_exists",
    "Fuel.C88_up_down",
    "Fuel.C88_vars",
    "Fuel.C88_locals",
    "Fuel.C88_builtins",
    "Fuel.C88_funcs",
    "Fuel.C88_macros",
    "Fuel.C88_doc",
    "Fuel.C88_expression",
    "Fuel.C88_exit",
    "Fuel.C88_brace_wrong"
   ],
   "note": ""
  },
  {
   "property": "C89",
   "status": "proved",
   "theorems": [
    "Fuel.C89_script",
    "Fuel.C89_debug",
    "Fuel.C89_eval",
    "Fuel.C89_call",
    "Fuel.C89_create",
    "Fuel.C89_save",
    "Fuel.C89_program",
    "Fuel.C89_disjoint",
    "Fuel.C89_interpreters",
    "Fuel.C89_interpreters_debug"
   ],
   "note": ""
  },
  {
   "property": "C90",
   "status": "proved",
   "theorems": [
    "Fuel.C90_eval",
    "Fuel.C90_call",
    "Fuel.C90_script",
    "Fuel.C90_debug",
    "Fuel.C90_program",
    "Fuel.C90_read_only"
   ],
   "note": ""
  },
  {
   "property": "C91",
   "status": "proved",
   "theorems": [
    "Fuel.C91_eval",
    "Fuel.C91_call",
    "Fuel.C91_script",
    "Fuel.C91_debug",
    "Fuel.C91_program",
    "Fuel.C91_scopes_eval",
    "Fuel.C91_scopes_call",
    "Fuel.C91_scopes_script",
    "Fuel.C91_body_wrong"
   ],
   "note": ""
  }
 ]
}