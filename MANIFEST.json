{
 "claims": [
  {
   "property": "C01",
   "status": "proved",
   "theorems": [
    "L1.C01_read_back",
    "L1.C01_print_injective",
    "L1.C01_readable_exactly"
   ],
   "note": ""
  },
  {
   "property": "C02",
   "status": "proved",
   "theorems": [
    "L1.C02_grammar",
    "L1.C02_unambiguous",
    "L1.C02_append"
   ],
   "note": ""
  },
  {
   "property": "C03",
   "status": "proved",
   "theorems": [
    "L1.C03_terminates",
    "L1.C03_crash_only",
    "L1.C03_crash"
   ],
   "note": ""
  },
  {
   "property": "C04",
   "status": "proved",
   "theorems": [
    "L1.C04_text",
    "L1.C04_load",
    "L1.C04_command_line",
    "L1.C04_script",
    "L1.C04_repl"
   ],
   "note": ""
  },
  {
   "property": "C05",
   "status": "proved",
   "theorems": [
    "L1.C05_sugar"
   ],
   "note": ""
  },
  {
   "property": "C06",
   "status": "proved",
   "theorems": [
    "L1.C06_trailing_space",
    "L1.C06_comment",
    "L1.C06_leading_space",
    "L1.C06_blank_line_tokens",
    "L1.C06_blank_line"
   ],
   "note": ""
  },
  {
   "property": "C07",
   "status": "proved",
   "theorems": [
    "L1.C07_complete",
    "L1.C07_too_many",
    "L1.C07_eof",
    "L1.C07_turn"
   ],
   "note": ""
  },
  {
   "property": "C08",
   "status": "proved",
   "theorems": [
    "L1.C08_equal",
    "L1.C08_function",
    "L1.C08_none",
    "L1.C08_written"
   ],
   "note": ""
  },
  {
   "property": "C09",
   "status": "proved",
   "theorems": [
    "L1.C09_add",
    "L1.C09_mul",
    "L1.C09_neg",
    "L1.C09_sub",
    "L1.C09_sub_none",
    "L1.C09_type_error",
    "L1.C09_cases",
    "L1.C09_written",
    "L1.C09_written_error",
    "L1.builtin_call"
   ],
   "note": "Stated for the application of the native function; builtin_call links it to the written call."
  },
  {
   "property": "C10",
   "status": "proved",
   "theorems": [
    "L1.C10_div",
    "L1.C10_div2",
    "L1.C10_div_zero",
    "L1.C10_div_type",
    "L1.C10_rem",
    "L1.C10_rem_zero",
    "L1.C10_identity",
    "L1.C10_written"
   ],
   "note": ""
  },
  {
   "property": "C11",
   "status": "proved",
   "theorems": [
    "L1.C11_chain",
    "L1.C11_nonnumber",
    "L1.C11_first",
    "L1.C11_written"
   ],
   "note": ""
  },
  {
   "property": "C12",
   "status": "proved",
   "theorems": [
    "L1.C12_isqrt",
    "L1.C12_negative",
    "L1.C12_written"
   ],
   "note": ""
  },
  {
   "property": "C13",
   "status": "proved",
   "theorems": [
    "L1.C13_cons",
    "L1.C13_car_cdr_other",
    "L1.C13_eta",
    "L1.C13_list",
    "L1.C13_len",
    "L1.C13_len_other",
    "L1.C13_predicates",
    "L1.C13_predicates_arity",
    "L1.C13_written",
    "L1.C13_written_predicates"
   ],
   "note": ""
  },
  {
   "property": "C14",
   "status": "proved",
   "theorems": [
    "L1.C14_atom",
    "L1.C14_nat",
    "L1.C14_negative",
    "L1.C14_written"
   ],
   "note": ""
  },
  {
   "property": "C15",
   "status": "proved",
   "theorems": [
    "L1.C15_bytes",
    "L1.C15_sort",
    "L1.C15_error",
    "L1.C15_message",
    "L1.C15_written"
   ],
   "note": ""
  },
  {
   "property": "C16",
   "status": "proved",
   "theorems": [
    "L1.C16_shuffle",
    "L1.C16_error",
    "L1.C16_onto",
    "L1.C16_written"
   ],
   "note": ""
  },
  {
   "property": "C17",
   "status": "proved",
   "theorems": [
    "L1.C17_apply",
    "L1.C17_builtin",
    "L1.C17_not_list"
   ],
   "note": ""
  },
  {
   "property": "C18",
   "status": "proved",
   "theorems": [
    "L1.C18_bound",
    "L1.C18_builtin",
    "L1.C18_unknown",
    "L1.C18_cases",
    "L1.C18_always"
   ],
   "note": ""
  },
  {
   "property": "C19",
   "status": "proved",
   "theorems": [
    "L1.C19_never_bound",
    "L1.C19_never_bound_final",
    "L1.C19_eval_t",
    "L1.C19_def_t",
    "L1.C19_set_t",
    "L1.C19_defn_t",
    "L1.C19_let_t",
    "L1.C19_param_t"
   ],
   "note": ""
  },
  {
   "property": "C20",
   "status": "proved",
   "theorems": [
    "L1.C20_def",
    "L1.C20_def_error",
    "L1.C20_defn",
    "L1.C20_defmacro",
    "L1.C20_one_top"
   ],
   "note": ""
  },
  {
   "property": "C21",
   "status": "proved",
   "theorems": [
    "L1.C21_set",
    "L1.C21_unbound",
    "L1.C21_visible"
   ],
   "note": ""
  },
  {
   "property": "C22",
   "status": "proved",
   "theorems": [
    "L1.C22_scopes_kept",
    "L1.C22_names_kept"
   ],
   "note": ""
  },
  {
   "property": "C23",
   "status": "proved",
   "theorems": [
    "L1.C23_no_dangling"
   ],
   "note": ""
  },
  {
   "property": "C24",
   "status": "proved",
   "theorems": [
    "L1.C24_lexical",
    "L1.C24_capture"
   ],
   "note": ""
  },
  {
   "property": "C25",
   "status": "proved",
   "theorems": [
    "L1.C25_arity",
    "L1.C25_call",
    "L1.C25_params",
    "L1.C25_t"
   ],
   "note": ""
  },
  {
   "property": "C26",
   "status": "proved",
   "theorems": [
    "L1.C26_no_value",
    "L1.C26_let",
    "L1.C26_let_empty",
    "L1.C26_let_error",
    "L1.C26_invisible"
   ],
   "note": ""
  },
  {
   "property": "C27",
   "status": "proved",
   "theorems": [
    "L1.C27_quote",
    "L1.C27_quote_extra",
    "L1.C27_eval",
    "L1.C27_eval_quote"
   ],
   "note": ""
  },
  {
   "property": "C28",
   "status": "proved",
   "theorems": [
    "L1.C28_first_true",
    "L1.C28_none_true",
    "L1.C28_condition_error",
    "L1.C28_bad_clause"
   ],
   "note": ""
  },
  {
   "property": "C29",
   "status": "proved",
   "theorems": [
    "L1.C29_and_true",
    "L1.C29_and_false",
    "L1.C29_and_error",
    "L1.C29_or_false",
    "L1.C29_or_true",
    "L1.C29_or_error"
   ],
   "note": ""
  },
  {
   "property": "C30",
   "status": "proved",
   "theorems": [
    "L1.C30_tail_step",
    "L1.C30_tail_calls",
    "L1.C30_loop",
    "L1.C30_count",
    "L1.C30_not_tail"
   ],
   "note": ""
  },
  {
   "property": "C31",
   "status": "proved",
   "theorems": [
    "L1.C31_proper_list",
    "L1.C31_step",
    "L1.C31_step_list",
    "L1.C31_last",
    "L1.C31_error",
    "L1.C31_in_function",
    "L1.C31_in_argument",
    "L1.C31_in_builtin"
   ],
   "note": ""
  },
  {
   "property": "C32",
   "status": "proved",
   "theorems": [
    "L1.C32_no_error",
    "L1.C32_caught",
    "L1.C32_catch_body_error",
    "L1.C32_empty_catch",
    "L1.C32_no_catch",
    "L1.C32_foreign"
   ],
   "note": ""
  },
  {
   "property": "C33",
   "status": "proved",
   "theorems": [
    "L1.C33_no_error",
    "L1.C33_error",
    "L1.C33_never_error"
   ],
   "note": ""
  },
  {
   "property": "C34",
   "status": "proved",
   "theorems": [
    "L1.C34_no_value",
    "L1.C34_turn",
    "L1.C34_error"
   ],
   "note": ""
  },
  {
   "property": "C35",
   "status": "proved",
   "theorems": [
    "L1.C35_template",
    "L1.C35_effects"
   ],
   "note": ""
  },
  {
   "property": "C36",
   "status": "proved",
   "theorems": [
    "L1.C36_expansion",
    "L1.C36_repeated",
    "L1.C36_unevaluated",
    "L1.C36_arity",
    "L1.C36_error",
    "L1.C36_macroexpand1",
    "L1.C36_macroexpand1_other",
    "L1.C36_written"
   ],
   "note": ""
  },
  {
   "property": "C37",
   "status": "proved",
   "theorems": [
    "L1.C37_never_repeats",
    "L1.C37_never_repeats_final",
    "L1.C37_gensym_recorded",
    "L1.C37_two_calls",
    "L1.C37_written"
   ],
   "note": ""
  },
  {
   "property": "C38",
   "status": "proved",
   "theorems": [
    "L1.C38_cxr"
   ],
   "note": ""
  },
  {
   "property": "C39",
   "status": "proved",
   "theorems": [
    "L1.C39_concat2",
    "L1.C39_concat",
    "L1.C39_concat_dotted",
    "L1.C39_reverse",
    "L1.C39_nth",
    "L1.C39_nth_negative",
    "L1.C39_last",
    "L1.C39_first",
    "L1.C39_second",
    "L1.C39_take",
    "L1.C39_take_negative",
    "L1.C39_drop",
    "L1.C39_drop_negative",
    "L1.C39_take_drop",
    "L1.C39_butlast",
    "L1.C39_range",
    "L1.C39_repeat",
    "L1.C39_list_star",
    "L1.C39_interpose",
    "L1.C39_flatten",
    "L1.C39_enumerate",
    "L1.C39_identity",
    "L1.C39_map",
    "L1.C39_mapcat",
    "L1.C39_filter",
    "L1.C39_remove",
    "L1.C39_reduce",
    "L1.C39_reduce_init",
    "L1.C39_reduce_empty",
    "L1.C39_some",
    "L1.C39_every",
    "L1.C39_repeatedly",
    "L1.C39_not_equal",
    "L1.C39_complement",
    "L1.C39_constantly",
    "L1.C39_partial",
    "L1.C39_juxt",
    "L1.C39_comp"
   ],
   "note": ""
  },
  {
   "property": "C40",
   "status": "proved",
   "theorems": [
    "L1.C40_inc",
    "L1.C40_dec",
    "L1.C40_zero",
    "L1.C40_pos",
    "L1.C40_neg",
    "L1.C40_even",
    "L1.C40_odd",
    "L1.C40_abs",
    "L1.C40_power",
    "L1.C40_max",
    "L1.C40_min"
   ],
   "note": ""
  },
  {
   "property": "C41",
   "status": "proved",
   "theorems": [
    "L1.C41_if",
    "L1.C41_if_not",
    "L1.C41_if_not_cases",
    "L1.C41_progn",
    "L1.C41_when",
    "L1.C41_when_body",
    "L1.C41_when_not",
    "L1.C41_when_not_cases",
    "L1.C41_foreach",
    "L1.C41_comment"
   ],
   "note": ""
  },
  {
   "property": "C42",
   "status": "proved",
   "theorems": [
    "L1.C42_all",
    "L1.C42_stops",
    "L1.C42_printing",
    "L1.C42_crash",
    "L1.C42_script",
    "L1.C42_script_ok"
   ],
   "note": ""
  },
  {
   "property": "C43",
   "status": "proved",
   "theorems": [
    "L1.C43_append_only",
    "L1.C43_print",
    "L1.C43_printl",
    "L1.C43_written"
   ],
   "note": ""
  },
  {
   "property": "C44",
   "status": "proved",
   "theorems": [
    "L1.C44_budgets",
    "L1.C44_steps"
   ],
   "note": ""
  },
  {
   "property": "C45",
   "status": "proved",
   "theorems": [
    "L1.C45_not_caught",
    "L1.C45_exit_not_caught",
    "L1.C45_try",
    "L1.C45_swallow",
    "L1.C45_builtins",
    "L1.C45_exact"
   ],
   "note": ""
  },
  {
   "property": "C46",
   "status": "proved",
   "theorems": [
    "L1.C46_source",
    "L1.C46_second_doc",
    "L1.C46_no_source",
    "L1.C46_written"
   ],
   "note": ""
  },
  {
   "property": "C47",
   "status": "proved",
   "theorems": [
    "L1.C47_range",
    "L1.C47_onto",
    "L1.C47_other",
    "L1.C47_written"
   ],
   "note": ""
  },
  {
   "property": "C48",
   "status": "proved",
   "theorems": [
    "L1.C48_not_initialised",
    "L1.C48_initialised",
    "L1.C48_bad_arguments",
    "L1.C48_second_start",
    "L1.C48_start",
    "L1.C48_end",
    "L1.C48_nothing_else",
    "L1.C48_written_off",
    "L1.C48_written_on",
    "L1.C48_written_start_end"
   ],
   "note": ""
  },
  {
   "property": "C49",
   "status": "proved",
   "theorems": [
    "L1.C49_replay_program",
    "L1.C49_replay",
    "L1.C49_no_queries"
   ],
   "note": ""
  },
  {
   "property": "C50",
   "status": "proved",
   "theorems": [
    "L1.C50_upcase",
    "L1.C50_downcase",
    "L1.C50_error",
    "L1.C50_written"
   ],
   "note": ""
  },
  {
   "property": "C51",
   "status": "proved",
   "theorems": [
    "L1.C51_shell",
    "L1.C51_cannot_run",
    "L1.C51_error",
    "L1.C51_written"
   ],
   "note": ""
  },
  {
   "property": "C52",
   "status": "proved",
   "theorems": [
    "L1.C52_forms",
    "L1.C52_syntax",
    "L1.C52_eof",
    "L1.C52_written"
   ],
   "note": ""
  },
  {
   "property": "C53",
   "status": "proved",
   "theorems": [
    "L1.C53_body",
    "L1.C53_body_error",
    "L1.C53_version",
    "L1.C53_written"
   ],
   "note": ""
  },
  {
   "property": "C54",
   "status": "proved",
   "theorems": [
    "L1.C54_errors",
    "L1.C54_none",
    "L1.C54_signature"
   ],
   "note": ""
  },
  {
   "property": "C55",
   "status": "proved",
   "theorems": [
    "L1.C55_pass",
    "L1.C55_fail",
    "L1.C55_empty"
   ],
   "note": ""
  },
  {
   "property": "C56",
   "status": "proved",
   "theorems": [
    "L1.C56_permutation",
    "L1.C56_sorted",
    "L1.C56_error",
    "L1.C56_reason",
    "L1.C56_written"
   ],
   "note": ""
  },
  {
   "property": "C57",
   "status": "proved",
   "theorems": [
    "L1.C57_load",
    "L1.C57_error",
    "L1.C57_unreadable",
    "L1.C57_written"
   ],
   "note": ""
  },
  {
   "property": "C58",
   "status": "proved",
   "theorems": [
    "L1.C58_version",
    "L1.C58_doc_first",
    "L1.C58_no_flags",
    "L1.C58_expr",
    "L1.C58_modes",
    "L1.C58_broken_core"
   ],
   "note": ""
  },
  {
   "property": "C59",
   "status": "proved",
   "theorems": [
    "L1.C59_constants"
   ],
   "note": ""
  },
  {
   "property": "C60",
   "status": "proved",
   "theorems": [
    "L1.C60_line_sound",
    "L1.C60_line_complete",
    "L1.C60_line_unique",
    "L1.C60_text",
    "L1.C60_number"
   ],
   "note": ""
  },
  {
   "property": "C61",
   "status": "proved",
   "theorems": [
    "L1.C61_line_numbers",
    "L1.C61_error",
    "L1.C61_first"
   ],
   "note": ""
  },
  {
   "property": "C62",
   "status": "proved",
   "theorems": [
    "L1.C62_session",
    "L1.C62_unique",
    "L1.C62_main"
   ],
   "note": ""
  },
  {
   "property": "C63",
   "status": "proved",
   "theorems": [
    "L1.C63_private",
    "L1.C63_call"
   ],
   "note": ""
  },
  {
   "property": "C64",
   "status": "proved",
   "theorems": [
    "L1.C64_unused",
    "L1.C64_again"
   ],
   "note": ""
  },
  {
   "property": "C65",
   "status": "proved",
   "theorems": [
    "L1.C65_output",
    "L1.C65_input",
    "L1.C65_world",
    "L1.C65_names",
    "L1.C65_device",
    "L1.C65_caused",
    "L1.C65_any_world",
    "L1.C65_script_input"
   ],
   "note": ""
  },
  {
   "property": "C66",
   "status": "proved",
   "theorems": [
    "L1.C66_variables",
    "L1.C66_caused"
   ],
   "note": ""
  },
  {
   "property": "C67",
   "status": "proved",
   "theorems": [
    "L1.C67_punctuate_atom",
    "L1.C67_marks",
    "L1.C67_capitalize",
    "L1.C67_capitalize_total",
    "L1.C67_punctuate",
    "L1.C67_tosentence",
    "L1.C67_exclaim"
   ],
   "note": ""
  },
  {
   "property": "C68",
   "status": "proved",
   "theorems": [
    "L1.C68_forms",
    "L1.C68_forms_any",
    "L1.C68_special",
    "L1.C68_help",
    "L1.C68_help_any",
    "L1.C68_doc_flag",
    "L1.C68_longdoc_flag"
   ],
   "note": ""
  },
  {
   "property": "C69",
   "status": "proved",
   "theorems": [
    "L1.C69_native",
    "L1.C69_ignored",
    "L1.C69_other",
    "L1.C69_special",
    "L1.C69_extra",
    "L1.C69_written"
   ],
   "note": ""
  },
  {
   "property": "C70",
   "status": "proved",
   "theorems": [
    "L1.C70_map",
    "L1.C70_filter",
    "L1.C70_some",
    "L1.C70_every",
    "L1.C70_repeatedly",
    "L1.C70_reduce",
    "L1.C70_reduce_init",
    "L1.C70_reduce_empty",
    "L1.C70_foreach",
    "L1.C70_map_println"
   ],
   "note": ""
  },
  {
   "property": "C71",
   "status": "proved",
   "theorems": [
    "L1.C71_while",
    "L1.C71_dotimes",
    "L1.C71_dotimes_writes",
    "L1.C71_while_nil",
    "L1.C71_while_forever"
   ],
   "note": ""
  },
  {
   "property": "C72",
   "status": "proved",
   "theorems": [
    "L1.C72_let_star",
    "L1.C72_is",
    "L1.C72_is_equation",
    "L1.C72_with_screen",
    "L1.C72_randigits",
    "L1.C72_randchoice",
    "L1.C72_randchoice_empty",
    "L1.C72_randalpha",
    "L1.C72_true",
    "L1.C72_pi100"
   ],
   "note": ""
  },
  {
   "property": "C73",
   "status": "proved",
   "theorems": [
    "L1.C73_lambda",
    "L1.C73_doc",
    "L1.C73_named",
    "L1.C73_named_t",
    "L1.C73_recursive",
    "L1.C73_bad_params",
    "L1.C73_missing"
   ],
   "note": ""
  },
  {
   "property": "C74",
   "status": "proved",
   "theorems": [
    "L1.C74_write",
    "L1.C74_write_any",
    "L1.C74_sleep",
    "L1.C74_key",
    "L1.C74_append_only",
    "L1.C74_only",
    "L1.C74_written"
   ],
   "note": ""
  },
  {
   "property": "C75",
   "status": "proved",
   "theorems": [
    "L1.C75_let",
    "L1.C75_macro",
    "L1.C75_value"
   ],
   "note": ""
  },
  {
   "property": "C76",
   "status": "proved",
   "theorems": [
    "L1.C76_script",
    "L1.C76_expr",
    "L1.C76_repl",
    "L1.C76_range",
    "L1.C76_exit"
   ],
   "note": ""
  },
  {
   "property": "C77",
   "status": "proved",
   "theorems": [
    "L1.C77_fact",
    "L1.C77_tco",
    "L1.C77_tco_stack",
    "L1.C77_primes",
    "L1.C77_hello",
    "L1.C77_fails",
    "L1.C77_badlex",
    "L1.C77_scripts"
   ],
   "note": ""
  },
  {
   "property": "C78",
   "status": "proved",
   "theorems": [
    "L1.C78_any_head",
    "L1.C78_value",
    "L1.C78_variable"
   ],
   "note": ""
  },
  {
   "property": "C79",
   "status": "proved",
   "theorems": [
    "L1.C79_compiled",
    "L1.C79_expr"
   ],
   "note": ""
  },
  {
   "property": "C80",
   "status": "proved",
   "theorems": [
    "L1.C80_parse",
    "L1.C80_program",
    "L1.C80_status",
    "L1.C80_files",
    "L1.C80_expr",
    "L1.C80_version"
   ],
   "note": ""
  },
  {
   "property": "C81",
   "status": "proved",
   "theorems": [
    "L1.C81_line",
    "L1.C81_terminal",
    "L1.C81_lost",
    "L1.C81_last",
    "L1.C81_long",
    "L1.C81_order",
    "L1.C81_no_newline",
    "L1.C81_program",
    "L1.C81_text"
   ],
   "note": ""
  },
  {
   "property": "C82",
   "status": "proved",
   "theorems": [
    "L1.C82_ends",
    "L1.C82_stack",
    "L1.C82_sequence",
    "L1.C82_program"
   ],
   "note": ""
  },
  {
   "property": "C83",
   "status": "proved",
   "theorems": [
    "L1.C83_list",
    "L1.C83_none",
    "L1.C83_shape",
    "L1.C83_version"
   ],
   "note": ""
  },
  {
   "property": "C84",
   "status": "proved",
   "theorems": [
    "L1.C84_range",
    "L1.C84_nth",
    "L1.C84_drop",
    "L1.C84_last",
    "L1.C84_every",
    "L1.C84_some",
    "L1.C84_reduce",
    "L1.C84_reduce_init",
    "L1.C84_map",
    "L1.C84_map_overflow",
    "L1.C84_filter",
    "L1.C84_filter_overflow",
    "L1.C84_take",
    "L1.C84_take_overflow",
    "L1.C84_concat2",
    "L1.C84_concat2_overflow",
    "L1.C84_repeat",
    "L1.C84_repeat_overflow",
    "L1.C84_reverse_overflow",
    "L1.C84_power",
    "L1.C84_power_overflow"
   ],
   "note": ""
  },
  {
   "property": "C85",
   "status": "proved",
   "theorems": [
    "L1.C85_while",
    "L1.C85_countdown"
   ],
   "note": ""
  },
  {
   "property": "C86",
   "status": "proved",
   "theorems": [
    "L1.C86_rules",
    "L1.C86_native",
    "L1.C86_budgets",
    "L1.C86_enough",
    "L1.C86_determined",
    "L1.C86_endless"
   ],
   "note": ""
  },
  {
   "property": "C87",
   "status": "proved",
   "theorems": [
    "L1.C87_definitions",
    "L1.C87_generate",
    "L1.C87_language",
    "L1.C87_simple",
    "L1.C87_simple_ends",
    "L1.C87_bigger_endless",
    "L1.C87_script",
    "L1.C87_lines"
   ],
   "note": ""
  },
  {
   "property": "C88",
   "status": "proved",
   "theorems": [
    "L1.C88_definitions",
    "L1.C88_match",
    "L1.C88_fits",
    "L1.C88_answer",
    "L1.C88_talk",
    "L1.C88_script"
   ],
   "note": ""
  },
  {
   "property": "C89",
   "status": "proved",
   "theorems": [
    "L1.C89_definitions",
    "L1.C89_frequencies",
    "L1.C89_repetitions",
    "L1.C89_report"
   ],
   "note": ""
  },
  {
   "property": "C90",
   "status": "proved",
   "theorems": [
    "L1.C90_definitions",
    "L1.C90_expr",
    "L1.C90_forever",
    "L1.C90_boolean",
    "L1.C90_value",
    "L1.C90_unique",
    "L1.C90_turn",
    "L1.C90_loop",
    "L1.C90_script"
   ],
   "note": ""
  },
  {
   "property": "C91",
   "status": "proved",
   "theorems": [
    "L1.C91_text",
    "L1.C91_script",
    "L1.C91_news",
    "L1.C91_forms"
   ],
   "note": ""
  },
  {
   "property": "C92",
   "status": "proved",
   "theorems": [
    "L1.C92_screen",
    "L1.C92_no_terminal",
    "L1.C92_script",
    "L1.C92_help"
   ],
   "note": ""
  }
 ]
}