{
 "claims": [
  {
   "property": "C01",
   "status": "proved",
   "theorems": [
    "Undname.Props.C01_never_panics"
   ],
   "note": ""
  },
  {
   "property": "C02",
   "status": "proved",
   "theorems": [
    "Undname.Props.C02_no_undefined_behaviour"
   ],
   "note": ""
  },
  {
   "property": "C03",
   "status": "proved",
   "theorems": [
    "Undname.Props.C03_recursion_bounded",
    "Undname.Props.C03_terminates"
   ],
   "note": ""
  },
  {
   "property": "C04",
   "status": "proved",
   "theorems": [
    "Undname.Props.C04_result_acyclic",
    "Undname.Props.C04_depth",
    "Undname.Props.C04_always_acyclic"
   ],
   "note": ""
  },
  {
   "property": "C05",
   "status": "proved",
   "theorems": [
    "Undname.Props.C05_refused",
    "Undname.Props.C05_node_bound",
    "Undname.Props.C05_limit"
   ],
   "note": ""
  },
  {
   "property": "C06",
   "status": "proved",
   "theorems": [
    "Undname.Props.C06_output_bounded",
    "Undname.Props.C06_buffer_bounded"
   ],
   "note": ""
  },
  {
   "property": "C07",
   "status": "proved",
   "theorems": [
    "Undname.Props.C07_into_agrees",
    "Undname.Props.C07_buffer_irrelevant"
   ],
   "note": ""
  },
  {
   "property": "C08",
   "status": "proved",
   "theorems": [
    "Undname.Props.C08_empty_on_error"
   ],
   "note": ""
  },
  {
   "property": "C09",
   "status": "proved",
   "theorems": [
    "Undname.Props.C09_history_independent"
   ],
   "note": ""
  },
  {
   "property": "C10",
   "status": "proved",
   "theorems": [
    "Undname.Props.C10_rejects",
    "Undname.Props.C10_accepted_prefix"
   ],
   "note": ""
  },
  {
   "property": "C11",
   "status": "proved",
   "theorems": [
    "Undname.Props.C11_md5_echo"
   ],
   "note": ""
  },
  {
   "property": "C12",
   "status": "proved",
   "theorems": [
    "Undname.Props.C12_md5_unterminated"
   ],
   "note": ""
  },
  {
   "property": "C13",
   "status": "proved",
   "theorems": [
    "Undname.Props.C13_template_arguments",
    "Undname.Props.C13_integer_encodings"
   ],
   "note": ""
  },
  {
   "property": "C14",
   "status": "proved",
   "theorems": [
    "Undname.Props.C14_wraps"
   ],
   "note": ""
  },
  {
   "property": "C15",
   "status": "proved",
   "theorems": [
    "Undname.Props.C15_out_of_range",
    "Undname.Props.C15_thunk_out_of_range",
    "Undname.Props.C15_signed"
   ],
   "note": ""
  },
  {
   "property": "C16",
   "status": "proved",
   "theorems": [
    "Undname.Props.C16_qualified_names"
   ],
   "note": ""
  },
  {
   "property": "C17",
   "status": "proved",
   "theorems": [
    "Undname.Props.C17_variables"
   ],
   "note": ""
  },
  {
   "property": "C18",
   "status": "proved",
   "theorems": [
    "Undname.Props.C18_functions",
    "Undname.Props.C18_members"
   ],
   "note": ""
  },
  {
   "property": "C19",
   "status": "proved",
   "theorems": [
    "Undname.Props.C19_name_references"
   ],
   "note": ""
  },
  {
   "property": "C20",
   "status": "proved",
   "theorems": [
    "Undname.Props.C20_parameter_references"
   ],
   "note": ""
  },
  {
   "property": "C21",
   "status": "proved",
   "theorems": [
    "Undname.Props.C21_own_scope",
    "Undname.Props.C21_counts_once"
   ],
   "note": ""
  },
  {
   "property": "C22",
   "status": "proved",
   "theorems": [
    "Undname.Props.C22_typeinfo_complete",
    "Undname.Props.C22_rtti_complete",
    "Undname.Props.C22_typeinfo_accepted"
   ],
   "note": ""
  },
  {
   "property": "C23",
   "status": "proved",
   "theorems": [
    "Undname.Props.C23_tables",
    "Undname.Props.C23_tables_for",
    "Undname.Props.C23_rtti"
   ],
   "note": ""
  },
  {
   "property": "C24",
   "status": "proved",
   "theorems": [
    "Undname.Props.C24_structors"
   ],
   "note": ""
  },
  {
   "property": "C25",
   "status": "proved",
   "theorems": [
    "Undname.Props.C25_conversions"
   ],
   "note": ""
  },
  {
   "property": "C26",
   "status": "proved",
   "theorems": [
    "Undname.Props.C26_narrow",
    "Undname.Props.C26_text",
    "Undname.Props.C26_cut",
    "Undname.Props.C26_wide",
    "Undname.Props.C26_wide_cut",
    "Undname.Props.C26_every_byte"
   ],
   "note": ""
  },
  {
   "property": "C27",
   "status": "proved",
   "theorems": [
    "Undname.Props.C27_literal_printable"
   ],
   "note": ""
  },
  {
   "property": "C28",
   "status": "proved",
   "theorems": [
    "Undname.Props.C28_width",
    "Undname.Props.C28_decode",
    "Undname.Props.C28_bounds"
   ],
   "note": ""
  },
  {
   "property": "C29",
   "status": "proved",
   "theorems": [
    "Undname.Props.C29_output_characters",
    "Undname.Props.C29_ascii"
   ],
   "note": ""
  },
  {
   "property": "C30",
   "status": "proved",
   "theorems": [
    "Undname.Props.C30_nested",
    "Undname.Props.C30_angle",
    "Undname.Props.C30_angle_operator",
    "Undname.Props.C30_balanced",
    "Undname.Props.C30_name_only_unbalanced"
   ],
   "note": ""
  },
  {
   "property": "C31",
   "status": "proved",
   "theorems": [
    "Undname.Props.C31_bits",
    "Undname.Props.C31_aliases",
    "Undname.Props.C31_unknown_bits"
   ],
   "note": ""
  },
  {
   "property": "C32",
   "status": "proved",
   "theorems": [
    "Undname.Props.C32_ms_keywords"
   ],
   "note": ""
  },
  {
   "property": "C33",
   "status": "proved",
   "theorems": [
    "Undname.Props.C33_name_only"
   ],
   "note": ""
  },
  {
   "property": "C34",
   "status": "proved",
   "theorems": [
    "Undname.Props.C34_same_verdict",
    "Undname.Props.C34_templates_depend_on_flags",
    "Undname.Props.C34_templates_rebind"
   ],
   "note": ""
  },
  {
   "property": "C35",
   "status": "proved",
   "theorems": [
    "Undname.Props.C35_variables",
    "Undname.Props.C35_functions",
    "Undname.Props.C35_thunks",
    "Undname.Props.C35_variable_names",
    "Undname.Props.C35_function_names"
   ],
   "note": ""
  },
  {
   "property": "C36",
   "status": "proved",
   "theorems": [
    "Undname.Props.C36_operators",
    "Undname.Props.C36_member_operators",
    "Undname.Props.C36_literal_operators",
    "Undname.Props.C36_no_code"
   ],
   "note": ""
  },
  {
   "property": "C37",
   "status": "proved",
   "theorems": [
    "Undname.Props.C37_not_empty",
    "Undname.Props.C37_not_empty_any_flags",
    "Undname.Props.C37_empty_texts"
   ],
   "note": ""
  },
  {
   "property": "C38",
   "status": "proved",
   "theorems": [
    "Undname.Props.C38_thunks"
   ],
   "note": ""
  },
  {
   "property": "C39",
   "status": "proved",
   "theorems": [
    "Undname.Props.C39_suffix_ignored",
    "Undname.Props.C39_appended_ignored"
   ],
   "note": ""
  },
  {
   "property": "C40",
   "status": "proved",
   "theorems": [
    "Undname.Props.C40_depth_unbounded",
    "Undname.Props.C40_deep_names_valid"
   ],
   "note": ""
  },
  {
   "property": "C41",
   "status": "proved",
   "theorems": [
    "Undname.Props.C41_parameters",
    "Undname.Props.C41_variables"
   ],
   "note": ""
  },
  {
   "property": "C42",
   "status": "proved",
   "theorems": [
    "Undname.Props.C42_bad_rank",
    "Undname.Props.C42_bad_dimension",
    "Undname.Props.C42_arrays",
    "Undname.Props.C42_pointers_to_arrays"
   ],
   "note": ""
  },
  {
   "property": "C43",
   "status": "proved",
   "theorems": [
    "Undname.Props.C43_anonymous",
    "Undname.Props.C43_local_scopes",
    "Undname.Props.C43_local_functions"
   ],
   "note": ""
  },
  {
   "property": "C44",
   "status": "proved",
   "theorems": [
    "Undname.Props.C44_flags_only_remove",
    "Undname.Props.C44_type_info",
    "Undname.Props.C44_type_info_blank",
    "Undname.Props.C44_templates",
    "Undname.Props.C44_symbols",
    "Undname.Props.C44_final_symbols",
    "Undname.Props.C44_combined"
   ],
   "note": ""
  },
  {
   "property": "C45",
   "status": "proved",
   "theorems": [
    "Undname.Props.C45_exact",
    "Undname.Props.C45_errors"
   ],
   "note": ""
  },
  {
   "property": "C46",
   "status": "proved",
   "theorems": [
    "Undname.Props.C46_grammar",
    "Undname.Props.C46_grammar_end"
   ],
   "note": ""
  },
  {
   "property": "C47",
   "status": "proved",
   "theorems": [
    "Undname.Props.C47_short_names"
   ],
   "note": ""
  },
  {
   "property": "C48",
   "status": "proved",
   "theorems": [
    "Undname.Props.C48_accepted_is_derivable",
    "Undname.Props.C48_exactly_the_grammar",
    "Undname.Props.C48_rejects_the_rest",
    "Undname.Props.C48_unambiguous"
   ],
   "note": ""
  },
  {
   "property": "C49",
   "status": "proved",
   "theorems": [
    "Undname.Props.C49_round_trip",
    "Undname.Props.C49_same_text",
    "Undname.Props.C49_distinct_needed"
   ],
   "note": ""
  },
  {
   "property": "C50",
   "status": "proved",
   "theorems": [
    "Undname.Props.C50_flags",
    "Undname.Props.C50_output"
   ],
   "note": ""
  },
  {
   "property": "C51",
   "status": "proved",
   "theorems": [
    "Undname.Props.C51_error_texts",
    "Undname.Props.C51_documented"
   ],
   "note": ""
  },
  {
   "property": "C52",
   "status": "proved",
   "theorems": [
    "Undname.Props.C52_linear_work",
    "Undname.Props.C52_linear_parsing",
    "Undname.Props.C52_bounded_rendering"
   ],
   "note": ""
  },
  {
   "property": "C53",
   "status": "proved",
   "theorems": [
    "Undname.Props.C53_symbols",
    "Undname.Props.C53_final_symbols"
   ],
   "note": ""
  },
  {
   "property": "C54",
   "status": "proved",
   "theorems": [
    "Undname.Props.C54_bytes",
    "Undname.Props.C54_bytes_into",
    "Undname.Props.C54_well_formed"
   ],
   "note": ""
  },
  {
   "property": "C55",
   "status": "proved",
   "theorems": [
    "Undname.Props.C55_types",
    "Undname.Props.C55_declarations",
    "Undname.Props.C55_round_trip",
    "Undname.Props.C55_demangled",
    "Undname.Props.C55_different",
    "Undname.Props.C55_underscores",
    "Undname.Props.C55_not_shown",
    "Undname.Props.C55_keywords"
   ],
   "note": ""
  },
  {
   "property": "C56",
   "status": "proved",
   "theorems": [
    "Undname.Props.C56_verdict",
    "Undname.Props.C56_counted",
    "Undname.Props.C56_exactly",
    "Undname.Props.C56_nodes_made",
    "Undname.Props.C56_count_unique",
    "Undname.Props.C56_unambiguous",
    "Undname.Props.C56_two_per_character",
    "Undname.Props.C56_variables",
    "Undname.Props.C56_boundary"
   ],
   "note": ""
  },
  {
   "property": "C57",
   "status": "proved",
   "theorems": [
    "Undname.Props.C57_truncated",
    "Undname.Props.C57_one_end",
    "Undname.Props.C57_compiler",
    "Undname.Props.C57_descriptors",
    "Undname.Props.C57_exceptions"
   ],
   "note": ""
  },
  {
   "property": "C58",
   "status": "proved",
   "theorems": [
    "Undname.Props.C58_declarations",
    "Undname.Props.C58_symbols",
    "Undname.Props.C58_descriptors",
    "Undname.Props.C58_exceptions"
   ],
   "note": ""
  },
  {
   "property": "C59",
   "status": "proved",
   "theorems": [
    "Undname.Props.C59_verdict",
    "Undname.Props.C59_final_verdict",
    "Undname.Props.C59_word",
    "Undname.Props.C59_same_outcome",
    "Undname.Props.C59_flags",
    "Undname.Props.C59_different",
    "Undname.Props.C59_limit"
   ],
   "note": ""
  },
  {
   "property": "C60",
   "status": "proved",
   "theorems": [
    "Undname.Props.C60_symbols",
    "Undname.Props.C60_final_symbols",
    "Undname.Props.C60_sorts",
    "Undname.Props.C60_round_trip",
    "Undname.Props.C60_demangled",
    "Undname.Props.C60_different",
    "Undname.Props.C60_not_shown"
   ],
   "note": ""
  },
  {
   "property": "C61",
   "status": "proved",
   "theorems": [
    "Undname.Props.C61_no_separator",
    "Undname.Props.C61_accepted_has_separator",
    "Undname.Props.C61_not_again",
    "Undname.Props.C61_exceptions"
   ],
   "note": ""
  },
  {
   "property": "C62",
   "status": "proved",
   "theorems": [
    "Undname.Props.C62_opaque_into",
    "Undname.Props.C62_opaque",
    "Undname.Props.C62_exchange",
    "Undname.Props.C62_same_verdict"
   ],
   "note": ""
  },
  {
   "property": "C63",
   "status": "proved",
   "theorems": [
    "Undname.Props.C63_type_descriptor",
    "Undname.Props.C63_form"
   ],
   "note": ""
  },
  {
   "property": "C64",
   "status": "proved",
   "theorems": [
    "Undname.Props.C64_one_declaration",
    "Undname.Props.C64_exactly_one",
    "Undname.Props.C64_prefix_free",
    "Undname.Props.C64_short"
   ],
   "note": ""
  },
  {
   "property": "C65",
   "status": "proved",
   "theorems": [
    "Undname.Props.C65_same_outcome",
    "Undname.Props.C65_final_outcome",
    "Undname.Props.C65_text",
    "Undname.Props.C65_key_is_name"
   ],
   "note": ""
  },
  {
   "property": "C66",
   "status": "proved",
   "theorems": [
    "Undname.Props.C66_spelled_out",
    "Undname.Props.C66_shorter",
    "Undname.Props.C66_abbreviations",
    "Undname.Props.C66_symbols",
    "Undname.Props.C66_final_symbols",
    "Undname.Props.C66_symbol_abbreviations",
    "Undname.Props.C66_final_abbreviations",
    "Undname.Props.C66_more_than_abbreviated"
   ],
   "note": ""
  },
  {
   "property": "C67",
   "status": "proved",
   "theorems": [
    "Undname.Props.C67_free_choice",
    "Undname.Props.C67_extremes",
    "Undname.Props.C67_no_longer",
    "Undname.Props.C67_same_text",
    "Undname.Props.C67_symbols",
    "Undname.Props.C67_final_symbols",
    "Undname.Props.C67_verdict",
    "Undname.Props.C67_final_verdict",
    "Undname.Props.C67_symbol_extremes",
    "Undname.Props.C67_final_extremes",
    "Undname.Props.C67_abbreviating_is_safe",
    "Undname.Props.C67_final_abbreviating",
    "Undname.Props.C67_shortest",
    "Undname.Props.C67_final_shortest",
    "Undname.Props.C67_compilers_choice",
    "Undname.Props.C67_final_compilers_choice",
    "Undname.Props.C67_one_declaration",
    "Undname.Props.C67_one_symbol",
    "Undname.Props.C67_one_reading"
   ],
   "note": ""
  },
  {
   "property": "C68",
   "status": "proved",
   "theorems": [
    "Undname.Props.C68_width",
    "Undname.Props.C68_width_mixed",
    "Undname.Props.C68_width_spelled",
    "Undname.Props.C68_final_width",
    "Undname.Props.C68_compilers_choice",
    "Undname.Props.C68_abbreviating"
   ],
   "note": ""
  }
 ]
}