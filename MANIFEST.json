{
 "claims": [
  {
   "property": "C01",
   "status": "proved",
   "theorems": [
    "Nominals.Props.C01_push_is_concatenation"
   ],
   "note": ""
  },
  {
   "property": "C02",
   "status": "proved",
   "theorems": [
    "Nominals.Props.C02_direction_is_unobservable"
   ],
   "note": ""
  },
  {
   "property": "C03",
   "status": "proved",
   "theorems": [
    "Nominals.Props.C03_operations_are_defined",
    "Nominals.Props.C03_window_is_valid_utf8"
   ],
   "note": ""
  },
  {
   "property": "C04",
   "status": "proved",
   "theorems": [
    "Nominals.Props.C04_heap_iff_long",
    "Nominals.Props.C04_heap_stays",
    "Nominals.Props.C04_from_string_on_heap"
   ],
   "note": ""
  },
  {
   "property": "C05",
   "status": "proved",
   "theorems": [
    "Nominals.Props.C05_failed_push_changes_nothing"
   ],
   "note": ""
  },
  {
   "property": "C06",
   "status": "proved",
   "theorems": [
    "Nominals.Props.C06_from_char",
    "Nominals.Props.C06_from_str",
    "Nominals.Props.C06_into_string",
    "Nominals.Props.C06_round_trip"
   ],
   "note": ""
  },
  {
   "property": "C07",
   "status": "proved",
   "theorems": [
    "Nominals.Props.C07_eq_is_text_equality",
    "Nominals.Props.C07_cmp_is_code_point_order",
    "Nominals.Props.C07_cmp_total_order"
   ],
   "note": ""
  },
  {
   "property": "C08",
   "status": "proved",
   "theorems": [
    "Nominals.Props.C08_edit_in_place",
    "Nominals.Props.C08_edit_touches_only_text",
    "Nominals.Props.C08_bytes"
   ],
   "note": ""
  },
  {
   "property": "C09",
   "status": "proved",
   "theorems": [
    "Nominals.Props.C09_positional"
   ],
   "note": ""
  },
  {
   "property": "C10",
   "status": "proved",
   "theorems": [
    "Nominals.Props.C10_columns",
    "Nominals.Props.C10_shortlex"
   ],
   "note": ""
  },
  {
   "property": "C11",
   "status": "proved",
   "theorems": [
    "Nominals.Props.C11_one_based",
    "Nominals.Props.C11_wide_sets_ignore_one_based"
   ],
   "note": ""
  },
  {
   "property": "C12",
   "status": "proved",
   "theorems": [
    "Nominals.Props.C12_one_based_with_zero"
   ],
   "note": ""
  },
  {
   "property": "C13",
   "status": "proved",
   "theorems": [
    "Nominals.Props.C13_distinct_positional",
    "Nominals.Props.C13_distinct_columns",
    "Nominals.Props.C13_distinct_one_based",
    "Nominals.Props.C13_distinct_one_based_any"
   ],
   "note": ""
  },
  {
   "property": "C14",
   "status": "proved",
   "theorems": [
    "Nominals.Props.C14_every_word_positional_free",
    "Nominals.Props.C14_every_numeral",
    "Nominals.Props.C14_every_word_one_based"
   ],
   "note": ""
  },
  {
   "property": "C15",
   "status": "proved",
   "theorems": [
    "Nominals.Props.C15_fixed_out_of_range",
    "Nominals.Props.C15_no_fallback",
    "Nominals.Props.C15_fixed_in_range",
    "Nominals.Props.C15_fixed_zero",
    "Nominals.Props.C15_heavenly_stems",
    "Nominals.Props.C15_earthly_branches",
    "Nominals.Props.C15_two_symbols_corner"
   ],
   "note": "C15_two_symbols_corner records the corner n = len of a fixed one-based collection with a zero digit."
  },
  {
   "property": "C16",
   "status": "proved",
   "theorems": [
    "Nominals.Props.C16_no_panic"
   ],
   "note": ""
  },
  {
   "property": "C17",
   "status": "proved",
   "theorems": [
    "Nominals.Props.C17_terminates",
    "Nominals.Props.C17_one_symbol_diverges",
    "Nominals.Props.C17_one_symbol_out_of_memory",
    "Nominals.Props.C17_diverges_exactly"
   ],
   "note": "One-symbol zero-digit collections are excluded and proved to diverge (alloc) or to run out of memory (no alloc)."
  },
  {
   "property": "C18",
   "status": "proved",
   "theorems": [
    "Nominals.Props.C18_chain",
    "Nominals.Props.C18_restrict",
    "Nominals.Props.C18_hex"
   ],
   "note": ""
  },
  {
   "property": "C19",
   "status": "proved",
   "theorems": [
    "Nominals.Props.C19_adapters_ignore_fallback",
    "Nominals.Props.C19_exact"
   ],
   "note": "The expectation that adapters keep `fixed` is false of the code; C19_exact says what happens instead."
  },
  {
   "property": "C20",
   "status": "proved",
   "theorems": [
    "Nominals.Props.C20_integer_type"
   ],
   "note": ""
  },
  {
   "property": "C21",
   "status": "proved",
   "theorems": [
    "Nominals.Props.C21_greedy_sum"
   ],
   "note": ""
  },
  {
   "property": "C22",
   "status": "proved",
   "theorems": [
    "Nominals.Props.C22_lost_remainder",
    "Nominals.Props.C22_exact_iff_unit"
   ],
   "note": "The expectation that nothing is lost is false of the code; C22_exact_iff_unit delimits it exactly."
  },
  {
   "property": "C23",
   "status": "proved",
   "theorems": [
    "Nominals.Props.C23_zero"
   ],
   "note": ""
  },
  {
   "property": "C24",
   "status": "proved",
   "theorems": [
    "Nominals.Props.C24_new"
   ],
   "note": ""
  },
  {
   "property": "C25",
   "status": "proved",
   "theorems": [
    "Nominals.Props.C25_roman"
   ],
   "note": ""
  },
  {
   "property": "C26",
   "status": "proved",
   "theorems": [
    "Nominals.Props.C26_roman_distinct"
   ],
   "note": ""
  },
  {
   "property": "C27",
   "status": "proved",
   "theorems": [
    "Nominals.Props.C27_roman_case",
    "Nominals.Props.C27_armenian_case",
    "Nominals.Props.C27_armenian_exact"
   ],
   "note": "The expectation is false for Armenian; C27_armenian_exact delimits it exactly."
  },
  {
   "property": "C28",
   "status": "proved",
   "theorems": [
    "Nominals.Props.C28_repeated_top",
    "Nominals.Props.C28_digitwise"
   ],
   "note": ""
  },
  {
   "property": "C29",
   "status": "proved",
   "theorems": [
    "Nominals.Props.C29_read_back",
    "Nominals.Props.C29_distinct"
   ],
   "note": ""
  },
  {
   "property": "C30",
   "status": "proved",
   "theorems": [
    "Nominals.Props.C30_exact",
    "Nominals.Props.C30_standard_reading_iff",
    "Nominals.Props.C30_lower"
   ],
   "note": "The expectation is false of the code ; C30_standard_reading_iff delimits it exactly."
  },
  {
   "property": "C31",
   "status": "proved",
   "theorems": [
    "Nominals.Props.C31_text",
    "Nominals.Props.C31_letters_add_up",
    "Nominals.Props.C31_distinct"
   ],
   "note": ""
  },
  {
   "property": "C32",
   "status": "proved",
   "theorems": [
    "Nominals.Props.C32_divine_names"
   ],
   "note": ""
  },
  {
   "property": "C33",
   "status": "proved",
   "theorems": [
    "Nominals.Props.C33_wrapped_iff",
    "Nominals.Props.C33_order"
   ],
   "note": ""
  },
  {
   "property": "C34",
   "status": "proved",
   "theorems": [
    "Nominals.Props.C34_css"
   ],
   "note": ""
  },
  {
   "property": "C35",
   "status": "proved",
   "theorems": [
    "Nominals.Props.C35_read_back",
    "Nominals.Props.C35_distinct"
   ],
   "note": ""
  },
  {
   "property": "C36",
   "status": "proved",
   "theorems": [
    "Nominals.Props.C36_exact_range"
   ],
   "note": ""
  },
  {
   "property": "C37",
   "status": "proved",
   "theorems": [
    "Nominals.Props.C37_read_back",
    "Nominals.Props.C37_distinct"
   ],
   "note": ""
  },
  {
   "property": "C38",
   "status": "proved",
   "theorems": [
    "Nominals.Props.C38_zero_hygiene",
    "Nominals.Props.C38_zero"
   ],
   "note": ""
  },
  {
   "property": "C39",
   "status": "proved",
   "theorems": [
    "Nominals.Props.C39_formal_informal"
   ],
   "note": ""
  },
  {
   "property": "C40",
   "status": "proved",
   "theorems": [
    "Nominals.Props.C40_substitution",
    "Nominals.Props.C40_options"
   ],
   "note": ""
  },
  {
   "property": "C41",
   "status": "proved",
   "theorems": [
    "Nominals.Props.C41_into_decimal",
    "Nominals.Props.C41_any_system",
    "Nominals.Props.C41_always_succeeds"
   ],
   "note": ""
  },
  {
   "property": "C42",
   "status": "proved",
   "theorems": [
    "Nominals.Props.C42_named",
    "Nominals.Props.C42_digits",
    "Nominals.Props.C42_enumerated",
    "Nominals.Props.C42_additive"
   ],
   "note": ""
  },
  {
   "property": "C43",
   "status": "proved",
   "theorems": [
    "Nominals.Props.C43_no_alloc"
   ],
   "note": ""
  },
  {
   "property": "C44",
   "status": "proved",
   "theorems": [
    "Nominals.Props.C44_boxed",
    "Nominals.Props.C44_named",
    "Nominals.Props.C44_override_bypassed"
   ],
   "note": "C44_override_bypassed is the parenthesis about overrides: what a pointer to a system does depends on try_format_nominal alone."
  },
  {
   "property": "C45",
   "status": "proved",
   "theorems": [
    "Nominals.Props.C45_enumerated"
   ],
   "note": ""
  },
  {
   "property": "C46",
   "status": "proved",
   "theorems": [
    "Nominals.Props.C46_inline_iff_short"
   ],
   "note": ""
  },
  {
   "property": "C47",
   "status": "proved",
   "theorems": [
    "Nominals.Props.C47_decimal",
    "Nominals.Props.C47_numeric_sets"
   ],
   "note": ""
  },
  {
   "property": "C48",
   "status": "proved",
   "theorems": [
    "Nominals.Props.C48_length_positional",
    "Nominals.Props.C48_length_columns",
    "Nominals.Props.C48_monotone",
    "Nominals.Props.C48_length_one_based",
    "Nominals.Props.C48_monotone_chains"
   ],
   "note": ""
  },
  {
   "property": "C49",
   "status": "proved",
   "theorems": [
    "Nominals.Props.C49_empty_collection",
    "Nominals.Props.C49_restrict_beyond_positional",
    "Nominals.Props.C49_restrict_beyond_columns",
    "Nominals.Props.C49_restrict_beyond_one_based"
   ],
   "note": ""
  },
  {
   "property": "C50",
   "status": "proved",
   "theorems": [
    "Nominals.Props.C50_slice_initialised_iff"
   ],
   "note": "The SAFETY comment is false of the code; C50_slice_initialised_iff delimits it exactly."
  },
  {
   "property": "C51",
   "status": "proved",
   "theorems": [
    "Nominals.Props.C51_catalogue"
   ],
   "note": ""
  },
  {
   "property": "C52",
   "status": "proved",
   "theorems": [
    "Nominals.Props.C52_fallback_chain_ends",
    "Nominals.Props.C52_terminates",
    "Nominals.Props.C52_self_fallback_diverges",
    "Nominals.Props.C52_budget_irrelevant",
    "Nominals.Props.C52_diverges_exactly"
   ],
   "note": "C52_diverges_exactly is the exact statement; C52_self_fallback_diverges is the proved witness of non-termination."
  },
  {
   "property": "C53",
   "status": "proved",
   "theorems": [
    "Nominals.Props.C53_never_ub",
    "Nominals.Props.C53_text_is_log",
    "Nominals.Props.C53_log_unobserved",
    "Nominals.Props.C53_errors",
    "Nominals.Props.C53_constant",
    "Nominals.Props.C53_profiles"
   ],
   "note": ""
  },
  {
   "property": "C54",
   "status": "proved",
   "theorems": [
    "Nominals.Props.C54_adapters_safe",
    "Nominals.Props.C54_adapters_constant",
    "Nominals.Props.C54_chain_overflow_panics",
    "Nominals.Props.C54_chain_overflow_wraps"
   ],
   "note": ""
  },
  {
   "property": "C55",
   "status": "proved",
   "theorems": [
    "Nominals.Props.C55_buffer_determined",
    "Nominals.Props.C55_same_text_same_memory",
    "Nominals.Props.C55_push_moves_nothing",
    "Nominals.Props.C55_direction"
   ],
   "note": ""
  },
  {
   "property": "C56",
   "status": "proved",
   "theorems": [
    "Nominals.Props.C56_injective"
   ],
   "note": ""
  },
  {
   "property": "C57",
   "status": "proved",
   "theorems": [
    "Nominals.Props.C57_first_long",
    "Nominals.Props.C57_digits_exact",
    "Nominals.Props.C57_small_types"
   ],
   "note": ""
  },
  {
   "property": "C58",
   "status": "proved",
   "theorems": [
    "Nominals.Props.C58_one_based",
    "Nominals.Props.C58_exact_one_based",
    "Nominals.Props.C58_shortlex_sorts",
    "Nominals.Props.C58_equal_length",
    "Nominals.Props.C58_exact",
    "Nominals.Props.C58_named",
    "Nominals.Props.C58_unsorted"
   ],
   "note": ""
  },
  {
   "property": "C59",
   "status": "proved",
   "theorems": [
    "Nominals.Props.C59_last_one_based",
    "Nominals.Props.C59_one_symbol",
    "Nominals.Props.C59_last_digit",
    "Nominals.Props.C59_last_letter"
   ],
   "note": ""
  },
  {
   "property": "C60",
   "status": "proved",
   "theorems": [
    "Nominals.Props.C60_add_top",
    "Nominals.Props.C60_empty_text"
   ],
   "note": ""
  },
  {
   "property": "C61",
   "status": "proved",
   "theorems": [
    "Nominals.Props.C61_chains",
    "Nominals.Props.C61_chains_shift",
    "Nominals.Props.C61_additive",
    "Nominals.Props.C61_enumerated",
    "Nominals.Props.C61_digits",
    "Nominals.Props.C61_narrow_type_shifts"
   ],
   "note": ""
  },
  {
   "property": "C62",
   "status": "proved",
   "theorems": [
    "Nominals.Props.C62_laws",
    "Nominals.Props.C62_hidden",
    "Nominals.Props.C62_no_fallback"
   ],
   "note": ""
  },
  {
   "property": "C63",
   "status": "proved",
   "theorems": [
    "Nominals.Props.C63_scales",
    "Nominals.Props.C63_outcomes"
   ],
   "note": ""
  },
  {
   "property": "C64",
   "status": "proved",
   "theorems": [
    "Nominals.Props.C64_roman_four_in_a_row"
   ],
   "note": ""
  },
  {
   "property": "C65",
   "status": "proved",
   "theorems": [
    "Nominals.Props.C65_never_empty"
   ],
   "note": ""
  },
  {
   "property": "C66",
   "status": "proved",
   "theorems": [
    "Nominals.Props.C66_repertoire",
    "Nominals.Props.C66_no_punctuation",
    "Nominals.Props.C66_repertoire_used"
   ],
   "note": ""
  },
  {
   "property": "C67",
   "status": "proved",
   "theorems": [
    "Nominals.Props.C67_text_iff",
    "Nominals.Props.C67_error_iff",
    "Nominals.Props.C67_panics",
    "Nominals.Props.C67_silence",
    "Nominals.Props.C67_panic_iff",
    "Nominals.Props.C67_mixed_radix"
   ],
   "note": ""
  },
  {
   "property": "C68",
   "status": "proved",
   "theorems": [
    "Nominals.Props.C68_roman",
    "Nominals.Props.C68_roman_lower",
    "Nominals.Props.C68_roman_classic",
    "Nominals.Props.C68_places",
    "Nominals.Props.C68_hebrew",
    "Nominals.Props.C68_ethiopic"
   ],
   "note": ""
  },
  {
   "property": "C69",
   "status": "proved",
   "theorems": [
    "Nominals.Props.C69_chinese_calls",
    "Nominals.Props.C69_once_per_character",
    "Nominals.Props.C69_no_alloc",
    "Nominals.Props.C69_once_per_bit",
    "Nominals.Props.C69_additive_copies",
    "Nominals.Props.C69_additive_no_alloc",
    "Nominals.Props.C69_hebrew",
    "Nominals.Props.C69_hebrew_copies",
    "Nominals.Props.C69_ethiopic"
   ],
   "note": ""
  },
  {
   "property": "C70",
   "status": "proved",
   "theorems": [
    "Nominals.Props.C70_display",
    "Nominals.Props.C70_columns",
    "Nominals.Props.C70_equal_print_alike",
    "Nominals.Props.C70_debug",
    "Nominals.Props.C70_nominal",
    "Nominals.Props.C70_clone"
   ],
   "note": ""
  },
  {
   "property": "C71",
   "status": "proved",
   "theorems": [
    "Nominals.Props.C71_numeral",
    "Nominals.Props.C71_digits",
    "Nominals.Props.C71_leading_ten"
   ],
   "note": ""
  },
  {
   "property": "C72",
   "status": "proved",
   "theorems": [
    "Nominals.Props.C72_at_most",
    "Nominals.Props.C72_attained",
    "Nominals.Props.C72_per_digit"
   ],
   "note": ""
  },
  {
   "property": "C73",
   "status": "proved",
   "theorems": [
    "Nominals.Props.C73_outcome",
    "Nominals.Props.C73_panics",
    "Nominals.Props.C73_adapters",
    "Nominals.Props.C73_adapted"
   ],
   "note": ""
  },
  {
   "property": "C74",
   "status": "proved",
   "theorems": [
    "Nominals.Props.C74_grammar"
   ],
   "note": ""
  },
  {
   "property": "C75",
   "status": "proved",
   "theorems": [
    "Nominals.Props.C75_fallback_visible",
    "Nominals.Props.C75_injective"
   ],
   "note": ""
  },
  {
   "property": "C76",
   "status": "proved",
   "theorems": [
    "Nominals.Props.C76_values",
    "Nominals.Props.C76_table",
    "Nominals.Props.C76_named",
    "Nominals.Props.C76_transitions"
   ],
   "note": ""
  },
  {
   "property": "C77",
   "status": "proved",
   "theorems": [
    "Nominals.Props.C77_contract",
    "Nominals.Props.C77_no_breach",
    "Nominals.Props.C77_zero_based"
   ],
   "note": ""
  },
  {
   "property": "C78",
   "status": "proved",
   "theorems": [
    "Nominals.Props.C78_numeric",
    "Nominals.Props.C78_alphabetic",
    "Nominals.Props.C78_additive",
    "Nominals.Props.C78_fixed",
    "Nominals.Props.C78_styles",
    "Nominals.Props.C78_series_zero",
    "Nominals.Props.C78_upper_armenian",
    "Nominals.Props.C78_hebrew"
   ],
   "note": ""
  },
  {
   "property": "C79",
   "status": "proved",
   "theorems": [
    "Nominals.Props.C79_errors",
    "Nominals.Props.C79_equality",
    "Nominals.Props.C79_systems",
    "Nominals.Props.C79_injective",
    "Nominals.Props.C79_debug",
    "Nominals.Props.C79_debug_block"
   ],
   "note": ""
  },
  {
   "property": "C80",
   "status": "proved",
   "theorems": [
    "Nominals.Props.C80_user_defined",
    "Nominals.Props.C80_named",
    "Nominals.Props.C80_continue"
   ],
   "note": ""
  },
  {
   "property": "C81",
   "status": "proved",
   "theorems": [
    "Nominals.Props.C81_positional",
    "Nominals.Props.C81_columns",
    "Nominals.Props.C81_determined",
    "Nominals.Props.C81_named"
   ],
   "note": ""
  },
  {
   "property": "C82",
   "status": "proved",
   "theorems": [
    "Nominals.Props.C82_alike",
    "Nominals.Props.C82_distinct",
    "Nominals.Props.C82_options"
   ],
   "note": ""
  },
  {
   "property": "C83",
   "status": "proved",
   "theorems": [
    "Nominals.Props.C83_as_none",
    "Nominals.Props.C83_writes",
    "Nominals.Props.C83_alone"
   ],
   "note": ""
  },
  {
   "property": "C84",
   "status": "proved",
   "theorems": [
    "Nominals.Props.C84_agree",
    "Nominals.Props.C84_misread",
    "Nominals.Props.C84_common",
    "Nominals.Props.C84_to_nominal",
    "Nominals.Props.C84_hex_fallback"
   ],
   "note": ""
  },
  {
   "property": "C85",
   "status": "proved",
   "theorems": [
    "Nominals.Props.C85_additive_sorted",
    "Nominals.Props.C85_digits",
    "Nominals.Props.C85_one_based",
    "Nominals.Props.C85_enumerated",
    "Nominals.Props.C85_additive",
    "Nominals.Props.C85_additive_needs_unit"
   ],
   "note": ""
  },
  {
   "property": "C86",
   "status": "proved",
   "theorems": [
    "Nominals.Props.C86_digits",
    "Nominals.Props.C86_additive",
    "Nominals.Props.C86_enumerated"
   ],
   "note": ""
  },
  {
   "property": "C87",
   "status": "proved",
   "theorems": [
    "Nominals.Props.C87_joined",
    "Nominals.Props.C87_outline",
    "Nominals.Props.C87_outline_eq",
    "Nominals.Props.C87_columns"
   ],
   "note": ""
  },
  {
   "property": "C88",
   "status": "proved",
   "theorems": [
    "Nominals.Props.C88_edit",
    "Nominals.Props.C88_twins",
    "Nominals.Props.C88_ignore_case"
   ],
   "note": ""
  },
  {
   "property": "C89",
   "status": "proved",
   "theorems": [
    "Nominals.Props.C89_strings",
    "Nominals.Props.C89_user_defined",
    "Nominals.Props.C89_named",
    "Nominals.Props.C89_fallback"
   ],
   "note": ""
  },
  {
   "property": "C90",
   "status": "proved",
   "theorems": [
    "Nominals.Props.C90_parse",
    "Nominals.Props.C90_hex",
    "Nominals.Props.C90_never_misread"
   ],
   "note": ""
  },
  {
   "property": "C91",
   "status": "proved",
   "theorems": [
    "Nominals.Props.C91_number",
    "Nominals.Props.C91_error",
    "Nominals.Props.C91_distinct"
   ],
   "note": ""
  },
  {
   "property": "C92",
   "status": "proved",
   "theorems": [
    "Nominals.Props.C92_literal",
    "Nominals.Props.C92_determined",
    "Nominals.Props.C92_results",
    "Nominals.Props.C92_named",
    "Nominals.Props.C92_labels"
   ],
   "note": ""
  },
  {
   "property": "C93",
   "status": "proved",
   "theorems": [
    "Nominals.Props.C93_text",
    "Nominals.Props.C93_silence",
    "Nominals.Props.C93_once",
    "Nominals.Props.C93_labels",
    "Nominals.Props.C93_pointers",
    "Nominals.Props.C93_unchanging"
   ],
   "note": ""
  },
  {
   "property": "C94",
   "status": "proved",
   "theorems": [
    "Nominals.Props.C94_same_code",
    "Nominals.Props.C94_error_iff",
    "Nominals.Props.C94_text_iff",
    "Nominals.Props.C94_panic_iff",
    "Nominals.Props.C94_silence"
   ],
   "note": ""
  },
  {
   "property": "C95",
   "status": "proved",
   "theorems": [
    "Nominals.Props.C95_decorated",
    "Nominals.Props.C95_nested",
    "Nominals.Props.C95_named",
    "Nominals.Props.C95_injective"
   ],
   "note": ""
  },
  {
   "property": "C96",
   "status": "proved",
   "theorems": [
    "Nominals.Props.C96_first",
    "Nominals.Props.C96_named",
    "Nominals.Props.C96_injective"
   ],
   "note": ""
  },
  {
   "property": "C97",
   "status": "proved",
   "theorems": [
    "Nominals.Props.C97_errors",
    "Nominals.Props.C97_first_failure",
    "Nominals.Props.C97_unwrap"
   ],
   "note": ""
  },
  {
   "property": "C98",
   "status": "proved",
   "theorems": [
    "Nominals.Props.C98_log",
    "Nominals.Props.C98_push",
    "Nominals.Props.C98_total",
    "Nominals.Props.C98_direction",
    "Nominals.Props.C98_formatters_log",
    "Nominals.Props.C98_formatters",
    "Nominals.Props.C98_chinese"
   ],
   "note": ""
  },
  {
   "property": "C99",
   "status": "proved",
   "theorems": [
    "Nominals.Props.C99_named",
    "Nominals.Props.C99_collections"
   ],
   "note": ""
  },
  {
   "property": "C100",
   "status": "proved",
   "theorems": [
    "Nominals.Props.C100_additive_builds",
    "Nominals.Props.C100_additive_symbols",
    "Nominals.Props.C100_additive",
    "Nominals.Props.C100_additive_weak",
    "Nominals.Props.C100_additive_exact",
    "Nominals.Props.C100_circled",
    "Nominals.Props.C100_named",
    "Nominals.Props.C100_to_nominal",
    "Nominals.Props.C100_positional",
    "Nominals.Props.C100_columns",
    "Nominals.Props.C100_digits_exact",
    "Nominals.Props.C100_enumerated_exact"
   ],
   "note": ""
  },
  {
   "property": "C101",
   "status": "proved",
   "theorems": [
    "Nominals.Props.C101_additive_builds",
    "Nominals.Props.C101_additive_exact",
    "Nominals.Props.C101_additive_bytes_exact",
    "Nominals.Props.C101_enumerated_exact",
    "Nominals.Props.C101_named",
    "Nominals.Props.C101_to_nominal",
    "Nominals.Props.C101_digits"
   ],
   "note": ""
  },
  {
   "property": "C102",
   "status": "proved",
   "theorems": [
    "Nominals.Props.C102_own",
    "Nominals.Props.C102_to_nominal",
    "Nominals.Props.C102_alternating",
    "Nominals.Props.C102_alternating_own"
   ],
   "note": ""
  },
  {
   "property": "C103",
   "status": "proved",
   "theorems": [
    "Nominals.Props.C103_labels",
    "Nominals.Props.C103_order",
    "Nominals.Props.C103_order_tight",
    "Nominals.Props.C103_labels_order"
   ],
   "note": ""
  },
  {
   "property": "C104",
   "status": "proved",
   "theorems": [
    "Nominals.Props.C104_collections",
    "Nominals.Props.C104_additive",
    "Nominals.Props.C104_enumerated",
    "Nominals.Props.C104_named",
    "Nominals.Props.C104_labels",
    "Nominals.Props.C104_armenian"
   ],
   "note": ""
  },
  {
   "property": "C105",
   "status": "proved",
   "theorems": [
    "Nominals.Props.C105_bytes",
    "Nominals.Props.C105_zero",
    "Nominals.Props.C105_letters",
    "Nominals.Props.C105_one_based",
    "Nominals.Props.C105_named",
    "Nominals.Props.C105_own",
    "Nominals.Props.C105_to_nominal"
   ],
   "note": ""
  },
  {
   "property": "C106",
   "status": "proved",
   "theorems": [
    "Nominals.Props.C106_zero_keeps",
    "Nominals.Props.C106_zero_changes",
    "Nominals.Props.C106_letters_keeps",
    "Nominals.Props.C106_letters_changes",
    "Nominals.Props.C106_one_based",
    "Nominals.Props.C106_chain",
    "Nominals.Props.C106_restrict",
    "Nominals.Props.C106_fixed",
    "Nominals.Props.C106_additive",
    "Nominals.Props.C106_additive_top",
    "Nominals.Props.C106_enumerated"
   ],
   "note": ""
  },
  {
   "property": "C107",
   "status": "proved",
   "theorems": [
    "Nominals.Props.C107_zero",
    "Nominals.Props.C107_letters",
    "Nominals.Props.C107_one_based",
    "Nominals.Props.C107_few_numbers",
    "Nominals.Props.C107_few_numbers_one_based",
    "Nominals.Props.C107_zero_letters",
    "Nominals.Props.C107_from_zero_or_one",
    "Nominals.Props.C107_enumerated",
    "Nominals.Props.C107_additive"
   ],
   "note": ""
  }
 ]
}