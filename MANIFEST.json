{
 "claims": [
  {
   "property": "C01",
   "status": "proved",
   "theorems": [
    "Sneturfahi.Props.C01_new",
    "Sneturfahi.Props.C01_at"
   ],
   "note": ""
  },
  {
   "property": "C02",
   "status": "proved",
   "theorems": [
    "Sneturfahi.Props.C02_overlaps_commutative",
    "Sneturfahi.Props.C02_overlaps_meaning",
    "Sneturfahi.Props.C02_overlaps_panics"
   ],
   "note": ""
  },
  {
   "property": "C03",
   "status": "proved",
   "theorems": [
    "Sneturfahi.Props.C03_between",
    "Sneturfahi.Props.C03_between_panics",
    "Sneturfahi.Props.C03_gap_contiguous"
   ],
   "note": ""
  },
  {
   "property": "C04",
   "status": "proved",
   "theorems": [
    "Sneturfahi.Props.C04_slice_some_iff",
    "Sneturfahi.Props.C04_partition"
   ],
   "note": ""
  },
  {
   "property": "C05",
   "status": "proved",
   "theorems": [
    "Sneturfahi.Props.C05_embedded",
    "Sneturfahi.Props.C05_foreign",
    "Sneturfahi.Props.C05_entire"
   ],
   "note": ""
  },
  {
   "property": "C06",
   "status": "proved",
   "theorems": [
    "Sneturfahi.Props.C06_rules_total",
    "Sneturfahi.Props.C06_runRule_total"
   ],
   "note": ""
  },
  {
   "property": "C07",
   "status": "proved",
   "theorems": [
    "Sneturfahi.Props.C07_prefix",
    "Sneturfahi.Props.C07_address_independent"
   ],
   "note": ""
  },
  {
   "property": "C08",
   "status": "proved",
   "theorems": [
    "Sneturfahi.Props.C08_classify_total"
   ],
   "note": ""
  },
  {
   "property": "C09",
   "status": "proved",
   "theorems": [
    "Sneturfahi.Props.C09_gismu_shape"
   ],
   "note": ""
  },
  {
   "property": "C10",
   "status": "proved",
   "theorems": [
    "Sneturfahi.Props.C10_gismu_with_y",
    "Sneturfahi.Props.C10_final_not_y",
    "Sneturfahi.Props.C10_y_first_vowel_only"
   ],
   "note": ""
  },
  {
   "property": "C11",
   "status": "proved",
   "theorems": [
    "Sneturfahi.Props.C11_cmevla_shape"
   ],
   "note": ""
  },
  {
   "property": "C12",
   "status": "proved",
   "theorems": [
    "Sneturfahi.Props.C12_alphabet",
    "Sneturfahi.Props.C12_alphabet_words",
    "Sneturfahi.Props.C12_space"
   ],
   "note": ""
  },
  {
   "property": "C13",
   "status": "proved",
   "theorems": [
    "Sneturfahi.Props.C13_permissible_pairs",
    "Sneturfahi.Props.C13_no_forbidden_triple"
   ],
   "note": ""
  },
  {
   "property": "C14",
   "status": "proved",
   "theorems": [
    "Sneturfahi.Props.C14_commas",
    "Sneturfahi.Props.C14_commas_cmavo",
    "Sneturfahi.Props.C14_final_comma",
    "Sneturfahi.Props.C14_exact"
   ],
   "note": ""
  },
  {
   "property": "C15",
   "status": "proved",
   "theorems": [
    "Sneturfahi.Props.C15_h_classify",
    "Sneturfahi.Props.C15_h_decompose"
   ],
   "note": ""
  },
  {
   "property": "C16",
   "status": "proved",
   "theorems": [
    "Sneturfahi.Props.C16_experimental",
    "Sneturfahi.Props.C16_experimental_entry"
   ],
   "note": ""
  },
  {
   "property": "C17",
   "status": "proved",
   "theorems": [
    "Sneturfahi.Props.C17_table",
    "Sneturfahi.Props.C17_dead_entries",
    "Sneturfahi.Props.C17_only_table",
    "Sneturfahi.Props.C17_long_words"
   ],
   "note": ""
  },
  {
   "property": "C18",
   "status": "proved",
   "theorems": [
    "Sneturfahi.Props.C18_hesitation",
    "Sneturfahi.Props.C18_long_hesitation",
    "Sneturfahi.Props.C18_exact"
   ],
   "note": ""
  },
  {
   "property": "C19",
   "status": "proved",
   "theorems": [
    "Sneturfahi.Props.C19_repr_injective"
   ],
   "note": ""
  },
  {
   "property": "C20",
   "status": "proved",
   "theorems": [
    "Sneturfahi.Props.C20_terminates",
    "Sneturfahi.Props.C20_decomposeAll_yields"
   ],
   "note": ""
  },
  {
   "property": "C21",
   "status": "proved",
   "theorems": [
    "Sneturfahi.Props.C21_spans_valid"
   ],
   "note": ""
  },
  {
   "property": "C22",
   "status": "proved",
   "theorems": [
    "Sneturfahi.Props.C22_nothing_lost"
   ],
   "note": ""
  },
  {
   "property": "C23",
   "status": "proved",
   "theorems": [
    "Sneturfahi.Props.C23_word_characters"
   ],
   "note": ""
  },
  {
   "property": "C24",
   "status": "proved",
   "theorems": [
    "Sneturfahi.Props.C24_local"
   ],
   "note": ""
  },
  {
   "property": "C25",
   "status": "proved",
   "theorems": [
    "Sneturfahi.Props.C25_separators_interchangeable",
    "Sneturfahi.Props.C25_extra_separators"
   ],
   "note": ""
  },
  {
   "property": "C26",
   "status": "proved",
   "theorems": [
    "Sneturfahi.Props.C26_consonant_final"
   ],
   "note": ""
  },
  {
   "property": "C27",
   "status": "proved",
   "theorems": [
    "Sneturfahi.Props.C27_commas",
    "Sneturfahi.Props.C27_remove_commas",
    "Sneturfahi.Props.C27_chunk_final_comma"
   ],
   "note": ""
  },
  {
   "property": "C28",
   "status": "proved",
   "theorems": [
    "Sneturfahi.Props.C28_consonant_case"
   ],
   "note": ""
  },
  {
   "property": "C29",
   "status": "proved",
   "theorems": [
    "Sneturfahi.Props.C29_plain_splitting"
   ],
   "note": ""
  },
  {
   "property": "C30",
   "status": "proved",
   "theorems": [
    "Sneturfahi.Props.C30_interleaving"
   ],
   "note": ""
  },
  {
   "property": "C31",
   "status": "proved",
   "theorems": [
    "Sneturfahi.Props.C31_resuming",
    "Sneturfahi.Props.C31_none"
   ],
   "note": ""
  },
  {
   "property": "C32",
   "status": "proved",
   "theorems": [
    "Sneturfahi.Props.C32_size_hint",
    "Sneturfahi.Props.C32_off_by_one",
    "Sneturfahi.Props.C32_size_hint_wrong"
   ],
   "note": ""
  },
  {
   "property": "C33",
   "status": "proved",
   "theorems": [
    "Sneturfahi.Props.C33_terminates",
    "Sneturfahi.Props.C33_lexAll_yields",
    "Sneturfahi.Props.C33_length"
   ],
   "note": ""
  },
  {
   "property": "C34",
   "status": "proved",
   "theorems": [
    "Sneturfahi.Props.C34_error_last"
   ],
   "note": ""
  },
  {
   "property": "C35",
   "status": "proved",
   "theorems": [
    "Sneturfahi.Props.C35_spans"
   ],
   "note": ""
  },
  {
   "property": "C36",
   "status": "proved",
   "theorems": [
    "Sneturfahi.Props.C36_faho_last",
    "Sneturfahi.Props.C36_rest_ignored"
   ],
   "note": ""
  },
  {
   "property": "C37",
   "status": "proved",
   "theorems": [
    "Sneturfahi.Props.C37_shape"
   ],
   "note": ""
  },
  {
   "property": "C38",
   "status": "proved",
   "theorems": [
    "Sneturfahi.Props.C38_quoted_text",
    "Sneturfahi.Props.C38_empty_quote"
   ],
   "note": ""
  },
  {
   "property": "C39",
   "status": "proved",
   "theorems": [
    "Sneturfahi.Props.C39_pause_quotes",
    "Sneturfahi.Props.C39_empty_text"
   ],
   "note": ""
  },
  {
   "property": "C40",
   "status": "proved",
   "theorems": [
    "Sneturfahi.Props.C40_errors_mean",
    "Sneturfahi.Props.C40_unclosed_iff",
    "Sneturfahi.Props.C40_missing_if"
   ],
   "note": ""
  },
  {
   "property": "C41",
   "status": "proved",
   "theorems": [
    "Sneturfahi.Props.C41_tokens_are_words",
    "Sneturfahi.Props.C41_plain_text"
   ],
   "note": ""
  },
  {
   "property": "C42",
   "status": "proved",
   "theorems": [
    "Sneturfahi.Props.C42_local"
   ],
   "note": ""
  },
  {
   "property": "C43",
   "status": "proved",
   "theorems": [
    "Sneturfahi.Props.C43_opaque",
    "Sneturfahi.Props.C43_adjacent"
   ],
   "note": ""
  },
  {
   "property": "C44",
   "status": "proved",
   "theorems": [
    "Sneturfahi.Props.C44_balanced",
    "Sneturfahi.Props.C44_sequence",
    "Sneturfahi.Props.C44_reported",
    "Sneturfahi.Props.C44_decompose",
    "Sneturfahi.Props.C44_classify",
    "Sneturfahi.Props.C44_lex"
   ],
   "note": ""
  },
  {
   "property": "C45",
   "status": "proved",
   "theorems": [
    "Sneturfahi.Props.C45_total",
    "Sneturfahi.Props.C45_productions",
    "Sneturfahi.Props.C45_recursion",
    "Sneturfahi.Props.C45_repetitions_progress"
   ],
   "note": ""
  },
  {
   "property": "C46",
   "status": "proved",
   "theorems": [
    "Sneturfahi.Props.C46_tokens",
    "Sneturfahi.Props.C46_children",
    "Sneturfahi.Props.C46_child_part"
   ],
   "note": ""
  },
  {
   "property": "C47",
   "status": "proved",
   "theorems": [
    "Sneturfahi.Props.C47_selmaho_only",
    "Sneturfahi.Props.C47_address",
    "Sneturfahi.Props.C47_transfer"
   ],
   "note": ""
  },
  {
   "property": "C48",
   "status": "proved",
   "theorems": [
    "Sneturfahi.Props.C48_locations",
    "Sneturfahi.Props.C48_experimental",
    "Sneturfahi.Props.C48_leaves",
    "Sneturfahi.Props.C48_experimental_quoted"
   ],
   "note": ""
  },
  {
   "property": "C49",
   "status": "proved",
   "theorems": [
    "Sneturfahi.Props.C49_errors"
   ],
   "note": ""
  },
  {
   "property": "C50",
   "status": "proved",
   "theorems": [
    "Sneturfahi.Props.C50_empty_quote",
    "Sneturfahi.Props.C50_text_quote",
    "Sneturfahi.Props.C50_three_tokens",
    "Sneturfahi.Props.C50_final_empty_quote"
   ],
   "note": ""
  },
  {
   "property": "C51",
   "status": "proved",
   "theorems": [
    "Sneturfahi.Props.C51_lexing_rules"
   ],
   "note": ""
  },
  {
   "property": "C52",
   "status": "proved",
   "theorems": [
    "Sneturfahi.Props.C52_errors",
    "Sneturfahi.Props.C52_plain",
    "Sneturfahi.Props.C52_occur"
   ],
   "note": ""
  },
  {
   "property": "C53",
   "status": "proved",
   "theorems": [
    "Sneturfahi.Props.C53_conforms"
   ],
   "note": ""
  },
  {
   "property": "C54",
   "status": "proved",
   "theorems": [
    "Sneturfahi.Props.C54_slices",
    "Sneturfahi.Props.C54_siblings"
   ],
   "note": ""
  },
  {
   "property": "C55",
   "status": "proved",
   "theorems": [
    "Sneturfahi.Props.C55_decompose_exponential",
    "Sneturfahi.Props.C55_lex_exponential",
    "Sneturfahi.Props.C55_classify_exponential",
    "Sneturfahi.Props.C55_no_polynomial"
   ],
   "note": ""
  },
  {
   "property": "C56",
   "status": "proved",
   "theorems": [
    "Sneturfahi.Props.C56_prints",
    "Sneturfahi.Props.C56_never_panics"
   ],
   "note": ""
  },
  {
   "property": "C57",
   "status": "proved",
   "theorems": [
    "Sneturfahi.Props.C57_tree"
   ],
   "note": ""
  },
  {
   "property": "C58",
   "status": "proved",
   "theorems": [
    "Sneturfahi.Props.C58_named",
    "Sneturfahi.Props.C58_not_named",
    "Sneturfahi.Props.C58_not_every_word"
   ],
   "note": ""
  },
  {
   "property": "C59",
   "status": "proved",
   "theorems": [
    "Sneturfahi.Props.C59_unquoted",
    "Sneturfahi.Props.C59_no_use"
   ],
   "note": ""
  },
  {
   "property": "C60",
   "status": "proved",
   "theorems": [
    "Sneturfahi.Props.C60_gismu_iff"
   ],
   "note": ""
  },
  {
   "property": "C61",
   "status": "proved",
   "theorems": [
    "Sneturfahi.Props.C61_words_written_together"
   ],
   "note": ""
  },
  {
   "property": "C62",
   "status": "proved",
   "theorems": [
    "Sneturfahi.Props.C62_brivla_vowels"
   ],
   "note": ""
  },
  {
   "property": "C63",
   "status": "proved",
   "theorems": [
    "Sneturfahi.Props.C63_stops_there",
    "Sneturfahi.Props.C63_stops_before"
   ],
   "note": ""
  },
  {
   "property": "C64",
   "status": "proved",
   "theorems": [
    "Sneturfahi.Props.C64_faho",
    "Sneturfahi.Props.C64_faho_only",
    "Sneturfahi.Props.C64_bahe"
   ],
   "note": ""
  },
  {
   "property": "C65",
   "status": "proved",
   "theorems": [
    "Sneturfahi.Props.C65_empty",
    "Sneturfahi.Props.C65_located",
    "Sneturfahi.Props.C65_all_occur"
   ],
   "note": ""
  },
  {
   "property": "C66",
   "status": "proved",
   "theorems": [
    "Sneturfahi.Props.C66_meaning",
    "Sneturfahi.Props.C66_outcome"
   ],
   "note": ""
  },
  {
   "property": "C67",
   "status": "proved",
   "theorems": [
    "Sneturfahi.Props.C67_never",
    "Sneturfahi.Props.C67_all_others"
   ],
   "note": ""
  },
  {
   "property": "C68",
   "status": "proved",
   "theorems": [
    "Sneturfahi.Props.C68_context_free"
   ],
   "note": ""
  },
  {
   "property": "C69",
   "status": "proved",
   "theorems": [
    "Sneturfahi.Props.C69_division",
    "Sneturfahi.Props.C69_first_lehu",
    "Sneturfahi.Props.C69_zo",
    "Sneturfahi.Props.C69_lohu",
    "Sneturfahi.Props.C69_unclosed",
    "Sneturfahi.Props.C69_zoi",
    "Sneturfahi.Props.C69_zo_only",
    "Sneturfahi.Props.C69_zo_iff"
   ],
   "note": ""
  },
  {
   "property": "C70",
   "status": "proved",
   "theorems": [
    "Sneturfahi.Props.C70_letters",
    "Sneturfahi.Props.C70_inner",
    "Sneturfahi.Props.C70_letter"
   ],
   "note": ""
  },
  {
   "property": "C71",
   "status": "proved",
   "theorems": [
    "Sneturfahi.Props.C71_only_that_form",
    "Sneturfahi.Props.C71_all_of_that_form",
    "Sneturfahi.Props.C71_unknown",
    "Sneturfahi.Props.C71_capitals"
   ],
   "note": ""
  },
  {
   "property": "C72",
   "status": "proved",
   "theorems": [
    "Sneturfahi.Props.C72_words_stand_alone",
    "Sneturfahi.Props.C72_final_comma"
   ],
   "note": ""
  },
  {
   "property": "C73",
   "status": "proved",
   "theorems": [
    "Sneturfahi.Props.C73_paragraph",
    "Sneturfahi.Props.C73_paragraphs",
    "Sneturfahi.Props.C73_conditions"
   ],
   "note": ""
  },
  {
   "property": "C74",
   "status": "proved",
   "theorems": [
    "Sneturfahi.Props.C74_sentence",
    "Sneturfahi.Props.C74_sentences",
    "Sneturfahi.Props.C74_conditions"
   ],
   "note": ""
  },
  {
   "property": "C75",
   "status": "proved",
   "theorems": [
    "Sneturfahi.Props.C75_nai",
    "Sneturfahi.Props.C75_absent",
    "Sneturfahi.Props.C75_others",
    "Sneturfahi.Props.C75_examples"
   ],
   "note": ""
  },
  {
   "property": "C76",
   "status": "proved",
   "theorems": [
    "Sneturfahi.Props.C76_one",
    "Sneturfahi.Props.C76_letter",
    "Sneturfahi.Props.C76_example"
   ],
   "note": ""
  },
  {
   "property": "C77",
   "status": "proved",
   "theorems": [
    "Sneturfahi.Props.C77_text",
    "Sneturfahi.Props.C77_tree",
    "Sneturfahi.Props.C77_add",
    "Sneturfahi.Props.C77_conditions"
   ],
   "note": ""
  },
  {
   "property": "C78",
   "status": "proved",
   "theorems": [
    "Sneturfahi.Props.C78_text",
    "Sneturfahi.Props.C78_tree",
    "Sneturfahi.Props.C78_replace",
    "Sneturfahi.Props.C78_names",
    "Sneturfahi.Props.C78_others"
   ],
   "note": ""
  },
  {
   "property": "C79",
   "status": "proved",
   "theorems": [
    "Sneturfahi.Props.C79_grammar",
    "Sneturfahi.Props.C79_manual",
    "Sneturfahi.Props.C79_all",
    "Sneturfahi.Props.C79_distinct",
    "Sneturfahi.Props.C79_words",
    "Sneturfahi.Props.C79_nodes",
    "Sneturfahi.Props.C79_cases"
   ],
   "note": ""
  },
  {
   "property": "C80",
   "status": "proved",
   "theorems": [
    "Sneturfahi.Props.C80_declaration",
    "Sneturfahi.Props.C80_declaration_case",
    "Sneturfahi.Props.C80_option",
    "Sneturfahi.Props.C80_tuple",
    "Sneturfahi.Props.C80_parameter",
    "Sneturfahi.Props.C80_alias",
    "Sneturfahi.Props.C80_generic",
    "Sneturfahi.Props.C80_types_case",
    "Sneturfahi.Props.C80_production"
   ],
   "note": ""
  },
  {
   "property": "C81",
   "status": "proved",
   "theorems": [
    "Sneturfahi.Props.C81_rules",
    "Sneturfahi.Props.C81_each",
    "Sneturfahi.Props.C81_determined",
    "Sneturfahi.Props.C81_cases"
   ],
   "note": ""
  },
  {
   "property": "C82",
   "status": "proved",
   "theorems": [
    "Sneturfahi.Props.C82_variants",
    "Sneturfahi.Props.C82_table",
    "Sneturfahi.Props.C82_direct",
    "Sneturfahi.Props.C82_direct_cases",
    "Sneturfahi.Props.C82_generally",
    "Sneturfahi.Props.C82_experimental",
    "Sneturfahi.Props.C82_repr"
   ],
   "note": ""
  },
  {
   "property": "C83",
   "status": "proved",
   "theorems": [
    "Sneturfahi.Props.C83_names",
    "Sneturfahi.Props.C83_one_reading",
    "Sneturfahi.Props.C83_not_cmavo"
   ],
   "note": ""
  },
  {
   "property": "C84",
   "status": "proved",
   "theorems": [
    "Sneturfahi.Props.C84_lujvo"
   ],
   "note": ""
  },
  {
   "property": "C85",
   "status": "proved",
   "theorems": [
    "Sneturfahi.Props.C85_only_rafsi",
    "Sneturfahi.Props.C85_exactly",
    "Sneturfahi.Props.C85_hyphens"
   ],
   "note": ""
  },
  {
   "property": "C86",
   "status": "proved",
   "theorems": [
    "Sneturfahi.Props.C86_lujvo_written_together",
    "Sneturfahi.Props.C86_tosmabru",
    "Sneturfahi.Props.C86_mabrybau"
   ],
   "note": ""
  },
  {
   "property": "C87",
   "status": "proved",
   "theorems": [
    "Sneturfahi.Props.C87_tree",
    "Sneturfahi.Props.C87_closer",
    "Sneturfahi.Props.C87_ku_tree",
    "Sneturfahi.Props.C87_ku",
    "Sneturfahi.Props.C87_kehe_tree",
    "Sneturfahi.Props.C87_kehe",
    "Sneturfahi.Props.C87_closers",
    "Sneturfahi.Props.C87_sentence",
    "Sneturfahi.Props.C87_paragraph",
    "Sneturfahi.Props.C87_conditions",
    "Sneturfahi.Props.C87_others"
   ],
   "note": ""
  },
  {
   "property": "C88",
   "status": "proved",
   "theorems": [
    "Sneturfahi.Props.C88_depth",
    "Sneturfahi.Props.C88_room",
    "Sneturfahi.Props.C88_exponential",
    "Sneturfahi.Props.C88_texts",
    "Sneturfahi.Props.C88_no_polynomial",
    "Sneturfahi.Props.C88_example"
   ],
   "note": ""
  },
  {
   "property": "C89",
   "status": "proved",
   "theorems": [
    "Sneturfahi.Props.C89_grammatical",
    "Sneturfahi.Props.C89_read",
    "Sneturfahi.Props.C89_sentence",
    "Sneturfahi.Props.C89_paragraph",
    "Sneturfahi.Props.C89_brivla",
    "Sneturfahi.Props.C89_separator",
    "Sneturfahi.Props.C89_indicator",
    "Sneturfahi.Props.C89_closers",
    "Sneturfahi.Props.C89_exponential",
    "Sneturfahi.Props.C89_conditions",
    "Sneturfahi.Props.C89_case"
   ],
   "note": ""
  },
  {
   "property": "C90",
   "status": "proved",
   "theorems": [
    "Sneturfahi.Props.C90_fuhivla"
   ],
   "note": ""
  },
  {
   "property": "C91",
   "status": "proved",
   "theorems": [
    "Sneturfahi.Props.C91_two_consonants"
   ],
   "note": ""
  },
  {
   "property": "C92",
   "status": "proved",
   "theorems": [
    "Sneturfahi.Props.C92_fuhivla",
    "Sneturfahi.Props.C92_any_text",
    "Sneturfahi.Props.C92_one_form"
   ],
   "note": ""
  },
  {
   "property": "C93",
   "status": "proved",
   "theorems": [
    "Sneturfahi.Props.C93_division",
    "Sneturfahi.Props.C93_one_division",
    "Sneturfahi.Props.C93_fuhivla"
   ],
   "note": ""
  },
  {
   "property": "C94",
   "status": "proved",
   "theorems": [
    "Sneturfahi.Props.C94_no_y",
    "Sneturfahi.Props.C94_no_digits",
    "Sneturfahi.Props.C94_fuhivla"
   ],
   "note": ""
  },
  {
   "property": "C95",
   "status": "proved",
   "theorems": [
    "Sneturfahi.Props.C95_word",
    "Sneturfahi.Props.C95_before",
    "Sneturfahi.Props.C95_after",
    "Sneturfahi.Props.C95_collapse",
    "Sneturfahi.Props.C95_same",
    "Sneturfahi.Props.C95_others",
    "Sneturfahi.Props.C95_quoted"
   ],
   "note": ""
  },
  {
   "property": "C96",
   "status": "proved",
   "theorems": [
    "Sneturfahi.Props.C96_no_switch",
    "Sneturfahi.Props.C96_total",
    "Sneturfahi.Props.C96_pipe",
    "Sneturfahi.Props.C96_white_space",
    "Sneturfahi.Props.C96_session",
    "Sneturfahi.Props.C96_addresses"
   ],
   "note": ""
  },
  {
   "property": "C97",
   "status": "proved",
   "theorems": [
    "Sneturfahi.Props.C97_words",
    "Sneturfahi.Props.C97_lexing_error",
    "Sneturfahi.Props.C97_tokens",
    "Sneturfahi.Props.C97_tree",
    "Sneturfahi.Props.C97_parse_error",
    "Sneturfahi.Props.C97_printable"
   ],
   "note": ""
  },
  {
   "property": "C98",
   "status": "proved",
   "theorems": [
    "Sneturfahi.Props.C98_tree",
    "Sneturfahi.Props.C98_exchange",
    "Sneturfahi.Props.C98_many",
    "Sneturfahi.Props.C98_quote",
    "Sneturfahi.Props.C98_pieces",
    "Sneturfahi.Props.C98_conditions"
   ],
   "note": ""
  },
  {
   "property": "C99",
   "status": "proved",
   "theorems": [
    "Sneturfahi.Props.C99_exchange",
    "Sneturfahi.Props.C99_quote",
    "Sneturfahi.Props.C99_repeat",
    "Sneturfahi.Props.C99_quote_case",
    "Sneturfahi.Props.C99_conditions"
   ],
   "note": ""
  },
  {
   "property": "C100",
   "status": "proved",
   "theorems": [
    "Sneturfahi.Props.C100_exchange",
    "Sneturfahi.Props.C100_quotes",
    "Sneturfahi.Props.C100_deep",
    "Sneturfahi.Props.C100_pieces",
    "Sneturfahi.Props.C100_conditions"
   ],
   "note": ""
  },
  {
   "property": "C101",
   "status": "proved",
   "theorems": [
    "Sneturfahi.Props.C101_words",
    "Sneturfahi.Props.C101_items",
    "Sneturfahi.Props.C101_class",
    "Sneturfahi.Props.C101_class_example",
    "Sneturfahi.Props.C101_parser",
    "Sneturfahi.Props.C101_rules",
    "Sneturfahi.Props.C101_room",
    "Sneturfahi.Props.C101_messages",
    "Sneturfahi.Props.C101_example"
   ],
   "note": ""
  },
  {
   "property": "C102",
   "status": "proved",
   "theorems": [
    "Sneturfahi.Props.C102_text",
    "Sneturfahi.Props.C102_tree",
    "Sneturfahi.Props.C102_replace",
    "Sneturfahi.Props.C102_written",
    "Sneturfahi.Props.C102_apart"
   ],
   "note": ""
  },
  {
   "property": "C103",
   "status": "proved",
   "theorems": [
    "Sneturfahi.Props.C103_lexing",
    "Sneturfahi.Props.C103_kind",
    "Sneturfahi.Props.C103_kinds_occur",
    "Sneturfahi.Props.C103_parsing",
    "Sneturfahi.Props.C103_plain",
    "Sneturfahi.Props.C103_determined",
    "Sneturfahi.Props.C103_printable",
    "Sneturfahi.Props.C103_example"
   ],
   "note": ""
  },
  {
   "property": "C104",
   "status": "proved",
   "theorems": [
    "Sneturfahi.Props.C104_text",
    "Sneturfahi.Props.C104_pipe",
    "Sneturfahi.Props.C104_session",
    "Sneturfahi.Props.C104_cases",
    "Sneturfahi.Props.C104_panics",
    "Sneturfahi.Props.C104_no_text",
    "Sneturfahi.Props.C104_example"
   ],
   "note": ""
  }
 ]
}