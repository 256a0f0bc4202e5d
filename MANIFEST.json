{
 "claims": [
  {
   "property": "C01",
   "status": "proved",
   "theorems": [
    "Ctre.C01_match_sound",
    "Ctre.C01_starts_with_sound",
    "Ctre.C01_search_sound"
   ],
   "note": ""
  },
  {
   "property": "C02",
   "status": "proved",
   "theorems": [
    "Ctre.C02_match_complete",
    "Ctre.C02_starts_with_complete",
    "Ctre.C02_search_complete",
    "Ctre.C02_fragment",
    "Ctre.C02_fails_for_ambiguous_loop"
   ],
   "note": "For the configuration without the greedy-to-possessive optimisation; the fragment predicate is decidable and the counterexample outside it is proved."
  },
  {
   "property": "C03",
   "status": "proved",
   "theorems": [
    "Ctre.C03_accepted",
    "Ctre.C03_match_spans_subject"
   ],
   "note": ""
  },
  {
   "property": "C04",
   "status": "proved",
   "theorems": [
    "Ctre.C04_accepted",
    "Ctre.C04_match_implies_starts_with",
    "Ctre.C04_starts_with_implies_search"
   ],
   "note": ""
  },
  {
   "property": "C05",
   "status": "proved",
   "theorems": [
    "Ctre.C05_accepted",
    "Ctre.C05_search_leftmost",
    "Ctre.C05_search_failure",
    "Ctre.C05_search_iff"
   ],
   "note": ""
  },
  {
   "property": "C06",
   "status": "partial",
   "theorems": [
    "Ctre.C06_anchored_matches_only_at_begin",
    "Ctre.C06_shortcut_partial",
    "Ctre.C06_search_failure_partial",
    "Ctre.C06_fails_for_skipped_anchor"
   ],
   "note": "The shortcut is sound when no starred or optional part precedes the anchor; C06_fails_for_skipped_anchor refutes the general claim."
  },
  {
   "property": "C07",
   "status": "proved",
   "theorems": [
    "Ctre.C07_accepted",
    "Ctre.C07_captures_inside_match",
    "Ctre.C07_captures_inside_starts_with",
    "Ctre.C07_captures_inside_search"
   ],
   "note": ""
  },
  {
   "property": "C08",
   "status": "proved",
   "theorems": [
    "Ctre.C08_accepted",
    "Ctre.C08_no_out_of_bounds"
   ],
   "note": ""
  },
  {
   "property": "C09",
   "status": "proved",
   "theorems": [
    "Ctre.C09_terminates",
    "Ctre.C09_defined",
    "Ctre.C09_diverges"
   ],
   "note": "For the class of patterns named in the statement; C09_diverges is the counterexample outside it."
  },
  {
   "property": "C10",
   "status": "proved",
   "theorems": [
    "Ctre.C10_alternation_ordered",
    "Ctre.C10_first_alternative"
   ],
   "note": ""
  },
  {
   "property": "C11",
   "status": "proved",
   "theorems": [
    "Ctre.C11_greedy_most",
    "Ctre.C11_lazy_fewest",
    "Ctre.C11_possessive_all"
   ],
   "note": ""
  },
  {
   "property": "C12",
   "status": "proved",
   "theorems": [
    "Ctre.C12_repetition_count",
    "Ctre.C12_contradictory_bounds",
    "Ctre.C12_fails_for_zero_bound"
   ],
   "note": "The zero upper bound defect is proved as C12_fails_for_zero_bound."
  },
  {
   "property": "C13",
   "status": "proved",
   "theorems": [
    "Ctre.C13_possessive_no_backtrack",
    "Ctre.C13_atomic_no_backtrack",
    "Ctre.C13_atomic_first_way",
    "Ctre.C13_atomic_fails"
   ],
   "note": ""
  },
  {
   "property": "C14",
   "status": "proved",
   "theorems": [
    "Ctre.C14_lookahead_matches",
    "Ctre.C14_lookahead_fails",
    "Ctre.C14_negative_matches",
    "Ctre.C14_negative_fails"
   ],
   "note": ""
  },
  {
   "property": "C15",
   "status": "proved",
   "theorems": [
    "Ctre.C15_positive",
    "Ctre.C15_negative",
    "Ctre.C15_translated",
    "Ctre.C15_fails_for_anchors"
   ],
   "note": "for contents built from characters, classes, strings, boundaries, concatenation and alternation; repetitions, captures and back references inside a lookbehind do not compile; for anchors the claim is false (C15_fails_for_anchors)"
  },
  {
   "property": "C16",
   "status": "proved",
   "theorems": [
    "Ctre.C16_backreference",
    "Ctre.C16_named_backreference",
    "Ctre.C16_unset_group",
    "Ctre.C16_unset_named_group",
    "Ctre.C16_ignores_case_insensitive"
   ],
   "note": ""
  },
  {
   "property": "C17",
   "status": "proved",
   "theorems": [
    "Ctre.C17_subject_begin",
    "Ctre.C17_subject_end",
    "Ctre.C17_subject_end_line",
    "Ctre.C17_line_begin",
    "Ctre.C17_line_end",
    "Ctre.C17_dot"
   ],
   "note": ""
  },
  {
   "property": "C18",
   "status": "proved",
   "theorems": [
    "Ctre.C18_word_boundary",
    "Ctre.C18_not_boundary_meaning",
    "Ctre.C18_fails_not_boundary_equals_boundary",
    "Ctre.C18_fails_on_empty_subject",
    "Ctre.C18_not_boundary_node"
   ],
   "note": "\\b proved; the \\B defect is proved as C18_fails_*."
  },
  {
   "property": "C19",
   "status": "proved",
   "theorems": [
    "Ctre.C19_case_insensitive_results",
    "Ctre.C19_character",
    "Ctre.C19_fails_for_mixed_range",
    "Ctre.C19_fails_for_back_reference"
   ],
   "note": "The conditions on ranges and back references are shown necessary by C19_fails_*."
  },
  {
   "property": "C20",
   "status": "proved",
   "theorems": [
    "Ctre.C20_digit",
    "Ctre.C20_non_digit",
    "Ctre.C20_word",
    "Ctre.C20_non_word",
    "Ctre.C20_space",
    "Ctre.C20_non_space",
    "Ctre.C20_horizontal_space",
    "Ctre.C20_non_horizontal_space",
    "Ctre.C20_vertical_space",
    "Ctre.C20_non_vertical_space",
    "Ctre.C20_posix_alnum",
    "Ctre.C20_posix_not_alnum",
    "Ctre.C20_not_posix_alnum",
    "Ctre.C20_posix_alpha",
    "Ctre.C20_posix_not_alpha",
    "Ctre.C20_not_posix_alpha",
    "Ctre.C20_posix_digit",
    "Ctre.C20_posix_not_digit",
    "Ctre.C20_not_posix_digit",
    "Ctre.C20_posix_punct",
    "Ctre.C20_posix_not_punct",
    "Ctre.C20_not_posix_punct",
    "Ctre.C20_posix_space",
    "Ctre.C20_posix_not_space",
    "Ctre.C20_not_posix_space",
    "Ctre.C20_posix_word",
    "Ctre.C20_posix_not_word",
    "Ctre.C20_not_posix_word",
    "Ctre.C20_posix_xdigit",
    "Ctre.C20_posix_not_xdigit",
    "Ctre.C20_not_posix_xdigit",
    "Ctre.C20_posix_ascii",
    "Ctre.C20_posix_not_ascii",
    "Ctre.C20_not_posix_ascii",
    "Ctre.C20_posix_graph",
    "Ctre.C20_posix_not_graph",
    "Ctre.C20_not_posix_graph",
    "Ctre.C20_posix_print",
    "Ctre.C20_posix_not_print",
    "Ctre.C20_not_posix_print",
    "Ctre.C20_posix_blank",
    "Ctre.C20_posix_not_blank",
    "Ctre.C20_not_posix_blank",
    "Ctre.C20_posix_cntrl",
    "Ctre.C20_posix_not_cntrl",
    "Ctre.C20_not_posix_cntrl",
    "Ctre.C20_posix_lower",
    "Ctre.C20_posix_lower_caseless",
    "Ctre.C20_posix_upper",
    "Ctre.C20_posix_upper_caseless",
    "Ctre.C20_not_newline",
    "Ctre.C20_set_union",
    "Ctre.C20_negated_set",
    "Ctre.C20_range_ascii",
    "Ctre.C20_range",
    "Ctre.C20_character",
    "Ctre.C20_letter_caseless"
   ],
   "note": ""
  },
  {
   "property": "C21",
   "status": "proved",
   "theorems": [
    "Ctre.C21_first_result",
    "Ctre.C21_next_result",
    "Ctre.C21_results_apart",
    "Ctre.C21_end_is_justified",
    "Ctre.C21_ends",
    "Ctre.C21_empty_result_repeats"
   ],
   "note": ""
  },
  {
   "property": "C22",
   "status": "proved",
   "theorems": [
    "Ctre.C22_split_pieces",
    "Ctre.C22_split_joined",
    "Ctre.C22_fails_for_anchored"
   ],
   "note": "The anchored-separator defect is proved as C22_fails_for_anchored."
  },
  {
   "property": "C23",
   "status": "proved",
   "theorems": [
    "Ctre.C23_first_token",
    "Ctre.C23_tokens_adjacent",
    "Ctre.C23_stops",
    "Ctre.C23_tokens_concat"
   ],
   "note": ""
  },
  {
   "property": "C24",
   "status": "proved",
   "theorems": [
    "Ctre.C24_multi_subject_filters",
    "Ctre.C24_comparison_with_end",
    "Ctre.C24_fails_end_not_equal"
   ],
   "note": "The reversed end comparison defect is proved as C24_fails_end_not_equal."
  },
  {
   "property": "C25",
   "status": "proved",
   "theorems": [
    "Ctre.C25_iteration",
    "Ctre.C25_matching",
    "Ctre.C25_matching_behind",
    "Ctre.C25_fails_for_lookbehind"
   ],
   "note": "Well-formed text, patterns without back references (these do not compile on u8 subjects). Lookbehind with the standard library of C++20, or for code points below 256; C25_fails_for_lookbehind refutes it above with an older library."
  },
  {
   "property": "C26",
   "status": "partial",
   "theorems": [
    "Ctre.C26_reversible",
    "Ctre.C26_spans",
    "Ctre.C26_forward_safe",
    "Ctre.C26_fails_for_truncated",
    "Ctre.C26_fails_for_boundary"
   ],
   "note": "Reversibility and span bounds for well-formed text; memory safety on arbitrary bytes for patterns that never look back. C26_fails_for_truncated and C26_fails_for_boundary refute the claim for malformed text."
  },
  {
   "property": "C27",
   "status": "proved",
   "theorems": [
    "Ctre.C27_utf8",
    "Ctre.C27_utf16",
    "Ctre.C27_encodings_agree",
    "Ctre.C27_length",
    "Ctre.C27_incorrect",
    "Ctre.C27_correct_utf8",
    "Ctre.C27_correct_utf16",
    "Ctre.C27_malformed_accepted",
    "Ctre.C27_same"
   ],
   "note": "Malformed literals may be accepted with another content (C27_malformed_accepted)."
  },
  {
   "property": "C28",
   "status": "partial",
   "theorems": [
    "Ctre.C28_unambiguous",
    "Ctre.C28_terminates",
    "Ctre.C28_build_terminates",
    "Ctre.C28_error_position",
    "Ctre.C28_fails_undecided",
    "Ctre.C28_decided_partial"
   ],
   "note": "Termination in linear time, absence of ambiguity between rules, and the position of the error hold for every string. The claim that every string is accepted or rejected is false: C28_fails_undecided exhibits strings for which no semantic action applies. C28_decided_partial shows it for all strings without the seven features of C74."
  },
  {
   "property": "C29",
   "status": "proved",
   "theorems": [
    "Ctre.C29_match",
    "Ctre.C29_search",
    "Ctre.C29_starts_with"
   ],
   "note": "For every pattern text without special characters, every flag, subject and configuration; match, starts_with and search."
  },
  {
   "property": "C30",
   "status": "proved",
   "theorems": [
    "Ctre.C30_accepted_increasing",
    "Ctre.C30_accepted_consecutive",
    "Ctre.C30_fails_letters",
    "Ctre.C30_accepted_from_one",
    "Ctre.C30_numbering",
    "Ctre.C30_results",
    "Ctre.C30_distinct"
   ],
   "note": "Increasing, consecutive numbers for every accepted text (C30_accepted_*); from 1, one per opening parenthesis, for every text of a syntax tree of Spec/Surface.lean and hence for every accepted text outside the exceptions of C45 (C30_accepted_from_one); for mode groups with several letters C30_fails_letters gives a counterexample."
  },
  {
   "property": "C31",
   "status": "proved",
   "theorems": [
    "Ctre.C31_meaning",
    "Ctre.C31_accepted",
    "Ctre.C31_match_sound",
    "Ctre.C31_starts_with_sound",
    "Ctre.C31_search_sound",
    "Ctre.C31_match_iff"
   ],
   "note": "Acceptance, meaning, and from the pattern text to the results of match/starts_with/search for every syntax tree of Spec/Surface.lean; flattening of sequences and fusion of repetitions included."
  },
  {
   "property": "C32",
   "status": "proved",
   "theorems": [
    "Ctre.C32_counts",
    "Ctre.C32_written",
    "Ctre.C32_meaning",
    "Ctre.C32_modulo",
    "Ctre.C32_hexadecimal",
    "Ctre.C32_fixed_width",
    "Ctre.C32_wraps"
   ],
   "note": "Counts: for every single character (however written) with *, +, {n}, {n,}, {n,m} of any kind and arbitrarily long digit strings, match is characterised by the numbers modulo 2^64 (C32_counts), hence by the written numbers below 2^64 (C32_written); meaning for any repeated atom (C32_meaning); hexadecimal codes likewise."
  },
  {
   "property": "C33",
   "status": "proved",
   "theorems": [
    "Ctre.C33_char",
    "Ctre.C33_controls",
    "Ctre.C33_punctuation",
    "Ctre.C33_set",
    "Ctre.C33_set_controls",
    "Ctre.C33_spelling",
    "Ctre.C33_fails_escape"
   ],
   "note": "As whole patterns, as members of bracket sets, and in any context (patterns differing only in spelling are the same pattern). The defect of \\\\e is C33_fails_escape."
  },
  {
   "property": "C34",
   "status": "proved",
   "theorems": [
    "Ctre.C34_match",
    "Ctre.C34_starts_with",
    "Ctre.C34_search",
    "Ctre.C34_same_results",
    "Ctre.C34_match_iff",
    "Ctre.C34_starts_with_iff",
    "Ctre.C34_search_iff",
    "Ctre.C34_fails_caseless",
    "Ctre.C34_fails_boundary",
    "Ctre.C34_fails_begin",
    "Ctre.C34_fails_line_end",
    "Ctre.C34_fails_empty_iteration"
   ],
   "note": "For steady patterns (the class of the statement) that compile: match, starts_with and search return identical results with and without the optimisation, all captures included; C34_match_iff lifts soundness and completeness to the optimised machine. The conditions are shown necessary by C34_fails_*."
  },
  {
   "property": "C35",
   "status": "proved",
   "theorems": [
    "Ctre.C35_disjoint",
    "Ctre.C35_collision_found",
    "Ctre.C35_classes",
    "Ctre.C35_classes_caseless",
    "Ctre.C35_fails_caseless",
    "Ctre.C35_fails_inverted_range",
    "Ctre.C35_fails_large_constant"
   ],
   "note": "For ordered ranges and character constants below 2^31, on every subject character and with any meaning of Unicode properties: two first sets reported as non-colliding have no common character. C35_classes_caseless is the case-insensitive version for classes written in one case; counterexamples for the caseless mode, inverted ranges and large constants are proved (C35_fails_*)."
  },
  {
   "property": "C36",
   "status": "proved",
   "theorems": [
    "Ctre.C36_built",
    "Ctre.C36_meaning",
    "Ctre.C36_language",
    "Ctre.C36_greedy",
    "Ctre.C36_lazy",
    "Ctre.C36_possessive_last",
    "Ctre.C36_fails_possessive",
    "Ctre.C36_fails_inverted",
    "Ctre.C36_fails_overflow"
   ],
   "note": "The fused repeat has the combined bounds and, when the bounds are in order and the sums do not overflow, exactly the runs, the language and the greedy/lazy results of the two repeats in sequence; possessive fusion is shown correct at the end of a pattern and shown wrong in front of other text (C36_fails_possessive). Inverted bounds and overflow: C36_fails_inverted, C36_fails_overflow."
  },
  {
   "property": "C37",
   "status": "proved",
   "theorems": [
    "Ctre.C37_letters",
    "Ctre.C37_letters_last",
    "Ctre.C37_flags_case",
    "Ctre.C37_flags_line",
    "Ctre.C37_prefix",
    "Ctre.C37_text",
    "Ctre.C37_inline",
    "Ctre.C37_alternative",
    "Ctre.C37_groups",
    "Ctre.C37_fails_letters"
   ],
   "note": "Flag lists; a leading mode equals the flag for all entry points; a mode in the middle (results for text, meaning for arbitrary surroundings, alternatives unaffected). The several-letter defect is C37_fails_letters; C37_letters and C37_letters_last say what such patterns are instead."
  },
  {
   "property": "C38",
   "status": "proved",
   "theorems": [
    "Ctre.C38_result_equals",
    "Ctre.C38_capture_equals",
    "Ctre.C38_fails_for_unmatched_capture",
    "Ctre.C38_fails_empty_at_end"
   ],
   "note": "The exceptions are proved as C38_fails_for_unmatched_capture and C38_fails_empty_at_end."
  },
  {
   "property": "C39",
   "status": "proved",
   "theorems": [
    "Ctre.C39_reachable_by_number",
    "Ctre.C39_named_access"
   ],
   "note": ""
  },
  {
   "property": "C40",
   "status": "proved",
   "theorems": [
    "Ctre.C40_brackets_eval",
    "Ctre.C40_brackets_same_results",
    "Ctre.C40_three_pieces"
   ],
   "note": ""
  },
  {
   "property": "C41",
   "status": "proved",
   "theorems": [
    "Ctre.C41_zero_terminated",
    "Ctre.C41_view",
    "Ctre.C41_needs_terminator"
   ],
   "note": "For patterns with distinct capture numbers, as the parser produces."
  },
  {
   "property": "C42",
   "status": "proved",
   "theorems": [
    "Ctre.C42_comparisons",
    "Ctre.C42_distinct_results",
    "Ctre.C42_equal_exactly",
    "Ctre.C42_equal_exactly_tokenize",
    "Ctre.C42_position",
    "Ctre.C42_fails_at_end"
   ],
   "note": "Exact condition for equality (C42_equal_exactly); the defect at the end of the range is C42_fails_at_end."
  },
  {
   "property": "C43",
   "status": "proved",
   "theorems": [
    "Ctre.C43_msvc_eval",
    "Ctre.C43_msvc_same_results"
   ],
   "note": ""
  },
  {
   "property": "C44",
   "status": "proved",
   "theorems": [
    "Ctre.C44_compiles",
    "Ctre.C44_every_call_yields_a_result",
    "Ctre.C44_fails_mode",
    "Ctre.C44_fails_negative_set",
    "Ctre.C44_fails_lookbehind",
    "Ctre.C44_fails_atomic"
   ],
   "note": "For the class of the statement, which is decidable; C44_fails_* show what does not compile."
  },
  {
   "property": "C45",
   "status": "proved",
   "theorems": [
    "Ctre.C45_accepted_iff",
    "Ctre.C45_unique",
    "Ctre.C45_meaning",
    "Ctre.C45_match_sound",
    "Ctre.C45_search_sound",
    "Ctre.C45_fails_letters"
   ],
   "note": "Acceptance iff a reading exists, uniqueness of readings (print is injective), meaning and results of accepted texts. (?im) is accepted without a reading: C45_fails_letters."
  },
  {
   "property": "C46",
   "status": "proved",
   "theorems": [
    "Ctre.C46_starts_with",
    "Ctre.C46_match",
    "Ctre.C46_search",
    "Ctre.C46_first_way",
    "Ctre.C46_first_way_optimised",
    "Ctre.C46_search_optimised",
    "Ctre.C46_usual_order",
    "Ctre.C46_ways_are_matches",
    "Ctre.C46_match_iff",
    "Ctre.C46_fails_usual_order",
    "Ctre.C46_fails_fixed_count"
   ],
   "note": "First way reported, with all captures, for match, starts_with and search; with the optimisation for steady patterns. The usual order (all ways of an iteration) holds for firm patterns only: C46_fails_usual_order, C46_fails_fixed_count."
  },
  {
   "property": "C47",
   "status": "proved",
   "theorems": [
    "Ctre.C47_no_undefined_read"
   ],
   "note": "For every property that the name tables lead to and every natural number as value."
  },
  {
   "property": "C48",
   "status": "partial",
   "theorems": [
    "Ctre.C48_general_category_partial",
    "Ctre.C48_no_others",
    "Ctre.C48_found_partial",
    "Ctre.C48_fails_dash",
    "Ctre.C48_fails_unassigned",
    "Ctre.C48_fails_negative_char"
   ],
   "note": "Exact for 28 of 30 categories, for the groups L, LC, M, N, S, Z and for all their accepted names. Pd, P, C and Cn are wrong (C48_fails_dash, C48_fails_unassigned); what they do match is stated exactly in C48_found_partial and, for C, in C48_no_others. Values that are no code points: C48_fails_negative_char."
  },
  {
   "property": "C49",
   "status": "proved",
   "theorems": [
    "Ctre.C49_script",
    "Ctre.C49_script_value",
    "Ctre.C49_script_extension"
   ],
   "note": "All scripts and script extensions, from the pattern text to the result of match, with \\p and \\P. The aliases Qaac and Qaai are not accepted names (C53)."
  },
  {
   "property": "C50",
   "status": "proved",
   "theorems": [
    "Ctre.C50_block"
   ],
   "note": "All blocks. Five aliases are not accepted names (C53)."
  },
  {
   "property": "C51",
   "status": "partial",
   "theorems": [
    "Ctre.C51_age_partial",
    "Ctre.C51_exact_partial",
    "Ctre.C51_fails_unassigned"
   ],
   "note": "Exact on the code points assigned in Unicode 14.0; false for the others (C51_fails_unassigned), which are all matched (C51_exact_partial)."
  },
  {
   "property": "C52",
   "status": "partial",
   "theorems": [
    "Ctre.C52_binary_property_partial",
    "Ctre.C52_assigned_partial",
    "Ctre.C52_alphabetic_partial",
    "Ctre.C52_exact_partial",
    "Ctre.C52_no_others",
    "Ctre.C52_found_partial",
    "Ctre.C52_fails_unsorted",
    "Ctre.C52_fails_case_ignorable",
    "Ctre.C52_fails_reserved",
    "Ctre.C52_any_ascii",
    "Ctre.C52_assigned_set_partial",
    "Ctre.C52_fails_private_use"
   ],
   "note": "Exact for 37 properties and for Any and ASCII; false for the others, whose sets are stated exactly (C52_exact_partial, C52_found_partial, C52_assigned_set_partial): three lose their reserved code points, Alphabetic five code points, Dash, Extender and Soft_Dotted most of theirs, Case_Ignorable all. Counterexamples: C52_fails_*."
  },
  {
   "property": "C53",
   "status": "partial",
   "theorems": [
    "Ctre.C53_letter_case",
    "Ctre.C53_accepted_partial",
    "Ctre.C53_fails_aliases",
    "Ctre.C53_negated_value_accepted",
    "Ctre.C53_value_accepted",
    "Ctre.C53_fails_values"
   ],
   "note": "Acceptance is characterised for all words (C53_accepted_partial, C53_value_accepted, C53_negated_value_accepted), with the missing aliases listed; they are the counterexamples to the full claim (C53_fails_aliases, C53_fails_values)."
  },
  {
   "property": "C54",
   "status": "proved",
   "theorems": [
    "Ctre.C54_one_category"
   ],
   "note": "As stated; it holds in spite of the dashes that are missing in Pd, because they are matched by Cn."
  },
  {
   "property": "C55",
   "status": "partial",
   "theorems": [
    "Ctre.C55_taken_part_partial",
    "Ctre.C55_not_taken_part",
    "Ctre.C55_failed",
    "Ctre.C55_match_text",
    "Ctre.C55_fails_empty_at_end",
    "Ctre.C55_fails_failed_search",
    "Ctre.C55_size_utf8"
   ],
   "note": "Proved for every capture except where the claim is false: to_view() and data() of an empty capture at the end of the subject (C55_fails_empty_at_end), size() and to_string() of a failed search (C55_fails_failed_search)."
  },
  {
   "property": "C56",
   "status": "proved",
   "theorems": [
    "Ctre.C56_to_number",
    "Ctre.C56_no_number",
    "Ctre.C56_whole_subject",
    "Ctre.C56_fails_errors"
   ],
   "note": "Stated with what the code does on errors: 0. That errors cannot be told from 0 is C56_fails_errors."
  },
  {
   "property": "C57",
   "status": "proved",
   "theorems": [
    "Ctre.C57_or_groups_starts_with",
    "Ctre.C57_or_groups_match",
    "Ctre.C57_or_groups_search",
    "Ctre.C57_fails_names",
    "Ctre.C57_or_starts_with",
    "Ctre.C57_or_match",
    "Ctre.C57_or_search",
    "Ctre.C57_then",
    "Ctre.C57_fails_numbering",
    "Ctre.C57_numbers_match",
    "Ctre.C57_numbers_starts_with",
    "Ctre.C57_numbers_search",
    "Ctre.C57_then_groups",
    "Ctre.C57_then_reports_match",
    "Ctre.C57_then_reports_starts_with",
    "Ctre.C57_then_reports_search"
   ],
   "note": "| without groups: equal results; with groups and references by number: the same match and groups by number (C57_or_groups_*). >>: regular patterns with unambiguous repetitions (C57_then, C57_then_groups); with groups in both, every pattern, compared with numbers that do not collide (C57_then_reports_*, no back references in the second; C57_numbers_*, in neither). Numbers of groups collide: C57_fails_numbering, C57_fails_names."
  },
  {
   "property": "C58",
   "status": "proved",
   "theorems": [
    "Ctre.C58_match_sound",
    "Ctre.C58_starts_with_sound",
    "Ctre.C58_search_sound",
    "Ctre.C58_match",
    "Ctre.C58_starts_with",
    "Ctre.C58_search",
    "Ctre.C58_decides",
    "Ctre.C58_same_language",
    "Ctre.C58_fails_for_ambiguous_loop"
   ],
   "note": "Soundness without conditions on repetitions; both directions for the decidable class r.plain, with the optimisation of greedy repetitions for steady patterns (C58_decides). Outside of the class: C58_fails_for_ambiguous_loop."
  },
  {
   "property": "C59",
   "status": "proved",
   "theorems": [
    "Ctre.C59_calls",
    "Ctre.C59_search_first_rest",
    "Ctre.C59_search_all",
    "Ctre.C59_tokenize",
    "Ctre.C59_split",
    "Ctre.C59_fails_looking_back"
   ],
   "note": "For the decidable class r.forward; C59_fails_looking_back shows a subject for each excluded construct."
  },
  {
   "property": "C60",
   "status": "proved",
   "theorems": [
    "Ctre.C60_derived",
    "Ctre.C60_accepts_iff",
    "Ctre.C60_builds_iff",
    "Ctre.C60_unambiguous",
    "Ctre.C60_underivable",
    "Ctre.C60_error_viable"
   ],
   "note": "The grammar file is transcribed in Spec/PcreGram.lean; derivations and the order of actions are defined there without tables, stacks or lookahead."
  },
  {
   "property": "C61",
   "status": "proved",
   "theorems": [
    "Ctre.C61_literals",
    "Ctre.C61_view",
    "Ctre.C61_cstr",
    "Ctre.C61_utf8",
    "Ctre.C61_utf8_behind",
    "Ctre.C61_members",
    "Ctre.C61_pipe_subject",
    "Ctre.C61_pipe",
    "Ctre.C61_match_sound",
    "Ctre.C61_search_sound",
    "Ctre.C61_decides",
    "Ctre.C61_fails_malformed",
    "Ctre.C61_fails_utf16",
    "Ctre.C61_fails_signed",
    "Ctre.C61_fails_utf8_reference"
   ],
   "note": "UTF-8 subjects for patterns without back reference, with lookbehind as in C25. The parts of the claim that are false have proved counterexamples C61_fails_*."
  },
  {
   "property": "C62",
   "status": "proved",
   "theorems": [
    "Ctre.C62_search_covered",
    "Ctre.C62_match_covered",
    "Ctre.C62_match_iff_search",
    "Ctre.C62_necessary",
    "Ctre.C62_iff_plain",
    "Ctre.C62_iff_without_optimisation",
    "Ctre.C62_of_compiles",
    "Ctre.C62_few_instantiations",
    "Ctre.C62_linear_in_text",
    "Ctre.C62_fails_unreached",
    "Ctre.C62_dead"
   ],
   "note": "Exact without the greedy optimisation, and with it for patterns without a negated class inside of a class; necessary conditions for all patterns. C62_fails_unreached: a pattern rejected because of a part that is not reached."
  },
  {
   "property": "C63",
   "status": "proved",
   "theorems": [
    "Ctre.C63_in_bounds",
    "Ctre.C63_same_answer",
    "Ctre.C63_filled",
    "Ctre.C63_insert",
    "Ctre.C63_room_needed",
    "Ctre.C63_disjoint",
    "Ctre.C63_exact",
    "Ctre.C63_symmetric",
    "Ctre.C63_fails_unordered",
    "Ctre.C63_fails_asymmetric"
   ],
   "note": "Exactness for classes that list their members; refuted otherwise (C63_fails_unordered, C63_fails_asymmetric)."
  },
  {
   "property": "C64",
   "status": "proved",
   "theorems": [
    "Ctre.C64_match",
    "Ctre.C64_starts_with",
    "Ctre.C64_search",
    "Ctre.C64_exponent",
    "Ctre.C64_constant",
    "Ctre.C64_linear",
    "Ctre.C64_needed",
    "Ctre.C64_search_needed"
   ],
   "note": "Work inside of one call (class members, copying of captures) is constant for a pattern and not counted."
  },
  {
   "property": "C65",
   "status": "proved",
   "theorems": [
    "Ctre.C65_depth",
    "Ctre.C65_shallow",
    "Ctre.C65_ungreedy",
    "Ctre.C65_finished",
    "Ctre.C65_needed"
   ],
   "note": "Nested calls as written; most of them are marked for inlining, evaluate_recursive is not."
  },
  {
   "property": "C66",
   "status": "proved",
   "theorems": [
    "Ctre.C66_double",
    "Ctre.C66_value",
    "Ctre.C66_value_unique",
    "Ctre.C66_digits",
    "Ctre.C66_numbers"
   ],
   "note": "value() with IEEE 754 arithmetic on rational numbers (one zero, unlimited exponents in the model; the statement has the limits of binary64)."
  },
  {
   "property": "C67",
   "status": "proved",
   "theorems": [
    "Ctre.C67_category",
    "Ctre.C67_fails_dashes",
    "Ctre.C67_script",
    "Ctre.C67_script_extensions",
    "Ctre.C67_script_extensions_unique",
    "Ctre.C67_block",
    "Ctre.C67_age",
    "Ctre.C67_unknown_name",
    "Ctre.C67_no_code_point",
    "Ctre.C67_fails_block",
    "Ctre.C67_fails_increment",
    "Ctre.C67_no_undefined_read"
   ],
   "note": "The statement names the exceptions; they are proved as C67_fails_dashes, C67_fails_block and C67_fails_increment. The aliases Cntrl and Digit of categories are not in the table of names."
  },
  {
   "property": "C68",
   "status": "proved",
   "theorems": [
    "Ctre.C68_search_all",
    "Ctre.C68_search_all_total",
    "Ctre.C68_tokenize",
    "Ctre.C68_tokenize_total",
    "Ctre.C68_split",
    "Ctre.C68_split_total",
    "Ctre.C68_fails_empty"
   ],
   "note": "Work as in C64. The bound fails for patterns with empty matches, which the statement says (C68_fails_empty)."
  },
  {
   "property": "C69",
   "status": "proved",
   "theorems": [
    "Ctre.C69_output",
    "Ctre.C69_fails_unmatched",
    "Ctre.C69_bindings",
    "Ctre.C69_bindings_text",
    "Ctre.C69_fails_gap"
   ],
   "note": "Output is the sequence of characters passed to the stream; formatting flags of the stream are not modelled. The exceptions are C69_fails_unmatched and C69_fails_gap (shown for an atomic group)."
  },
  {
   "property": "C70",
   "status": "proved",
   "theorems": [
    "Ctre.C70_decided",
    "Ctre.C70_builds",
    "Ctre.C70_test",
    "Ctre.C70_syntax",
    "Ctre.C70_syntax_test",
    "Ctre.C70_difference",
    "Ctre.C70_gen",
    "Ctre.C70_gen_iff",
    "Ctre.C70_fails_two",
    "Ctre.C70_fails_test"
   ],
   "note": "The exception is C70_fails_two."
  },
  {
   "property": "C71",
   "status": "proved",
   "theorems": [
    "Ctre.C71_total",
    "Ctre.C71_step",
    "Ctre.C71_iteration",
    "Ctre.C71_matching",
    "Ctre.C71_call",
    "Ctre.C71_wellformed",
    "Ctre.C71_wellformed_iff",
    "Ctre.C71_fails_overlong",
    "Ctre.C71_fails_surrogate",
    "Ctre.C71_fails_swallow",
    "Ctre.C71_fails_end"
   ],
   "note": "The laxness is C71_fails_overlong, C71_fails_surrogate, C71_fails_swallow and C71_fails_end."
  },
  {
   "property": "C72",
   "status": "proved",
   "theorems": [
    "Ctre.C72_plus",
    "Ctre.C72_wellformed",
    "Ctre.C72_round_trip",
    "Ctre.C72_postfix",
    "Ctre.C72_symmetric",
    "Ctre.C72_versions_agree",
    "Ctre.C72_negation",
    "Ctre.C72_fails_pointer_left",
    "Ctre.C72_sentinel",
    "Ctre.C72_fails_pointer_sentinel"
   ],
   "note": "The exceptions are C72_fails_pointer_left and C72_fails_pointer_sentinel."
  },
  {
   "property": "C73",
   "status": "proved",
   "theorems": [
    "Ctre.C73_starts_with",
    "Ctre.C73_search",
    "Ctre.C73_context",
    "Ctre.C73_split",
    "Ctre.C73_checked",
    "Ctre.C73_split_checked",
    "Ctre.C73_fails_lookahead",
    "Ctre.C73_fails_atomic"
   ],
   "note": "The exceptions are C73_fails_lookahead and C73_fails_atomic."
  },
  {
   "property": "C74",
   "status": "proved",
   "theorems": [
    "Ctre.C74_decided",
    "Ctre.C74_rejected",
    "Ctre.C74_unmarked",
    "Ctre.C74_sharp"
   ],
   "note": "Features are a superset: a text with one of them may still be accepted or rejected."
  },
  {
   "property": "C75",
   "status": "proved",
   "theorems": [
    "Ctre.C75_match",
    "Ctre.C75_search",
    "Ctre.C75_match_optimised",
    "Ctre.C75_search_optimised",
    "Ctre.C75_usual_order",
    "Ctre.C75_match_usual",
    "Ctre.C75_search_usual",
    "Ctre.C75_ways_are_matches",
    "Ctre.C75_fails_over_lazy",
    "Ctre.C75_fails_two_ways"
   ],
   "note": "Stated for the rule of the library that an iteration does not retry its content; C75_fails_over_lazy shows that the exception is necessary. C75_match_usual and C75_search_usual are for the usual order, with the counterexample C75_fails_two_ways."
  },
  {
   "property": "C76",
   "status": "proved",
   "theorems": [
    "Ctre.C76_choice",
    "Ctre.C76_sound",
    "Ctre.C76_complete",
    "Ctre.C76_unambiguous",
    "Ctre.C76_language",
    "Ctre.C76_terminates",
    "Ctre.C76_decides",
    "Ctre.C76_error",
    "Ctre.C76_ignore",
    "Ctre.C76_pcre",
    "Ctre.C76_fails_not_ll1",
    "Ctre.C76_fails_left_recursive"
   ],
   "note": "The recursion limit of the compiler is the fuel of a round; C76_fails_not_ll1 and C76_fails_left_recursive show that the conditions are necessary."
  },
  {
   "property": "C77",
   "status": "proved",
   "theorems": [
    "Ctre.C77_size",
    "Ctre.C77_front",
    "Ctre.C77_concat",
    "Ctre.C77_rotate",
    "Ctre.C77_exists",
    "Ctre.C77_add",
    "Ctre.C77_remove",
    "Ctre.C77_add_remove",
    "Ctre.C77_fails_convertible"
   ],
   "note": "Convertibility of types is a parameter; C77_fails_convertible shows the disagreement of exists_in and remove_item."
  },
  {
   "property": "C78",
   "status": "proved",
   "theorems": [
    "Ctre.C78_ways",
    "Ctre.C78_match",
    "Ctre.C78_search",
    "Ctre.C78_optimised",
    "Ctre.C78_fails_two_ways",
    "Ctre.C78_fails_modes",
    "Ctre.C78_fails_atomic_star"
   ],
   "note": "C78_fails_two_ways, C78_fails_modes and C78_fails_atomic_star show that the conditions of the laws are necessary."
  },
  {
   "property": "C79",
   "status": "proved",
   "theorems": [
    "Ctre.C79_decides",
    "Ctre.C79_decides_optimised",
    "Ctre.C79_sound",
    "Ctre.C79_automaton",
    "Ctre.C79_same_language",
    "Ctre.C79_fails_two_ways"
   ],
   "note": "C79_fails_two_ways shows that the condition on repetitions is necessary; C79_sound is the half that holds without it."
  },
  {
   "property": "C80",
   "status": "proved",
   "theorems": [
    "Ctre.C80_iterates",
    "Ctre.C80_unique",
    "Ctre.C80_iterates_optimised",
    "Ctre.C80_words",
    "Ctre.C80_pieces",
    "Ctre.C80_tokens",
    "Ctre.C80_fails_empty"
   ],
   "note": "C80_fails_empty shows that the condition on empty matches is necessary."
  },
  {
   "property": "C81",
   "status": "proved",
   "theorems": [
    "Ctre.C81_decides",
    "Ctre.C81_iterates",
    "Ctre.C81_bytes"
   ],
   "note": "All conditions are on the written text, the modifiers and the subject."
  },
  {
   "property": "C82",
   "status": "proved",
   "theorems": [
    "Ctre.C82_case",
    "Ctre.C82_line",
    "Ctre.C82_flags",
    "Ctre.C82_prefix",
    "Ctre.C82_language",
    "Ctre.C82_decides",
    "Ctre.C82_letters_matter",
    "Ctre.C82_lines_matter",
    "Ctre.C82_negated_classes_matter"
   ],
   "note": "Back references compare exactly in both modes, so they are allowed."
  },
  {
   "property": "C83",
   "status": "proved",
   "theorems": [
    "Ctre.C83_match",
    "Ctre.C83_search",
    "Ctre.C83_calls",
    "Ctre.C83_search_call",
    "Ctre.C83_iterates",
    "Ctre.C83_fails_boundary",
    "Ctre.C83_fails_line_end",
    "Ctre.C83_fails_mode",
    "Ctre.C83_fails_caseless",
    "Ctre.C83_fails_skipped_anchor",
    "Ctre.C83_fails_joined_anchor"
   ],
   "note": "The conditions are decidable predicates of the text (Spec/Robust.lean); the C83_fails_ theorems give texts that violate one of them and for which the default build reports failure."
  },
  {
   "property": "C84",
   "status": "proved",
   "theorems": [
    "Ctre.C84_ways",
    "Ctre.C84_match",
    "Ctre.C84_search",
    "Ctre.C84_starts_with",
    "Ctre.C84_iterates",
    "Ctre.C84_context",
    "Ctre.C84_pieces",
    "Ctre.C84_fails_lookahead",
    "Ctre.C84_fails_atomic",
    "Ctre.C84_fails_choice"
   ],
   "note": "Extends C73 (which says that match succeeds) by the groups, to pattern texts and to the default build; the C84_fails_ theorems show that the conditions are needed."
  },
  {
   "property": "C85",
   "status": "proved",
   "theorems": [
    "Ctre.C85_match",
    "Ctre.C85_starts_with",
    "Ctre.C85_search",
    "Ctre.C85_twice",
    "Ctre.C85_pumping",
    "Ctre.C85_beyond_regular",
    "Ctre.C85_fails_choice",
    "Ctre.C85_fails_atomic"
   ],
   "note": "Joins C83 (the default build reports the first way) with C75 (the ways are the matches of the declarative meaning); C85_twice and C85_beyond_regular are consequences; the C85_fails_ theorems show that the conditions are needed."
  },
  {
   "property": "C86",
   "status": "proved",
   "theorems": [
    "Ctre.C86_search_all",
    "Ctre.C86_tokenize",
    "Ctre.C86_split",
    "Ctre.C86_unique",
    "Ctre.C86_ends_iff",
    "Ctre.C86_split_ends_iff",
    "Ctre.C86_ends",
    "Ctre.C86_split_ends",
    "Ctre.C86_split_never_ends",
    "Ctre.C86_split_runs_forever",
    "Ctre.C86_split_star",
    "Ctre.C86_split_anchored",
    "Ctre.C86_split_anchored_ends_iff",
    "Ctre.C86_split_anchored_empty",
    "Ctre.C86_split_hooked"
   ],
   "note": "Generalises C80 and C83_iterates to patterns that may match the empty text, and to anchored ones. C86_split_anchored says what split yields for patterns that begin with an anchor; the anchor must not be inside a named group there."
  },
  {
   "property": "C87",
   "status": "proved",
   "theorems": [
    "Ctre.C87_case",
    "Ctre.C87_view",
    "Ctre.C87_utf8",
    "Ctre.C87_same",
    "Ctre.C87_caseSafe",
    "Ctre.C87_decides",
    "Ctre.C87_fails_mixed",
    "Ctre.C87_fails_back_reference",
    "Ctre.C87_fails_switch",
    "Ctre.C87_fails_range"
   ],
   "note": "The condition is a decidable predicate of the text (Spec/Recase.lean). The C87_fails_ theorems show that the exceptions are needed."
  },
  {
   "property": "C88",
   "status": "proved",
   "theorems": [
    "Ctre.C88_match",
    "Ctre.C88_starts_with",
    "Ctre.C88_search",
    "Ctre.C88_same_results",
    "Ctre.C88_first_way",
    "Ctre.C88_search_way",
    "Ctre.C88_unchanged",
    "Ctre.C88_text",
    "Ctre.C88_calls",
    "Ctre.C88_fails_anchored"
   ],
   "note": "Which repetitions are sharpened is stated with the analysis of first characters of the model (loopCollides), whose soundness is C35. C88_fails_anchored shows that the condition for search is needed."
  },
  {
   "property": "C89",
   "status": "proved",
   "theorems": [
    "Ctre.C89_calls",
    "Ctre.C89_view",
    "Ctre.C89_subjects",
    "Ctre.C89_utf8",
    "Ctre.C89_rename",
    "Ctre.C89_beyond",
    "Ctre.C89_cut",
    "Ctre.C89_finite",
    "Ctre.C89_fails_equal",
    "Ctre.C89_fails_case",
    "Ctre.C89_fails_ascii"
   ],
   "note": "C89_fails_equal, C89_fails_case and C89_fails_ascii show that the conditions on back references, on case and on ASCII are needed."
  },
  {
   "property": "C90",
   "status": "proved",
   "theorems": [
    "Ctre.C90_ways",
    "Ctre.C90_same",
    "Ctre.C90_search_ways",
    "Ctre.C90_search",
    "Ctre.C90_default",
    "Ctre.C90_fails_numbering"
   ],
   "note": "C90_fails_numbering shows that the condition on groups is needed."
  },
  {
   "property": "C91",
   "status": "proved",
   "theorems": [
    "Ctre.C91_ways",
    "Ctre.C91_match",
    "Ctre.C91_search",
    "Ctre.C91_calls",
    "Ctre.C91_iterations",
    "Ctre.C91_fails_fusion"
   ],
   "note": "C91_fails_fusion shows that both texts have to mean what they say."
  },
  {
   "property": "C92",
   "status": "proved",
   "theorems": [
    "Ctre.C92_accepted",
    "Ctre.C92_match_is_starts_with",
    "Ctre.C92_starts_with_is_search",
    "Ctre.C92_match_is_search",
    "Ctre.C92_match_is_search_lines",
    "Ctre.C92_starts_with_is_match",
    "Ctre.C92_search_is_match",
    "Ctre.C92_starts_with_is_match_call",
    "Ctre.C92_search_is_match_call",
    "Ctre.C92_fails_multiline",
    "Ctre.C92_fails_multiline_flag"
   ],
   "note": "C92_fails_multiline and C92_fails_multiline_flag show what multiline mode does to ^ and $."
  },
  {
   "property": "C93",
   "status": "proved",
   "theorems": [
    "Ctre.C93_match",
    "Ctre.C93_starts_with",
    "Ctre.C93_search",
    "Ctre.C93_fails_ambiguous",
    "Ctre.C93_fails_atomic"
   ],
   "note": "C93_fails_ambiguous and C93_fails_atomic show that the conditions are needed."
  },
  {
   "property": "C94",
   "status": "proved",
   "theorems": [
    "Ctre.C94_match",
    "Ctre.C94_starts_with",
    "Ctre.C94_search",
    "Ctre.C94_fails_range",
    "Ctre.C94_fails_ambiguous",
    "Ctre.C94_fails_atomic",
    "Ctre.C94_fails_possessive"
   ],
   "note": "C94_fails_ambiguous, C94_fails_atomic, C94_fails_possessive and C94_fails_range show that the conditions are needed."
  },
  {
   "property": "C95",
   "status": "proved",
   "theorems": [
    "Ctre.C95_accepted",
    "Ctre.C95_match",
    "Ctre.C95_search",
    "Ctre.C95_calls",
    "Ctre.C95_whole",
    "Ctre.C95_complement",
    "Ctre.C95_fails_groups"
   ],
   "note": "C95_fails_groups shows that the condition on groups is needed."
  },
  {
   "property": "C96",
   "status": "proved",
   "theorems": [
    "Ctre.C96_pipe",
    "Ctre.C96_kept",
    "Ctre.C96_twice"
   ],
   "note": "Combines C24 and C61_pipe (the range filters) with C83 and C85 (what single calls report)."
  }
 ]
}