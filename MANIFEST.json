{
 "claims": [
  {
   "property": "C01",
   "status": "partial",
   "theorems": [
    "WG.C01_violated",
    "WG.C01_torn_counter_reuses",
    "WG.C01_numbers_unique_partial"
   ],
   "note": "Proved for all histories of MAKEs, wipes and crashes in which the counter file itself is written atomically. A torn write of the counter breaks it: every MAKE can be stopped so that the counter has lost its last digits, and the next MAKE gives numbers away again."
  },
  {
   "property": "C02",
   "status": "proved",
   "theorems": [
    "WG.C02_counter_advances_exactly",
    "WG.C02_failed_make_keeps_counter",
    "WG.C02_counter_never_decreases",
    "WG.C02_torn_exact"
   ],
   "note": "C02_counter_never_decreases takes the write of the counter's few bytes as atomic; C02_torn_exact says what the counter can be if it is not (the new number without some of its last digits)."
  },
  {
   "property": "C03",
   "status": "proved",
   "theorems": [
    "WG.C03_counter_round_trip",
    "WG.C03_empty_counter_raises"
   ],
   "note": ""
  },
  {
   "property": "C04",
   "status": "proved",
   "theorems": [
    "WG.C04_add_never_overwrites",
    "WG.C04_no_record_replaced"
   ],
   "note": ""
  },
  {
   "property": "C05",
   "status": "proved",
   "theorems": [
    "WG.C05_add_keeps_old_and_stores_new",
    "WG.C05_load_returns_records"
   ],
   "note": ""
  },
  {
   "property": "C06",
   "status": "partial",
   "theorems": [
    "WG.C06_violated",
    "WG.C06_add_to_valid_file_partial"
   ],
   "note": "The code violates the property (no truncate); the partial theorem characterises exactly when it holds."
  },
  {
   "property": "C07",
   "status": "proved",
   "theorems": [
    "WG.C07_values_survive_disk",
    "WG.C07_which_values"
   ],
   "note": ""
  },
  {
   "property": "C08",
   "status": "partial",
   "theorems": [
    "WG.C08_violated",
    "WG.C08_violated_add",
    "WG.C08_unserialisable_add_destroys",
    "WG.C08_unserialisable_make_destroys",
    "WG.C08_graph_survives_make_partial"
   ],
   "note": "The code violates the property: the failing MAKE destroys the database file. The partial theorem covers every MAKE with JSON-representable values, whatever its outcome."
  },
  {
   "property": "C09",
   "status": "partial",
   "theorems": [
    "WG.C09_violated",
    "WG.C09_unreadable_loads_as_empty",
    "WG.C09_add_to_unreadable_partial",
    "WG.C09_missing_is_reported_partial"
   ],
   "note": "Loading an unreadable database returns an empty graph; adding to it raises and changes nothing."
  },
  {
   "property": "C10",
   "status": "proved",
   "theorems": [
    "WG.C10_wipe_needs_confirmation",
    "WG.C10_wipe_database",
    "WG.C10_wipe_index"
   ],
   "note": ""
  },
  {
   "property": "C100",
   "status": "proved",
   "theorems": [
    "WG.C100_groups",
    "WG.C100_names",
    "WG.C100_clause_all",
    "WG.C100_permutations",
    "WG.C100_statements",
    "WG.C100_spelling",
    "WG.C100_parts",
    "WG.C100_nodes_rels",
    "WG.C100_others"
   ],
   "note": "The texts (Model/PatternTexts) are put together as the helpers of the source do it; Py/ReSyntax reads the part of Python's pattern syntax that occurs and refuses the rest. C100_clause_all, C100_permutations and C100_parts hold for every clause of letters and every name, C100_groups for every pattern. C100_parts covers the two patterns the program does not use (NODE_HANDLE_LABEL_PARAMS_REGEX, RELATIONSHIP_HANDLE_LABEL_PARAMS_REGEX)."
  },
  {
   "property": "C101",
   "status": "partial",
   "theorems": [
    "WG.C101_visible",
    "WG.C101_all_visible",
    "WG.C101_same",
    "WG.C101_same_functions",
    "WG.C101_add",
    "WG.C101_load_database",
    "WG.C101_load_set",
    "WG.C101_load_relationships",
    "WG.C101_wipe_database",
    "WG.C101_wipe_set",
    "WG.C101_wipe_relationships",
    "WG.C101_counter",
    "WG.C101_update",
    "WG.C101_values",
    "WG.C101_shell_query",
    "WG.C101_shell_session",
    "WG.C101_silent_while_usable",
    "WG.C101_warned_when_broken",
    "WG.C101_start",
    "WG.C101_program",
    "WG.C101_violated"
   ],
   "note": "The exact log of every function, on every disk. Violated: an index is said to be loaded before it is turned into a set, which may raise; a broken file is called empty; not wiping any index is logged as not dropping the relationship indexes. The shell theorems take any three paths with the index apart from the other two; C101_program needs no such assumption."
  },
  {
   "property": "C102",
   "status": "partial",
   "theorems": [
    "WG.C102_joins",
    "WG.C102_log_first",
    "WG.C102_session",
    "WG.C102_start",
    "WG.C102_program",
    "WG.C102_usable",
    "WG.C102_fair_session",
    "WG.C102_fair_run",
    "WG.C102_broken",
    "WG.C102_violated"
   ],
   "note": "The exact terminal of every session and of every run of the program. Violated in the last point: once the index is broken, every query that ends normally shows the two warnings and No results, also if the database has what is asked for."
  },
  {
   "property": "C103",
   "status": "proved",
   "theorems": [
    "WG.C103_session",
    "WG.C103_pause",
    "WG.C103_pause_new",
    "WG.C103_start_time_differs",
    "WG.C103_q_ends"
   ],
   "note": "Events, disk and terminal. C103_start_time_differs shows that the runs have to share the start time, which the code writes as the time a record was made (C64); C103_q_ends that the first list must not have a `q`. C103_pause_new has the hypotheses of C63 (the name is not skipped by the menu, at most 25 others)."
  },
  {
   "property": "C104",
   "status": "partial",
   "theorems": [
    "WG.C104_read_off_partial",
    "WG.C104_short_partial",
    "WG.C104_sessions_partial",
    "WG.C104_violated",
    "WG.C104_violated_direction"
   ],
   "note": "Proved for everything MAKE keeps, including where one pattern ends and the next begins, and in full for patterns of one or two nodes without white space behind the arrow. Violated: of a third node nothing is kept (two queries that differ in its properties leave the same three files), and an arrow to the right with a blank behind it cannot be told from one to the left."
  },
  {
   "property": "C105",
   "status": "proved",
   "theorems": [
    "WG.C105_json",
    "WG.C105_not_json",
    "WG.C105_one_value",
    "WG.C105_written",
    "WG.C105_holds",
    "WG.C105_unreadable",
    "WG.C105_load_database",
    "WG.C105_add_to_database",
    "WG.C105_counter",
    "WG.C105_counter_written",
    "WG.C105_one_number",
    "WG.C105_int_property"
   ],
   "note": "The grammars (Spec/JsonText) mention neither the reader nor int(). C105_holds and C105_unreadable say what the words used in the other theorems about files mean without the reader. Texts are lists of characters; an escape for half of a surrogate pair, which is no character, is outside the model."
  },
  {
   "property": "C106",
   "status": "proved",
   "theorems": [
    "WG.C106_characters",
    "WG.C106_ignore_case",
    "WG.C106_strip_chars",
    "WG.C106_strip",
    "WG.C106_in",
    "WG.C106_split",
    "WG.C106_count",
    "WG.C106_replace",
    "WG.C106_lower",
    "WG.C106_isupper",
    "WG.C106_get",
    "WG.C106_has",
    "WG.C106_set",
    "WG.C106_update",
    "WG.C106_help",
    "WG.C106_no_help",
    "WG.C106_empty_value",
    "WG.C106_value",
    "WG.C106_params",
    "WG.C106_keywords",
    "WG.C106_report_handles",
    "WG.C106_valid_query"
   ],
   "note": "Characters below 128 are listed in Spec/PyText; above that the tables of PyRuntime are used. str.lower is context-free in the model (the final sigma is not)."
  },
  {
   "property": "C107",
   "status": "proved",
   "theorems": [
    "WG.C107_match",
    "WG.C107_first_way",
    "WG.C107_search",
    "WG.C107_finditer",
    "WG.C107_erase",
    "WG.C107_split",
    "WG.C107_group",
    "WG.C107_word",
    "WG.C107_ignore_case",
    "WG.C107_plus",
    "WG.C107_list_values",
    "WG.C107_no_empty_matches"
   ],
   "note": "The ways and their order (Spec/ReText) are stated without the matcher. C107_erase is for expressions that do not match the empty text; C107_list_values shows it for the one the code uses. That the pattern texts of the code stand for the expressions of the model is C100."
  },
  {
   "property": "C108",
   "status": "proved",
   "theorems": [
    "WG.C108_list",
    "WG.C108_other",
    "WG.C108_one_list",
    "WG.C108_list_property",
    "WG.C108_check",
    "WG.C108_other_property",
    "WG.C108_checked"
   ],
   "note": "The grammar (Spec/ListText) does not mention the reader. Lists with escapes in texts, nested lists, numbers with signs, exponents or underscores, and everything else literal_eval accepts are what PyRuntime.literalEvalOther says."
  },
  {
   "property": "C109",
   "status": "proved",
   "theorems": [
    "WG.C109_call",
    "WG.C109_one_effect",
    "WG.C109_order",
    "WG.C109_program",
    "WG.C109_possible",
    "WG.C109_possible_crash",
    "WG.C109_possible_together",
    "WG.C109_once",
    "WG.C109_listed_once"
   ],
   "note": "For every call, program and disk. The description (Spec/Disk) uses sets and maps. Deeper directories, permissions and a full disk are not modelled here; failing calls are C99, other paths C81."
  },
  {
   "property": "C11",
   "status": "proved",
   "theorems": [
    "WG.C11_index_add_is_union",
    "WG.C11_load_returns_index"
   ],
   "note": ""
  },
  {
   "property": "C110",
   "status": "proved",
   "theorems": [
    "WG.C110_set",
    "WG.C110_no_set",
    "WG.C110_firsts",
    "WG.C110_get",
    "WG.C110_assign",
    "WG.C110_in",
    "WG.C110_dump"
   ],
   "note": "For every loaded value. Python's 1 == True == 1.0 is not modelled; the sets of the code hold texts only or numbers only."
  },
  {
   "property": "C111",
   "status": "proved",
   "theorems": [
    "WG.C111_written",
    "WG.C111_one_text",
    "WG.C111_cut",
    "WG.C111_database",
    "WG.C111_counter"
   ],
   "note": "For every value. The layout (Spec/Layout) does not mention the encoder. The text of a finite float is PyRuntime.floatRepr."
  },
  {
   "property": "C112",
   "status": "proved",
   "theorems": [
    "WG.C112_components",
    "WG.C112_join",
    "WG.C112_resolve",
    "WG.C112_resolve_error",
    "WG.C112_is",
    "WG.C112_mkdir",
    "WG.C112_touch",
    "WG.C112_overwrite",
    "WG.C112_nowhere",
    "WG.C112_mkdir_any",
    "WG.C112_fnmatch_other",
    "WG.C112_fnmatch",
    "WG.C112_glob"
   ],
   "note": "The descriptions (Spec/Paths, Spec/Wild) mention no reader of paths or patterns. C112_mkdir is for paths without double dots, C112_mkdir_any for all paths (for names with them see C81_where and C81_outside). Patterns with ranges, set operations or an initial ] in a set are what PyRuntime.fnmatchOther says."
  },
  {
   "property": "C12",
   "status": "proved",
   "theorems": [
    "WG.C12_index_history_is_union",
    "WG.C11_index_add_is_union"
   ],
   "note": ""
  },
  {
   "property": "C13",
   "status": "partial",
   "theorems": [
    "WG.C13_violated",
    "WG.C13_empty_add_destroys"
   ],
   "note": "The code violates the property on every index file; the general theorem says what happens instead."
  },
  {
   "property": "C14",
   "status": "partial",
   "theorems": [
    "WG.C14_violated",
    "WG.C14_nodes_stored_partial",
    "WG.C14_nothing_else_stored",
    "WG.C14_right_node_lost"
   ],
   "note": "The right node of a three-node pattern is never stored; left and middle nodes always are."
  },
  {
   "property": "C15",
   "status": "partial",
   "theorems": [
    "WG.C15_violated",
    "WG.C15_violated_lost",
    "WG.C15_relationships_stored_partial",
    "WG.C15_right_relationship_dangles",
    "WG.C15_right_relationship_lost"
   ],
   "note": "The relationship to the right node dangles or is lost; the left-middle relationship is always stored with its endpoints."
  },
  {
   "property": "C16",
   "status": "proved",
   "theorems": [
    "WG.C16_relationships_at_source"
   ],
   "note": ""
  },
  {
   "property": "C17",
   "status": "partial",
   "theorems": [
    "WG.C17_violated",
    "WG.C17_last_character_decides",
    "WG.C17_arrow_direction_partial",
    "WG.C17_trailing_space_reverses",
    "WG.C17_written_arrow_partial",
    "WG.C17_space_reverses"
   ],
   "note": "For every relationship as written (RelText). White space behind the arrow reverses the stored direction."
  },
  {
   "property": "C18",
   "status": "proved",
   "theorems": [
    "WG.C18_labels_covered",
    "WG.C18_successful_make_loads"
   ],
   "note": ""
  },
  {
   "property": "C19",
   "status": "proved",
   "theorems": [
    "WG.C19_names_covered",
    "WG.C18_successful_make_loads"
   ],
   "note": ""
  },
  {
   "property": "C20",
   "status": "proved",
   "theorems": [
    "WG.C20_relationship_index_exact",
    "WG.C18_successful_make_loads"
   ],
   "note": ""
  },
  {
   "property": "C21",
   "status": "partial",
   "theorems": [
    "WG.C21_violated",
    "WG.C21_labels_exact",
    "WG.C21_right_label_is_phantom",
    "WG.C21_no_phantom_labels_partial"
   ],
   "note": "Violated by three-node patterns (label of the lost right node); proved for all histories without them. What a MAKE adds to the index and to the database is characterised exactly, and every new label of a right node is shown to become a phantom."
  },
  {
   "property": "C22",
   "status": "proved",
   "theorems": [
    "WG.C22_rejected_make_changes_nothing",
    "WG.C22_defects"
   ],
   "note": ""
  },
  {
   "property": "C23",
   "status": "partial",
   "theorems": [
    "WG.C23_violated",
    "WG.C23_valid_make_succeeds_partial",
    "WG.C23_relationless_make_fails"
   ],
   "note": "MAKEs that store no relationship raise and destroy the index; all other acceptable MAKEs succeed."
  },
  {
   "property": "C24",
   "status": "proved",
   "theorems": [
    "WG.C24_layout_is_consecutive"
   ],
   "note": ""
  },
  {
   "property": "C25",
   "status": "proved",
   "theorems": [
    "WG.C25_counter_written_last"
   ],
   "note": ""
  },
  {
   "property": "C26",
   "status": "proved",
   "theorems": [
    "WG.C26_stuck",
    "WG.C26_interrupted_make_is_stuck"
   ],
   "note": ""
  },
  {
   "property": "C27",
   "status": "partial",
   "theorems": [
    "WG.C27_violated",
    "WG.C27_crash_keeps_graph_partial",
    "WG.C27_torn_write_loses_graph"
   ],
   "note": "A torn database write makes the graph unloadable; without torn writes every crash point keeps all old records."
  },
  {
   "property": "C28",
   "status": "partial",
   "theorems": [
    "WG.C28_violated",
    "WG.C28_readers_do_not_disturb_partial",
    "WG.C28_different_gdbms_partial"
   ],
   "note": "Two MAKEs on one GDBMS can lose nodes; proved for a MAKE beside readers and for MAKEs on different GDBMSs, under every schedule."
  },
  {
   "property": "C29",
   "status": "proved",
   "theorems": [
    "WG.C29_make_statements_on_lines",
    "WG.C29_find_statements_on_lines",
    "WG.C29_report_statements_on_lines"
   ],
   "note": "Every list of lines: indented statements in any spelling, each followed by a remark without closing parenthesis and keyword, mixed with lines that do not contain the keyword."
  },
  {
   "property": "C30",
   "status": "partial",
   "theorems": [
    "WG.C30_separate_lines_partial",
    "WG.C30_violated",
    "WG.C85_row_parse"
   ],
   "note": "False for the code: for all bodies, two statements on one line are taken as one (the greedy .+ runs to the last ');'). Proved for separate lines; C85_row_parse says what any number of well-formed statements on one line become."
  },
  {
   "property": "C31",
   "status": "partial",
   "theorems": [
    "WG.C31_upper_or_lower_partial",
    "WG.C31_find_upper_or_lower_partial",
    "WG.C31_other_spellings_raise",
    "WG.C31_violated",
    "WG.C31_accepted_keywords",
    "WG.C31_mixed_make_refused",
    "WG.C31_mixed_find_refused",
    "WG.C31_mixed_report_refused",
    "WG.C31_spelling_exact"
   ],
   "note": "False for the code: mixed case always raises (pydantic's regex is case-sensitive). Proved for every number of statements: accepted if and only if every keyword is all upper or all lower case and the statements are accepted in upper case, with the same patterns; for every text: an accepted query has only such keywords (MAKE, FIND and REPORT), and one other spelling makes the whole query be refused with nothing changed."
  },
  {
   "property": "C32",
   "status": "proved",
   "theorems": [
    "WG.C32_illegal_make_raises",
    "WG.C32_illegal_find_raises",
    "WG.C32_make_texts_legal",
    "WG.C32_find_texts_legal",
    "WG.C32_stored_strings_legal",
    "WG.C32_query_keeps_store_legal"
   ],
   "note": "Rejection, and every string of every new record and index entry, for every query string and healthy GDBMS."
  },
  {
   "property": "C33",
   "status": "proved",
   "theorems": [
    "WG.C33_make_brackets_paired",
    "WG.C33_find_brackets_paired"
   ],
   "note": "Every query string; pieces between arrow heads defined directly on the text."
  },
  {
   "property": "C34",
   "status": "partial",
   "theorems": [
    "WG.C34_literals_parse_partial",
    "WG.C34_every_literal_has_one_value",
    "WG.C34_violated_negative",
    "WG.C34_violated_word",
    "WG.C34_violated_prefix",
    "WG.C34_unread_entries"
   ],
   "note": "Proved for every list of names and well-formed literals (also lists); false for the code for negative numbers, and for quoted words that are or start with reserved spellings. What happens to negative numbers and [] among readable entries is described for every list: left out silently, or an error if white space precedes the value."
  },
  {
   "property": "C35",
   "status": "proved",
   "theorems": [
    "WG.C35_duplicate_handles",
    "WG.C35_make_duplicate_handles",
    "WG.C35_accepted_make_no_duplicates",
    "WG.C35_accepted_find_no_duplicates"
   ],
   "note": "Both directions, for every pattern and every query."
  },
  {
   "property": "C36",
   "status": "partial",
   "theorems": [
    "WG.C36_long_make_raises",
    "WG.C36_long_find_truncated",
    "WG.C36_violated"
   ],
   "note": "MAKE: proved for every chain length > 3, any text before and after, files unchanged. FIND: false for the code, only the first three nodes are used (proved for every such chain)."
  },
  {
   "property": "C37",
   "status": "partial",
   "theorems": [
    "WG.C37_names_upper_case_partial",
    "WG.C37_violated",
    "WG.C37_parse_exact",
    "WG.C37_accepted_iff"
   ],
   "note": "Every query string. For queries that are well formed but for arrow heads and names, acceptance is characterised exactly. False after a statement without relationship (early return); proved for every statement whose predecessors have a relationship."
  },
  {
   "property": "C38",
   "status": "partial",
   "theorems": [
    "WG.C38_bidirectional_raises",
    "WG.C38_undirected_raises_partial",
    "WG.C38_violated",
    "WG.C37_accepted_iff",
    "WG.C38_outcome"
   ],
   "note": "Every query string. For queries that are well formed but for arrow heads and names, the outcome and what is stored is characterised exactly: unchecked relationships without arrow head are stored as if they pointed to the left. Two arrow heads: proved fully. No arrow head: false after a statement without relationship; proved for every statement whose predecessors have a relationship."
  },
  {
   "property": "C39",
   "status": "partial",
   "theorems": [
    "WG.C39_multiple_find_raises_partial",
    "WG.C39_multiple_report_raises_partial",
    "WG.C39_one_line_counts_once",
    "WG.C39_find_lines",
    "WG.C39_violated"
   ],
   "note": "False for the code on one line (two statements are taken as one); proved for separate lines, with the disk unchanged. For every layout of well-formed statements: the FIND is accepted if and only if exactly one line has a FIND (and its relationships are right)."
  },
  {
   "property": "C40",
   "status": "partial",
   "theorems": [
    "WG.C40_report_contains_handles_partial",
    "WG.C40_violated",
    "WG.C40_violated_substring",
    "WG.C40_report_accepted_iff",
    "WG.C40_any_text"
   ],
   "note": "False for the code: a query without any REPORT is accepted, and a handle inside another word counts. Proved: with a REPORT every handle is a substring of it; for every text and every list of handles, exactly when the REPORT part is accepted and what it is."
  },
  {
   "property": "C41",
   "status": "partial",
   "theorems": [
    "WG.C41_misspelt_make_partial",
    "WG.C41_misspelt_find_partial",
    "WG.C41_misspelt_report",
    "WG.C41_violated",
    "WG.C41_make_exact",
    "WG.C41_find_exact",
    "WG.C41_report_exact"
   ],
   "note": "False for the code with more than one white-space character before the parenthesis; proved for at most one, every permutation and case, every query."
  },
  {
   "property": "C42",
   "status": "proved",
   "theorems": [
    "WG.C42_patterns_parse",
    "WG.C42_accepted_make",
    "WG.C42_accepted_find"
   ],
   "note": "Every statement made of one or more chains of one to three nodes with any spacing, handles, labels, names, property texts and arrows."
  },
  {
   "property": "C43",
   "status": "partial",
   "theorems": [
    "WG.C43_verbatim_iff_clean_partial",
    "WG.C43_quoted_exact",
    "WG.C43_cut_off",
    "WG.C43_cut_off_rest",
    "WG.C43_cut_off_differs",
    "WG.C43_violated"
   ],
   "note": "Stored verbatim if and only if the text is clean (no quote or white space at its ends, not a reserved word), for every text of allowed characters. What is stored otherwise is proved too: texts of allowed characters lose quotes and white space at their ends; texts with any other character are cut off there without a message, and the rest is read as a text of properties of its own, so that a colon in a text can add or replace properties. Together this says what is stored for every text."
  },
  {
   "property": "C44",
   "status": "partial",
   "theorems": [
    "WG.C44_lists_exact",
    "WG.C44_verbatim_iff",
    "WG.C44_lists_verbatim_partial",
    "WG.C44_list_stays_list",
    "WG.C44_violated",
    "WG.C44_violated_empty",
    "WG.C34_unread_entries"
   ],
   "note": "False for the code: true/false/null inside the texts of a list are altered, and [] is not stored (for every property list). Proved exactly what is stored for every list of plain literals, and that it is what was written exactly if no text contains one of the words."
  },
  {
   "property": "C45",
   "status": "proved",
   "theorems": [
    "WG.C45_last_one_wins",
    "WG.C45_any_text"
   ],
   "note": "Every property list, and every text at all."
  },
  {
   "property": "C46",
   "status": "proved",
   "theorems": [
    "WG.C46_parse_failure_changes_nothing"
   ],
   "note": "Including every crash point."
  },
  {
   "property": "C47",
   "status": "partial",
   "theorems": [
    "WG.C47_violated",
    "WG.C47_without_find_never_executed",
    "WG.C47_makes_are_executed_partial"
   ],
   "note": "Violated: every query without FIND raises AttributeError before anything runs. With a FIND the MAKEs are executed."
  },
  {
   "property": "C48",
   "status": "partial",
   "theorems": [
    "WG.C48_violated",
    "WG.C48_query_all_or_nothing_partial"
   ],
   "note": "Violated: the MAKE is committed before FIND runs. Proved: what a failing query can leave behind."
  },
  {
   "property": "C49",
   "status": "proved",
   "theorems": [
    "WG.C49_find_reads_only",
    "WG.C49_report_reads_only",
    "WG.C49_find_query_reads_only"
   ],
   "note": ""
  },
  {
   "property": "C50",
   "status": "partial",
   "theorems": [
    "WG.C50_violated_present",
    "WG.C50_violated_absent",
    "WG.C50_actual_behaviour",
    "WG.C50_no_results_iff_absent_partial"
   ],
   "note": "Proved for one-node patterns; violated both ways for three nodes. Actual behaviour characterised for all patterns."
  },
  {
   "property": "C51",
   "status": "partial",
   "theorems": [
    "WG.C51_violated",
    "WG.C51_violated_right",
    "WG.C51_two_nodes_fail",
    "WG.C51_one_node_partial",
    "WG.C51_three_nodes_partial"
   ],
   "note": "Two-node patterns always raise; the right node of three gets the wrong handle and properties."
  },
  {
   "property": "C52",
   "status": "partial",
   "theorems": [
    "WG.C52_violated",
    "WG.C52_violated_three",
    "WG.C52_criteria_refine_partial",
    "WG.C52_criteria_everywhere_partial",
    "WG.C52_without_properties",
    "WG.C52_several_nodes"
   ],
   "note": "Proved for one-node patterns with own properties, and for every pattern that is processed (left and middle node, both relationships); violated without own properties and for three nodes. What happens instead is characterised: for every node without properties, and for every pattern of several nodes."
  },
  {
   "property": "C53",
   "status": "proved",
   "theorems": [
    "WG.C53_shell_survives",
    "WG.C53_ends_only_on_q"
   ],
   "note": ""
  },
  {
   "property": "C54",
   "status": "partial",
   "theorems": [
    "WG.C54_violated",
    "WG.C54_input_is_executed_partial",
    "WG.C54_help_is_not_executed"
   ],
   "note": "Any input containing 'help' anywhere is not executed."
  },
  {
   "property": "C55",
   "status": "proved",
   "theorems": [
    "WG.C55_created_is_empty"
   ],
   "note": "Names are single path components; the model of getNewGdbmsFilePaths, any disk on which the name is free."
  },
  {
   "property": "C56",
   "status": "proved",
   "theorems": [
    "WG.C56_creation_changes_no_file",
    "WG.C56_creation_changes_no_file_run",
    "WG.C56_existing_is_refused"
   ],
   "note": "All crash states included."
  },
  {
   "property": "C57",
   "status": "partial",
   "theorems": [
    "WG.C57_failed_creation_partial",
    "WG.C57_violated",
    "WG.C57_creation_outcome"
   ],
   "note": "Violated: with a left-over index or counter file the new database file stays. Proved: the failures that leave the disk unchanged, and that only database and index file of that name can appear."
  },
  {
   "property": "C58",
   "status": "partial",
   "theorems": [
    "WG.C58_query_is_isolated_partial",
    "WG.C58_session_is_isolated_partial",
    "WG.C58_operations_are_isolated_partial",
    "WG.C58_creation_is_isolated_partial",
    "WG.C58_deletion_is_isolated_partial",
    "WG.C58_violated"
   ],
   "note": "Holds for every operation except deletion of a GDBMS whose name has glob characters, which removes files of other GDBMSs."
  },
  {
   "property": "C59",
   "status": "partial",
   "theorems": [
    "WG.C59_delete_exactly_one_partial",
    "WG.C59_delete_outcome",
    "WG.C59_star_removes_all",
    "WG.C59_violated",
    "WG.C59_violated_hidden"
   ],
   "note": "Violated for names with glob characters and directories with hidden files; proved exactly what is removed and what is returned for those, for all names whose sets are made of plain characters."
  },
  {
   "property": "C60",
   "status": "proved",
   "theorems": [
    "WG.C60_listing_sorted_complete",
    "WG.C60_listing_missing_folder"
   ],
   "note": ""
  },
  {
   "property": "C61",
   "status": "partial",
   "theorems": [
    "WG.C61_menu_complete_partial",
    "WG.C61_violated",
    "WG.C61_letter",
    "WG.C61_offered_iff"
   ],
   "note": "Only 26 letters: violated with 27 GDBMSs."
  },
  {
   "property": "C62",
   "status": "proved",
   "theorems": [
    "WG.C62_selects_existing",
    "WG.C62_selects_created"
   ],
   "note": "Default folder exists."
  },
  {
   "property": "C63",
   "status": "proved",
   "theorems": [
    "WG.C63_created_can_be_selected"
   ],
   "note": ""
  },
  {
   "property": "C64",
   "status": "partial",
   "theorems": [
    "WG.C64_created_at_is_import_time",
    "WG.C64_created_now_partial",
    "WG.C64_violated_by_all",
    "WG.C64_violated"
   ],
   "note": "False for the code: the default is evaluated when the module is imported. Proved exactly what is stored (the import time) for every MAKE, and that every new node violates the claim as soon as the clock has moved."
  },
  {
   "property": "C65",
   "status": "partial",
   "theorems": [
    "WG.C65_query_stores_what_it_says_partial",
    "WG.C65_two_lines_partial",
    "WG.C65_violated",
    "WG.C65_report_partial"
   ],
   "note": "Proved from query text to file bytes for every query of well-formed lines whose MAKE patterns have one or two nodes (any number of MAKEs and patterns). Missing: patterns of three nodes, white space behind an arrow, MAKEs without a relationship, two-node FINDs, something wrong with the REPORTs (which texts these are is described exactly) - all known violations; what happens then is C76."
  },
  {
   "property": "C66",
   "status": "partial",
   "theorems": [
    "WG.C66_query_is_parsed_as_written_partial",
    "WG.C86_page_parse",
    "WG.C66_violated",
    "WG.C66_report_exact",
    "WG.C66_violated_label"
   ],
   "note": "Proved for every query of statements with arbitrary names, property lists, white space, indentation, remarks behind them and other text between them. Statements sharing a line: how they are parsed is C85 and C86. With words that are or look like REPORT: accepted if and only if nothing is wrong with the REPORTs (ReportsRight); violated by the labels Porter and reporter. Missing: mixed-case keywords."
  },
  {
   "property": "C67",
   "status": "partial",
   "theorems": [
    "WG.C67_typed_query_partial",
    "WG.C67_typed_session_partial",
    "WG.C67_make_first_is_rejected",
    "WG.C67_make_first_stores_find",
    "WG.C67_violated",
    "WG.C67_violated_stored"
   ],
   "note": "FIND typed before MAKE: proved, also for sessions of any length. MAKE before FIND: proved to be refused (blank between) or to store the FIND pattern as well (no blank), for all well-formed statements."
  },
  {
   "property": "C68",
   "status": "partial",
   "theorems": [
    "WG.C68_split_make_is_ignored",
    "WG.C68_only_make_is_refused_partial",
    "WG.C68_only_make_is_ignored",
    "WG.C68_violated",
    "WG.C68_violated_only",
    "WG.C66_query_is_parsed_as_written_partial"
   ],
   "note": "False for the code: a MAKE whose patterns stand on several lines is ignored when the query has another MAKE (proved for every such MAKE at every position of every well-formed query). Proved: as the only MAKE it is refused if at most one white-space character follows the keyword, and ignored (every such query) if more do; MAKEs on one line are all executed (C66)."
  },
  {
   "property": "C69",
   "status": "partial",
   "theorems": [
    "WG.C69_stays_usable_partial",
    "WG.C69_session_stays_usable_partial",
    "WG.C69_poison_breaks",
    "WG.C69_broken_iff",
    "WG.C69_written_query_breaks_iff",
    "WG.C69_typed_query_breaks_iff",
    "WG.C69_broken_query",
    "WG.C69_broken_forever",
    "WG.C69_one_query_is_enough",
    "WG.C69_lost_forever",
    "WG.C69_violated"
   ],
   "note": "False for the code. Proved exactly which queries break a usable GDBMS (for all texts; for well-formed ones: a MAKE without any relationship), that all others leave it usable, and that a broken one never executes a MAKE again, in any session."
  },
  {
   "property": "C70",
   "status": "proved",
   "theorems": [
    "WG.C70_query",
    "WG.C70_session",
    "WG.C70_same_files",
    "WG.C70_find",
    "WG.C70_index_text_differs"
   ],
   "note": "Relational proof over every program of the model: same results, same log, same files byte for byte apart from the index, whose lists are permutations of each other (and do differ as texts, shown by a witness)."
  },
  {
   "property": "C71",
   "status": "partial",
   "theorems": [
    "WG.C71_run_partial",
    "WG.C71_runs_partial",
    "WG.C71_hidden",
    "WG.C71_violated"
   ],
   "note": "Refinement of the whole program (selection, sessions, files) to a map from names to lists of patterns, proved for any number of runs with well-formed queries and arbitrary other texts that make nothing. Missing: names the menu hides (proved never reachable again), GDBMSs beyond the 26th letter, queries known to fail (C65, C67, C69)."
  },
  {
   "property": "C72",
   "status": "partial",
   "theorems": [
    "WG.C72_make_balanced_partial",
    "WG.C72_find_balanced_partial",
    "WG.C72_unbalanced_make_refused",
    "WG.C72_unbalanced_find_refused",
    "WG.C72_violated",
    "WG.C72_violated_in_text"
   ],
   "note": "Proved for every query: a block whose colons are not one more than its commas (outside lists) is refused and nothing changes; every accepted block is balanced. False beyond counting: a colon and a comma missing together cancel and the property is dropped silently; separators inside quotes count."
  },
  {
   "property": "C73",
   "status": "partial",
   "theorems": [
    "WG.C73_engine",
    "WG.C73_polynomial_partial",
    "WG.C73_scan_partial",
    "WG.C73_pattern_partial",
    "WG.C73_violated",
    "WG.C73_violated_degree"
   ],
   "note": "Violated: on a relationship without `->` and n blanks between its brackets the relationship check takes more than n^5/120 steps. Proved for all patterns and texts: the model of `re` agrees with a step-counting backtracking matcher, and its steps are bounded by a polynomial whose degree is the number of repetitions in the pattern (12 for a node-relationship pattern at one position)."
  },
  {
   "property": "C74",
   "status": "partial",
   "theorems": [
    "WG.C74_make_stores_the_exports_partial",
    "WG.C74_exports_of_the_record_partial",
    "WG.C74_names_indexed",
    "WG.C74_json_round_trip",
    "WG.C74_violated_index"
   ],
   "note": "The record and all four variants of export_node agree with the database, the reported names are indexed, json_to_dict undoes dict_to_json. Violated for the index: export_relationship_indexes maps a node to the nodes its relationships lead to, the index file maps it to the relationship numbers; proved that for every node with relationships the two sets are disjoint and both non-empty."
  },
  {
   "property": "C75",
   "status": "partial",
   "theorems": [
    "WG.C75_check_exactly",
    "WG.C75_leading_keyword_passes_partial",
    "WG.C75_violated_by_all",
    "WG.C75_violated"
   ],
   "note": "The check is characterised exactly; queries starting with a keyword and a blank pass. Violated: it splits at blanks only, so every executed query without a blank, such as FIND(a:A); would be refused (proved for all such queries)."
  },
  {
   "property": "C76",
   "status": "proved",
   "theorems": [
    "WG.C76_query_outcome",
    "WG.C76_typed_outcome",
    "WG.C76_stored_as_written_iff",
    "WG.C76_run",
    "WG.C76_runs",
    "WG.C76_report_outcome",
    "WG.C76_any_run",
    "WG.C76_any_runs",
    "WG.C76_determined",
    "WG.C76_nothing_lost"
   ],
   "note": "Complete description of the outcome for every well-formed query text, typed line, session and sequence of runs (any lines, other texts that make nothing, ruined and sound GDBMSs side by side), including the patterns that are not stored as written (three nodes, white space behind an arrow) and the failing ones."
  },
  {
   "property": "C77",
   "status": "proved",
   "theorems": [
    "WG.C77_query_all_or_nothing",
    "WG.C77_session_prefix",
    "WG.C77_kept",
    "WG.C77_kept_from_session",
    "WG.C77_json_only",
    "WG.C77_json_only_typed",
    "WG.C77_world",
    "WG.C77_typed_session"
   ],
   "note": "All sequences of processes, complete or stopped anywhere, with cut-off writes to index and counter. Outside the statement, and covered as violations elsewhere: a cut-off write to the database file itself (C27) and values that JSON cannot represent (C08)."
  },
  {
   "property": "C78",
   "status": "partial",
   "theorems": [
    "WG.C78_usable_or_dead_partial",
    "WG.C78_dead_for_ever",
    "WG.C78_dies",
    "WG.C78_typed_dies"
   ],
   "note": "Proved: afterwards the GDBMS is usable or dead, that is no later text changes anything and every MAKE raises. Violated: every query that stores something has a stopping point that leaves the GDBMS dead for ever."
  },
  {
   "property": "C79",
   "status": "proved",
   "theorems": [
    "WG.C79_undisturbed",
    "WG.C79_gets_there",
    "WG.C79_any_moment",
    "WG.C79_all_sessions"
   ],
   "note": "Every file-system call is atomic; the schedule chooses whose call is next. Deletions are of names without wildcards (with wildcards see C59)."
  },
  {
   "property": "C80",
   "status": "partial",
   "theorems": [
    "WG.C80_one_writer_partial",
    "WG.C80_lost",
    "WG.C80_typed_lost",
    "WG.C80_creation_race"
   ],
   "note": "Proved: with one storing shell and any number of others that only look, nothing is lost. Violated: for every usable GDBMS and every storing query there is a schedule after which all that another shell stored is gone or the file is unreadable; two creations of the same name can empty the database."
  },
  {
   "property": "C81",
   "status": "partial",
   "theorems": [
    "WG.C81_where",
    "WG.C81_inside_partial",
    "WG.C81_outside",
    "WG.C81_slash",
    "WG.C81_nul",
    "WG.C81_offered"
   ],
   "note": "Described for every text: proper names behave as stated; a NUL leads to a new prompt. Violated: the empty text (pressing Enter) puts the files into the root of the file system (base.joinpath of a text beginning with a slash), `.` into the DBMS folder, `..` beside it, and none of these is offered again; a text with a slash ends the program with an uncaught exception and leaves directories behind (for disks without directories called database_...)."
  },
  {
   "property": "C82",
   "status": "proved",
   "theorems": [
    "WG.C82_flat"
   ],
   "note": "Refinement between two models: directory trees with pathlib's joining and the system's path walk, and the flat disk the other properties use. Symbolic links, permissions and length limits are not modelled."
  },
  {
   "property": "C83",
   "status": "partial",
   "theorems": [
    "WG.C83_setup",
    "WG.C83_one",
    "WG.C83_one_damaged",
    "WG.C83_clear",
    "WG.C83_setup_databases",
    "WG.C83_violated",
    "WG.C83_violated_index"
   ],
   "note": "The parts before the test and the clearing of the folder do what they should, for every disk. Violated: the part of clear_dbms_test after the test wipes the relationship index in the counter file and writes 0 into the index file; it raises TypeError for every counter that holds a number, and where it ends normally the index file is left as `0`. No test in the repository requests this fixture."
  },
  {
   "property": "C84",
   "status": "partial",
   "theorems": [
    "WG.C84_names_exact",
    "WG.C84_lost_name_is_phantom",
    "WG.C84_no_phantom_names_partial",
    "WG.C84_violated"
   ],
   "note": "Violated by patterns of three nodes whose second relationship points to the left: it belongs to the lost right node, its name is indexed nevertheless (every such MAKE, unless the name is stored otherwise). Proved for all histories without such relationships."
  },
  {
   "property": "C85",
   "status": "proved",
   "theorems": [
    "WG.C85_row_parse",
    "WG.C85_row_refused",
    "WG.C85_row_outcome",
    "WG.C85_line_outcome",
    "WG.C85_line_session",
    "WG.C85_ruined_session",
    "WG.C85_any_session"
   ],
   "note": "For rows of any length: parsed form, refusal, stored patterns, and sessions of rows of any length. Before, between and behind the statements there may be other text, such as a REPORT; a line with a wrong REPORT is refused as well. A line with nothing but nodes to store ruins the index; the sessions in which that happens are described to their end, with every answer (C85_ruined_session)."
  },
  {
   "property": "C86",
   "status": "partial",
   "theorems": [
    "WG.C86_layout_partial",
    "WG.C86_page_parse",
    "WG.C86_page_refused",
    "WG.C86_page_outcome",
    "WG.C86_report_exact",
    "WG.C86_report_outcome",
    "WG.C86_violated"
   ],
   "note": "Proved for all layouts in which every MAKE is the last statement of its line and there is one FIND. Violated: a FIND behind a MAKE is executed on the next line and refused (or stored) on the same line. The outcome is described exactly for every number of lines with every number of statements, be they refused, executed or ruining the index. The description covers texts with any letters, with other text before, between and behind the statements, such as a REPORT."
  },
  {
   "property": "C87",
   "status": "partial",
   "theorems": [
    "WG.C87_session_exact",
    "WG.C87_one_node_partial",
    "WG.C87_violated_silent",
    "WG.C87_violated_made"
   ],
   "note": "Proved for patterns of one node. Violated by patterns with relationships: a FIND is silent as soon as one of its labels exists, and says \"No results\" when one of its relationship names exists. The screen is described exactly for every session of well-formed queries."
  },
  {
   "property": "C88",
   "status": "partial",
   "theorems": [
    "WG.C88_run_exact",
    "WG.C88_reported_twice",
    "WG.C88_letter_once_partial",
    "WG.C88_violated"
   ],
   "note": "Proved for letters. Violated: a taken name is reported twice (the inner function prints and raises, the caller prints again). The screen of every run is described exactly."
  },
  {
   "property": "C89",
   "status": "proved",
   "theorems": [
    "WG.C89_same_behaviour",
    "WG.C89_every_text_answered"
   ],
   "note": "For every list of texts and every disk, well-formed or not."
  },
  {
   "property": "C90",
   "status": "partial",
   "theorems": [
    "WG.C90_same_screen",
    "WG.C90_records_unseen",
    "WG.C90_label_seen_partial",
    "WG.C90_violated"
   ],
   "note": "Proved for labels: one that exists in one GDBMS only can be seen. Violated: nothing else can; GDBMSs with the same labels and relationship names show the same screen in every session of well-formed queries, and disks that differ only in the content of records show the same screen whatever is typed."
  },
  {
   "property": "C91",
   "status": "partial",
   "theorems": [
    "WG.C91_same_kind",
    "WG.C91_explains",
    "WG.C91_shown",
    "WG.C91_quotes_partial",
    "WG.C91_right_word_make",
    "WG.C91_right_word_find",
    "WG.C91_violated"
   ],
   "note": "Proved for every query: the message of each exception of the project names a fault that the query has, and except for ParamSyntaxError all it shows stands in the query. Violated: ParamSyntaxError shows the properties with True for true and without their lists; every MAKE or FIND without a semicolon is answered that the word, spelt right, was not recognised, and the same word is offered."
  },
  {
   "property": "C92",
   "status": "proved",
   "theorems": [
    "WG.C92_same_kind",
    "WG.C92_explains",
    "WG.C92_quotes"
   ],
   "note": "For every text. The messages that do not occur in PropFault (missing a period, has a period, not an integer, PropertyTypeAssignmentError) cannot be shown, apart from CPython's limit of 4300 digits in int, which is not modelled and would show the integer message. ValueErrors of literal_eval are not the project's and have no message here."
  },
  {
   "property": "C93",
   "status": "proved",
   "theorems": [
    "WG.C93_same",
    "WG.C93_same_session",
    "WG.C93_explains",
    "WG.C93_usable",
    "WG.C93_quotes",
    "WG.C93_session"
   ],
   "note": "For every query, disk and session. Model/Answers repeats the pipeline with the texts of its exceptions; C93_same and C93_same_session show that it does the same as the model used elsewhere. Exceptions of Python and pydantic (OfLibrary) have no message here. The messages of RelationshipToFromError, NodeHasUnrelatedRelationship, NotAValidQueryError and three plain Exceptions are in the model but, by C93_explains, are never shown."
  },
  {
   "property": "C94",
   "status": "proved",
   "theorems": [
    "WG.C94_session",
    "WG.C94_stopped",
    "WG.C94_schedule",
    "WG.C94_names"
   ],
   "note": "For every list of texts and every disk. `Copied` asks for the texts of the three files and for their directories; names, folders and all other files may differ."
  },
  {
   "property": "C95",
   "status": "partial",
   "theorems": [
    "WG.C95_grouping_partial",
    "WG.C95_two_queries_partial",
    "WG.C95_written_grouping_partial",
    "WG.C95_session_partial",
    "WG.C95_violated"
   ],
   "note": "Proved for queries of any text whose MAKE can be stored on its own or fails the checks. Violated by queries whose MAKE has no relationship to store (C69): two statements can be stored together although one of them alone breaks the GDBMS."
  },
  {
   "property": "C96",
   "status": "partial",
   "theorems": [
    "WG.C96_make",
    "WG.C96_query",
    "WG.C96_written_partial",
    "WG.C96_violated"
   ],
   "note": "Proved on every disk for patterns with the same parts as the parser gives them (C96_make, C96_query), and for queries as written with the same direction as seen by MAKE. Violated by white space behind an arrow to the right, which turns the relationship round (C17)."
  },
  {
   "property": "C97",
   "status": "proved",
   "theorems": [
    "WG.C97_add_set",
    "WG.C97_add_relationships",
    "WG.C97_load_set",
    "WG.C97_load_relationships",
    "WG.C97_wipe_index",
    "WG.C97_add_records",
    "WG.C97_load_records",
    "WG.C97_counter",
    "WG.C97_make_returns"
   ],
   "note": "For every text of the file. Two readings the code has are part of the description: loading takes a file that is not JSON for an empty one (C09), and a database that is a list or a text is searched for the key before it is found to be no dict. What an add does to a database file that the program did not write is C06, what an empty batch does to the index of relationships is C13, and batches that cannot be written are C08."
  },
  {
   "property": "C98",
   "status": "proved",
   "theorems": [
    "WG.C98_statements",
    "WG.C98_patterns",
    "WG.C98_properties",
    "WG.C98_checks",
    "WG.C98_clauses",
    "WG.C98_query"
   ],
   "note": "For every text. The reader (Spec/Reader) uses no regular expression and shares with the model only the types of its result and the functions of the Python library. It shows what the expressions do at their edges: all up to the last `);` of a line is one statement, a property without value gets the last blank before the comma, the check of an arrow takes everything up to the next dash for its content and leaves one character of it untouched. Misspelt keywords are described by a predicate, as in C41."
  },
  {
   "property": "C99",
   "status": "partial",
   "theorems": [
    "WG.C99_query",
    "WG.C99_query_states",
    "WG.C99_session",
    "WG.C99_kept",
    "WG.C99_others_untouched",
    "WG.C99_selection_keeps",
    "WG.C99_retry",
    "WG.C99_usable_or_dead_partial",
    "WG.C99_violated_dies",
    "WG.C99_dead_for_ever"
   ],
   "note": "Everything but the last part is proved for every disk; C99_kept needs values JSON can represent (C08) and that a failing write does not leave part of the database file behind (else C27), C99_retry and C99_usable_or_dead_partial a usable GDBMS. The last part fails: a query whose call fails after the database has been written leaves a GDBMS that refuses every MAKE for ever (C99_violated_dies), as in C78. Simplification: a failing read raises FileNotFoundError, every other failing call OSError, and a failing call does nothing (mkdir makes all directories or none)."
  }
 ]
}