# WiggleGraph in Lean 4: design of the model and the proofs

## 1. What is modelled

`/repo` is a small graph database: text queries (MAKE / FIND / REPORT) are parsed with
regular expressions, MAKE writes nodes into a JSON file, maintains a JSON index file and a
counter file ("wiggle number"), FIND consults the index file.  The model is a shallow,
executable, branch-by-branch transcription; exceptions are values (`PyErr`), and effects go
through an explicit file system, so a function that raises half way leaves the
half-written files visible.

| module | contents | repo code |
|---|---|---|
| `Py/Basic` | characters, `str` methods, values, exceptions, the runtime class `PyRuntime` | Python's library, as far as used |
| `Py/Num` | `str(int)`, `int(str)` | " |
| `Py/Files` | files and folders, programs as trees of file calls; one program gives its result (`run`), its crash states (`CrashAt`) and its interleavings (`runSched`) | " |
| `Py/Regex` | `re`: backtracking matcher, captures, finditer, findall, sub, split, search | " |
| `Py/Json` | `json.dump(indent=4)`, `json.dumps`, `json.load` on text | " |
| `Py/Value` | operations on loaded JSON values, set iteration order | " |
| `Py/Literal`, `Py/Glob` | `ast.literal_eval` on lists, `glob` | " |
| `Model/Regexes` | every regular expression of the repo as an AST | `clauses/regexes/**` |
| `Py/ReSyntax`, `Model/PatternTexts` | the syntax of Python's patterns (the part that occurs) and the pattern texts as the source builds them; C100 proves that they compile to `Model/Regexes` | `clauses/regexes/**` |
| `Model/Parsed` | the parse results | `models/wql/parsing`, `models/wql/enums` |
| `Model/Props` | property parsing | `clauses/parsing_helpers/parse_properties.py`, `models/wql/parsing/properties_pre.py` |
| `Model/Checks` | statement checks | `clauses/parsing_helpers/parse_statement_checks.py` |
| `Model/Parse` | extraction and parsing of statements | `parsing_helpers/extract_statements.py`, `clauses/*/parse_*` |
| `Model/MakePre`, `Model/Make` | MAKE | `clauses/make/**`, `clauses/transform_helpers`, `models/wql/data`, `models/wql/clauses/make` |
| `Model/Export` | exports of nodes, `dict_to_json` | `models/wql/data/node.py` 33-54, `node_relationships_index.py` 16-17 |
| `Model/Find` | FIND, CRITERIA merging, REPORT | `clauses/find/**`, `clauses/report/**`, `models/wql/clauses/find` |
| `Model/Database`, `Model/Indexes`, `Model/WiggleNumber` | the three files, as text | `wiggle_query_language/graph/**` |
| `Py/Tree`, `Model/Names` | directory trees, `pathlib` joining and path walk; making a GDBMS under any typed text | `wiggle_shell/core/select_gdbms/**` |
| `Model/Fixtures` | the fixtures of the project's tests | `conftest.py`, `wiggle_shell/core/select_gdbms/tests/conftest.py` |
| `Model/Screen` | what the program shows: prompts, menu, messages, errors | `print`/`input` calls of `wiggleshell.py`, `select_gdbms.py`, `find.py` |
| `Model/Messages` | the parser once more, with the texts of its exceptions | `exceptions/**`, `clauses/parsing_helpers/parse_statement_checks.py`, `extract_statements.py`, `parse_*_statement.py`, `parse_properties.py`, `parsed_query.py`, `properties_pre.py` |
| `Model/Answers` | planning, storing, FIND, `query` and the shell once more, with the texts of their exceptions | `make_pre.py`, `find_pre.py`, `make.py`, `find.py`, `models/wql/data/**`, `database.py`, `wiggle_number.py`, `query.py`, `wiggleshell.py` |
| `Model/Log` | the program once more, with the entries of its log; what of them the user of the shell sees | `wiggle_graph_logger/graph_logger.py`, the calls of `graph_logger` in `database.py`, `indexes/*.py`, `wiggle_number.py`, `parse_properties.py`, `query.py` 24 |
| `Model/Terminal` | `print`, `input` and the log together, in the order in which they reach the terminal | `graph_logger.py` 10-12, `find.py` 11-25, `query.py` 53-93, `wiggleshell.py` 7-44 |
| `Model/Query`, `Model/Shell`, `Model/Gdbms` | query, shell loop, GDBMS management | `wiggle_shell/**` |
| `Spec/*` | small independent specifications; `Spec/Demo*` are the concrete runtime, disks and statements used by examples and witnesses | – |
| `Proofs/*` | helper lemmas | – |
| `Props/*` | the property theorems, each with a non-vacuity `example` | – |
| `Conform/*` | tests of the model, no theorems: the cases of the repo's own test files (inputs and expected results, read as text) evaluated in the model by the kernel, so that a model that computes something else than the tested code does not build | – |

Text level: file contents are lists of characters.  `r+` / seek / write-without-truncate,
writing at the end of the file and torn writes are therefore visible, which is where several
defects live.

### Not modelled

* Of the log the time in front of an entry, the traceback behind an entry of `graph_logger.exception` and the text of a value in an entry
  (it is kept as a value; everything else of the log is in `Model/Log`, C101); the messages of Python's and pydantic's own exceptions and of the
  code behind `create_new_gdbms` and `delete_gdbms` (their *classes* are modelled; the project's messages of queries are in `Model/Messages` and `Model/Answers`), `if __name__ == "__main__"` blocks, the tests themselves
  (their fixtures are, C83), `testing/**`, example queries, `project_root.py` (folders are parameters).
  What `print` and `input` show is modelled in `Model/Screen` (what the log adds to the screen is in C101); an exception shown by `print(e)` is represented by its class.
* Code without behaviour or callers: `get_existing_gdbms_file_paths` (body `pass`),
  `__repr__`/`__len__` methods.
* pydantic internals.  What its models do to the values that occur is written out: required
  `str` given `None` → `ValidationError`; `Field(regex=…)` is `re.match` without flags; root
  validators let other exceptions through; `dict(exclude_none, exclude_unset)` drops fields of
  models, not members of dicts; `Field(default=set())` is copied per instance;
  assignments are not validated; `dict.update(model)` iterates over the model's fields.
* The reasons why a call of the operating system fails (permissions, full disks, symbolic links, limits on the length of
  names); that any call may fail at any moment is `Spec/Faults` (C99), where a failing read raises FileNotFoundError, every other
  failing call OSError, and a failing call does nothing, except that a write may put a part of its text on the disk.  In `Py/Files` GDBMS names are single path components: not empty, without `/` and NUL, not
  `.` or `..`; what other names do is modelled in `Py/Tree`, `Model/Names` (C81), and that the flat
  picture is right for proper names is proved (C82).
* Two limits of CPython: 4300 digits in `int`/`str` conversion, and the recursion limit (the
  exception class `other` stands for what `literal_eval` may raise).
* Lone surrogates in strings (Lean's `Char` excludes them).  The encoding of files is the
  identity on characters: `json.dump` writes ASCII only, so any ASCII-compatible encoding is covered.

## 2. How the properties are proved

* **Storage and MAKE (C01–C24)**: invariants over arbitrary histories; the JSON layer is
  connected through a proved round trip `load (dump v) = v`.
* **Crash points (C25–C27)**: a program is a tree of file calls; a crash state is the disk after any
  prefix of its calls, the last write possibly torn.
* **Schedules (C28)**: two programs are interleaved at every file call; theorems quantify over schedules.
* **Parsing (C29–C45, C72)**: the regexes are run by a model of the backtracking matcher; for
  symbolic inputs we prove what the first match is.
* **Pattern texts (C100)**: a reader of pattern texts (one step per character, with a stack of open parentheses) is run symbolically on the texts
  of the helpers, for every clause and name; what it yields is compared with the hand-written trees. So the trees are no longer trusted:
  trusted is `Py/ReSyntax` (the meaning of the pattern syntax) and that `Model/PatternTexts` copies the texts.
* **Refinement of the parser (C98)**: the regexes are shown to agree, match by match, with the functions of a reader that uses none; the
  parser built on them is then equal to that reader.
* **Failing calls (C99)**: every failing call of a query raises an exception nobody in the query catches, so a query with failing calls
  ends in one of its crash states; the crash results then carry over to sessions and processes.
* **Log (C101)**: the program is written a second time in a monad that collects entries; it is proved, function by function, to do the
  same as the model used elsewhere, and the entries are then read off.
* **Terminal (C102)**: a third writing of the shell collects what is printed and what is logged in one list; its two projections are proved
  to be the screen of C87–C90 and the log of C101, and the order of the two within a query is proved.
* **Coming back (C103)**: a session splits at any text; no text changes which folders and files exist, so the dialogue at the second start is
  that of the first.
* **Reading back (C104)**: the exact records of C76 are shown to determine the patterns they come from, pattern by pattern, by the numbers and end
  points of the relationships.
* **Grammars (C105)**: the reader of JSON texts is proved sound and complete for an inductively defined grammar (completeness by induction on
  derivations, soundness by induction on the reader's fuel, which is shown to suffice); the same for `int()`.
* **Strings and dicts (C106)**: the operations of `Py/Basic` are proved equal to relations that say what Python documents; ASCII is decided
  character by character from explicit lists.
* **Regular expressions (C107)**: the ways to match are trees with the documented order; the list the matcher goes through is proved to be
  all of them, in this order; searching is then compared with relations that mention no fuel.
* **Lists (C108)**: the flat lists of plain literals are a grammar (Spec/ListText); the reader is proved to accept exactly these texts and to
  give the list they stand for, so that what is left to `literalEvalOther` is known exactly.
* **Disk and values (C109, C110)**: the lists of `Py/Files` are proved to behave as sets and maps, call by call and for whole programs; that a disk
  is possible is an invariant of every call, hence of runs, crashes and interleavings. `Py/Value` is compared with relations for what Python documents.
* **Layout (C111)**: the text of a value is a relation that mentions no encoder; the text left by a value that cannot be written is the longest common
  beginning of the texts of all its completions.
* **Paths and patterns (C112)**: going along a path and matching a pattern are relations without fuel or tokens; `walk`, `mkdirRev` and `globToks`/
  `globMatch` are proved to compute them.
* **Query / shell (C46–C54)**: composition, induction over the input list.
* **GDBMS management (C55–C63)**: finite-map reasoning about a folder tree.
* **End to end (C65–C69)**: the parsing theorems and the storage theorems composed: from the text of a
  query to the bytes of the three files, and from the lines typed into the shell.
* **Relational (C70, C95, C96)**: two runs of the same inputs under different set iteration orders, compared step by step;
  runs of the same patterns grouped or written differently.
* **Cost (C73)**: a second matcher, in continuation-passing style and counting its steps, is proved equal to the list of
  ways that the model uses; upper bounds by induction on the pattern, the lower bound by iterated sums.
* **Whole program (C71)**: runs of the program refine a map from GDBMS names to lists of patterns.

Where the code violates a property the negation is proved with a concrete witness
(theorem name ends in `_violated…`) and the part that does hold is proved with the
suffix `_partial`.  Section 5 lists every disagreement.

## 3. Status per property

`proved`: the statement of `properties.jsonl` for all inputs.  `partial`: the code violates the
statement; the violation is proved and the part that holds is proved for all inputs.  No property is
left without a theorem, and none is considered inexpressible.

| id | property | status | theorems (namespace `WG`) | remarks |
|---|---|---|---|---|
| C01 | Wiggle numbers are unique | partial | `C01_violated`, `C01_torn_counter_reuses`, `C01_numbers_unique_partial` | Proved for all histories of MAKEs, wipes and crashes in which the counter file itself is written atomically. A torn write of the counter breaks it: every MAKE can be stopped so that the counter has lost its last digits, and the next MAKE gives numbers away again. |
| C02 | The counter advances exactly and never goes back | proved | `C02_counter_advances_exactly`, `C02_failed_make_keeps_counter`, `C02_counter_never_decreases`, `C02_torn_exact` | C02_counter_never_decreases takes the write of the counter's few bytes as atomic; C02_torn_exact says what the counter can be if it is not (the new number without some of its last digits). |
| C03 | Counter file round trip | proved | `C03_counter_round_trip`, `C03_empty_counter_raises` |  |
| C04 | Adding never overwrites a stored node | proved | `C04_add_never_overwrites`, `C04_no_record_replaced` |  |
| C05 | Adding keeps old nodes and stores new ones | proved | `C05_add_keeps_old_and_stores_new`, `C05_load_returns_records` |  |
| C06 | Adding to any valid database file keeps it valid | partial | `C06_violated`, `C06_add_to_valid_file_partial` | The code violates the property (no truncate); the partial theorem characterises exactly when it holds. |
| C07 | Stored values survive the disk round trip | proved | `C07_values_survive_disk`, `C07_which_values` |  |
| C08 | A MAKE that cannot be serialised leaves the database readable | partial | `C08_violated`, `C08_violated_add`, `C08_unserialisable_add_destroys`, `C08_unserialisable_make_destroys`, `C08_graph_survives_make_partial` | The code violates the property: the failing MAKE destroys the database file. The partial theorem covers every MAKE with JSON-representable values, whatever its outcome. |
| C09 | An unreadable database is reported, not treated as empty | partial | `C09_violated`, `C09_unreadable_loads_as_empty`, `C09_add_to_unreadable_partial`, `C09_missing_is_reported_partial` | Loading an unreadable database returns an empty graph; adding to it raises and changes nothing. |
| C10 | Wipes need confirmation and hit only their target | proved | `C10_wipe_needs_confirmation`, `C10_wipe_database`, `C10_wipe_index` |  |
| C11 | Label/relationship-name index add is set union | proved | `C11_index_add_is_union`, `C11_load_returns_index` |  |
| C12 | Relationship index add is a per-node union | proved | `C12_index_history_is_union`, `C11_index_add_is_union` |  |
| C13 | Adding nothing to the relationship index changes nothing | partial | `C13_violated`, `C13_empty_add_destroys` | The code violates the property on every index file; the general theorem says what happens instead. |
| C14 | MAKE stores every node of its patterns | partial | `C14_violated`, `C14_nodes_stored_partial`, `C14_nothing_else_stored`, `C14_right_node_lost` | The right node of a three-node pattern is never stored; left and middle nodes always are. |
| C15 | MAKE stores every relationship with existing end points | partial | `C15_violated`, `C15_violated_lost`, `C15_relationships_stored_partial`, `C15_right_relationship_dangles`, `C15_right_relationship_lost` | The relationship to the right node dangles or is lost; the left-middle relationship is always stored with its endpoints. |
| C16 | Stored relationships belong to their source node and are never self-loops | proved | `C16_relationships_at_source` |  |
| C17 | The arrow decides the direction | partial | `C17_violated`, `C17_last_character_decides`, `C17_arrow_direction_partial`, `C17_trailing_space_reverses`, `C17_written_arrow_partial`, `C17_space_reverses` | For every relationship as written (RelText). White space behind the arrow reverses the stored direction. |
| C18 | Label index covers the stored graph | proved | `C18_labels_covered`, `C18_successful_make_loads` |  |
| C19 | Relationship-name index covers the stored graph | proved | `C19_names_covered`, `C18_successful_make_loads` |  |
| C20 | Relationship index equals the stored graph | proved | `C20_relationship_index_exact`, `C18_successful_make_loads` |  |
| C21 | Index entries are not phantom | partial | `C21_violated`, `C21_labels_exact`, `C21_right_label_is_phantom`, `C21_no_phantom_labels_partial` | Violated by three-node patterns (label of the lost right node); proved for all histories without them. What a MAKE adds to the index and to the database is characterised exactly, and every new label of a right node is shown to become a phantom. |
| C22 | A MAKE rejected before commit changes nothing | proved | `C22_rejected_make_changes_nothing`, `C22_defects` |  |
| C23 | Valid MAKEs succeed | partial | `C23_violated`, `C23_valid_make_succeeds_partial`, `C23_relationless_make_fails` | MAKEs that store no relationship raise and destroy the index; all other acceptable MAKEs succeed. |
| C24 | Wiggle numbers are laid out in documented order | proved | `C24_layout_is_consecutive` |  |
| C25 | Counter is written last | proved | `C25_counter_written_last` |  |
| C26 | After an interrupted MAKE no stored node is overwritten | proved | `C26_stuck`, `C26_interrupted_make_is_stuck` |  |
| C27 | A crash never loses the stored graph | partial | `C27_violated`, `C27_crash_keeps_graph_partial`, `C27_torn_write_loses_graph` | A torn database write makes the graph unloadable; without torn writes every crash point keeps all old records. |
| C28 | Concurrent MAKEs do not lose nodes | partial | `C28_violated`, `C28_readers_do_not_disturb_partial`, `C28_different_gdbms_partial` | Two MAKEs on one GDBMS can lose nodes; proved for a MAKE beside readers and for MAKEs on different GDBMSs, under every schedule. |
| C29 | Statements on separate lines are extracted exactly | proved | `C29_make_statements_on_lines`, `C29_find_statements_on_lines`, `C29_report_statements_on_lines` | Every list of lines: indented statements in any spelling, each followed by a remark without closing parenthesis and keyword, mixed with lines that do not contain the keyword. |
| C30 | The semicolon ends a statement | partial | `C30_separate_lines_partial`, `C30_violated`, `C85_row_parse` | False for the code: for all bodies, two statements on one line are taken as one (the greedy .+ runs to the last ');'). Proved for separate lines; C85_row_parse says what any number of well-formed statements on one line become. |
| C31 | Clause keywords are case-insensitive | partial | `C31_upper_or_lower_partial`, `C31_find_upper_or_lower_partial`, `C31_other_spellings_raise`, `C31_violated`, `C31_accepted_keywords`, `C31_mixed_make_refused`, `C31_mixed_find_refused`, `C31_mixed_report_refused`, `C31_spelling_exact` | False for the code: mixed case always raises (pydantic's regex is case-sensitive). Proved for every number of statements: accepted if and only if every keyword is all upper or all lower case and the statements are accepted in upper case, with the same patterns; for every text: an accepted query has only such keywords (MAKE, FIND and REPORT), and one other spelling makes the whole query be refused with nothing changed. |
| C32 | Illegal characters never reach the store | proved | `C32_illegal_make_raises`, `C32_illegal_find_raises`, `C32_make_texts_legal`, `C32_find_texts_legal`, `C32_stored_strings_legal`, `C32_query_keeps_store_legal` | Rejection, and every string of every new record and index entry, for every query string and healthy GDBMS. |
| C33 | Accepted statements have paired brackets | proved | `C33_make_brackets_paired`, `C33_find_brackets_paired` | Every query string; pieces between arrow heads defined directly on the text. |
| C34 | Property literals mean what they say | partial | `C34_literals_parse_partial`, `C34_every_literal_has_one_value`, `C34_violated_negative`, `C34_violated_word`, `C34_violated_prefix`, `C34_unread_entries` | Proved for every list of names and well-formed literals (also lists); false for the code for negative numbers, and for quoted words that are or start with reserved spellings. What happens to negative numbers and [] among readable entries is described for every list: left out silently, or an error if white space precedes the value. |
| C35 | Handles are unique within a pattern | proved | `C35_duplicate_handles`, `C35_make_duplicate_handles`, `C35_accepted_make_no_duplicates`, `C35_accepted_find_no_duplicates` | Both directions, for every pattern and every query. |
| C36 | Chains longer than three nodes are rejected | partial | `C36_long_make_raises`, `C36_long_find_truncated`, `C36_violated` | MAKE: proved for every chain length > 3, any text before and after, files unchanged. FIND: false for the code, only the first three nodes are used (proved for every such chain). |
| C37 | Stored relationship names are upper case | partial | `C37_names_upper_case_partial`, `C37_violated`, `C37_parse_exact`, `C37_accepted_iff` | Every query string. For queries that are well formed but for arrow heads and names, acceptance is characterised exactly. False after a statement without relationship (early return); proved for every statement whose predecessors have a relationship. |
| C38 | Undirected and bidirectional relationships are rejected | partial | `C38_bidirectional_raises`, `C38_undirected_raises_partial`, `C38_violated`, `C37_accepted_iff`, `C38_outcome` | Every query string. For queries that are well formed but for arrow heads and names, the outcome and what is stored is characterised exactly: unchecked relationships without arrow head are stored as if they pointed to the left. Two arrow heads: proved fully. No arrow head: false after a statement without relationship; proved for every statement whose predecessors have a relationship. |
| C39 | At most one FIND and one REPORT | partial | `C39_multiple_find_raises_partial`, `C39_multiple_report_raises_partial`, `C39_one_line_counts_once`, `C39_find_lines`, `C39_violated` | False for the code on one line (two statements are taken as one); proved for separate lines, with the disk unchanged. For every layout of well-formed statements: the FIND is accepted if and only if exactly one line has a FIND (and its relationships are right). |
| C40 | REPORT names every FIND handle | partial | `C40_report_contains_handles_partial`, `C40_violated`, `C40_violated_substring`, `C40_report_accepted_iff`, `C40_any_text` | False for the code: a query without any REPORT is accepted, and a handle inside another word counts. Proved: with a REPORT every handle is a substring of it; for every text and every list of handles, exactly when the REPORT part is accepted and what it is. |
| C41 | Misspelt clauses are reported | partial | `C41_misspelt_make_partial`, `C41_misspelt_find_partial`, `C41_misspelt_report`, `C41_violated`, `C41_make_exact`, `C41_find_exact`, `C41_report_exact` | False for the code with more than one white-space character before the parenthesis; proved for at most one, every permutation and case, every query. |
| C42 | Patterns parse to what was written | proved | `C42_patterns_parse`, `C42_accepted_make`, `C42_accepted_find` | Every statement made of one or more chains of one to three nodes with any spacing, handles, labels, names, property texts and arrows. |
| C43 | Quoted strings are stored verbatim | partial | `C43_verbatim_iff_clean_partial`, `C43_quoted_exact`, `C43_cut_off`, `C43_cut_off_rest`, `C43_cut_off_differs`, `C43_violated` | Stored verbatim if and only if the text is clean (no quote or white space at its ends, not a reserved word), for every text of allowed characters. What is stored otherwise is proved too: texts of allowed characters lose quotes and white space at their ends; texts with any other character are cut off there without a message, and the rest is read as a text of properties of its own, so that a colon in a text can add or replace properties. Together this says what is stored for every text. |
| C44 | List literals are stored verbatim | partial | `C44_lists_exact`, `C44_verbatim_iff`, `C44_lists_verbatim_partial`, `C44_list_stays_list`, `C44_violated`, `C44_violated_empty`, `C34_unread_entries` | False for the code: true/false/null inside the texts of a list are altered, and [] is not stored (for every property list). Proved exactly what is stored for every list of plain literals, and that it is what was written exactly if no text contains one of the words. |
| C45 | Repeated property names: last one wins | proved | `C45_last_one_wins`, `C45_any_text` | Every property list, and every text at all. |
| C46 | A query that fails to parse changes nothing | proved | `C46_parse_failure_changes_nothing` | Including every crash point. |
| C47 | A MAKE-only query is executed | partial | `C47_violated`, `C47_without_find_never_executed`, `C47_makes_are_executed_partial` | Violated: every query without FIND raises AttributeError before anything runs. With a FIND the MAKEs are executed. |
| C48 | A query is all-or-nothing | partial | `C48_violated`, `C48_query_all_or_nothing_partial` | Violated: the MAKE is committed before FIND runs. Proved: what a failing query can leave behind. |
| C49 | FIND and REPORT are read-only | proved | `C49_find_reads_only`, `C49_report_reads_only`, `C49_find_query_reads_only` |  |
| C50 | FIND says No results only when nothing can match | partial | `C50_violated_present`, `C50_violated_absent`, `C50_actual_behaviour`, `C50_no_results_iff_absent_partial` | Proved for one-node patterns; violated both ways for three nodes. Actual behaviour characterised for all patterns. |
| C51 | FIND works for patterns of one, two or three nodes | partial | `C51_violated`, `C51_violated_right`, `C51_two_nodes_fail`, `C51_one_node_partial`, `C51_three_nodes_partial` | Two-node patterns always raise; the right node of three gets the wrong handle and properties. |
| C52 | CRITERIA refine the FIND properties | partial | `C52_violated`, `C52_violated_three`, `C52_criteria_refine_partial`, `C52_criteria_everywhere_partial`, `C52_without_properties`, `C52_several_nodes` | Proved for one-node patterns with own properties, and for every pattern that is processed (left and middle node, both relationships); violated without own properties and for three nodes. What happens instead is characterised: for every node without properties, and for every pattern of several nodes. |
| C53 | The shell survives every query | proved | `C53_shell_survives`, `C53_ends_only_on_q` |  |
| C54 | The shell executes every query | partial | `C54_violated`, `C54_input_is_executed_partial`, `C54_help_is_not_executed` | Any input containing 'help' anywhere is not executed. |
| C55 | A new GDBMS is empty and usable | proved | `C55_created_is_empty` | Names are single path components; the model of getNewGdbmsFilePaths, any disk on which the name is free. |
| C56 | Creating a GDBMS never overwrites one | proved | `C56_creation_changes_no_file`, `C56_creation_changes_no_file_run`, `C56_existing_is_refused` | All crash states included. |
| C57 | A failed creation leaves nothing behind | partial | `C57_failed_creation_partial`, `C57_violated`, `C57_creation_outcome` | Violated: with a left-over index or counter file the new database file stays. Proved: the failures that leave the disk unchanged, and that only database and index file of that name can appear. |
| C58 | GDBMSs are isolated | partial | `C58_query_is_isolated_partial`, `C58_session_is_isolated_partial`, `C58_operations_are_isolated_partial`, `C58_creation_is_isolated_partial`, `C58_deletion_is_isolated_partial`, `C58_violated` | Holds for every operation except deletion of a GDBMS whose name has glob characters, which removes files of other GDBMSs. |
| C59 | Deleting removes exactly one GDBMS | partial | `C59_delete_exactly_one_partial`, `C59_delete_outcome`, `C59_star_removes_all`, `C59_violated`, `C59_violated_hidden` | Violated for names with glob characters and directories with hidden files; proved exactly what is removed and what is returned for those, for all names whose sets are made of plain characters. |
| C60 | The list of GDBMSs is sorted and complete | proved | `C60_listing_sorted_complete`, `C60_listing_missing_folder` |  |
| C61 | Every GDBMS can be selected by a letter | partial | `C61_menu_complete_partial`, `C61_violated`, `C61_letter`, `C61_offered_iff` | Only 26 letters: violated with 27 GDBMSs. |
| C62 | Selecting returns an existing GDBMS | proved | `C62_selects_existing`, `C62_selects_created` | Default folder exists. |
| C63 | Created GDBMSs can be selected again | proved | `C63_created_can_be_selected` |  |
| C64 | created_at is the creation time | partial | `C64_created_at_is_import_time`, `C64_created_now_partial`, `C64_violated_by_all`, `C64_violated` | False for the code: the default is evaluated when the module is imported. Proved exactly what is stored (the import time) for every MAKE, and that every new node violates the claim as soon as the clock has moved. |
| C65 | A well-formed two-line query is executed end to end | partial | `C65_query_stores_what_it_says_partial`, `C65_two_lines_partial`, `C65_violated`, `C65_report_partial` | Proved from query text to file bytes for every query of well-formed lines whose MAKE patterns have one or two nodes (any number of MAKEs and patterns). Missing: patterns of three nodes, white space behind an arrow, MAKEs without a relationship, two-node FINDs, something wrong with the REPORTs (which texts these are is described exactly) - all known violations; what happens then is C76. |
| C66 | Well-formed queries are accepted and parsed as written | partial | `C66_query_is_parsed_as_written_partial`, `C86_page_parse`, `C66_violated`, `C66_report_exact`, `C66_violated_label` | Proved for every query of statements with arbitrary names, property lists, white space, indentation, remarks behind them and other text between them. Statements sharing a line: how they are parsed is C85 and C86. With words that are or look like REPORT: accepted if and only if nothing is wrong with the REPORTs (ReportsRight); violated by the labels Porter and reporter. Missing: mixed-case keywords. |
| C67 | Queries typed in the shell do what they say | partial | `C67_typed_query_partial`, `C67_typed_session_partial`, `C67_make_first_is_rejected`, `C67_make_first_stores_find`, `C67_violated`, `C67_violated_stored` | FIND typed before MAKE: proved, also for sessions of any length. MAKE before FIND: proved to be refused (blank between) or to store the FIND pattern as well (no blank), for all well-formed statements. |
| C68 | No written MAKE is silently ignored | partial | `C68_split_make_is_ignored`, `C68_only_make_is_refused_partial`, `C68_only_make_is_ignored`, `C68_violated`, `C68_violated_only`, `C66_query_is_parsed_as_written_partial` | False for the code: a MAKE whose patterns stand on several lines is ignored when the query has another MAKE (proved for every such MAKE at every position of every well-formed query). Proved: as the only MAKE it is refused if at most one white-space character follows the keyword, and ignored (every such query) if more do; MAKEs on one line are all executed (C66). |
| C69 | A failing query does not disable the GDBMS | partial | `C69_stays_usable_partial`, `C69_session_stays_usable_partial`, `C69_poison_breaks`, `C69_broken_iff`, `C69_written_query_breaks_iff`, `C69_typed_query_breaks_iff`, `C69_broken_query`, `C69_broken_forever`, `C69_one_query_is_enough`, `C69_lost_forever`, `C69_violated` | False for the code. Proved exactly which queries break a usable GDBMS (for all texts; for well-formed ones: a MAKE without any relationship), that all others leave it usable, and that a broken one never executes a MAKE again, in any session. |
| C70 | Set iteration order decides nothing | proved | `C70_query`, `C70_session`, `C70_same_files`, `C70_find`, `C70_index_text_differs` | Relational proof over every program of the model: same results, same log, same files byte for byte apart from the index, whose lists are permutations of each other (and do differ as texts, shown by a witness). |
| C71 | What one run stores the next run has | partial | `C71_run_partial`, `C71_runs_partial`, `C71_hidden`, `C71_violated` | Refinement of the whole program (selection, sessions, files) to a map from names to lists of patterns, proved for any number of runs with well-formed queries and arbitrary other texts that make nothing. Missing: names the menu hides (proved never reachable again), GDBMSs beyond the 26th letter, queries known to fail (C65, C67, C69). |
| C72 | One colon per property, one comma between two | partial | `C72_make_balanced_partial`, `C72_find_balanced_partial`, `C72_unbalanced_make_refused`, `C72_unbalanced_find_refused`, `C72_violated`, `C72_violated_in_text` | Proved for every query: a block whose colons are not one more than its commas (outside lists) is refused and nothing changes; every accepted block is balanced. False beyond counting: a colon and a comma missing together cancel and the property is dropped silently; separators inside quotes count. |
| C73 | Matching takes at most quadratically many steps | partial | `C73_engine`, `C73_polynomial_partial`, `C73_scan_partial`, `C73_pattern_partial`, `C73_violated`, `C73_violated_degree` | Violated: on a relationship without `->` and n blanks between its brackets the relationship check takes more than n^5/120 steps. Proved for all patterns and texts: the model of `re` agrees with a step-counting backtracking matcher, and its steps are bounded by a polynomial whose degree is the number of repetitions in the pattern (12 for a node-relationship pattern at one position). |
| C74 | What a node exports is what MAKE stores for it | partial | `C74_make_stores_the_exports_partial`, `C74_exports_of_the_record_partial`, `C74_names_indexed`, `C74_json_round_trip`, `C74_violated_index` | The record and all four variants of export_node agree with the database, the reported names are indexed, json_to_dict undoes dict_to_json. Violated for the index: export_relationship_indexes maps a node to the nodes its relationships lead to, the index file maps it to the relationship numbers; proved that for every node with relationships the two sets are disjoint and both non-empty. |
| C75 | The switched-off keyword check would refuse no working query | partial | `C75_check_exactly`, `C75_leading_keyword_passes_partial`, `C75_violated_by_all`, `C75_violated` | The check is characterised exactly; queries starting with a keyword and a blank pass. Violated: it splits at blanks only, so every executed query without a blank, such as FIND(a:A); would be refused (proved for all such queries). |
| C76 | The outcome of every well-formed query is known exactly | proved | `C76_query_outcome`, `C76_typed_outcome`, `C76_stored_as_written_iff`, `C76_run`, `C76_runs`, `C76_report_outcome`, `C76_any_run`, `C76_any_runs`, `C76_determined`, `C76_nothing_lost` | Complete description of the outcome for every well-formed query text, typed line, session and sequence of runs (any lines, other texts that make nothing, ruined and sound GDBMSs side by side), including the patterns that are not stored as written (three nodes, white space behind an arrow) and the failing ones. |
| C77 | What is stored stays stored, whenever the program is stopped | proved | `C77_query_all_or_nothing`, `C77_session_prefix`, `C77_kept`, `C77_kept_from_session`, `C77_json_only`, `C77_json_only_typed`, `C77_world`, `C77_typed_session` | All sequences of processes, complete or stopped anywhere, with cut-off writes to index and counter. Outside the statement, and covered as violations elsewhere: a cut-off write to the database file itself (C27) and values that JSON cannot represent (C08). |
| C78 | A GDBMS can be used after the program was stopped | partial | `C78_usable_or_dead_partial`, `C78_dead_for_ever`, `C78_dies`, `C78_typed_dies` | Proved: afterwards the GDBMS is usable or dead, that is no later text changes anything and every MAKE raises. Violated: every query that stores something has a stopping point that leaves the GDBMS dead for ever. |
| C79 | Shells at work at the same time on different GDBMSs do not disturb each other | proved | `C79_undisturbed`, `C79_gets_there`, `C79_any_moment`, `C79_all_sessions` | Every file-system call is atomic; the schedule chooses whose call is next. Deletions are of names without wildcards (with wildcards see C59). |
| C80 | Nothing is lost when several shells use the same GDBMS | partial | `C80_one_writer_partial`, `C80_lost`, `C80_typed_lost`, `C80_creation_race` | Proved: with one storing shell and any number of others that only look, nothing is lost. Violated: for every usable GDBMS and every storing query there is a schedule after which all that another shell stored is gone or the file is unreadable; two creations of the same name can empty the database. |
| C81 | A GDBMS lives in a directory of its own in the DBMS folder, whatever name is typed | partial | `C81_where`, `C81_inside_partial`, `C81_outside`, `C81_slash`, `C81_nul`, `C81_offered` | Described for every text: proper names behave as stated; a NUL leads to a new prompt. Violated: the empty text (pressing Enter) puts the files into the root of the file system (base.joinpath of a text beginning with a slash), `.` into the DBMS folder, `..` beside it, and none of these is offered again; a text with a slash ends the program with an uncaught exception and leaves directories behind (for disks without directories called database_...). |
| C82 | For proper names, paths mean what the flat picture of folder, GDBMS and file says | proved | `C82_flat` | Refinement between two models: directory trees with pathlib's joining and the system's path walk, and the flat disk the other properties use. Symbolic links, permissions and length limits are not modelled. |
| C83 | The fixtures of the project's tests leave clean GDBMSs | partial | `C83_setup`, `C83_one`, `C83_one_damaged`, `C83_clear`, `C83_setup_databases`, `C83_violated`, `C83_violated_index` | The parts before the test and the clearing of the folder do what they should, for every disk. Violated: the part of clear_dbms_test after the test wipes the relationship index in the counter file and writes 0 into the index file; it raises TypeError for every counter that holds a number, and where it ends normally the index file is left as `0`. No test in the repository requests this fixture. |
| C84 | Every indexed relationship name belongs to a stored relationship | partial | `C84_names_exact`, `C84_lost_name_is_phantom`, `C84_no_phantom_names_partial`, `C84_violated` | Violated by patterns of three nodes whose second relationship points to the left: it belongs to the lost right node, its name is indexed nevertheless (every such MAKE, unless the name is stored otherwise). Proved for all histories without such relationships. |
| C85 | The outcome of every row of statements typed on one line is known exactly | proved | `C85_row_parse`, `C85_row_refused`, `C85_row_outcome`, `C85_line_outcome`, `C85_line_session`, `C85_ruined_session`, `C85_any_session` | For rows of any length: parsed form, refusal, stored patterns, and sessions of rows of any length. Before, between and behind the statements there may be other text, such as a REPORT; a line with a wrong REPORT is refused as well. A line with nothing but nodes to store ruins the index; the sessions in which that happens are described to their end, with every answer (C85_ruined_session). |
| C86 | What a query does depends on its statements, not on its line breaks | partial | `C86_layout_partial`, `C86_page_parse`, `C86_page_refused`, `C86_page_outcome`, `C86_report_exact`, `C86_report_outcome`, `C86_violated` | Proved for all layouts in which every MAKE is the last statement of its line and there is one FIND. Violated: a FIND behind a MAKE is executed on the next line and refused (or stored) on the same line. The outcome is described exactly for every number of lines with every number of statements, be they refused, executed or ruining the index. The description covers texts with any letters, with other text before, between and behind the statements, such as a REPORT. |
| C87 | FIND says "No results" exactly when something it asks for was never made | partial | `C87_session_exact`, `C87_one_node_partial`, `C87_violated_silent`, `C87_violated_made` | Proved for patterns of one node. Violated by patterns with relationships: a FIND is silent as soon as one of its labels exists, and says "No results" when one of its relationship names exists. The screen is described exactly for every session of well-formed queries. |
| C88 | Every refused name or letter is reported once | partial | `C88_run_exact`, `C88_reported_twice`, `C88_letter_once_partial`, `C88_violated` | Proved for letters. Violated: a taken name is reported twice (the inner function prints and raises, the caller prints again). The screen of every run is described exactly. |
| C89 | Every typed text is answered, and showing changes nothing | proved | `C89_same_behaviour`, `C89_every_text_answered` | For every list of texts and every disk, well-formed or not. |
| C90 | What is stored can be seen | partial | `C90_same_screen`, `C90_records_unseen`, `C90_label_seen_partial`, `C90_violated` | Proved for labels: one that exists in one GDBMS only can be seen. Violated: nothing else can; GDBMSs with the same labels and relationship names show the same screen in every session of well-formed queries, and disks that differ only in the content of records show the same screen whatever is typed. |
| C91 | The message of a refused query quotes what is wrong | partial | `C91_same_kind`, `C91_explains`, `C91_shown`, `C91_quotes_partial`, `C91_right_word_make`, `C91_right_word_find`, `C91_violated` | Proved for every query: the message of each exception of the project names a fault that the query has, and except for ParamSyntaxError all it shows stands in the query. Violated: ParamSyntaxError shows the properties with True for true and without their lists; every MAKE or FIND without a semicolon is answered that the word, spelt right, was not recognised, and the same word is offered. |
| C92 | The message of a refused property shows the value | proved | `C92_same_kind`, `C92_explains`, `C92_quotes` | For every text. The messages that do not occur in PropFault (missing a period, has a period, not an integer, PropertyTypeAssignmentError) cannot be shown, apart from CPython's limit of 4300 digits in int, which is not modelled and would show the integer message. ValueErrors of literal_eval are not the project's and have no message here. |
| C93 | The answer to a failing line fits the line and the files | proved | `C93_same`, `C93_same_session`, `C93_explains`, `C93_usable`, `C93_quotes`, `C93_session` | For every query, disk and session. Model/Answers repeats the pipeline with the texts of its exceptions; C93_same and C93_same_session show that it does the same as the model used elsewhere. Exceptions of Python and pydantic (OfLibrary) have no message here. The messages of RelationshipToFromError, NodeHasUnrelatedRelationship, NotAValidQueryError and three plain Exceptions are in the model but, by C93_explains, are never shown. |
| C94 | A copy of a GDBMS behaves as the GDBMS | proved | `C94_session`, `C94_stopped`, `C94_schedule`, `C94_names` | For every list of texts and every disk. `Copied` asks for the texts of the three files and for their directories; names, folders and all other files may differ. |
| C95 | How MAKE statements are spread over queries does not matter | partial | `C95_grouping_partial`, `C95_two_queries_partial`, `C95_written_grouping_partial`, `C95_session_partial`, `C95_violated` | Proved for queries of any text whose MAKE can be stored on its own or fails the checks. Violated by queries whose MAKE has no relationship to store (C69): two statements can be stored together although one of them alone breaks the GDBMS. |
| C96 | How a MAKE pattern is written does not matter | partial | `C96_make`, `C96_query`, `C96_written_partial`, `C96_violated` | Proved on every disk for patterns with the same parts as the parser gives them (C96_make, C96_query), and for queries as written with the same direction as seen by MAKE. Violated by white space behind an arrow to the right, which turns the relationship round (C17). |
| C97 | Storage functions name what is wrong with a file and do nothing else | proved | `C97_add_set`, `C97_add_relationships`, `C97_load_set`, `C97_load_relationships`, `C97_wipe_index`, `C97_add_records`, `C97_load_records`, `C97_counter`, `C97_make_returns` | For every text of the file. Two readings the code has are part of the description: loading takes a file that is not JSON for an empty one (C09), and a database that is a list or a text is searched for the key before it is found to be no dict. What an add does to a database file that the program did not write is C06, what an empty batch does to the index of relationships is C13, and batches that cannot be written are C08. |
| C98 | The parser reads every text as a plain left-to-right reader does | proved | `C98_statements`, `C98_patterns`, `C98_properties`, `C98_checks`, `C98_clauses`, `C98_query` | For every text. The reader (Spec/Reader) uses no regular expression and shares with the model only the types of its result and the functions of the Python library. It shows what the expressions do at their edges: all up to the last `);` of a line is one statement, a property without value gets the last blank before the comma, the check of an arrow takes everything up to the next dash for its content and leaves one character of it untouched. Misspelt keywords are described by a predicate, as in C41. |
| C99 | A failing file call costs at most the query it happens in | partial | `C99_query`, `C99_query_states`, `C99_session`, `C99_kept`, `C99_others_untouched`, `C99_selection_keeps`, `C99_retry`, `C99_usable_or_dead_partial`, `C99_violated_dies`, `C99_dead_for_ever` | Everything but the last part is proved for every disk; C99_kept needs values JSON can represent (C08) and that a failing write does not leave part of the database file behind (else C27), C99_retry and C99_usable_or_dead_partial a usable GDBMS. The last part fails: a query whose call fails after the database has been written leaves a GDBMS that refuses every MAKE for ever (C99_violated_dies), as in C78. Simplification: a failing read raises FileNotFoundError, every other failing call OSError, and a failing call does nothing (mkdir makes all directories or none). |
| C100 | Every pattern compiles, and to what the parser is said to use | proved | `C100_groups`, `C100_names`, `C100_clause_all`, `C100_permutations`, `C100_statements`, `C100_spelling`, `C100_parts`, `C100_nodes_rels`, `C100_others` | The texts (Model/PatternTexts) are put together as the helpers of the source do it; Py/ReSyntax reads the part of Python's pattern syntax that occurs and refuses the rest. C100_clause_all, C100_permutations and C100_parts hold for every clause of letters and every name, C100_groups for every pattern. C100_parts covers the two patterns the program does not use (NODE_HANDLE_LABEL_PARAMS_REGEX, RELATIONSHIP_HANDLE_LABEL_PARAMS_REGEX). |
| C101 | The log tells the truth and changes nothing | partial | `C101_visible`, `C101_all_visible`, `C101_same`, `C101_same_functions`, `C101_add`, `C101_load_database`, `C101_load_set`, `C101_load_relationships`, `C101_wipe_database`, `C101_wipe_set`, `C101_wipe_relationships`, `C101_counter`, `C101_update`, `C101_values`, `C101_shell_query`, `C101_shell_session`, `C101_silent_while_usable`, `C101_warned_when_broken`, `C101_start`, `C101_program`, `C101_violated` | The exact log of every function, on every disk. Violated: an index is said to be loaded before it is turned into a set, which may raise; a broken file is called empty; not wiping any index is logged as not dropping the relationship indexes. The shell theorems take any three paths with the index apart from the other two; C101_program needs no such assumption. |
| C102 | The terminal shows every answer and nothing else | partial | `C102_joins`, `C102_log_first`, `C102_session`, `C102_start`, `C102_program`, `C102_usable`, `C102_fair_session`, `C102_fair_run`, `C102_broken`, `C102_violated` | The exact terminal of every session and of every run of the program. Violated in the last point: once the index is broken, every query that ends normally shows the two warnings and No results, also if the database has what is asked for. |
| C103 | Leaving the shell and coming back makes no difference | proved | `C103_session`, `C103_pause`, `C103_pause_new`, `C103_start_time_differs`, `C103_q_ends` | Events, disk and terminal. C103_start_time_differs shows that the runs have to share the start time, which the code writes as the time a record was made (C64); C103_q_ends that the first list must not have a `q`. C103_pause_new has the hypotheses of C63 (the name is not skipped by the menu, at most 25 others). |
| C104 | What was made can be read off the database | partial | `C104_read_off_partial`, `C104_short_partial`, `C104_sessions_partial`, `C104_violated`, `C104_violated_direction` | Proved for everything MAKE keeps, including where one pattern ends and the next begins, and in full for patterns of one or two nodes without white space behind the arrow. Violated: of a third node nothing is kept (two queries that differ in its properties leave the same three files), and an arrow to the right with a blank behind it cannot be told from one to the left. |
| C105 | A file is read exactly if it is the text it should be, and as what it stands for | proved | `C105_json`, `C105_not_json`, `C105_one_value`, `C105_written`, `C105_holds`, `C105_unreadable`, `C105_load_database`, `C105_add_to_database`, `C105_counter`, `C105_counter_written`, `C105_one_number`, `C105_int_property` | The grammars (Spec/JsonText) mention neither the reader nor int(). C105_holds and C105_unreadable say what the words used in the other theorems about files mean without the reader. Texts are lists of characters; an escape for half of a surrogate pair, which is no character, is outside the model. |
| C106 | Strings and dicts are handled as Python documents it | proved | `C106_characters`, `C106_ignore_case`, `C106_strip_chars`, `C106_strip`, `C106_in`, `C106_split`, `C106_count`, `C106_replace`, `C106_lower`, `C106_isupper`, `C106_get`, `C106_has`, `C106_set`, `C106_update`, `C106_help`, `C106_no_help`, `C106_empty_value`, `C106_value`, `C106_params`, `C106_keywords`, `C106_report_handles`, `C106_valid_query` | Characters below 128 are listed in Spec/PyText; above that the tables of PyRuntime are used. str.lower is context-free in the model (the final sigma is not). |
| C107 | Texts are searched with regular expressions as Python documents it | proved | `C107_match`, `C107_first_way`, `C107_search`, `C107_finditer`, `C107_erase`, `C107_split`, `C107_group`, `C107_word`, `C107_ignore_case`, `C107_plus`, `C107_list_values`, `C107_no_empty_matches` | The ways and their order (Spec/ReText) are stated without the matcher. C107_erase is for expressions that do not match the empty text; C107_list_values shows it for the one the code uses. That the pattern texts of the code stand for the expressions of the model is C100. |
| C108 | A list property is read as Python reads the list | proved | `C108_list`, `C108_other`, `C108_one_list`, `C108_list_property`, `C108_check`, `C108_other_property`, `C108_checked` | The grammar (Spec/ListText) does not mention the reader. Lists with escapes in texts, nested lists, numbers with signs, exponents or underscores, and everything else literal_eval accepts are what PyRuntime.literalEvalOther says. |
| C109 | File operations do to the disk what they say, and the disk stays possible | proved | `C109_call`, `C109_one_effect`, `C109_order`, `C109_program`, `C109_possible`, `C109_possible_crash`, `C109_possible_together`, `C109_once`, `C109_listed_once` | For every call, program and disk. The description (Spec/Disk) uses sets and maps. Deeper directories, permissions and a full disk are not modelled here; failing calls are C99, other paths C81. |
| C110 | Sets and entries of loaded values are taken as Python does | proved | `C110_set`, `C110_no_set`, `C110_firsts`, `C110_get`, `C110_assign`, `C110_in`, `C110_dump` | For every loaded value. Python's 1 == True == 1.0 is not modelled; the sets of the code hold texts only or numbers only. |
| C111 | Files are written character by character as documented | proved | `C111_written`, `C111_one_text`, `C111_cut`, `C111_database`, `C111_counter` | For every value. The layout (Spec/Layout) does not mention the encoder. The text of a finite float is PyRuntime.floatRepr. |
| C112 | Paths and name patterns mean what pathlib and fnmatch document | proved | `C112_components`, `C112_join`, `C112_resolve`, `C112_resolve_error`, `C112_is`, `C112_mkdir`, `C112_touch`, `C112_overwrite`, `C112_nowhere`, `C112_mkdir_any`, `C112_fnmatch_other`, `C112_fnmatch`, `C112_glob` | The descriptions (Spec/Paths, Spec/Wild) mention no reader of paths or patterns. C112_mkdir is for paths without double dots, C112_mkdir_any for all paths (for names with them see C81_where and C81_outside). Patterns with ranges, set operations or an initial ] in a set are what PyRuntime.fnmatchOther says. |

## 4. Trusted base

* Lean's kernel and the axioms `propext`, `Classical.choice` and `Quot.sound`.  No other axiom is
  used (`#print axioms` on every theorem of the manifest; `vcheck` checks it too).  Mathlib is not imported.
* The faithfulness of the transcription: each definition cites the lines it models and states its
  simplifications.  The models of Python's `re`, `json`, `glob`, `literal_eval`, `str` methods and files are
  transcriptions of the documented behaviour (Python 3.10, pydantic 1.10, as in the repo's CI).
* The specifications in `Spec/*` and the statements in `Props/*`.
* The laws of the class `PyRuntime` (`Py/Basic`).  It collects what Python does outside the modelled
  subset.  Every theorem holds for *every* instance; `Spec/Demo` gives a concrete one, so the laws are
  satisfiable, and examples and witnesses are evaluated in it.

| `PyRuntime` member | meaning |
|---|---|
| `uWord`, `uSpace`, `uDigit`, `uUpper`, `uLower`, `uLowerMap` | Unicode tables above ASCII (ASCII is written out) |
| `uWord_uSpace`, `uDigit_uWord`, `uSpace_kelvin` | no character is both word and space; digits are word characters; KELVIN SIGN is no space |
| `F`, `floatOfStr`, `floatRepr` | finite doubles, `float(str)`, `repr(float)` |
| `floatRepr_json`, `floatOfStr_repr`, `floatOfStr_decimal` | `repr` is a JSON number with `.` or exponent; `float(repr(x)) = x`; `digits.digits` is a float |
| `literalEvalOther` with `_wf`, `_chars`, `_list` | `literal_eval` outside plain flat lists: dict keys are distinct, strings only consist of source characters (or escapes), text in brackets gives a list |
| `fnmatchOther` | glob character classes `[…]` (free) |

Set iteration order (`Py/Value`) is a parameter too: theorems hold for every order, chosen separately for
every operation.

## 5. Disagreements between the code and the properties

Paths are relative to `/repo/wiggle_query_language` unless they begin with `wiggle_shell` or `models`.

| # | place | what happens | property, witness |
|---|---|---|---|
| 1 | `clauses/make/make.py` 45-46 | the right node of a three-node pattern is built from the *left* one: it is never stored, its relationship dangles or is lost, its label and, if it points left, the name of its relationship are indexed nevertheless | C14, C15, C21, C84: `C14_violated`, `C14_right_node_lost`, `C15_violated`, `C15_violated_lost`, `C21_violated`, `C21_right_label_is_phantom`, `C84_violated`, `C84_lost_name_is_phantom` |
| 2 | `graph/database/indexes/node_relationships_index.py` 42 | `seek(0)` inside the loop: with nothing to add the new index is written *behind* the old one; the index file no longer loads, and the MAKE (any MAKE without relationships) raises after committing its nodes | C13, C23: `C13_empty_add_destroys`, `C23_relationless_make_fails` |
| 3 | `graph/database/database.py` 52-53 | no `truncate`: a file written with more white space than `indent=4` keeps its tail and becomes invalid | C06: `C06_violated` |
| 4 | `graph/database/database.py` 53 | a value `json` cannot serialise (`[1j]`) raises in the middle of the dump: the database is destroyed | C08: `C08_unserialisable_make_destroys` |
| 5 | `graph/database/database.py` 26-28 | an unreadable database loads as an empty one | C09: `C09_unreadable_loads_as_empty` |
| 6 | `graph/database/*.py`, `graph/state/wiggle_number.py` | in-place writes without locking: a torn write loses the graph or resets the counter, two MAKEs lose nodes | C01, C27, C28: `C01_violated`, `C27_torn_write_loses_graph`, `C28_violated` |
| 7 | `clauses/transform_helpers/relationships.py` 15 | the last *character* decides the direction; white space behind `->` belongs to the match, so `-[:R]-> (` is stored reversed | C17: `C17_space_reverses`, `C17_trailing_space_reverses` |
| 8 | `clauses/regexes/patterns/clause_helpers.py` 10 | greedy `.+`: statements on one line are taken as one; a FIND after a MAKE on one line is either refused or *stored* | C30, C39, C67: `C30_violated`, `C39_one_line_counts_once`, `C67_make_first_is_rejected`, `C67_make_first_stores_find`; any number of statements: C85, on any number of lines: C86 |
| 9 | `models/wql/parsing/parsed_query.py` | `Field(regex=…)` is case-sensitive: `Make(…)` is extracted, then raises `ValidationError` | C31: `C31_other_spellings_raise`, `C31_mixed_make_refused` |
| 10 | `clauses/regexes/patterns/properties.py`, `parse_properties.py` 63, 182-199 | negative numbers are not properties; quoted reserved words raise; quotes and white space at the ends of a string are lost; a string is cut off without a message at its first character other than word characters, white space and `+ ' \" @ .` | C34, C43: `C34_violated_negative`, `C34_violated_word`, `C34_violated_prefix`, `C34_unread_entries`, `C43_violated`, `C43_quoted_exact`, `C43_cut_off` |
| 11 | `parse_properties.py` 169-173 | `true`/`false`/`null` are replaced inside list *strings*; `[]` is not stored | C44: `C44_lists_exact`, `C44_verbatim_iff`, `C44_violated`, `C44_violated_empty`, `C34_unread_entries` |
| 12 | `clauses/find/parse_find` | FIND takes the first three nodes of a longer chain instead of rejecting it | C36: `C36_long_find_truncated` |
| 13 | `parse_statement_checks.py` 116-117 | `return True` at the first statement without a relationship: all later statements are unchecked (lower-case names, undirected relationships) | C37, C38: `C37_violated`, `C38_violated`, `C37_accepted_iff`, `C38_outcome` |
| 14 | `clauses/report/parse_report/parse_report_statement.py` 13-14 | handles are looked for as substrings, and only if there is a REPORT | C40: `C40_violated`, `C40_violated_substring`; exactly: `C40_report_accepted_iff`, for every text `C40_any_text` |
| 15 | `clause_helpers.py` 32 | `\s?` allows one white-space character: with two, misspelt keywords pass unnoticed | C41: `C41_violated`; exactly: `C41_make_exact`, `C41_find_exact`, `C41_report_exact` |
| 16 | `clauses/regexes/report/report_patterns.py` 16-19, `extract_statements.py` 38 | in a query without REPORT, any arrangement of its six letters anywhere in a line (the label `Porter`) is taken for a misspelt keyword and the query is refused; the word itself is taken for a REPORT wherever it stands (`FIND (a:reporter);` is refused, `FIND (r:reporter);` is executed) | C65, C66: `C66_violated`, `C66_violated_label`, `C65_violated`; exactly: `C66_report_exact`, `C86_report_exact` |
| 17 | `wiggle_shell/core/query/query.py` 38 | a query without FIND raises `AttributeError` before anything is executed | C47: `C47_without_find_never_executed` |
| 18 | `wiggle_shell/core/query/query.py` 54-69 | MAKE is committed before FIND can fail | C48: `C48_violated` |
| 19 | `clauses/find/short_circuits/find_short_circuits.py` 29-32 | the condition on relationship names is inverted | C50: `C50_violated_present`, `C50_violated_absent` |
| 20 | `clauses/find/transform/find_pre.py` 97-100 | the right node is taken when there is a *middle* node (two-node FINDs raise `ValidationError`), with the handle of the middle and the properties of the left node | C51: `C51_two_nodes_fail`, `C51_violated_right` |
| 21 | `clauses/find/transform/find_pre.py` 34, 102 | CRITERIA update `None` | C52: `C52_violated`, `C52_violated_three`; in every case: `C52_without_properties`, `C52_several_nodes` |
| 22 | `wiggle_shell/wiggleshell.py` 34 | any query containing `help` is not executed | C54: `C54_help_is_not_executed` |
| 23 | `wiggle_shell/core/select_gdbms/select_gdbms.py` 97-99 | creation is not atomic: a failure leaves files behind | C57: `C57_violated`; in every case: `C57_creation_outcome` |
| 24 | `select_gdbms.py` 175 | `glob` on the name: characters `*?[` delete files of other GDBMSs, hidden files prevent deletion | C58, C59: `C58_violated`, `C59_violated`, `C59_violated_hidden` |
| 25 | `select_gdbms.py` 56-60 | only 26 letters | C61: `C61_violated`; in every case: `C61_letter`, `C61_offered_iff` |
| 26 | `models/wql/data/wiggle_metadata.py` 9 | the default `datetime.now()` is evaluated once, at import | C64: `C64_violated`, `C64_violated_by_all` |
| 27 | `clauses/regexes/patterns/clause_helpers.py` 10, `extract_statements.py` 28-41 | `.+` does not cross a line feed: a MAKE on several lines is ignored if the query has another MAKE, or if two blanks follow its keyword | C68: `C68_split_make_is_ignored`, `C68_violated`, `C68_violated_only` |
| 28 | `make.py` 26-52, `node_relationships_index.py` 34-43 | one MAKE without a relationship (or with a value that is not JSON) makes the index (database) file unreadable, and from then on every query with a MAKE fails, in every session: C69 |
| 29 | `select_gdbms.py` 52, 61-65 | a GDBMS called `tests` or `__pycache__` can be created and used, but the menu hides it, so no later run reaches it: C71 |
| 30 | `parse_statement_checks.py` 58-70 | colons and commas are only counted: `{a: 1 b 2}` is accepted and `b 2` is dropped silently; `{t: 'a, b'}` is refused, `{t: 'a, b: c'}` is split into two properties: C72 |
| 31 | `example_queries/*.wql` | the example queries shipped with the repo are refused: `make.wql` has no FIND (AttributeError), `find.wql` and `all_clauses.wql` report `wn(p)`, `make_long.wql` uses the handle `r` twice | tests in `Conform/Examples` (finite, so no property) |
| 32 | `clauses/regexes/patterns/relationships.py` 9-12 | four `\s*` and a class with blanks in a row: on `-[`, n blanks, `](c:D)` the matcher tries more than n^5/120 ways before it gives up; 2000 blanks stall the shell for days | C73: `C73_violated`, `C73_violated_degree` |
| 33 | `models/wql/data/node.py` 47-54 | `Node.export_relationship_indexes` is not the entry of the relationship index: it lists the numbers of the nodes the relationships lead to, make.py 127-131 writes the numbers of the relationships (for every node with relationships the two sets are disjoint); no code calls it | C74: `C74_violated_index` |
| 34 | `wiggle_shell/core/query/query.py` 74-84 | `valid_query` splits the query at blanks only: `FIND(a:A);`, or a query whose keywords all follow line feeds, has no keyword for it; harmless only because of `and False` | C75: `C75_violated`, `C75_violated_by_all` |
| 35 | `wiggle_query_language/clauses/make/make.py` 154-192 | database, index and counter are written one after the other and nothing repairs them: stopping a MAKE after the database write leaves a GDBMS that refuses every later MAKE, for ever; so does one failing file call | C78: `C78_dies`, `C78_typed_dies`, `C78_dead_for_ever`; C99: `C99_violated_dies` |
| 36 | `wiggle_query_language/graph/database/database.py` 31-59, `wiggle_query_language/clauses/make/make.py` 154-192 | no locking: between reading and writing the database file another shell may store records; they are overwritten, or the file becomes unreadable when it had grown further | C80: `C80_lost`, `C80_typed_lost` |
| 37 | `wiggle_shell/core/select_gdbms/select_database_file.py` 7-30 | the check for an existing file and its opening with "w" are two calls: a second shell making the same name empties the database of the first | C80: `C80_creation_race` |
| 38 | `select_database_file.py` 15-18, `select_index_file.py` 17-20, `select_wiggle_number_file.py` 18-21 | the typed name is pasted into a path text: an empty name makes the text start with a slash, so the three files go to the root of the file system; `.` puts them into the DBMS folder, `..` beside it; the menu never offers them again | C81: `C81_where`, `C81_outside`, `C81_offered` |
| 39 | `select_gdbms.py` 69-83 | only ValueError is caught: a name with a slash ends the program with FileNotFoundError, leaving directories (which the menu then offers, though they have no files) | C81: `C81_slash` |
| 40 | `conftest.py` 80-85 | the teardown of `clear_dbms_test` confuses the counter file and the index file: TypeError for every numeric counter, else the index file becomes `0` | C83: `C83_violated`, `C83_violated_index` |
| 41 | `find.py` 11-23 | "No results" does not say that there are none: with relationships, FIND is silent although labels and names are unknown, and says "No results" although all are known | C87: `C87_violated_silent`, `C87_violated_made` |
| 42 | `select_gdbms.py` 81-82, 107-109 | a taken name is reported twice | C88: `C88_reported_twice`, `C88_violated` |
| 43 | `find.py` 11-25 | a FIND that has found something shows nothing: what is stored, apart from labels, cannot be seen in any session | C90: `C90_same_screen`, `C90_records_unseen`, `C90_violated` |
| 44 | `parse_statement_checks.py` 49-53, `extract_statements.py` 36-38 | `FIND (a:Man)` without its semicolon is answered "FIND was not recognised did you mean FIND?"; a misspelt REPORT is shown as a Python tuple | C91: `C91_right_word_make`, `C91_right_word_find`, `C91_violated` |
| 45 | `parse_statement_checks.py` 68, 84-103 | ParamSyntaxError shows the properties after `true`, `false`, `none` are replaced and lists removed, not as typed | C91: `C91_violated` |
| 46 | `parse_find_statement.py` 48, `parsed_query.py` 82 | "Only one Clause.FIND clause" shows the enumeration member; the same handle twice in a FIND is blamed on a "MAKE statement" | C91: constructors `twice`, `handles` of `Explains` |
| 47 | `parse_properties.py` 127-130, 148-159, `properties_pre.py` 39-42 | four refusals cannot happen: the regular expression gives `handle_float_property` a period and `handle_int_property` ASCII digits only (beyond CPython's unmodelled limit of 4300 digits its refusal would happen after all, and show the example `{foo: 3.14}`), and exactly one type matches | C92: `C92_explains` |
| 48 | `relationship.py` 40, `node.py` 67, `query.py` 69 and 85, `make_pre.py` 20, `find_pre.py` 53 | these six refusals can never be shown: `query` never fails with them on any disk | C93: `C93_explains` |
| 49 | `make.py` 26-52, `node_relationships_index.py` 34-43 | a MAKE without a relationship is stored if it stands in a query with another MAKE, but alone it breaks the GDBMS (row 28), so the way statements are grouped matters | C95: `C95_violated` |
| 50 | `transform_helpers/relationships.py` 4 | a space behind `->` turns the relationship round, so the way a pattern is spaced matters | C96: `C96_violated` |
| 51 | `index_helpers.py` 42-43, `node_relationships_index.py` 67-70 | "Successfully loaded … index" is logged before the entry is turned into a set, so it is also logged when that raises | C101: `C101_violated` |
| 52 | `database.py` 27, `index_helpers.py` 48, 74, `node_relationships_index.py` 74 | a file that is broken is called "Empty" in the log; not wiping the index of labels or of names is logged as not dropping "relationship indexes" | C101: `C101_violated` |
| 53 | `index_helpers.py` 41-49, `find.py` 19-23 | a broken index is answered as if nothing was stored: the user is told that the index is empty and that there are no results | C102: `C102_violated` |
| 54 | `make_pre.py` 77-128, `make.py` 60-120 | statements that describe different graphs leave the same files: nothing of a third node is kept, and an arrow to the right with a blank behind it is stored as one to the left | C104: `C104_violated`, `C104_violated_direction` (C14, C17) |

## 6. Mutation tests

`seeded/LOG.jsonl` has one line per deliberate edit of the model (wrong boundary, missed case, swapped
argument, dropped update), made in a copy outside `/verif`, with the theorems that stopped compiling and
the theorems that had to be tightened.
