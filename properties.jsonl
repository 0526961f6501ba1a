{"id": "C01", "title": "Wiggle numbers are unique", "statement": "In a stored graph no two entities (nodes or relationships) carry the same wiggle number, whatever sequence of MAKEs, failing MAKEs, wipes and crashes produced the files.", "quantifier": "every finite history of operations starting from a freshly created GDBMS, every MAKE input", "why_tests_cant": "needs an invariant over unbounded histories, including failed and interrupted operations", "anchors": ["wiggle_query_language/clauses/make/make.py:make", "wiggle_query_language/graph/state/wiggle_number.py:update_wiggle_number", "wiggle_query_language/graph/database/database.py:add_item_to_database"]}
{"id": "C02", "title": "The counter advances exactly and never goes back", "statement": "A successful MAKE advances the persisted wiggle number by exactly the number of nodes and relationships written in its patterns; no operation ever decreases it.", "quantifier": "every parsed MAKE list and every starting counter; every history", "why_tests_cant": "all pattern shapes and all histories", "anchors": ["wiggle_query_language/clauses/make/transform/make_pre.py:process_parsed_make_list", "wiggle_query_language/clauses/make/make.py:make", "wiggle_query_language/graph/state/wiggle_number.py"]}
{"id": "C03", "title": "Counter file round trip", "statement": "Reading the wiggle number after writing n returns n, and reading an empty counter file raises instead of restarting at 0.", "quantifier": "every integer n (within Python's 4300 digit int/str limit), every previous file content", "why_tests_cant": "infinitely many integers and previous contents", "anchors": ["wiggle_query_language/graph/state/wiggle_number.py:get_current_wiggle_number", "wiggle_query_language/graph/state/wiggle_number.py:update_wiggle_number"]}
{"id": "C04", "title": "Adding never overwrites a stored node", "statement": "Adding items of which any key already exists raises NodeExistsError and leaves the database file byte-identical.", "quantifier": "every database file and every batch of items, with the collision at any position of the batch", "why_tests_cant": "any batch, any position, any file", "anchors": ["wiggle_query_language/graph/database/database.py:add_item_to_database"]}
{"id": "C05", "title": "Adding keeps old nodes and stores new ones", "statement": "After a successful add on a database file written by this program, loading yields exactly the old records followed by the new ones.", "quantifier": "every database reachable by wipe/add, every JSON-representable batch with fresh keys", "why_tests_cant": "the write has no truncate, so correctness depends on the lengths of arbitrary serialised texts", "anchors": ["wiggle_query_language/graph/database/database.py:add_item_to_database", "wiggle_query_language/graph/database/database.py:load_database"]}
{"id": "C06", "title": "Adding to any valid database file keeps it valid", "statement": "After a successful add the database file is valid JSON holding old and new records, for any valid JSON database file (whatever its formatting).", "quantifier": "every valid JSON object text and every batch", "why_tests_cant": "depends on arbitrary whitespace/formatting of an existing file", "anchors": ["wiggle_query_language/graph/database/database.py:add_item_to_database"]}
{"id": "C07", "title": "Stored values survive the disk round trip", "statement": "Every property value the language can store (null, booleans, integers, floats, strings with any characters, nested lists) is read back unchanged from the JSON file.", "quantifier": "every JSON-representable value, nesting depth and character", "why_tests_cant": "infinite value space incl. escapes and surrogate pairs", "anchors": ["wiggle_query_language/graph/database/database.py:add_item_to_database", "wiggle_query_language/graph/database/database.py:load_database"]}
{"id": "C08", "title": "A MAKE that cannot be serialised leaves the database readable", "statement": "If a MAKE fails while writing, the previously stored graph can still be loaded.", "quantifier": "every property value accepted by the parser, every stored graph", "why_tests_cant": "values accepted by the parser but not by the serialiser (complex, bytes, Ellipsis in lists)", "anchors": ["wiggle_query_language/graph/database/database.py:add_item_to_database", "wiggle_query_language/clauses/parsing_helpers/parse_properties.py:handle_list_property"]}
{"id": "C09", "title": "An unreadable database is reported, not treated as empty", "statement": "Loading a database whose file is not valid JSON raises an error rather than returning an empty graph; adding to it raises and leaves it byte-identical.", "quantifier": "every file content that is not valid JSON", "why_tests_cant": "any corrupt text", "anchors": ["wiggle_query_language/graph/database/database.py:load_database", "wiggle_query_language/graph/database/database.py:add_item_to_database"]}
{"id": "C10", "title": "Wipes need confirmation and hit only their target", "statement": "Without im_sure no wipe changes anything; with it, only the named database/index becomes empty and the other indexes and files keep their content.", "quantifier": "every file content and index name", "why_tests_cant": "arbitrary contents", "anchors": ["wiggle_query_language/graph/database/database.py:wipe_database", "wiggle_query_language/graph/database/indexes/index_helpers.py:wipe_index_set_by_name", "wiggle_query_language/graph/database/indexes/node_relationships_index.py:wipe_node_relationships_index"]}
{"id": "C11", "title": "Label/relationship-name index add is set union", "statement": "Adding names to an index makes the loaded index the union of old and new names, without duplicates, keeps the other indexes, and is idempotent and order-independent; the file stays valid JSON of the same shape.", "quantifier": "every index file of the expected shape, every set of names, every set iteration order", "why_tests_cant": "all set iteration orders (hash randomisation) and all contents", "anchors": ["wiggle_query_language/graph/database/indexes/index_helpers.py:add_items_set_to_index_by_name", "wiggle_query_language/graph/database/indexes/index_helpers.py:load_index_set_by_name"]}
{"id": "C12", "title": "Relationship index add is a per-node union", "statement": "Adding a non-empty batch to the node-relationships index makes each listed node map to the union of its old and new relationship numbers and leaves all other nodes and indexes unchanged.", "quantifier": "every index file of the expected shape, every non-empty batch", "why_tests_cant": "arbitrary contents and batch orders", "anchors": ["wiggle_query_language/graph/database/indexes/node_relationships_index.py:add_items_to_node_relationships_index"]}
{"id": "C13", "title": "Adding nothing to the relationship index changes nothing", "statement": "Adding an empty batch to the node-relationships index leaves the index file loadable with the same content.", "quantifier": "every index file of the expected shape", "why_tests_cant": "must hold for every content of the file", "anchors": ["wiggle_query_language/graph/database/indexes/node_relationships_index.py:add_items_to_node_relationships_index"]}
{"id": "C14", "title": "MAKE stores every node of its patterns", "statement": "After a successful MAKE every node written in the patterns is in the database under its own wiggle number with its label and properties.", "quantifier": "every list of patterns with 1, 2 or 3 nodes, every starting graph", "why_tests_cant": "all patterns and graphs", "anchors": ["wiggle_query_language/clauses/make/make.py:make_nodes", "wiggle_query_language/clauses/make/make.py:add_nodes_to_graph"]}
{"id": "C15", "title": "MAKE stores every relationship with existing end points", "statement": "After a successful MAKE every relationship written in the patterns is stored, and its from/to numbers are keys of stored nodes.", "quantifier": "every list of patterns, every starting graph", "why_tests_cant": "all patterns and graphs", "anchors": ["wiggle_query_language/clauses/make/make.py:make_nodes", "wiggle_query_language/clauses/make/transform/make_pre.py:process_parsed_make_list"]}
{"id": "C16", "title": "Stored relationships belong to their source node and are never self-loops", "statement": "Every relationship stored under a node has that node as its source and a different node as its target.", "quantifier": "every successful MAKE, every history", "why_tests_cant": "all patterns, all histories", "anchors": ["wiggle_query_language/clauses/make/make.py:make_relationship", "models/wql/data/relationship.py:Relationship.validate_from_to_wn", "models/wql/data/node.py:Node.validate_relationships"]}
{"id": "C17", "title": "The arrow decides the direction", "statement": "A relationship written -[..]-> is stored from the node on its left to the node on its right, <-[..]- the other way, independent of spacing around it.", "quantifier": "every relationship text produced by the pattern grammar, with any surrounding white space", "why_tests_cant": "all handles, names, properties, dash counts and white space", "anchors": ["wiggle_query_language/clauses/transform_helpers/relationships.py:relationship_is_left_to_right", "wiggle_query_language/clauses/regexes/patterns/patterns_helpers.py:get_rel_pattern_regex"]}
{"id": "C18", "title": "Label index covers the stored graph", "statement": "After any history of successful MAKEs the label of every stored node is in the node-labels index, so FIND never short-circuits on a label that exists.", "quantifier": "every history of MAKEs from a fresh GDBMS", "why_tests_cant": "invariant over unbounded histories", "anchors": ["wiggle_query_language/clauses/make/make.py:add_indexes", "wiggle_query_language/graph/database/indexes/index_helpers.py"]}
{"id": "C19", "title": "Relationship-name index covers the stored graph", "statement": "After any history of successful MAKEs the name of every stored named relationship is in the relationship-names index.", "quantifier": "every history of MAKEs from a fresh GDBMS", "why_tests_cant": "invariant over unbounded histories", "anchors": ["wiggle_query_language/clauses/make/make.py:add_indexes", "wiggle_query_language/graph/database/indexes/index_helpers.py"]}
{"id": "C20", "title": "Relationship index equals the stored graph", "statement": "After any history of successful MAKEs the node-relationships index maps exactly the nodes that own relationships to exactly the numbers of those relationships.", "quantifier": "every history of MAKEs from a fresh GDBMS", "why_tests_cant": "invariant over unbounded histories", "anchors": ["wiggle_query_language/clauses/make/make.py:add_indexes", "wiggle_query_language/graph/database/indexes/node_relationships_index.py"]}
{"id": "C21", "title": "Index entries are not phantom", "statement": "Every label in the node-labels index belongs to some stored node (when nothing was wiped).", "quantifier": "every history of MAKEs", "why_tests_cant": "invariant over unbounded histories", "anchors": ["wiggle_query_language/clauses/make/make.py:add_indexes", "wiggle_query_language/clauses/make/make.py:make_nodes"]}
{"id": "C22", "title": "A MAKE rejected before commit changes nothing", "statement": "If MAKE raises before the commit phase (bad counter, unlabeled node, dangling relationship, bad property, self relationship) no file changes.", "quantifier": "every parsed MAKE list and every file state", "why_tests_cant": "every failing input and every failure position in a batch", "anchors": ["wiggle_query_language/clauses/make/make.py:make", "wiggle_query_language/clauses/make/transform/make_pre.py:process_parsed_make_list", "wiggle_query_language/clauses/parsing_helpers/parse_properties.py"]}
{"id": "C23", "title": "Valid MAKEs succeed", "statement": "On a healthy GDBMS a MAKE whose patterns and properties are valid returns True and advances the counter.", "quantifier": "every healthy file state and every valid MAKE", "why_tests_cant": "every valid input incl. relationship-less patterns", "anchors": ["wiggle_query_language/clauses/make/make.py:make", "wiggle_query_language/clauses/make/make.py:add_indexes", "wiggle_query_language/graph/database/indexes/node_relationships_index.py"]}
{"id": "C24", "title": "Wiggle numbers are laid out in documented order", "statement": "Within a MAKE the numbers are consecutive from the counter, pattern by pattern: left, middle, right node, then left-middle and middle-right relationship.", "quantifier": "every parsed MAKE list, every starting number", "why_tests_cant": "arbitrarily long lists of patterns", "anchors": ["wiggle_query_language/clauses/make/transform/make_pre.py:process_parsed_make_list"]}
{"id": "C25", "title": "Counter is written last", "statement": "At every crash point inside MAKE either the counter file is still the old one, or database and indexes are completely written.", "quantifier": "every crash point (including torn writes) of every MAKE", "why_tests_cant": "all crash points", "anchors": ["wiggle_query_language/clauses/make/make.py:make", "wiggle_query_language/graph/state/wiggle_number.py:update_wiggle_number"]}
{"id": "C26", "title": "After an interrupted MAKE no stored node is overwritten", "statement": "If a MAKE stops after the database write and before the counter write, every later MAKE raises NodeExistsError and changes no file (no data loss, but the GDBMS is stuck).", "quantifier": "every such state, every later non-empty MAKE", "why_tests_cant": "all crash points and all later inputs", "anchors": ["wiggle_query_language/clauses/make/make.py:make", "wiggle_query_language/graph/database/database.py:add_item_to_database"]}
{"id": "C27", "title": "A crash never loses the stored graph", "statement": "At every crash point inside MAKE the database file still loads and contains all previously stored nodes.", "quantifier": "every crash point of every MAKE", "why_tests_cant": "all crash points incl. torn in-place overwrites", "anchors": ["wiggle_query_language/graph/database/database.py:add_item_to_database", "wiggle_query_language/clauses/make/make.py:make"]}
{"id": "C28", "title": "Concurrent MAKEs do not lose nodes", "statement": "Two shells running MAKE on the same GDBMS in any interleaving either store all nodes or one of them fails without damaging the other's nodes.", "quantifier": "every interleaving of the file steps of two MAKEs", "why_tests_cant": "all schedules", "anchors": ["wiggle_query_language/clauses/make/make.py:make", "wiggle_query_language/graph/database/database.py:add_item_to_database"]}
{"id": "C29", "title": "Statements on separate lines are extracted exactly", "statement": "A query in which every MAKE statement stands on its own line yields exactly these statements in order.", "quantifier": "every number of lines and every statement body without line breaks", "why_tests_cant": "all bodies, any number of lines", "anchors": ["wiggle_query_language/clauses/parsing_helpers/extract_statements.py:extract_all_statements", "wiggle_query_language/clauses/regexes/patterns/clause_helpers.py:get_clause_all_regex"]}
{"id": "C30", "title": "The semicolon ends a statement", "statement": "Two statements separated by a semicolon are treated as two statements even on one line.", "quantifier": "every pair of statement bodies", "why_tests_cant": "all bodies", "anchors": ["wiggle_query_language/clauses/parsing_helpers/extract_statements.py:extract_all_statements", "wiggle_query_language/clauses/regexes/patterns/clause_helpers.py:get_clause_all_regex"]}
{"id": "C31", "title": "Clause keywords are case-insensitive", "statement": "A statement is accepted and means the same for any upper/lower-case spelling of its clause keyword.", "quantifier": "every spelling of every clause, every body", "why_tests_cant": "all spellings and bodies", "anchors": ["wiggle_query_language/clauses/regexes/patterns/clause_helpers.py:get_clause_all_regex", "models/wql/parsing/parsed_query.py:ParsedMake"]}
{"id": "C32", "title": "Illegal characters never reach the store", "statement": "A MAKE/FIND statement containing any of # % & * $ is rejected; hence no stored label, name or property string from a statement contains one.", "quantifier": "every query string", "why_tests_cant": "all query strings, all positions", "anchors": ["wiggle_query_language/clauses/parsing_helpers/parse_statement_checks.py:check_illegal_characters", "wiggle_query_language/clauses/regexes/patterns/utilities.py"]}
{"id": "C33", "title": "Accepted statements have paired brackets", "statement": "In an accepted statement every piece between arrows has an even number of parentheses, curly braces and square brackets.", "quantifier": "every list of statements", "why_tests_cant": "all strings", "anchors": ["wiggle_query_language/clauses/parsing_helpers/parse_statement_checks.py:check_statement_syntax"]}
{"id": "C34", "title": "Property literals mean what they say", "statement": "Properties written as name: literal (null, true/false, decimal integers, floats, quoted words) parse to exactly these names and values in order.", "quantifier": "every list of names and literals", "why_tests_cant": "all names, values and list lengths; greedy regex matching must not swallow neighbours", "anchors": ["wiggle_query_language/clauses/parsing_helpers/parse_properties.py:parse_properties", "wiggle_query_language/clauses/regexes/patterns/properties.py"]}
{"id": "C35", "title": "Handles are unique within a pattern", "statement": "A pattern that uses one non-empty handle twice is rejected, one without repetition is not rejected for that reason.", "quantifier": "every pattern", "why_tests_cant": "all strings in all six handle positions", "anchors": ["models/wql/parsing/parsed_query.py:ParsedPattern.validate_handles"]}
{"id": "C36", "title": "Chains longer than three nodes are rejected", "statement": "A MAKE or FIND with a pattern of more than three chained nodes raises and writes nothing.", "quantifier": "every chain length > 3 and every label", "why_tests_cant": "all chain lengths", "anchors": ["wiggle_query_language/clauses/regexes/patterns/patterns_helpers.py:get_nodes_rels_pattern_regex", "wiggle_query_language/clauses/make/transform/make_pre.py"]}
{"id": "C37", "title": "Stored relationship names are upper case", "statement": "Every non-empty relationship name that MAKE accepts is upper case.", "quantifier": "every query string", "why_tests_cant": "all query strings with any number of statements", "anchors": ["wiggle_query_language/clauses/parsing_helpers/parse_statement_checks.py:check_relationships"]}
{"id": "C38", "title": "Undirected and bidirectional relationships are rejected", "statement": "A MAKE containing -[..]- or <-[..]-> raises and writes nothing.", "quantifier": "every query string with any number of statements", "why_tests_cant": "all query strings, all positions of the offending statement", "anchors": ["wiggle_query_language/clauses/parsing_helpers/parse_statement_checks.py:check_relationships"]}
{"id": "C39", "title": "At most one FIND and one REPORT", "statement": "A query with more than one FIND (REPORT) statement raises MultipleClauseStatementsError and changes nothing.", "quantifier": "every query", "why_tests_cant": "all queries", "anchors": ["wiggle_query_language/clauses/find/parse_find/parse_find_statement.py", "wiggle_query_language/clauses/report/parse_report/parse_report_statement.py"]}
{"id": "C40", "title": "REPORT names every FIND handle", "statement": "A query is accepted only if every handle of its FIND is named in its REPORT.", "quantifier": "every FIND pattern and REPORT text", "why_tests_cant": "all handles/texts", "anchors": ["wiggle_query_language/clauses/report/parse_report/parse_report_statement.py:check_find_report_handles"]}
{"id": "C41", "title": "Misspelt clauses are reported", "statement": "If the letters of a clause keyword are permuted before a parenthesis and no correct statement exists, ClauseSyntaxError is raised.", "quantifier": "every query string and permutation", "why_tests_cant": "all contexts", "anchors": ["wiggle_query_language/clauses/parsing_helpers/parse_statement_checks.py:check_clause_spelling", "wiggle_query_language/clauses/regexes/patterns/clause_helpers.py:get_clause_permutations_regex"]}
{"id": "C42", "title": "Patterns parse to what was written", "statement": "A pattern text built from handles, labels, property texts and arrows parses to one pattern with exactly these parts.", "quantifier": "every handle, label, relationship name, property text, arrow and spacing", "why_tests_cant": "backtracking regex over all strings", "anchors": ["wiggle_query_language/clauses/regexes/patterns/patterns_helpers.py:get_nodes_rels_pattern_regex", "wiggle_query_language/clauses/make/parse_make/parse_make_statement.py:build_parsed_make"]}
{"id": "C43", "title": "Quoted strings are stored verbatim", "statement": "A quoted string property is stored with exactly the characters between its quotes.", "quantifier": "every string content", "why_tests_cant": "all contents incl. inner quotes, spaces, digits", "anchors": ["wiggle_query_language/clauses/parsing_helpers/parse_properties.py:handle_extracted_property", "wiggle_query_language/clauses/parsing_helpers/parse_properties.py:handle_string_property"]}
{"id": "C44", "title": "List literals are stored verbatim", "statement": "A list property is stored with exactly the listed elements.", "quantifier": "every list of literals", "why_tests_cant": "all element strings incl. those containing true/false/null", "anchors": ["wiggle_query_language/clauses/parsing_helpers/parse_properties.py:handle_list_property"]}
{"id": "C45", "title": "Repeated property names: last one wins", "statement": "If a property name is repeated, the value of the last occurrence is stored, once.", "quantifier": "every list of properties", "why_tests_cant": "all lists", "anchors": ["wiggle_query_language/clauses/parsing_helpers/parse_properties.py:parse_properties"]}
{"id": "C46", "title": "A query that fails to parse changes nothing", "statement": "If parsing raises, no file is touched.", "quantifier": "every query string, every file state", "why_tests_cant": "all query strings", "anchors": ["wiggle_shell/core/query/query.py:query", "wiggle_shell/core/query/query.py:parse_query_string"]}
{"id": "C47", "title": "A MAKE-only query is executed", "statement": "A query consisting of valid MAKE statements stores its nodes.", "quantifier": "every valid MAKE-only query", "why_tests_cant": "all queries", "anchors": ["wiggle_shell/core/query/query.py:parse_query_string", "wiggle_shell/core/query/query.py:execute_query"]}
{"id": "C48", "title": "A query is all-or-nothing", "statement": "If a query raises, the files are as before.", "quantifier": "every query and file state", "why_tests_cant": "all failure points across clauses", "anchors": ["wiggle_shell/core/query/query.py:execute_query"]}
{"id": "C49", "title": "FIND and REPORT are read-only", "statement": "FIND and REPORT never change a file, whether they succeed or raise.", "quantifier": "every pattern, every file state", "why_tests_cant": "all states and inputs", "anchors": ["wiggle_query_language/clauses/find/find.py:find", "wiggle_query_language/clauses/report/report.py:report"]}
{"id": "C50", "title": "FIND says No results only when nothing can match", "statement": "FIND returns nothing iff some label or relationship name of its pattern is absent from the indexes.", "quantifier": "every pattern, every index file", "why_tests_cant": "all index contents", "anchors": ["wiggle_query_language/clauses/find/short_circuits/find_short_circuits.py:find_short_circuit", "wiggle_query_language/clauses/find/find.py"]}
{"id": "C51", "title": "FIND works for patterns of one, two or three nodes", "statement": "A well-formed FIND pattern with one, two or three nodes is processed without an exception, each node with its own handle, label and properties.", "quantifier": "every well-formed pattern", "why_tests_cant": "all patterns", "anchors": ["wiggle_query_language/clauses/find/transform/find_pre.py:process_parsed_find"]}
{"id": "C52", "title": "CRITERIA refine the FIND properties", "statement": "Processing a FIND with CRITERIA adds to each node/relationship exactly the yes/no properties given for its handle, and never fails because a node has no properties of its own.", "quantifier": "every FIND pattern and criteria table", "why_tests_cant": "all combinations of handles and properties", "anchors": ["wiggle_query_language/clauses/find/transform/find_pre.py:add_criteria_yes_no_props", "wiggle_query_language/clauses/find/transform/find_pre.py:process_parsed_find"]}
{"id": "C53", "title": "The shell survives every query", "statement": "The shell ends only on q; any exception of a query is reported and the next input is processed on the files the failing query left.", "quantifier": "every sequence of inputs", "why_tests_cant": "all input sequences", "anchors": ["wiggle_shell/wiggleshell.py:start_wiggle_shell"]}
{"id": "C54", "title": "The shell executes every query", "statement": "Every input other than q and help is executed.", "quantifier": "every input", "why_tests_cant": "all strings", "anchors": ["wiggle_shell/wiggleshell.py:start_wiggle_shell"]}
{"id": "C55", "title": "A new GDBMS is empty and usable", "statement": "Creating a GDBMS under a new name yields three files that load as an empty graph, empty indexes and counter 0.", "quantifier": "every name and existing folder", "why_tests_cant": "all names and folder contents", "anchors": ["wiggle_shell/core/select_gdbms/select_gdbms.py:get_new_gdbms_file_paths", "wiggle_shell/core/select_gdbms/select_index_file.py", "wiggle_shell/core/select_gdbms/select_database_file.py"]}
{"id": "C56", "title": "Creating a GDBMS never overwrites one", "statement": "Creating a GDBMS changes no existing file; if one of its files exists it raises ValueError.", "quantifier": "every folder content and name", "why_tests_cant": "all folder contents", "anchors": ["wiggle_shell/core/select_gdbms/select_gdbms.py:get_new_gdbms_file_paths"]}
{"id": "C57", "title": "A failed creation leaves nothing behind", "statement": "If creating a GDBMS raises, the folder is as before.", "quantifier": "every folder content and name", "why_tests_cant": "all partially existing GDBMS folders", "anchors": ["wiggle_shell/core/select_gdbms/select_gdbms.py:get_new_gdbms_file_paths"]}
{"id": "C58", "title": "GDBMSs are isolated", "statement": "Operations on one GDBMS never change files of another.", "quantifier": "every operation, every pair of different GDBMSs", "why_tests_cant": "all operations and states", "anchors": ["wiggle_query_language/clauses/make/make.py:make", "wiggle_shell/core/select_gdbms/select_gdbms.py"]}
{"id": "C59", "title": "Deleting removes exactly one GDBMS", "statement": "Deleting a GDBMS removes its folder and files and touches no other GDBMS.", "quantifier": "every name and folder content", "why_tests_cant": "all names, incl. glob metacharacters", "anchors": ["wiggle_shell/core/select_gdbms/select_gdbms.py:delete_gdbms"]}
{"id": "C60", "title": "The list of GDBMSs is sorted and complete", "statement": "Listing returns exactly the sub-folders minus the skipped names, in ascending order.", "quantifier": "every folder content and skip set", "why_tests_cant": "all folder contents and directory orders", "anchors": ["wiggle_shell/core/select_gdbms/select_gdbms.py:list_existing_dbms"]}
{"id": "C61", "title": "Every GDBMS can be selected by a letter", "statement": "The selection menu offers every existing GDBMS under its own letter.", "quantifier": "every folder content", "why_tests_cant": "any number of GDBMSs", "anchors": ["wiggle_shell/core/select_gdbms/select_gdbms.py:get_and_display_available_dbms"]}
{"id": "C62", "title": "Selecting returns an existing GDBMS", "statement": "Selecting an existing GDBMS returns paths of three existing files of the chosen name, or keeps asking.", "quantifier": "every sequence of inputs and folder content", "why_tests_cant": "all input sequences", "anchors": ["wiggle_shell/core/select_gdbms/select_gdbms.py:get_existing_gdbms", "wiggle_shell/core/select_gdbms/select_gdbms.py:select_gdbms"]}
{"id": "C63", "title": "Created GDBMSs can be selected again", "statement": "A GDBMS created in the default folder can afterwards be selected and yields the same file paths.", "quantifier": "every name (not skipped), every folder with at most 25 others", "why_tests_cant": "all names and folders", "anchors": ["wiggle_shell/core/select_gdbms/select_gdbms.py:get_new_gdbms_file_paths", "wiggle_shell/core/select_gdbms/select_gdbms.py:get_existing_gdbms"]}
{"id": "C64", "title": "created_at is the creation time", "statement": "The created_at of a stored node is the time of the MAKE that created it.", "quantifier": "every process run and every MAKE time", "why_tests_cant": "needs all clock values", "anchors": ["models/wql/data/wiggle_metadata.py:WiggleGraphMetalData"]}
{"id": "C65", "title": "A well-formed two-line query is executed end to end", "statement": "A query with one canonical two-node MAKE line and one single-node FIND line, run on a healthy GDBMS, stores exactly the two nodes and the relationship written and returns True.", "quantifier": "every handle, label, relationship name, property list and every healthy GDBMS", "why_tests_cant": "composition of regex parsing, transformation, JSON text and files over all inputs", "anchors": ["wiggle_shell/core/query/query.py:query", "wiggle_query_language/clauses/make/make.py:make"]}
{"id": "C66", "title": "Well-formed queries are accepted and parsed as written", "statement": "A query of well-formed MAKE, FIND and REPORT lines is accepted, and each statement is parsed to exactly the patterns written in it.", "quantifier": "every number of lines, every handle, label, relationship name, property list and white space", "why_tests_cant": "all texts; needs the regexes, the syntax checks and the validators together", "anchors": ["wiggle_shell/core/query/query.py:parse_query_string", "wiggle_query_language/clauses/parsing_helpers/parse_statement_checks.py", "wiggle_query_language/clauses/parsing_helpers/extract_statements.py"]}
{"id": "C67", "title": "Queries typed in the shell do what they say", "statement": "A MAKE and a FIND typed on one line in the shell store exactly the patterns of the MAKE; in a session of such queries the database finally holds the patterns of all of them, in order.", "quantifier": "every session, every pair of well-formed statements in either order, every healthy GDBMS", "why_tests_cant": "sessions of any length over all texts", "anchors": ["wiggle_shell/wiggleshell.py:start_wiggle_shell", "wiggle_shell/core/query/query.py:query"]}
{"id": "C68", "title": "No written MAKE is silently ignored", "statement": "If a query returns true, every MAKE statement written in it has been executed; otherwise the query raises.", "quantifier": "every query, every MAKE at every place in it, on one or several lines", "why_tests_cant": "all texts and positions; the regex decides silently which text is a statement", "anchors": ["wiggle_query_language/clauses/parsing_helpers/extract_statements.py:extract_all_statements", "wiggle_query_language/clauses/regexes/patterns/clause_helpers.py"]}
{"id": "C69", "title": "A failing query does not disable the GDBMS", "statement": "After any query, successful or not, on a usable GDBMS (readable files, counter above all numbers in use) the GDBMS is usable again, so later well-formed MAKEs still succeed.", "quantifier": "every query text, every session, every usable GDBMS", "why_tests_cant": "all query texts, and consequences over sessions of any length: permanence of damage cannot be tested", "anchors": ["wiggle_shell/wiggleshell.py:start_wiggle_shell", "wiggle_query_language/clauses/make/make.py:make", "wiggle_query_language/graph/database/indexes/node_relationships_index.py:add_items_to_node_relationships_index"]}
{"id": "C70", "title": "Set iteration order decides nothing", "statement": "Two processes that iterate over sets in different orders (Python's string hashes change with every process), given the same inputs on the same disk, report the same results and leave the same files, except for the order of the lists inside the index file; later processes answer alike on either disk.", "quantifier": "every query, every session, every disk, every pair of iteration orders", "why_tests_cant": "all pairs of hash seeds and all sessions: a test sees the order of one process", "anchors": ["wiggle_query_language/graph/database/indexes/index_helpers.py:add_items_set_to_index_by_name", "wiggle_query_language/graph/database/indexes/node_relationships_index.py:add_items_to_node_relationships_index", "wiggle_query_language/clauses/make/make.py:add_indexes", "wiggle_query_language/clauses/find/short_circuits/find_short_circuits.py:find_short_circuit"]}
{"id": "C71", "title": "What one run stores the next run has", "statement": "Over any number of runs of the program (each selecting or creating a GDBMS and typing queries), every GDBMS holds exactly what was typed while it was in use, in that order, and every GDBMS can be chosen again in a later run.", "quantifier": "every sequence of runs, any number of GDBMSs, any texts among the queries", "why_tests_cant": "sequences of runs of any length, all names, all texts, all interleavings of GDBMSs", "anchors": ["wiggle_shell/wiggleshell.py:start_wiggle_shell", "wiggle_shell/core/select_gdbms/select_gdbms.py:select_gdbms", "wiggle_shell/core/select_gdbms/select_gdbms.py:get_existing_gdbms", "wiggle_shell/core/query/query.py:query"]}
{"id": "C72", "title": "One colon per property, one comma between two", "statement": "A MAKE or FIND with a property block in which a colon or a comma is missing (or one too many is written) is refused and changes nothing; in every accepted block each property has its colon and two properties are separated by a comma.", "quantifier": "every query string, every block, any number of lists in it", "why_tests_cant": "all texts of a block, any number of properties and lists, at any place of any query", "anchors": ["wiggle_query_language/clauses/parsing_helpers/parse_statement_checks.py:check_property_syntax", "wiggle_query_language/clauses/parsing_helpers/parse_statement_checks.py:check_node_rel_properties", "wiggle_query_language/clauses/regexes/patterns/properties.py:CHECK_PROPERTIES_SYNTAX_REGEX"]}
{"id": "C73", "title": "Matching takes at most quadratically many steps", "statement": "For every regular expression of the project and every text, the backtracking matcher finds its matches in at most c\u00b7n\u00b2 steps, n being the length of the text: no query can stall the shell.", "quantifier": "all patterns of regexes/, all texts", "why_tests_cant": "Tests use short texts; the cost only shows on long runs of blanks, and no finite set of timings excludes a worse text.", "anchors": ["wiggle_query_language/clauses/regexes/patterns/patterns_helpers.py:4-64", "wiggle_query_language/clauses/parsing_helpers/parse_statement_checks.py:108-138"]}
{"id": "C74", "title": "What a node exports is what MAKE stores for it", "statement": "After a successful MAKE, for every node it built: export_node() is the entry the database file holds for the node, export_node with exclude_none and/or exclude_unset is that entry without its null members and/or with only the number in the metadata, export_relationship_indexes() is the entry the relationship index holds for the node, every non-empty name in node_relationship_names() is in the names index; and json_to_dict undoes dict_to_json.", "quantifier": "for all GDBMSs reached by MAKEs, all MAKE statements that succeed, all nodes built, all flags and all set iteration orders", "why_tests_cant": "No test calls the export methods; an agreement between two ways of serialising every possible node, and with files on disk, cannot be enumerated.", "anchors": ["models/wql/data/node.py:33-54", "wiggle_query_language/clauses/make/make.py:95-151", "wiggle_query_language/graph/database/indexes/node_relationships_index.py:10-17"]}
{"id": "C75", "title": "The switched-off keyword check would refuse no working query", "statement": "valid_query answers yes exactly for queries with a keyword standing alone; every query the program executes passes it, so that switching it on (query.py 84 ends in `and False`) refuses nothing that works.", "quantifier": "for all query texts, disks and outcomes", "why_tests_cant": "The check is dead code today, no test reaches it; whether it agrees with the parser on every text cannot be enumerated.", "anchors": ["wiggle_shell/core/query/query.py:74-93"]}
{"id": "C76", "title": "The outcome of every well-formed query is known exactly", "statement": "A well-formed query on a healthy GDBMS has one of two outcomes, decided by its text: if it has a MAKE but no relationship, it raises a JSONDecodeError, the nodes are in the database, the index file is ruined and the counter unchanged; otherwise the patterns are stored with consecutive numbers (of three nodes the last one is dropped but its number, label and relationship name are used up; a relationship is kept under the node it leaves, read as leaving the right node when white space follows its arrow, and lost when it leaves the dropped node), database, index and counter stay consistent with that, and the result is true, or a ValidationError if the FIND has two nodes. The same holds for sessions and for sequences of runs of the program.", "quantifier": "for all well-formed queries (any lines, names, literals, white space, numbers of MAKEs, patterns of one to three nodes), all healthy GDBMSs, all sessions and runs", "why_tests_cant": "The outcome depends on the whole text and on the state of three files; tests fix a handful of queries on an empty database and look at one file at a time.", "anchors": ["wiggle_query_language/clauses/make/make.py:25-151", "wiggle_query_language/clauses/make/transform/make_pre.py:process_parsed_make_list", "wiggle_query_language/clauses/find/transform/find_pre.py:process_parsed_find", "wiggle_shell/core/query/query.py:20-93", "wiggle_shell/wiggleshell.py:7-44"]}
{"id": "C77", "title": "What is stored stays stored, whenever the program is stopped", "statement": "After any number of processes on the same disk, one after the other, each selecting any GDBMS and typing any texts whose values JSON can represent, each ended or stopped between two file-system calls or in the middle of a write to an index or counter file, every GDBMS still holds all records it held before, unchanged and in front of what was added; a query that is stopped leaves the database as before it or as after it, and a session that is stopped leaves exactly the patterns of some number of its first queries.", "quantifier": "for all disks, GDBMSs, sequences of processes, typed texts, stopping points and lengths of cut-off writes", "why_tests_cant": "A test would have to stop the program at every file-system call of every session; the suite never interrupts anything.", "anchors": ["wiggle_query_language/graph/database/database.py", "wiggle_query_language/clauses/make/make.py:95-192", "wiggle_shell/core/query/query.py:81-93", "wiggle_shell/wiggleshell.py:7-44", "wiggle_shell/core/select_gdbms/select_gdbms.py:69-199"]}
{"id": "C78", "title": "A GDBMS can be used after the program was stopped", "statement": "If a session on a usable GDBMS is stopped between two file-system calls, the GDBMS is usable afterwards: a later MAKE can store its patterns.", "quantifier": "for all usable GDBMSs, sessions without unstorable MAKEs, stopping points and later texts", "why_tests_cant": "The outcome depends on the exact call at which the process stops and shows only in later processes.", "anchors": ["wiggle_query_language/clauses/make/make.py:95-192", "wiggle_query_language/graph/database/database.py", "wiggle_query_language/graph/state/wiggle_number.py"]}
{"id": "C79", "title": "Shells at work at the same time on different GDBMSs do not disturb each other", "statement": "Any number of shells, deletions and creations run at the same time, their file-system calls interleaved in any order. If all the others work on other GDBMSs, make other GDBMSs, delete other GDBMSs or only look, then a shell session shows exactly what it shows alone, leaves in its directory exactly what it leaves alone, is never kept from reaching its end, and at every moment its directory is as at some moment of the session alone.", "quantifier": "for all numbers and kinds of jobs, all typed texts, all disks, all schedules", "why_tests_cant": "Tests run one shell at a time; the schedules of several shells are unboundedly many.", "anchors": ["wiggle_shell/wiggleshell.py:7-44", "wiggle_shell/core/select_gdbms/select_gdbms.py:69-109", "wiggle_shell/core/select_gdbms/select_gdbms.py:162-182", "wiggle_query_language/clauses/make/make.py:154-192", "wiggle_query_language/graph/database/database.py:31-59"]}
{"id": "C80", "title": "Nothing is lost when several shells use the same GDBMS", "statement": "If two shells store patterns in the same GDBMS at the same time, then afterwards the database holds the records of both; if two shells make a GDBMS of the same name, one of them is refused and the other one's work is unaffected.", "quantifier": "for all usable GDBMSs, all texts typed in the shells, all schedules", "why_tests_cant": "The loss needs a particular interleaving of the calls of two processes; single-process tests never meet it.", "anchors": ["wiggle_query_language/graph/database/database.py:31-59", "wiggle_query_language/clauses/make/make.py:154-192", "wiggle_shell/core/select_gdbms/select_database_file.py:7-30"]}
{"id": "C81", "title": "A GDBMS lives in a directory of its own in the DBMS folder, whatever name is typed", "statement": "Whatever text the user types as the name of a new GDBMS, its three files are made in the directory of that name inside the DBMS folder, nothing outside this directory changes, later runs offer the name in the menu, and a text that cannot be a name is refused with a new prompt.", "quantifier": "for all directory trees, all DBMS folders, all typed texts", "why_tests_cant": "Tests use a handful of harmless names; the name is pasted into paths, so the empty text, dots, slashes and NULs take other ways.", "anchors": ["wiggle_shell/core/select_gdbms/select_database_file.py:15-30", "wiggle_shell/core/select_gdbms/select_index_file.py:17-36", "wiggle_shell/core/select_gdbms/select_wiggle_number_file.py:18-30", "wiggle_shell/core/select_gdbms/select_gdbms.py:69-109"]}
{"id": "C82", "title": "For proper names, paths mean what the flat picture of folder, GDBMS and file says", "statement": "For names that are one path component, making GDBMSs in a real directory tree (path texts joined and split, `..` followed, parents made) gives the same answers and exceptions as in the flat picture of the DBMS folder used elsewhere, and leaves the same content in the DBMS folder, for any number of names typed one after the other.", "quantifier": "for all directory trees, all DBMS folders (existing or not), all lists of typed proper names", "why_tests_cant": "It relates all runs of two descriptions of the same code, on infinitely many disks.", "anchors": ["wiggle_shell/core/select_gdbms/select_gdbms.py:69-109", "wiggle_shell/core/select_gdbms/select_database_file.py:7-30"]}
{"id": "C83", "title": "The fixtures of the project's tests leave clean GDBMSs", "statement": "Before a test, `clear_dbms_test` empties the test GDBMS (no records, empty indexes, counter 0) whatever it held, and after the test it does so again; `wigsh_setup_databases` leaves exactly the sample GDBMS and an empty `test` database, and removes what the test made.", "quantifier": "for all disks and all contents the test left in the three files", "why_tests_cant": "The tests cannot check the code that prepares and cleans up after them: a teardown that fails reports an error against the test, or goes unnoticed if no test requests the fixture.", "anchors": ["conftest.py:22-85", "wiggle_shell/core/select_gdbms/tests/conftest.py:13-30"]}
{"id": "C84", "title": "Every indexed relationship name belongs to a stored relationship", "statement": "After any history of successful MAKEs, every name in the relationship-names index is the name of some relationship stored in the database.", "quantifier": "for all histories of parsed MAKE statements on a new GDBMS, and for every single MAKE on every healthy GDBMS", "why_tests_cant": "The index and the database are two files written from two different data structures; a phantom name shows only for one shape of pattern, and no test compares the two files.", "anchors": ["wiggle_query_language/clauses/make/transform/make_pre.py:75-130", "wiggle_query_language/clauses/make/make.py:31-60", "wiggle_query_language/clauses/make/make.py:125-150", "wiggle_query_language/graph/database/indexes/relationship_names_index.py:11-36"]}
{"id": "C85", "title": "The outcome of every row of statements typed on one line is known exactly", "statement": "Any number of MAKE and FIND statements, in any order, typed on one line: the row is refused without effect if it has no FIND, if any relationship in it is wrong, or if there is white space between two statements behind its first MAKE; otherwise the patterns of all the statements from the first MAKE on are stored, those of the FIND statements included, and the result is that of the first FIND. In a session of such rows the database holds exactly the patterns of the rows that were executed, in order.", "quantifier": "every number of statements in a row, every number of rows, all well-formed patterns, every healthy GDBMS", "why_tests_cant": "rows and sessions of any length over all texts", "anchors": ["wiggle_query_language/clauses/regexes/patterns/clause_helpers.py:get_clause_all_regex", "wiggle_query_language/clauses/parsing_helpers/extract_statements.py:extract_all_statements", "wiggle_shell/core/query/query.py:query", "wiggle_shell/wiggleshell.py:start_wiggle_shell"]}
{"id": "C86", "title": "What a query does depends on its statements, not on its line breaks", "statement": "Two queries with the same MAKE and FIND statements in the same order store the same and give the same result, however the statements are spread over lines.", "quantifier": "every number of lines, every number of statements on each line, all well-formed patterns, every healthy GDBMS", "why_tests_cant": "all layouts of all sequences of statements", "anchors": ["wiggle_query_language/clauses/regexes/patterns/clause_helpers.py:get_clause_all_regex", "wiggle_query_language/clauses/parsing_helpers/extract_statements.py:extract_all_statements", "wiggle_shell/core/query/query.py:query"]}
{"id": "C87", "title": "FIND says \"No results\" exactly when something it asks for was never made", "statement": "A FIND shows \"No results\" if a label or a relationship name of its pattern has never been made in this GDBMS, and does not show it otherwise.", "quantifier": "every session of any number of well-formed queries, every history of the GDBMS, all patterns of one, two and three nodes", "why_tests_cant": "all sequences of statements and all patterns", "anchors": ["wiggle_query_language/clauses/find/find.py:find", "wiggle_shell/wiggleshell.py:start_wiggle_shell"]}
{"id": "C88", "title": "Every refused name or letter is reported once", "statement": "While a GDBMS is selected, each refused name and each letter that is not offered is reported once, and the question is asked again; the menu shows every GDBMS in order with its letter.", "quantifier": "every disk, every number of refused answers, both ways of selecting", "why_tests_cant": "all sequences of answers and all contents of the disk", "anchors": ["wiggle_shell/core/select_gdbms/select_gdbms.py:get_new_gdbms_file_paths", "wiggle_shell/core/select_gdbms/select_gdbms.py:create_new_dbms", "wiggle_shell/core/select_gdbms/select_gdbms.py:get_existing_gdbms", "wiggle_shell/core/select_gdbms/select_gdbms.py:get_and_display_available_dbms"]}
{"id": "C89", "title": "Every typed text is answered, and showing changes nothing", "statement": "For every text typed into the shell the prompt and the text are shown, then the exception it raised, \"No results\", the help or nothing; behind \"q\" nothing is asked. What is stored does not depend on what is shown.", "quantifier": "every list of texts, every disk", "why_tests_cant": "all lists of all texts on all disks", "anchors": ["wiggle_shell/wiggleshell.py:start_wiggle_shell", "wiggle_shell/core/query/query.py:query"]}
{"id": "C90", "title": "What is stored can be seen", "statement": "Two GDBMSs that hold different patterns can be told apart by some session: what FIND finds is shown.", "quantifier": "every pair of GDBMSs, every session of any number of well-formed queries", "why_tests_cant": "a statement about all sessions on all pairs of GDBMSs", "anchors": ["wiggle_query_language/clauses/find/find.py:find", "wiggle_shell/core/query/query.py:execute_query", "wiggle_shell/wiggleshell.py:start_wiggle_shell"]}
{"id": "C91", "title": "The message of a refused query quotes what is wrong", "statement": "When the parser refuses a query with one of the project's exceptions, the message names the fault and quotes the place in the query where it is: every text it shows stands in the query as it was typed, and the fault it names is there.", "quantifier": "every query text", "why_tests_cant": "the reasons overlap and the quoted text is computed by regular expressions and after replacements; the repository's tests check a few fixed messages", "anchors": ["wiggle_query_language/clauses/parsing_helpers/parse_statement_checks.py", "wiggle_query_language/clauses/parsing_helpers/extract_statements.py:extract_all_statements", "models/wql/parsing/parsed_query.py:validate_handles", "wiggle_query_language/clauses/report/parse_report/parse_report_statement.py:check_find_report_handles", "exceptions/wiggle_base_exception.py"]}
{"id": "C92", "title": "The message of a refused property shows the value", "statement": "When the properties of a node or a relationship are refused, the message shows the value as it stands in the text, without the quotation marks and white space around it, and says what is wrong with that value.", "quantifier": "every text of properties", "why_tests_cant": "the group of the regular expression that matched, stripping and `literal_eval` together decide which of the messages is shown", "anchors": ["wiggle_query_language/clauses/parsing_helpers/parse_properties.py", "models/wql/parsing/properties_pre.py:yield_extracted_property"]}
{"id": "C93", "title": "The answer to a failing line fits the line and the files", "statement": "When a query fails with one of the project's exceptions, the message names a fault that is there: in the text of the query (what the parser refuses, a refused property value, a relationship with two arrow heads), an empty counter file, or a number that the database holds although the counter calls it free. On a usable GDBMS only faults of the query are named. Except for the properties the parser shows, every text shown stands in the query. In a session this holds for every line, on the disk the lines before it left.", "quantifier": "every query text, every disk, every session", "why_tests_cant": "it concerns all paths of the parser, the planner, the stores and the shell together, for all texts and all file contents", "anchors": ["wiggle_shell/core/query/query.py", "wiggle_shell/wiggleshell.py", "wiggle_query_language/clauses/make/make.py", "wiggle_query_language/clauses/find/transform/find_pre.py", "models/wql/data/node.py", "models/wql/data/relationship.py"]}
{"id": "C94", "title": "A copy of a GDBMS behaves as the GDBMS", "statement": "If the three files of a GDBMS are copied under another name (or into a DBMS folder that holds other things besides), every session with the copy shows the same screen, raises and logs the same, and leaves files that are copies again. The same is true when the program is stopped at any moment, and when two shells work at the same time in any order: nothing depends on the name, the folder or the other files.", "quantifier": "every list of texts, every disk, both names and folders, every stopping point, every schedule of two shells", "why_tests_cant": "a test uses a fixed folder and a fixed name; that neither leaks into the behaviour is a statement about pairs of runs", "anchors": ["wiggle_shell/wiggleshell.py", "wiggle_shell/core/query/query.py", "wiggle_query_language/clauses/make/make.py", "wiggle_shell/core/select_gdbms/select_gdbms.py"]}
{"id": "C95", "title": "How MAKE statements are spread over queries does not matter", "statement": "Executing well-formed queries one after the other stores the same as executing one query with all their MAKE statements, or the same patterns spread over statements and queries in any other way, as long as the order of the patterns is kept: the database and the counter are the same byte for byte, the index up to the order of its lists, and every later session goes the same way, event for event.", "quantifier": "every two lists of queries that add the same patterns, every usable GDBMS, every process for each query", "why_tests_cant": "a test compares two groupings of a few statements; the statement is about pairs of runs of any length", "anchors": ["wiggle_query_language/clauses/make/make.py", "wiggle_shell/core/query/query.py", "wiggle_shell/wiggleshell.py"]}
{"id": "C96", "title": "How a MAKE pattern is written does not matter", "statement": "Two queries whose MAKE patterns say the same (labels, names, directions, property names and values, in the same order) leave the same disk, byte for byte, whatever the handles, the white space, the number of dashes, the quotes and the spelling of the words are, and whatever the FIND and the REPORT are.", "quantifier": "every pair of queries, every disk in order or not, every process", "why_tests_cant": "a test has a handful of spellings; any of the ways to write a pattern could reach the storage code", "anchors": ["wiggle_query_language/clauses/make/make.py", "wiggle_query_language/clauses/make/parse_make/parse_make_statement.py", "wiggle_shell/core/query/query.py"]}
{"id": "C97", "title": "Storage functions name what is wrong with a file and do nothing else", "statement": "Every function that reads or writes a file of a GDBMS (records, the three indexes, the counter) raises exactly when the file is of no use to it, the exception says why (missing, not JSON, not a dict, no such entry, not a set, key used, not a number), and then nothing is written. On every other file it does its work, returns True and leaves the other files alone.", "quantifier": "every text the file may hold, every batch of values that JSON can express, every name", "why_tests_cant": "tests use files the program wrote; a damaged or foreign file can be any text", "anchors": ["wiggle_query_language/graph/database/indexes/index_helpers.py", "wiggle_query_language/graph/database/indexes/node_relationships_index.py", "wiggle_query_language/graph/database/database.py", "wiggle_query_language/graph/state/wiggle_number.py", "wiggle_query_language/clauses/make/make.py"]}
{"id": "C98", "title": "The parser reads every text as a plain left-to-right reader does", "statement": "Everything the parser does to a text with its regular expressions (finding the statements, the patterns and their parts, the properties and their kinds, the checks and the tests of the spelling) has the result that a simple reader gets which goes through the text once from left to right, takes what fits where it stands and never reconsiders: the same parsed query, or the same exception. In particular backtracking of the regex engine, overlapping alternatives and the order of the groups never change what a query means.", "quantifier": "every text, every runtime (Unicode tables, float parsing)", "why_tests_cant": "regular expressions are tested on examples; that optional groups and overlapping character classes do not match some text in an unintended way is a statement about all texts", "anchors": ["wiggle_query_language/clauses/parsing_helpers/extract_statements.py", "wiggle_query_language/clauses/parsing_helpers/parse_statement_checks.py", "wiggle_query_language/clauses/parsing_helpers/parse_properties.py", "wiggle_query_language/clauses/make/parse_make/parse_make_statement.py", "wiggle_query_language/clauses/find/parse_find/parse_find_statement.py", "wiggle_query_language/clauses/report/parse_report/parse_report_statement.py", "wiggle_shell/core/query/query.py"]}
{"id": "C99", "title": "A failing file call costs at most the query it happens in", "statement": "When calls to the file system fail (full disk, missing permission, locked file), at any moment, in any number of queries and processes, the shell answers every text and goes on; a query in which a call fails ends as if none had, or raises and leaves the disk as if the program had been stopped in it; what is stored stays stored, other GDBMSs are untouched, and when the calls work again the GDBMS can be used again.", "quantifier": "all queries, sessions and sequences of processes, all disks, every choice of calls that fail and of writes that put only a part on the disk", "why_tests_cant": "A test can make one call fail in one query; which calls fail, when, in which of several processes, and what the disk holds then is an unbounded choice.", "anchors": ["wiggle_shell/wiggleshell.py", "wiggle_query_language/clauses/make/make.py", "wiggle_query_language/graph/database/database.py", "wiggle_shell/core/select_gdbms/select_gdbms.py"]}
{"id": "C100", "title": "Every pattern compiles, and to what the parser is said to use", "statement": "Every pattern text of the source is a valid regular expression of Python; no group name comes twice and the names the program asks for are the groups that hold the parts meant; and the expressions the other properties speak of are exactly what `re.compile` makes of these texts: the same matches, in the same order of attempts, with the same groups, on every text, with IGNORECASE and, where pydantic compiles the text again, without it. The helpers give valid patterns for every clause of letters and every name.", "quantifier": "all texts; all clauses of ASCII letters; all identifiers as names of nodes and relationships; all pattern texts for the numbering of groups", "why_tests_cant": "A test of a pattern compares its matches on a few strings; that a pattern built by a helper is valid and has the intended shape for every clause and name cannot be sampled.", "anchors": ["wiggle_query_language/clauses/regexes/patterns/patterns_helpers.py", "wiggle_query_language/clauses/regexes/patterns/clause_helpers.py", "wiggle_query_language/clauses/regexes/patterns/patterns.py", "wiggle_query_language/clauses/regexes/patterns/nodes.py", "wiggle_query_language/clauses/regexes/patterns/properties.py", "wiggle_query_language/clauses/regexes/patterns/relationships.py", "wiggle_query_language/clauses/regexes/patterns/utilities.py", "wiggle_query_language/clauses/regexes/make/make_patterns.py", "wiggle_query_language/clauses/regexes/find/find_patterns.py", "wiggle_query_language/clauses/regexes/report/report_patterns.py"]}
{"id": "C101", "title": "The log tells the truth and changes nothing", "statement": "Logging has no influence on what the program does: every function has the same outcome and the same effect with its log as without. An entry that something succeeded (records added, database or index loaded or dropped, number read or written) is written exactly if it did, with the right number or name. Accepted properties get one entry per value, in order, with kind and value. In the shell, where the level is WARNING, the user sees of the log exactly the two warnings about the index for every query that ends normally although the index file is not JSON, and nothing else; so nothing at all as long as the GDBMS is usable.", "quantifier": "all disks, paths, records, numbers, property texts, queries and lists of inputs", "why_tests_cant": "The project has no test of the log. That an entry is written exactly if the work was done is about all states of the files and all places where the work can fail; that a user of a usable GDBMS never sees an entry is about all sessions.", "anchors": ["wiggle_graph_logger/graph_logger.py", "wiggle_shell/core/query/query.py:24", "wiggle_query_language/graph/database/database.py", "wiggle_query_language/graph/database/indexes/index_helpers.py", "wiggle_query_language/graph/database/indexes/node_relationships_index.py", "wiggle_query_language/graph/state/wiggle_number.py", "wiggle_query_language/clauses/parsing_helpers/parse_properties.py"]}
{"id": "C102", "title": "The terminal shows every answer and nothing else", "statement": "`print`, `input` and the log write to the same terminal. What appears there is exactly the screen of C87 to C90 and, in the right places, the entries of the log of level WARNING and above: within a query everything of the log comes before the answer, and nothing is logged while a GDBMS is selected. On a GDBMS that is usable, and as long as nothing breaks it, the terminal is the screen and nothing else. If the index file is not JSON, a query is not answered as if nothing was stored.", "quantifier": "all environments, disks, GDBMS paths and lists of inputs", "why_tests_cant": "The project has no test of the shell. That nothing of the log gets between the answers is about every session on every disk; the order of two independent writers within a query is not visible to a test of either.", "anchors": ["wiggle_graph_logger/graph_logger.py:10-12", "wiggle_shell/wiggleshell.py:7-44", "wiggle_query_language/clauses/find/find.py:11-25", "wiggle_shell/core/query/query.py:53-93"]}
{"id": "C103", "title": "Leaving the shell and coming back makes no difference", "statement": "Nothing of a session is kept in memory: if the shell is left with `q`, the program is started again and the same GDBMS is chosen, then every further text gives the same event, the same effect on the disk and the same output as if it had been typed in the first session. This holds for a GDBMS that was there and for one made at the first start, whatever the texts are and whatever they did to its files.", "quantifier": "all environments (start time, set order, clock) that both runs share, disks, GDBMSs, answers that select them, lists of texts before (without `q`) and after the pause", "why_tests_cant": "No test runs the shell, and none starts it twice. A hidden state, such as a cached index or counter, only shows in a particular order of texts across two processes.", "anchors": ["wiggle_shell/wiggleshell.py:7-44", "wiggle_shell/core/select_gdbms/select_gdbms.py:112-153", "wiggle_shell/core/select_gdbms/select_gdbms.py:185-199", "wiggle_shell/core/query/query.py:53-93"]}
{"id": "C104", "title": "What was made can be read off the database", "statement": "Nothing of a MAKE is lost: if two sequences of MAKE statements leave the same database file, they describe the same graph. They have as many patterns, in the same order, and each pattern has the same nodes, labels, properties, relationships and directions as its counterpart; only handles and the way of writing may differ.", "quantifier": "all pairs of GDBMSs that the program can have made of well-written lines (also with a ruined index), all environments, all sessions", "why_tests_cant": "That different inputs never give the same file is about all pairs of all inputs; a test can only compare a few.", "anchors": ["wiggle_query_language/clauses/make/make.py:make", "wiggle_query_language/clauses/make/transform/make_pre.py", "models/wql/data/node.py", "models/wql/data/relationship.py", "wiggle_query_language/graph/database/database.py"]}
{"id": "C105", "title": "A file is read exactly if it is the text it should be, and as what it stands for", "statement": "The database and the indexes are read as a value v exactly if the file is a JSON text for v in the sense of the JSON grammar (RFC 8259, with NaN and the infinities that Python adds; of members with the same name the last counts); anything else is an empty database for load_database and a JSONDecodeError, with nothing written, for add_item_to_database. No text stands for two values, and what is written stands for the value written. The counter and an integer property are read as n exactly if the text is an integer for n: blanks, a sign, digits with single underscores between them, blanks; an empty counter file is refused, and so is any other text.", "quantifier": "for all texts, all values, all disks", "why_tests_cant": "The set of texts is infinite and the interesting ones (half-written files, escapes, underscores, odd blanks) are not those that the program writes itself; the tests only load files the program has written.", "anchors": ["wiggle_query_language/graph/database/database.py:load_database", "wiggle_query_language/graph/database/database.py:add_item_to_database", "wiggle_query_language/graph/state/wiggle_number.py:get_current_wiggle_number", "wiggle_query_language/clauses/parsing_helpers/parse_properties.py:handle_int_property"]}
{"id": "C106", "title": "Strings and dicts are handled as Python documents it", "statement": "strip removes exactly the white space (or the given characters) at both ends; `in` finds exactly the texts that occur; split cuts at each separator; count counts them; replace replaces the first occurrence and goes on behind it; lower and isupper go letter by letter; an assignment to a dict keeps the place of an old key and puts a new one last. So a text asks for help exactly if `help` occurs in its small-letter form and every other one is run; a value is empty exactly if it is white space; parameters need one colon for each piece between commas; REPORT must name every handle; and the characters taken for white space, word characters, digits and letters are those listed.", "quantifier": "for all texts, characters, dicts and values, whatever Unicode says beyond ASCII", "why_tests_cant": "The tests use a few ordinary texts; control characters, overlapping occurrences, repeated separators and letters such as the Kelvin sign do not occur in them.", "anchors": ["wiggle_shell/wiggleshell.py", "wiggle_shell/core/query/query.py:valid_query", "wiggle_query_language/clauses/parsing_helpers/parse_properties.py", "wiggle_query_language/clauses/parsing_helpers/parse_statement_checks.py"]}
{"id": "C107", "title": "Texts are searched with regular expressions as Python documents it", "statement": "A match is the first of all ways to match, repetition and ? being greedy and the left alternative being tried first, with the texts of its groups; there is none exactly if there is no way. search gives the leftmost match; finditer gives all matches from left to right without overlap, with one that is not empty looked for behind an empty one at the same place; sub with the empty text leaves what is between the matches; split cuts at each run of separators. A word matches itself, and if case is ignored the words with the same letter at each place.", "quantifier": "for all regular expressions built from classes, greedy repetition of a class, sequence, alternative, option and groups, and all texts", "why_tests_cant": "The order of the ways, empty matches and backtracking matter only for texts that the tests do not contain, and both the expressions and the texts are unbounded.", "anchors": ["wiggle_query_language/clauses/regexes", "wiggle_query_language/clauses/parsing_helpers/extract_statements.py", "wiggle_query_language/clauses/parsing_helpers/parse_statement_checks.py", "wiggle_query_language/clauses/parsing_helpers/parse_properties.py"]}
{"id": "C108", "title": "A list property is read as Python reads the list", "statement": "A text in brackets that is a list of plain literals - integers without leading zeros, decimal fractions, texts in single or double quotes without escapes, True, False, None, with white space between them, separated by commas, with a comma behind the last one if one likes - is that list, and no other text is read by these rules. The value of a list property is that list after true, false and null have been replaced by Python's keywords; a syntax error is reported as an illegal value, other errors are passed on. A list that the check of a statement passes has a value.", "quantifier": "for all texts", "why_tests_cant": "The tests have a few short lists; brackets, commas, quotes and white space can be combined in unboundedly many ways, and only a proof shows that nothing outside the rules is accepted.", "anchors": ["wiggle_query_language/clauses/parsing_helpers/parse_properties.py", "wiggle_query_language/clauses/parsing_helpers/parse_statement_checks.py"]}
{"id": "C109", "title": "File operations do to the disk what they say, and the disk stays possible", "statement": "Reading, writing at a place, truncating, creating, listing and removing files and directories give the answer and change the disk as documented, and change nothing else; the order in which entries are kept makes no difference but in listings. After any program, after a crash at any point and after two programs at the same time, every file is in a directory, every directory in a folder, and nothing is both a directory and a plain file.", "quantifier": "for all operations, programs, schedules, crash points and disks", "why_tests_cant": "Programs, interleavings and disks are unbounded; the tests only use freshly made folders.", "anchors": ["wiggle_query_language/graph/database/database.py", "wiggle_query_language/graph/state/wiggle_number.py", "wiggle_shell/core/select_gdbms/select_gdbms.py"]}
{"id": "C110", "title": "Sets and entries of loaded values are taken as Python does", "statement": "set(v) of a loaded value has what one goes through in it, each element once, and is a TypeError exactly for what cannot be gone through or holds a list or dict; v[k], v[k] = x and k in v have the value Python gives them for dicts, lists and texts and raise KeyError or TypeError otherwise; writing a value puts its JSON text at the place of the file, up to the first part that has none.", "quantifier": "for all loaded values, keys and files", "why_tests_cant": "What a file holds is arbitrary JSON; the tests only load files of the expected form.", "anchors": ["wiggle_query_language/graph/database/database.py", "wiggle_query_language/graph/database/indexes/index_helpers.py", "wiggle_query_language/graph/database/indexes/node_relationships_index.py"]}
{"id": "C111", "title": "Files are written character by character as documented", "statement": "The text json.dump writes with indent=4 is: null, true, false, integers without leading zeros, strings in double quotes with the documented escapes and only ASCII characters, lists and dicts with one line for each element, four blanks for each level and commas between them. Of a value that cannot be written, exactly what does not depend on the part that has no text reaches the file. The database of a healthy GDBMS is written so, and the counter is a decimal number.", "quantifier": "for all values, of any size and depth", "why_tests_cant": "Values are nested without bound and hold any characters; the tests compare a few small files after loading them, not their texts.", "anchors": ["wiggle_query_language/graph/database/database.py", "wiggle_query_language/graph/database/indexes/index_helpers.py", "wiggle_query_language/graph/state/wiggle_number.py"]}
{"id": "C112", "title": "Paths and name patterns mean what pathlib and fnmatch document", "statement": "The components of a typed text are what stands between its slashes, without empty ones and dots; an absolute text is a path of its own. A path leads to the place reached by going from directory to directory; it is refused with ValueError (NUL), FileNotFoundError (nothing there) or another OSError (a file on the way) otherwise. mkdir with parents makes exactly the missing directories on the way, or does nothing if a file is on the way; touch and writing change exactly one place. A name used as a pattern when a GDBMS is deleted matches exactly the names that the documentation of fnmatch says.", "quantifier": "all texts, directory trees whose entries lie in directories, paths, patterns with sets of plain characters, and names", "why_tests_cant": "Trees and names are unbounded, and every mixture of dots, double dots, slashes, stars and brackets is a name that can be typed.", "anchors": ["wiggle_shell/core/select_gdbms/select_database_file.py", "wiggle_shell/core/select_gdbms/select_gdbms.py"]}
