/-
parsing_helpers/tests/test_parse_statement_checks.py, test_extract_statements.py

Generated from the tests of the repo: inputs and expected results are those of the test cases.  These are tests of
the model (do the transcribed functions do what the tests say the real ones do?), not proofs of properties.
-/
import Verif.Model.Parse
import Verif.Spec.DemoFS

namespace WG
attribute [local instance] demoRuntime

/-- test_check_node_rel_properties: EXP PASS: No params -/
example : checkNodeRelProperties [c!"MAKE (n:Person);"] = .ok () := by decide +kernel

/-- test_check_node_rel_properties: EXP PASS: One params -/
example : checkNodeRelProperties [c!"MAKE (n:Person{first_name:'Harry'});"] = .ok () := by decide +kernel

/-- test_check_node_rel_properties: EXP PASS: 1 comma -/
example : checkNodeRelProperties [c!"MAKE (n:Person{first_name:'Harry', last_name:'Watkinson', bool: true, list: [1, '2', \"2_4\", \"3 4\", 3.14]});"] = .ok () := by decide +kernel

/-- test_check_node_rel_properties: EXP EXEC: Missing comma in param list -/
example : checkNodeRelProperties [c!"MAKE (:NodeLabel{int: 1, str: '2', str2:\"2_4\", float: 3.14, list: [1, '2', \"2_4\", \"3 4\" 3.14]});"] = .error .paramSyntax := by decide +kernel

/-- test_check_relationship: EXP PASS: No relationship -/
example : checkRelationships [c!"MAKE (:NodeLabel);"] = .ok () := by decide +kernel

/-- test_check_relationship: EXP PASS: Double node with one relationship -/
example : checkRelationships [c!"MAKE (:NodeLabel)-[:]->(:NodeLabel);"] = .ok () := by decide +kernel

/-- test_check_relationship: EXP PASS: Triple node with two relationships, ltr -/
example : checkRelationships [c!"MAKE (:NodeLabel)-[:]->(:NodeLabel)-[:]->(:NodeLabel);"] = .ok () := by decide +kernel

/-- test_check_relationship: EXP PASS: Triple node with two relationships, both pointing to middle -/
example : checkRelationships [c!"MAKE (:NodeLabel)-[:]->(:NodeLabel)<-[:]-(:NodeLabel);"] = .ok () := by decide +kernel

/-- test_check_relationship: EXP EXEC: Triple node with two relationships ltr and rtl. -/
example : checkRelationships [c!"\"MAKE (:NodeLabel{int: 1})-[rel1:REL{str: '2'}]->(:NodeLabel{str2:\"2_4\"})<-[rel2:REL2{float: 3.14}]-(:NodeLabel2{list: [1, '2', \"2_4\", \"3 4\", 3.14]}});"] = .ok () := by decide +kernel

/-- test_check_relationship: EXP EXEC: Non directed single relationship -/
example : checkRelationships [c!"MAKE (:NodeLabel)-[:]-(:NodeLabel);"] = .error .nonDirected := by decide +kernel

/-- test_check_relationship: EXP EXEC: Non directed single relationship, no colon -/
example : checkRelationships [c!"MAKE (:NodeLabel)-[]-(:NodeLabel);"] = .error .nonDirected := by decide +kernel

/-- test_check_relationship: EXP EXEC: Rel is pointing both ways -/
example : checkRelationships [c!"MAKE (:NodeLabel)<-[:]->(:NodeLabel);"] = .error .nonDirected := by decide +kernel

/-- test_check_relationship: EXP EXEC: Triple node with two relationships, one not directed -/
example : checkRelationships [c!"MAKE (:NodeLabel)-[:]->(:NodeLabel)-[:]-(:NodeLabel);"] = .error .nonDirected := by decide +kernel

/-- test_check_relationship: EXP EXEC: lowercase rel name -/
example : checkRelationships [c!"MAKE (:NodeLabel)-[:rel]->(:NodeLabel);"] = .error .relationshipName := by decide +kernel

/-- test_check_relationship: EXP EXEC: Double node with long relationship, lowercase rel name -/
example : checkRelationships [c!"MAKE (:NodeLabel)--[:rel]-->(:NodeLabel);"] = .error .relationshipName := by decide +kernel

/-- test_check_relationship: EXP EXEC: Double node with long relationship, lowercase rel name -/
example : checkRelationships [c!"MAKE (:NodeLabel)--[:rel]-->(:NodeLabel);"] = .error .relationshipName := by decide +kernel

/-- test_check_illegal_characters: EXP PASS: No relationship -/
example : checkIllegalCharacters [c!"MAKE (:NodeLabel);"] = .ok () := by decide +kernel

/-- test_check_illegal_characters: EXP EXEC: Illegal char * -/
example : checkIllegalCharacters [c!"MAKE (:NodeLabel*);"] = .error .illegalCharacter := by decide +kernel

/-- test_check_illegal_characters: EXP EXEC: Illegal char # -/
example : checkIllegalCharacters [c!"MAKE (:NodeLabel#);"] = .error .illegalCharacter := by decide +kernel

/-- test_check_illegal_characters: EXP EXEC: Illegal char % -/
example : checkIllegalCharacters [c!"MAKE (:NodeLabel{ int: 1 , str: '2', st%r2:\"2_4\"});"] = .error .illegalCharacter := by decide +kernel

/-- test_check_illegal_characters: EXP EXEC: Illegal char & -/
example : checkIllegalCharacters [c!"MAKE (left_node_handle:LeftNodeLabel{int: 1}) -[:]-> (middle_node_label:&MiddleNodeLabel) -[:]->(right_node_label:RightNodeLabel);"] = .error .illegalCharacter := by decide +kernel

/-- test_check_illegal_characters: EXP EXEC: Illegal char $ -/
example : checkIllegalCharacters [c!"MAKE (:NodeLabel{ int: 1 , str: '$2', str2:\"2_4\"});"] = .error .illegalCharacter := by decide +kernel

/-- test_check_statement_syntax: EXP PASS: No syntax error -/
example : checkStatementSyntax [c!"MAKE (:NodeLabel);"] = .ok () := by decide +kernel

/-- test_check_statement_syntax: EXP EXEC: Missing ( on on Node -/
example : checkStatementSyntax [c!"MAKE (:NodeLabel;"] = .error .clauseSyntax := by decide +kernel

/-- test_check_statement_syntax: EXP EXEC: Missing ) on Node -/
example : checkStatementSyntax [c!"MAKE (:NodeLabel;"] = .error .clauseSyntax := by decide +kernel

/-- test_check_statement_syntax: EXP EXEC: Missing ) on Node with props -/
example : checkStatementSyntax [c!"MAKE (:NodeLabel{ int: 1 , str: '$2', str2:\"2_4\"};"] = .error .clauseSyntax := by decide +kernel

/-- test_check_statement_syntax: EXP EXEC: Missing } on Node with props -/
example : checkStatementSyntax [c!"MAKE (:NodeLabel{ int: 1 , str: '$2', str2:\"2_4\");"] = .error .clauseSyntax := by decide +kernel

/-- test_check_statement_syntax: EXP EXEC: Missing ( on right Node -/
example : checkStatementSyntax [c!"MAKE (:NodeLabel{str: '2'})-[]->(:NodeLabel{str2:\"2_4\"})-[rel2:REL2{float: 3.14}]->:NodeLabel2{list: [1, '2', \"2_4\", \"3 4\", 3.14]});"] = .error .clauseSyntax := by decide +kernel

/-- test_check_statement_syntax: EXP EXEC: Missing [ on left rel -/
example : checkStatementSyntax [c!"MAKE (:NodeLabel{str: '2'})-[->(:NodeLabel{str2:\"2_4\"})-[rel2:REL2{float: 3.14}]->:NodeLabel2{list: [1, '2', \"2_4\", \"3 4\", 3.14]});"] = .error .clauseSyntax := by decide +kernel

/-- test_check_statement_syntax: EXP EXEC: Missing [ on right node list -/
example : checkStatementSyntax [c!"MAKE (:NodeLabel{str: '2'})-[]->(:NodeLabel{str2:\"2_4\"})-[rel2:REL2{float: 3.14}]->:NodeLabel2{list: [1, '2', \"2_4\", \"3 4\", 3.14});"] = .error .clauseSyntax := by decide +kernel

/-- test_check_make_clause_spelling: EXP EXEC -/
example : checkClauseSpelling c!"MAEK (node:NodeLabel);" .make = .error .clauseSyntax := by decide +kernel

/-- test_check_make_clause_spelling: EXP EXEC -/
example : checkClauseSpelling c!"eMAk (node:NodeLabel);" .make = .error .clauseSyntax := by decide +kernel

/-- test_check_make_clause_spelling: EXP EXEC -/
example : checkClauseSpelling c!"EMka (node:NodeLabel);" .make = .error .clauseSyntax := by decide +kernel

/-- test_check_make_clause_spelling: EXP EXEC -/
example : checkClauseSpelling c!"KMAe (node:NodeLabel);" .make = .error .clauseSyntax := by decide +kernel

/-- test_check_make_clause_spelling: EXP EXEC -/
example : checkClauseSpelling c!"EKAM (node:NodeLabel);" .make = .error .clauseSyntax := by decide +kernel

/-- test_check_find_clause_spelling: EXP EXEC -/
example : checkClauseSpelling c!"DIFN (node:NodeLabel);" .find = .error .clauseSyntax := by decide +kernel

/-- test_check_find_clause_spelling: EXP EXEC -/
example : checkClauseSpelling c!"FIDN (node:NodeLabel);" .find = .error .clauseSyntax := by decide +kernel

/-- test_check_find_clause_spelling: EXP EXEC -/
example : checkClauseSpelling c!"FNID (node:NodeLabel);" .find = .error .clauseSyntax := by decide +kernel

/-- test_check_find_clause_spelling: EXP EXEC -/
example : checkClauseSpelling c!"DNIF (node:NodeLabel);" .find = .error .clauseSyntax := by decide +kernel

/-- test_check_find_clause_spelling: EXP EXEC -/
example : checkClauseSpelling c!"IFND (node:NodeLabel);" .find = .error .clauseSyntax := by decide +kernel

/-- test_check_report_clause_spelling: EXP EXEC -/
example : checkClauseSpelling c!"TROPER foo;" .report = .error .clauseSyntax := by decide +kernel

/-- test_check_report_clause_spelling: EXP EXEC -/
example : checkClauseSpelling c!"RPEORT bar;" .report = .error .clauseSyntax := by decide +kernel

/-- test_check_report_clause_spelling: EXP EXEC -/
example : checkClauseSpelling c!"REROPT baz;" .report = .error .clauseSyntax := by decide +kernel

/-- test_check_report_clause_spelling: EXP EXEC -/
example : checkClauseSpelling c!"REPTOR bar, baz, foo;" .report = .error .clauseSyntax := by decide +kernel

/-- test_check_report_clause_spelling: EXP EXEC -/
example : checkClauseSpelling c!"RPORTE r, r2;" .report = .error .clauseSyntax := by decide +kernel

/-- test_extract_all_make_statements: EXP PASS: Simple Case -/
example : extractAllStatements c!"MAKE (:NodeLabel);" .make = .ok (some [c!"MAKE (:NodeLabel);"]) := by decide +kernel

/-- test_extract_all_make_statements: EXP PASS: Simple Case with label -/
example : extractAllStatements c!"MAKE (node1:NodeLabel);" .make = .ok (some [c!"MAKE (node1:NodeLabel);"]) := by decide +kernel

/-- test_extract_all_make_statements: EXP PASS: Double Node with right direction -/
example : extractAllStatements c!"MAKE (:NodeLabel)-[:]->(:NodeLabel);" .make = .ok (some [c!"MAKE (:NodeLabel)-[:]->(:NodeLabel);"]) := by decide +kernel

/-- test_extract_all_make_statements: EXP PASS: Double Node with left direction -/
example : extractAllStatements c!"MAKE (:NodeLabel)<-[:]-(:NodeLabel);" .make = .ok (some [c!"MAKE (:NodeLabel)<-[:]-(:NodeLabel);"]) := by decide +kernel

/-- test_extract_all_make_statements: EXP PASS: Double Node with right direction and named rel -/
example : extractAllStatements c!"MAKE (:NodeLabel)-[:REL]->(:NodeLabel);" .make = .ok (some [c!"MAKE (:NodeLabel)-[:REL]->(:NodeLabel);"]) := by decide +kernel

/-- test_extract_all_make_statements: EXP PASS: Double Node with right direction, named and labeled rel -/
example : extractAllStatements c!"MAKE (:NodeLabel)-[rel1:REL]->(:NodeLabel);" .make = .ok (some [c!"MAKE (:NodeLabel)-[rel1:REL]->(:NodeLabel);"]) := by decide +kernel

/-- test_extract_all_make_statements: EXP PASS: Left Node labeled with right direction, named and labeled rel -/
example : extractAllStatements c!"MAKE (node1:NodeLabel)-[rel1:REL]->(:NodeLabel);" .make = .ok (some [c!"MAKE (node1:NodeLabel)-[rel1:REL]->(:NodeLabel);"]) := by decide +kernel

/-- test_extract_all_make_statements: EXP PASS: Right Node labeled with right direction, named and labeled rel -/
example : extractAllStatements c!"MAKE (:NodeLabel)-[rel1:REL]->(node2:NodeLabel);" .make = .ok (some [c!"MAKE (:NodeLabel)-[rel1:REL]->(node2:NodeLabel);"]) := by decide +kernel

/-- test_extract_all_make_statements: EXP PASS: All labels -/
example : extractAllStatements c!"MAKE (node1:NodeLabel)-[rel1:REL]->(node2:NodeLabel);" .make = .ok (some [c!"MAKE (node1:NodeLabel)-[rel1:REL]->(node2:NodeLabel);"]) := by decide +kernel

/-- test_extract_all_make_statements: EXP PASS: Multi Stage Query -/
example : extractAllStatements c!"MAKE (n:NodeLabel)-[r:REL]->(n:NodeLabel);\n                    FIND (p:NodeLabel)-[r2:REL]->(q:NodeLabel);\n                    CRITERIA p.name = 'Bar' or q.name = 'Bar';\n                    REPORT wn(p), wn(q);" .make = .ok (some [c!"MAKE (n:NodeLabel)-[r:REL]->(n:NodeLabel);"]) := by decide +kernel

/-- test_extract_all_make_statements: EXP PASS: Simple Case -/
example : extractAllStatements c!"\n                MAKE (:NodeLabel);\n                MAKE (:NodeLabel);\n                " .make = .ok (some [c!"MAKE (:NodeLabel);", c!"MAKE (:NodeLabel);"]) := by decide +kernel

end WG
