/-
regexes/patterns/tests, regexes/make/tests, transform_helpers/tests

Generated from the tests of the repo: inputs and expected results are those of the test cases.  These are tests of
the model (do the transcribed functions do what the tests say the real ones do?), not proofs of properties.
-/
import Verif.Model.Parse
import Verif.Model.MakePre
import Verif.Spec.DemoFS

namespace WG
attribute [local instance] demoRuntime

/-- `findall` with the capTexts `gs`: a group that took no part is the empty text. -/
def capTexts (r : Re) (gs : List Nat) (s : Str) : List (List Str) :=
  (r.finditer s).map fun m => gs.map fun n => (capGet n m.2).getD []

/-- test_nodes_rel_pattern_regex: EXP PASS: One Node -/
example : statementPatterns c!"MAKE (:LeftNodeLabel1);" = [⟨⟨some c!"(:LeftNodeLabel1)", some c!"", some c!"LeftNodeLabel1", none⟩, ⟨none, none, none, none⟩, ⟨none, none, none, none⟩, ⟨none, none, none, none⟩, ⟨none, none, none, none⟩⟩] := by decide +kernel

/-- test_nodes_rel_pattern_regex: EXP PASS: Three Nodes separately -/
example : statementPatterns c!"MAKE (left_node_handle1:LeftNodeLabel1{int: 1}), (left_node_handle2:LeftNodeLabel2{int: 1}), (left_node_handle3:LeftNodeLabel3{int: 1});" = [⟨⟨some c!"(left_node_handle1:LeftNodeLabel1{int: 1})", some c!"left_node_handle1", some c!"LeftNodeLabel1", some c!"{int: 1}"⟩, ⟨none, none, none, none⟩, ⟨none, none, none, none⟩, ⟨none, none, none, none⟩, ⟨none, none, none, none⟩⟩, ⟨⟨some c!"(left_node_handle2:LeftNodeLabel2{int: 1})", some c!"left_node_handle2", some c!"LeftNodeLabel2", some c!"{int: 1}"⟩, ⟨none, none, none, none⟩, ⟨none, none, none, none⟩, ⟨none, none, none, none⟩, ⟨none, none, none, none⟩⟩, ⟨⟨some c!"(left_node_handle3:LeftNodeLabel3{int: 1})", some c!"left_node_handle3", some c!"LeftNodeLabel3", some c!"{int: 1}"⟩, ⟨none, none, none, none⟩, ⟨none, none, none, none⟩, ⟨none, none, none, none⟩, ⟨none, none, none, none⟩⟩] := by decide +kernel

/-- test_nodes_rel_pattern_regex: EXP PASS: Double Node, no rel name -/
example : statementPatterns c!"MAKE (left_node_handle:LeftNodeLabel) -[:]-> (middle_node_label:MiddleNodeLabel);" = [⟨⟨some c!"(left_node_handle:LeftNodeLabel) ", some c!"left_node_handle", some c!"LeftNodeLabel", none⟩, ⟨some c!"-[:]-> ", some c!"", some c!"", none⟩, ⟨some c!"(middle_node_label:MiddleNodeLabel)", some c!"middle_node_label", some c!"MiddleNodeLabel", none⟩, ⟨none, none, none, none⟩, ⟨none, none, none, none⟩⟩] := by decide +kernel

/-- test_nodes_rel_pattern_regex: EXP PASS: Double Node, long rel dashes -/
example : statementPatterns c!"MAKE (left_node_handle:LeftNodeLabel) ---[:]---> (middle_node_label:MiddleNodeLabel);" = [⟨⟨some c!"(left_node_handle:LeftNodeLabel) ", some c!"left_node_handle", some c!"LeftNodeLabel", none⟩, ⟨some c!"---[:]---> ", some c!"", some c!"", none⟩, ⟨some c!"(middle_node_label:MiddleNodeLabel)", some c!"middle_node_label", some c!"MiddleNodeLabel", none⟩, ⟨none, none, none, none⟩, ⟨none, none, none, none⟩⟩] := by decide +kernel

/-- test_nodes_rel_pattern_regex: EXP PASS: Double Node with params -/
example : statementPatterns c!"MAKE (left_node_handle:LeftNodeLabel{int: 1, str: '2', str2:\"2_4\", none: null)-[:]->(middle_node_label:MiddleNodeLabel { float: 3.14, list: [1, '2', \"2_4\", \"3 4\", 3.14, false], email: \"harry@wg.net\"});" = [⟨⟨some c!"(left_node_handle:LeftNodeLabel{int: 1, str: '2', str2:\"2_4\", none: null)", some c!"left_node_handle", some c!"LeftNodeLabel", some c!"{int: 1, str: '2', str2:\"2_4\", none: null"⟩, ⟨some c!"-[:]->", some c!"", some c!"", none⟩, ⟨some c!"(middle_node_label:MiddleNodeLabel { float: 3.14, list: [1, '2', \"2_4\", \"3 4\", 3.14, false], email: \"harry@wg.net\"})", some c!"middle_node_label", some c!"MiddleNodeLabel", some c!"{ float: 3.14, list: [1, '2', \"2_4\", \"3 4\", 3.14, false], email: \"harry@wg.net\"}"⟩, ⟨none, none, none, none⟩, ⟨none, none, none, none⟩⟩] := by decide +kernel

/-- test_nodes_rel_pattern_regex: EXP PASS: Double Node with Named Rel and params -/
example : statementPatterns c!"MAKE (left_node_handle:LeftNodeLabel{int: 1, str: '2', str2:\"2_4\", float: 3.14, bool: true, list: [1, '2', \"2_4\", \"3 4\", 3.14]})-[rlm:RELLM{int: 1, str: '2', str2:\"2_4\", float: 3.14, list: [1, '2', \"2_4\", \"3 4\", 3.14]}]->(middle_node_label:MiddleNodeLabel {int: 1, str: '2', str2:\"2_4\", float: 3.14, list: [1, '2', \"2_4\", \"3 4\", 3.14]} );" = [⟨⟨some c!"(left_node_handle:LeftNodeLabel{int: 1, str: '2', str2:\"2_4\", float: 3.14, bool: true, list: [1, '2', \"2_4\", \"3 4\", 3.14]})", some c!"left_node_handle", some c!"LeftNodeLabel", some c!"{int: 1, str: '2', str2:\"2_4\", float: 3.14, bool: true, list: [1, '2', \"2_4\", \"3 4\", 3.14]}"⟩, ⟨some c!"-[rlm:RELLM{int: 1, str: '2', str2:\"2_4\", float: 3.14, list: [1, '2', \"2_4\", \"3 4\", 3.14]}]->", some c!"rlm", some c!"RELLM", some c!"{int: 1, str: '2', str2:\"2_4\", float: 3.14, list: [1, '2', \"2_4\", \"3 4\", 3.14]}"⟩, ⟨some c!"(middle_node_label:MiddleNodeLabel {int: 1, str: '2', str2:\"2_4\", float: 3.14, list: [1, '2', \"2_4\", \"3 4\", 3.14]} )", some c!"middle_node_label", some c!"MiddleNodeLabel", some c!"{int: 1, str: '2', str2:\"2_4\", float: 3.14, list: [1, '2', \"2_4\", \"3 4\", 3.14]} "⟩, ⟨none, none, none, none⟩, ⟨none, none, none, none⟩⟩] := by decide +kernel

/-- test_nodes_rel_pattern_regex: EXP PASS: Three Node with rels not names -/
example : statementPatterns c!"MAKE (left_node_handle:LeftNodeLabel{int: 1}) -[:]-> (middle_node_label:MiddleNodeLabel) -[:]->(right_node_label:RightNodeLabel);" = [⟨⟨some c!"(left_node_handle:LeftNodeLabel{int: 1}) ", some c!"left_node_handle", some c!"LeftNodeLabel", some c!"{int: 1}"⟩, ⟨some c!"-[:]-> ", some c!"", some c!"", none⟩, ⟨some c!"(middle_node_label:MiddleNodeLabel) ", some c!"middle_node_label", some c!"MiddleNodeLabel", none⟩, ⟨some c!"-[:]->", some c!"", some c!"", none⟩, ⟨some c!"(right_node_label:RightNodeLabel)", some c!"right_node_label", some c!"RightNodeLabel", none⟩⟩] := by decide +kernel

/-- test_nodes_rel_pattern_regex: EXP PASS: Three Nodes, named rels and with params -/
example : statementPatterns c!"MAKE (left_node_handle:LeftNodeLabel{int: 1, str: '2', str2:\"2_4\", float: 3.14, list: [1, '2', \"2_4\", \"3 4\", 3.14]})-[lm:RELLM{int: 1, str: '2', str2:\"2_4\", float: 3.14, bool: false, none: null, list: [1, '2', \"2_4\", \"3 4\", 3.14]}]->(middle_node_label:MiddleNodeLabel {int: 1, str: '2', str2:\"2_4\", float: 3.14, list: [1, '2', \"2_4\", \"3 4\", 3.14]})-[rmr:RELMR{int: 1, str: '2', str2:\"2_4\", float: 3.14, list: [1, '2', \"2_4\", \"3 4\", 3.14]}]->(right_node_label:RightNodeLabel {int: 1, str: '2', str2:\"2_4\", float: 3.14, bool: true, none: null, list: [1, '2', \"2_4\", \"3 4\", 3.14]} );" = [⟨⟨some c!"(left_node_handle:LeftNodeLabel{int: 1, str: '2', str2:\"2_4\", float: 3.14, list: [1, '2', \"2_4\", \"3 4\", 3.14]})", some c!"left_node_handle", some c!"LeftNodeLabel", some c!"{int: 1, str: '2', str2:\"2_4\", float: 3.14, list: [1, '2', \"2_4\", \"3 4\", 3.14]}"⟩, ⟨some c!"-[lm:RELLM{int: 1, str: '2', str2:\"2_4\", float: 3.14, bool: false, none: null, list: [1, '2', \"2_4\", \"3 4\", 3.14]}]->", some c!"lm", some c!"RELLM", some c!"{int: 1, str: '2', str2:\"2_4\", float: 3.14, bool: false, none: null, list: [1, '2', \"2_4\", \"3 4\", 3.14]}"⟩, ⟨some c!"(middle_node_label:MiddleNodeLabel {int: 1, str: '2', str2:\"2_4\", float: 3.14, list: [1, '2', \"2_4\", \"3 4\", 3.14]})", some c!"middle_node_label", some c!"MiddleNodeLabel", some c!"{int: 1, str: '2', str2:\"2_4\", float: 3.14, list: [1, '2', \"2_4\", \"3 4\", 3.14]}"⟩, ⟨some c!"-[rmr:RELMR{int: 1, str: '2', str2:\"2_4\", float: 3.14, list: [1, '2', \"2_4\", \"3 4\", 3.14]}]->", some c!"rmr", some c!"RELMR", some c!"{int: 1, str: '2', str2:\"2_4\", float: 3.14, list: [1, '2', \"2_4\", \"3 4\", 3.14]}"⟩, ⟨some c!"(right_node_label:RightNodeLabel {int: 1, str: '2', str2:\"2_4\", float: 3.14, bool: true, none: null, list: [1, '2', \"2_4\", \"3 4\", 3.14]} )", some c!"right_node_label", some c!"RightNodeLabel", some c!"{int: 1, str: '2', str2:\"2_4\", float: 3.14, bool: true, none: null, list: [1, '2', \"2_4\", \"3 4\", 3.14]} "⟩⟩] := by decide +kernel

/-- test_all_params_key_value_regex: EXP PASS: No Match -/
example : capTexts propKV [0, 1, 2, 3, 4, 5, 6, 7] c!"{int: 1, float: 3.14, bool: true, bool2: false, none: null, str: '2', str2:\"2_4\", str3: \"3 4 5\", email: 'foo@bar.net', pn: '+447541254566', list: [1, 3.14, true, false, '2', \"2_4\", \"3 4\", \"foo@bar.net\", \"+447541254566\"]}" = [[c!"int", c!"1", c!"", c!"", c!"", c!"1", c!"", c!""], [c!"float", c!"3.14", c!"", c!"", c!"3.14", c!"", c!"", c!""], [c!"bool", c!"true", c!"", c!"true", c!"", c!"", c!"", c!""], [c!"bool2", c!"false", c!"", c!"false", c!"", c!"", c!"", c!""], [c!"none", c!"null", c!"null", c!"", c!"", c!"", c!"", c!""], [c!"str", c!"'2'", c!"", c!"", c!"", c!"", c!"", c!"'2'"], [c!"str2", c!"\"2_4\"", c!"", c!"", c!"", c!"", c!"", c!"\"2_4\""], [c!"str3", c!"\"3 4 5\"", c!"", c!"", c!"", c!"", c!"", c!"\"3 4 5\""], [c!"email", c!"'foo@bar.net'", c!"", c!"", c!"", c!"", c!"", c!"'foo@bar.net'"], [c!"pn", c!"'+447541254566'", c!"", c!"", c!"", c!"", c!"", c!"'+447541254566'"], [c!"list", c!"[1, 3.14, true, false, '2', \"2_4\", \"3 4\", \"foo@bar.net\", \"+447541254566\"]", c!"", c!"", c!"", c!"", c!"[1, 3.14, true, false, '2', \"2_4\", \"3 4\", \"foo@bar.net\", \"+447541254566\"]", c!""]] := by decide +kernel

/-- test_all_params_key_value_regex: EXP PASS: No Match -/
example : capTexts propKV [0, 1, 2, 3, 4, 5, 6, 7] c!"{int: 1}" = [[c!"int", c!"1", c!"", c!"", c!"", c!"1", c!"", c!""]] := by decide +kernel

/-- test_make_statement_check_params_syntax: EXP PASS: 1 Match -/
example : capTexts checkProps [0] c!"MAKE (:NodeLabel{int: 1, str: '2', str2:\"2_4\", float: 3.14, bool: true, list: [1, '2', \"2_4\", \"3 4\", 3.14]});" = [[c!"{int: 1, str: '2', str2:\"2_4\", float: 3.14, bool: true, list: [1, '2', \"2_4\", \"3 4\", 3.14]}"]] := by decide +kernel

/-- test_make_statement_check_params_syntax: EXP PASS: No Match -/
example : capTexts checkProps [0] c!"REPORT (:NodeLabel);" = [] := by decide +kernel

/-- test_param_list_value_regex: EXP PASS: 1 Match -/
example : capTexts listValue [0] c!"{int: 1, str: '2', str2:\"2_4\", float: 3.14, bool: true, none: null, list: [1, '2', \"2_4\", \"3 4\", 3.14]}" = [[c!"[1, '2', \"2_4\", \"3 4\", 3.14]"]] := by decide +kernel

/-- test_param_list_value_regex: EXP PASS: No Match -/
example : capTexts listValue [0] c!"{int: 1, str: '2', str2:\"2_4\", float: 3.14, none: null, bool: false]}" = [] := by decide +kernel

/-- test_relationship_dir_check_regex: EXP PASS: 1 Match -/
example : capTexts relDirCheck [0, 1] c!"MAKE (:NodeLabel)-[f:REL]->(foo:NodeLabel);" = [[c!"-[f:REL]->", c!"REL"]] := by decide +kernel

/-- test_relationship_dir_check_regex: EXP PASS: 1 Match, long rel -/
example : capTexts relDirCheck [0, 1] c!"MAKE (:NodeLabel)---[f:REL]--->(foo:NodeLabel);" = [[c!"---[f:REL]--->", c!"REL"]] := by decide +kernel

/-- test_relationship_dir_check_regex: EXP PASS: 1 Match -/
example : capTexts relDirCheck [0, 1] c!"MAKE (:NodeLabel)-[]-(foo:NodeLabel);" = [[c!"-[]-", c!""]] := by decide +kernel

/-- test_relationship_dir_check_regex: EXP PASS: 1 Match, long rel not symmetrical -/
example : capTexts relDirCheck [0, 1] c!"MAKE (:NodeLabel)----[]---(foo:NodeLabel);" = [[c!"----[]---", c!""]] := by decide +kernel

/-- test_relationship_dir_check_regex: EXP PASS: 1 Match -/
example : capTexts relDirCheck [0, 1] c!"MAKE (:NodeLabel)<-[f:FOO]->(foo:NodeLabel);" = [[c!"<-[f:FOO]->", c!"FOO"]] := by decide +kernel

/-- test_relationship_dir_check_regex: EXP PASS: No Match -/
example : capTexts relDirCheck [0, 1] c!"REPORT (:NodeLabel);" = [] := by decide +kernel

/-- test_illegal_chars_regex: EXP PASS: 1 Match -/
example : (illegalRe.finditer c!"MAKE (:NodeLabel$)-[#:%]->(foo:NodeLabel*);").map Prod.fst = [c!"$", c!"#", c!"%", c!"*"] := by decide +kernel

/-- test_illegal_chars_regex: EXP PASS: No Match -/
example : (illegalRe.finditer c!"MAKE (:NodeLabel)-[:]->(foo:NodeLabel);").map Prod.fst = [] := by decide +kernel

/-- test_make_statement_all_regex: EXP PASS: 1 Match -/
example : (makeAll.finditer c!"MAKE (:NodeLabel{})-[:]->(foo:NodeLabel {} );").map Prod.fst = [c!"MAKE (:NodeLabel{})-[:]->(foo:NodeLabel {} );"] := by decide +kernel

/-- test_make_statement_all_regex: EXP PASS: 1 Match, MAKE lowercase -/
example : (makeAll.finditer c!"make (:NodeLabel{})-[:]->(foo:NodeLabel {} );").map Prod.fst = [c!"make (:NodeLabel{})-[:]->(foo:NodeLabel {} );"] := by decide +kernel

/-- test_make_statement_all_regex: EXP PASS: No Match -/
example : (makeAll.finditer c!"FIND (:NodeLabel{})-[:]->(foo:NodeLabel {} );").map Prod.fst = [] := by decide +kernel

/-- test_make_statement_check_clause_syntax_regex: EXP PASS: 1 Match -/
example : (makeSpelling.finditer c!"AKME (:NodeLabel{})-[:]->(foo:NodeLabel {} );").isEmpty = false := by decide +kernel

/-- test_make_statement_check_clause_syntax_regex: EXP PASS: No Match -/
example : (makeSpelling.finditer c!"REPORT (:NodeLabel{})-[:]->(foo:NodeLabel {} );").isEmpty = true := by decide +kernel

/-- test_relationship_is_left_to_right: EXP PASS: LTR -/
example : isLeftToRight c!"-[:]->" = .ok true := by decide +kernel

/-- test_relationship_is_left_to_right: EXP PASS: RTL -/
example : isLeftToRight c!"<-[:]-" = .ok false := by decide +kernel

/-- test_relationship_is_left_to_right: EXP EXEC: Non-directed relationship -/
example : isLeftToRight c!"<-[:]->" = .error .nonDirected := by decide +kernel

end WG
