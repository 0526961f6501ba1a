/-
make/parse_make/tests, find/parse_find/tests, report/parse_report/tests

Generated from the tests of the repo: inputs and expected results are those of the test cases.  These are tests of
the model (do the transcribed functions do what the tests say the real ones do?), not proofs of properties.
-/
import Verif.Model.Parse
import Verif.Spec.DemoFS

namespace WG
attribute [local instance] demoRuntime

/-- test_build_parsed_make: EXP PASS: Simple case -/
example : (match buildParsedMake c!"MAKE (:NodeLabel)-[:]->(:NodeLabel);" with
    | .ok m => (match m.patterns with | p :: _ => p.left.label == some c!"NodeLabel" && p.middle.label == some c!"NodeLabel" | [] => false)
    | .error _ => false) = true := by decide +kernel

/-- test_build_parsed_make: EXP PASS: NodeHandles, NodeLabels and NodeParams -/
example : (match buildParsedMake c!"MAKE (foo:NodeLabel{int: 1, str: '2', none: null, bool: true})-[:]->(foo2:NodeLabel);" with
    | .ok m => (match m.patterns with | p :: _ => p.left.handle == some c!"foo" && p.left.props == some c!"{int: 1, str: '2', none: null, bool: true}" && p.middle.handle == some c!"foo2" | [] => false)
    | .error _ => false) = true := by decide +kernel

/-- test_build_parsed_make: EXP PASS: RelHandles, RelLabels and RelParams -/
example : (match buildParsedMake c!"MAKE (:NodeLabel)-[r:REL{float: 3.14, none: null, list: [1, '2', \"2_4\", \"3 4\", 3.14]}]->(:NodeLabel);" with
    | .ok m => (match m.patterns with | p :: _ => p.leftMiddle.handle == some c!"r" && p.leftMiddle.label == some c!"REL" && p.leftMiddle.props == some c!"{float: 3.14, none: null, list: [1, '2', \"2_4\", \"3 4\", 3.14]}" | [] => false)
    | .error _ => false) = true := by decide +kernel

/-- test_extract_make_statement_from_query: EXP PASS: Simple case -/
example : (match parseMake c!"MAKE (:NodeLabel{int: 1})-[:]->(foo:NodeLabel);" with | .ok (some l) => l.length == 1 | _ => false) = true := by decide +kernel

/-- test_extract_make_statement_from_query: EXP PASS: Multiline query -/
example : (match parseMake c!"\n                MAKE (n:NodeLabel)-[r:REL]->(m:NodeLabel);\n                ADJUST n.name = \"h\" and m.name = \"Wig\";\n                FIND (p:NodeLabel)-[r2:REL]->(q:NodeLabel);\n                CRITERIA p.name = \"Bar\" or q.name = \"Bar;\n                REPORT wn(p), wn(q);\n                " with | .ok (some l) => l.length == 1 | _ => false) = true := by decide +kernel

/-- test_extract_make_statement_from_query: EXP PASS: Multiline query, two MAKES -/
example : (match parseMake c!"\n                MAKE (n:NodeLabel)-[r:REL]->(m:NodeLabel);\n                MAKE (n:NodeLabel2)-[r:REL]->(m:NodeLabel2);\n                ADJUST n.name = \"h\" and m.name = \"Wig\";\n                FIND (p:NodeLabel)-[r2:REL]->(q:NodeLabel);\n                CRITERIA p.name = \"Bar\" or q.name = \"Bar;\n                REPORT wn(p), wn(q);\n                " with | .ok (some l) => l.length == 2 | _ => false) = true := by decide +kernel

/-- test_extract_make_statement_from_query: EXP PASS:  Multiline query, One make, two patterns -/
example : (match parseMake c!"\n                MAKE (n:NodeLabel)-[r:REL]->(m:NodeLabel), (n:NodeLabel2)-[r:REL]->(m:NodeLabel2);\n                ADJUST n.name = \"h\" and m.name = \"Wig\";\n                FIND (p:NodeLabel)-[r2:REL]->(q:NodeLabel);\n                CRITERIA p.name = \"Bar\" or q.name = \"Bar;\n                REPORT wn(p), wn(q);\n                " with | .ok (some l) => l.length == 1 | _ => false) = true := by decide +kernel

/-- test_extract_make_statement_from_query: EXP PASS: Not a MAKE stmt -/
example : (match parseMake c!"FIND (:NodeLabel{int: 1})-[:]->(foo:NodeLabel);" with | .ok none => true | _ => false) = true := by decide +kernel

/-- test_extract_make_statement_from_query: EXP EXEC: MAKE clause sp error -/
example : (match parseMake c!"MAEK (:NodeLabel{int: 1})-[:]->(foo:NodeLabel);" with | .error .clauseSyntax => true | _ => false) = true := by decide +kernel

/-- test_build_parsed_find: EXP PASS: Simple case -/
example : (match buildParsedFind c!"FIND (:NodeLabel)-[:]->(:NodeLabel);" with
    | .ok m => m.pattern.left.label == some c!"NodeLabel" && m.pattern.middle.label == some c!"NodeLabel"
    | .error _ => false) = true := by decide +kernel

/-- test_build_parsed_find: EXP PASS: NodeHandles, NodeLabels and NodeParams -/
example : (match buildParsedFind c!"FIND (foo:NodeLabel{int: 1, str: '2', none: null, bool: true})-[:]->(foo2:NodeLabel);" with
    | .ok m => m.pattern.left.handle == some c!"foo" && m.pattern.left.props == some c!"{int: 1, str: '2', none: null, bool: true}" && m.pattern.middle.handle == some c!"foo2"
    | .error _ => false) = true := by decide +kernel

/-- test_build_parsed_find: EXP PASS: RelHandles, RelLabels and RelParams -/
example : (match buildParsedFind c!"FIND (:NodeLabel)-[r:REL{float: 3.14, none: null, list: [1, '2', \"2_4\", \"3 4\", 3.14]}]->(:NodeLabel);" with
    | .ok m => m.pattern.leftMiddle.handle == some c!"r" && m.pattern.leftMiddle.label == some c!"REL" && m.pattern.leftMiddle.props == some c!"{float: 3.14, none: null, list: [1, '2', \"2_4\", \"3 4\", 3.14]}"
    | .error _ => false) = true := by decide +kernel

/-- test_extract_find_statement_from_query: EXP PASS: Simple case -/
example : (match parseFind c!"FIND (:NodeLabel{int: 1})-[:]->(foo:NodeLabel);" with | .ok (some _) => true | _ => false) = true := by decide +kernel

/-- test_extract_find_statement_from_query: EXP PASS: Multiline query -/
example : (match parseFind c!"\n                MAKE (n:NodeLabel)-[r:REL]->(m:NodeLabel);\n                ADJUST n.name = \"h\" and m.name = \"Wig\";\n                FIND (p:NodeLabel)-[r2:REL]->(q:NodeLabel);\n                CRITERIA p.name = \"Bar\" or q.name = \"Bar;\n                REPORT wn(p), wn(q);\n                " with | .ok (some _) => true | _ => false) = true := by decide +kernel

/-- test_extract_find_statement_from_query: EXP PASS: Multiline query, one FIND -/
example : (match parseFind c!"\n                MAKE (n:NodeLabel)-[r:REL]->(m:NodeLabel);\n                MAKE (n:NodeLabel2)-[r:REL]->(m:NodeLabel2);\n                ADJUST n.name = \"h\" and m.name = \"Wig\";\n                FIND (p:NodeLabel)-[r2:REL]->(q:NodeLabel);\n                CRITERIA p.name = \"Bar\" or q.name = \"Bar;\n                REPORT wn(p), wn(q);\n                " with | .ok (some _) => true | _ => false) = true := by decide +kernel

/-- test_extract_find_statement_from_query: EXP PASS:  Multiline query, One FIND, two patterns -/
example : (match parseFind c!"\n                MAKE (n:NodeLabel)-[r:REL]->(m:NodeLabel), (n:NodeLabel2)-[r:REL]->(m:NodeLabel2);\n                ADJUST n.name = \"h\" and m.name = \"Wig\";\n                FIND (p:NodeLabel)-[r2:REL]->(q:NodeLabel);\n                CRITERIA p.name = \"Bar\" or q.name = \"Bar;\n                REPORT wn(p), wn(q);\n                " with | .ok (some _) => true | _ => false) = true := by decide +kernel

/-- test_extract_find_statement_from_query: EXP PASS: Not a FIND stmt -/
example : (match parseFind c!"MAKE (:NodeLabel{int: 1})-[:]->(foo:NodeLabel);" with | .ok none => true | _ => false) = true := by decide +kernel

/-- test_extract_find_statement_from_query: EXP EXEC: FIND clause sp error -/
example : (match parseFind c!"FIDN (:NodeLabel{int: 1})-[:]->(foo:NodeLabel);" with | .error .clauseSyntax => true | _ => false) = true := by decide +kernel

/-- test_extract_find_statement_from_query: EXP EXEC: FIND clause sp error -/
example : (match parseFind c!"\n                MAKE (n:NodeLabel)-[r:REL]->(m:NodeLabel), (n:NodeLabel2)-[r:REL]->(m:NodeLabel2);\n                ADJUST n.name = \"h\" and m.name = \"Wig\";\n                FIND (p:NodeLabel)-[r2:REL]->(q:NodeLabel);\n                CRITERIA p.name = \"Bar\" or q.name = \"Bar;\n                FIND (p:NodeLabel)-[r2:REL]->(q:NodeLabel);\n                CRITERIA p.name = \"Bar\" or q.name = \"Bar;\n                REPORT wn(p), wn(q);\n                " with | .error .multipleClause => true | _ => false) = true := by decide +kernel

/-- test_parse_report_statement_from_query_string: EXP PASS: * -/
example : (match parseReport c!"REPORT *;" [] with | .ok (some _) => true | _ => false) = true := by decide +kernel

/-- test_parse_report_statement_from_query_string: EXP PASS: Single label -/
example : (match parseReport c!"REPORT foo;" [c!"foo"] with | .ok (some _) => true | _ => false) = true := by decide +kernel

/-- test_parse_report_statement_from_query_string: EXP PASS: Single label with prop -/
example : (match parseReport c!"REPORT foo.bar;" [c!"foo"] with | .ok (some _) => true | _ => false) = true := by decide +kernel

/-- test_parse_report_statement_from_query_string: EXP PASS: Single label with multiple props -/
example : (match parseReport c!"REPORT foo.bar, foo.baz, foo.qux;" [c!"foo"] with | .ok (some _) => true | _ => false) = true := by decide +kernel

/-- test_parse_report_statement_from_query_string: EXP PASS: Rel label -/
example : (match parseReport c!"REPORT r;" [c!"r"] with | .ok (some _) => true | _ => false) = true := by decide +kernel

/-- test_parse_report_statement_from_query_string: EXP PASS: Rel label with single prop -/
example : (match parseReport c!"REPORT r.bar;" [c!"r"] with | .ok (some _) => true | _ => false) = true := by decide +kernel

/-- test_parse_report_statement_from_query_string: EXP PASS: Rel label with multiple props -/
example : (match parseReport c!"REPORT r.bar, r.baz, r.qux;" [c!"r"] with | .ok (some _) => true | _ => false) = true := by decide +kernel

/-- test_parse_report_statement_from_query_string: EXP PASS: Mix of Node and rels with props -/
example : (match parseReport c!"REPORT foo.bar, foo.baz, foo.qux, r.bar, r.baz, r.qux;" [c!"foo", c!"r"] with | .ok (some _) => true | _ => false) = true := by decide +kernel

/-- test_parse_report_statement_from_query_string: EXP PASS: Mix of Node and rels with props -/
example : (match parseReport c!"\n                FIND (p:NodeLabel)-[r2:REL]->(q:NodeLabel);\n                CRITERIA p.name = \"Bar\" or q.name = \"Bar;\n                REPORT p, r2, q;\n                " [c!"p", c!"q", c!"r2"] with | .ok (some _) => true | _ => false) = true := by decide +kernel

/-- test_parse_report_statement_from_query_string: EXP EXEC: Missmatch handles -/
example : (match parseReport c!"REPORT bar;" [c!"foo"] with | .error .findReportHandle => true | _ => false) = true := by decide +kernel

/-- test_parse_report_statement_from_query_string: EXP EXEC: Multiple REPORTS -/
example : (match parseReport c!"REPORT bar;\nREPORT bar;" [c!"foo"] with | .error .multipleClause => true | _ => false) = true := by decide +kernel

end WG
