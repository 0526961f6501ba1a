/-
example_queries/*.wql: what the queries shipped with the repo do, on a fresh GDBMS.

Evaluated in the model by the kernel.  These are tests, not proofs of properties: DESIGN.md section 5 lists what they show.
-/
import Verif.Model.Shell
import Verif.Spec.DemoFS

namespace WG
attribute [local instance] demoRuntime

/-- make.wql: refused, no FIND statement gives AttributeError before anything is made. -/
example : (query demoEnv c!"MAKE (n:NodeLabel)-[r:REL]->(m:NodeLabel);\n" demoG).run demoFresh = (.error .attribute, demoFresh) := by decide +kernel

/-- find.wql: refused, the handles of `REPORT wn(p), wn(q)` are taken to be `wn`. -/
example : (query demoEnv c!"FIND (p:NodeLabel)-[r2:REL]->(q:NodeLabel);\nREPORT wn(p), wn(q);\n" demoG).run demoFresh = (.error .findReportHandle, demoFresh) := by decide +kernel

/-- all_clauses.wql: refused likewise. -/
example : (query demoEnv c!"MAKE (n:NodeLabel)-[r:REL]->(m:NodeLabel);\nFIND (p:NodeLabel)-[r2:REL]->(q:NodeLabel);\nCRITERIA p.name = \"Bar\" or q.name = \"Bar;\nADJUST p.name = \"h\" and q.name = \"Wig\";\nREPORT wn(p), wn(q);\n" demoG).run demoFresh = (.error .findReportHandle, demoFresh) := by decide +kernel

/-- make_long.wql: refused, the handle `r` occurs twice. -/
example : (query demoEnv c!"MAKE (:NodeLabel{int: 1, str: '2', str2:\"2_4\", float: 3.14, bool: false, none: null, list: [1, '2', \"2_4\", \"3 4\", 3.14]})<-[r:REL{int: 1, str: '2', str2:\"2_4\", float: 3.14, list: [1, '2', \"2_4\", \"3 4\", 3.14]}]-(foo2:NodeLabel {int: 1, str: '2', str2:\"2_4\", float: 3.14, list: [1, '2', \"2_4\", \"3 4\", 3.14]} ) <-[r:REL{int: 1, str: '2', str2:\"2_4\", float: 3.14, list: [1, '2', \"2_4\", \"3 4\", 3.14]}]- (foo3:NodeLabel {int: 1, str: '2', str2:\"2_4\", float: 3.14, list: [1, '2', \"2_4\", \"3 4\", 3.14]} );\n" demoG).run demoFresh = (.error .makeDuplicateHandles, demoFresh) := by decide +kernel

/- make_long_2_stms.wql begins with the same pattern; it is too long to be evaluated by the kernel. -/

end WG
