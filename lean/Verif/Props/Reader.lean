/-
C98: what the parser makes of a text is what a reader without regular expressions makes of it, for all texts.
-/
import Verif.Proofs.ReaderQuery
import Verif.Spec.Demo

set_option linter.unusedSectionVars false

namespace WG

section
variable [PyRuntime]

/-- C98, statements: the MAKE, FIND and REPORT statements of every text are those that a reader finds which goes through the text once. -/
theorem C98_statements (q : Str) :
    (makeAll.finditer q).map Prod.fst = scan (readStatement c!"make") q ∧
    (findAll.finditer q).map Prod.fst = scan (readStatement c!"find") q ∧
    (reportAll.finditer q).map Prod.fst = scan readReport q :=
  ⟨(agrees_clause c!"make").finditer q, (agrees_clause c!"find").finditer q, agrees_report.finditer q⟩

/-- C98, patterns: so are the patterns of every statement, with all their parts. -/
theorem C98_patterns (s : Str) : statementPatterns s = scan readPattern s := statementPatterns_scan s

/-- C98, properties: so are the properties of every text, and the first that is wrong. -/
theorem C98_properties (s : Str) : parseProperties s = readProps s := parseProperties_read s

/-- C98, checks: so is the first fault that the checks find in the statements of a clause. -/
theorem C98_checks (stmts : List Str) : validateStatement stmts = readChecks stmts := validate_read stmts

/-- C98, clauses: what is made of the MAKE statements, the FIND and the REPORT of every text. -/
theorem C98_clauses (q : Str) (handles : List Str) :
    parseMake q = readMake q ∧ parseFind q = readFind q ∧ parseReport q handles = readReports q handles :=
  ⟨parseMake_read q, parseFind_read q, parseReport_read q handles⟩

/-- C98, queries: what is made of every text, or with which exception it is refused. -/
theorem C98_query (q : Str) : parseQueryString q = readQuery q := parseQuery_read q

end

/-! ### Instances -/

section
attribute [local instance] demoRuntime

/-- Two statements on one line are one statement. -/
example : (makeAll.finditer c!"x MAKE (a:A); MAKE(b:B);;\nMaKe (c:C);").map Prod.fst = [c!"MAKE (a:A); MAKE(b:B);", c!"MaKe (c:C);"] := by
  rw [(C98_statements _).1]
  decide +kernel

/-- A line break before the bracket is white space, one behind it ends the search; a REPORT needs no bracket. -/
example : (findAll.finditer c!"FIND\n(a:A); FIND (b:\nB);").map Prod.fst = [c!"FIND\n(a:A);"] := by
  rw [(C98_statements _).2.1]
  decide +kernel
example : (reportAll.finditer c!"a report; b; c").map Prod.fst = [c!"report; b;"] := by
  rw [(C98_statements _).2.2]
  decide +kernel

/-- Four nodes are two patterns; what fits no part is passed over. -/
example : (statementPatterns c!"MAKE (a:A)-[:R]->(b:B) (c:C)-[r]-(d:D{x:1}) (:E);").map (fun p => [p.left.label, p.leftMiddle.label,
      p.middle.label, p.middleRight.handle, p.right.label]) =
    [[some c!"A", some c!"R", some c!"B", none, some c!"C"], [none, some c!"", some c!"D", none, some c!"E"]] := by
  rw [C98_patterns]
  decide +kernel

/-- A property without a value gets the last blank before the comma, and is refused; a name twice keeps the later value. -/
example : parseProperties c!"{a:  , b:1}" = .error .illegalPropertyValue := by
  rw [C98_properties]
  decide +kernel
example : parseProperties c!"{a:1, b : null, a:'x y'}" = .ok [(c!"a", .str c!"x y"), (c!"b", .none)] := by
  rw [C98_properties]
  decide +kernel

/-- The check of the arrows takes all up to the next dash for the content; a statement without an arrow ends the check. -/
example : validateStatement [c!"MAKE (a:A)-[:KNOWS{x:[1]}]-(b:B);"] = .error .nonDirected := by
  rw [C98_checks]
  decide +kernel
example : validateStatement [c!"MAKE (a:A)-[r:knows]->(b:B);"] = .error .relationshipName := by
  rw [C98_checks]
  decide +kernel
example : validateStatement [c!"MAKE (a:A);", c!"MAKE (a:A)-[r:knows]->(b:B);"] = .ok () := by
  rw [C98_checks]
  decide +kernel
example : validateStatement [c!"MAKE (a:A)-[r:K-(b:B);"] = .error .clauseSyntax := by
  rw [C98_checks]
  decide +kernel

/-- A query that is read, and one whose handles are not unique. -/
example : ∃ m f, readQuery c!"MAKE (a:A); \nFIND (b:B);\nREPORT b;" = .ok ⟨some [m], some f, some ⟨c!"REPORT b;", .report, c!"REPORT b;"⟩⟩ ∧
    m.patterns.map (·.left.label) = [some c!"A"] ∧ f.pattern.left.label = some c!"B" := by
  rw [← C98_query]
  exact ⟨⟨c!"MAKE (a:A);", .make, [⟨⟨some c!"(a:A)", some c!"a", some c!"A", none⟩, ⟨none, none, none, none⟩, ⟨none, none, none, none⟩,
    ⟨none, none, none, none⟩, ⟨none, none, none, none⟩⟩]⟩, ⟨c!"FIND (b:B);", .find, ⟨⟨some c!"(b:B)", some c!"b", some c!"B", none⟩,
    ⟨none, none, none, none⟩, ⟨none, none, none, none⟩, ⟨none, none, none, none⟩, ⟨none, none, none, none⟩⟩⟩, by decide +kernel, rfl, rfl⟩
example : readFind c!"FIND (a:A)-[r:R]->(r:B);" = .error .makeDuplicateHandles := by
  rw [← (C98_clauses _ []).2.1]
  decide +kernel
end

end WG
