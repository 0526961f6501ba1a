/-
C100: the regular expressions of the model are what Python's `re` makes of the pattern texts of the
source.
-/
import Verif.Proofs.PatternTexts
import Verif.Spec.Demo

namespace WG
open Re

/-- Every pattern that compiles numbers its groups by the order of their opening parentheses and
gives no name twice. -/
theorem C100_groups {s : Str} {p : Pat} (h : parsePattern s = some p) : p.groups.map Prod.fst = List.range p.groups.length ∧
    ((p.groups.map Prod.snd).filter (fun n => !n.isEmpty)).Nodup := parse_groups h

/-- The names the program asks for belong to the groups the model uses for them. -/
theorem C100_names :
    (parsePattern PatternText.nodesRels).map Pat.groupNames = some [
      (c!"left_node", gAll 0), (c!"left_node_handle", gHandle 0), (c!"left_node_label", gLabel 0), (c!"left_node_props", gProps 0),
      (c!"left_middle_rel", gAll 1), (c!"left_middle_rel_handle", gHandle 1), (c!"left_middle_rel_label", gLabel 1),
      (c!"left_middle_rel_props", gProps 1),
      (c!"middle_node", gAll 2), (c!"middle_node_handle", gHandle 2), (c!"middle_node_label", gLabel 2), (c!"middle_node_props", gProps 2),
      (c!"middle_right_rel", gAll 3), (c!"middle_right_rel_handle", gHandle 3), (c!"middle_right_rel_label", gLabel 3),
      (c!"middle_right_rel_props", gProps 3),
      (c!"right_node", gAll 4), (c!"right_node_handle", gHandle 4), (c!"right_node_label", gLabel 4), (c!"right_node_props", gProps 4)] ∧
    (parsePattern PatternText.propKV).map Pat.groupNames = some [(c!"property_name", gName), (c!"property_value", gValue),
      (c!"none_type", gNone), (c!"bool_type", gBool), (c!"float_type", gFloat), (c!"int_type", gInt), (c!"list_type", gList),
      (c!"string_type", gString)] ∧
    (parsePattern PatternText.relDirCheck).map Pat.groupNames = some [(c!"foo", 0), (c!"rel_name", 1)] ∧
    (parsePattern PatternText.checkProps).map Pat.groupNames = some [(c!"all_props", 0)] ∧
    (parsePattern PatternText.listValue).map Pat.groupNames = some [(c!"list_value", 0)] := by
  decide +kernel

section
variable [PyRuntime]

/-- `get_clause_all_regex` for every clause of letters, with and without IGNORECASE. -/
theorem C100_clause_all {w : Str} (hw : Letters w) :
    reCompile true (PatternText.clauseAll w) = some (clauseAll (PatternText.lowerA w)) ∧
      reCompile false (PatternText.clauseAll w) = some (clauseAllCS (PatternText.upperA w) (PatternText.lowerA w)) := by
  constructor
  · rw [reCompile, parse_clauseAll hw, Option.bind_some]
    have h1 := toRe_wordCI (upperA_letters hw)
    have h2 := toRe_wordCI (lowerA_letters hw)
    rw [lower_upper hw] at h1
    rw [lower_lower hw] at h2
    simp only [Pat.seqL, Pat.toRe, h1, h2]
    rfl
  · rw [reCompile, parse_clauseAll hw, Option.bind_some]
    simp only [Pat.seqL, Pat.toRe, toRe_word]
    rfl

/-- `get_clause_permutations_regex` for every clause of letters. -/
theorem C100_permutations {w : Str} (hw : Letters w) :
    reCompile true (PatternText.clausePermutations w) = some (spelling (PatternText.lowerA w)) := by
  rw [reCompile, parse_permutations hw, Option.bind_some]
  simp only [Pat.seqL, Pat.toRe, toRe_perms hw]
  rw [spelling, show (PatternText.lowerA w).length = w.length from List.length_map ..]
  rfl

/-- The statement patterns of MAKE, FIND and REPORT. -/
theorem C100_statements :
    reCompile true PatternText.makeAll = some makeAll ∧ reCompile false PatternText.makeAll = some makeAllCS ∧
    reCompile true PatternText.findAll = some findAll ∧ reCompile false PatternText.findAll = some findAllCS ∧
    reCompile true PatternText.reportAll = some reportAll ∧ reCompile false PatternText.reportAll = some reportAllCS := by
  have hm : Letters c!"MAKE" := by unfold Letters; decide
  have hf : Letters c!"FIND" := by unfold Letters; decide
  have hr : Letters c!"REPORT" := by unfold Letters; decide
  have hp := parse_report (w := PatternText.upperA c!"REPORT") (ws := [PatternText.lowerA c!"REPORT"]) (by
    intro v hv
    simp only [List.mem_cons, List.not_mem_nil, or_false] at hv
    rcases hv with rfl | rfl
    · exact upperA_letters hr
    · exact lowerA_letters hr)
  have hp : parsePattern PatternText.reportAll = _ := hp
  refine ⟨(C100_clause_all hm).1, (C100_clause_all hm).2, (C100_clause_all hf).1, (C100_clause_all hf).2, ?_, ?_⟩
  · rw [reCompile, hp, Option.bind_some]
    have h1 := toRe_wordCI (upperA_letters hr)
    have h2 := toRe_wordCI (lowerA_letters hr)
    simp only [List.map_cons, List.map_nil, Pat.altL, Pat.seqL, Pat.toRe, h1, h2]
    rfl
  · rw [reCompile, hp, Option.bind_some]
    simp only [List.map_cons, List.map_nil, Pat.altL, Pat.seqL, Pat.toRe, toRe_word]
    rfl

/-- The patterns for misspelt clauses. -/
theorem C100_spelling :
    reCompile true PatternText.makeSpelling = some makeSpelling ∧ reCompile true PatternText.findSpelling = some findSpelling ∧
    reCompile true PatternText.reportSpelling = some reportSpelling := by
  have hm : Letters c!"MAKE" := by unfold Letters; decide
  have hf : Letters c!"FIND" := by unfold Letters; decide
  have hr : Letters c!"REPORT" := by unfold Letters; decide
  refine ⟨C100_permutations hm, C100_permutations hf, ?_⟩
  have hl := perms_letters hr 6
  have hn := perms_ne_nil c!"REPORT"
  have ht := toRe_perms hr
  have e : PatternText.reportSpelling = c!"(?P<report_stmt_all>(" ++ PatternText.barJoin (perms 6 c!"REPORT") ++ c!").+;)" := rfl
  have hlen : List.length c!"REPORT" = 6 := rfl
  rw [hlen] at ht hn
  have hp : parsePattern PatternText.reportSpelling = some (.group 0 c!"report_stmt_all" (Pat.seqL [.group 1 []
      (Pat.altL ((perms 6 c!"REPORT").map Pat.wordP)), .rep .plus .dot, .lit ';'])) := by
    rw [e]
    clear e ht
    generalize perms 6 c!"REPORT" = ps at hl hn
    cases ps with
    | nil => exact absurd rfl hn
    | cons v vs => exact parse_report hl
  rw [reCompile, hp, Option.bind_some]
  simp only [Pat.seqL, Pat.toRe, ht]
  rfl

/-- `get_node_pattern_regex` and `get_rel_pattern_regex` for every name. -/
theorem C100_parts {n : Str} (hn : Ident n) (ci : Bool) :
    reCompile ci (PatternText.nodePattern n) = some (.seq (.star isSpace) (nodeGrp 0)) ∧
      reCompile ci (PatternText.relPattern n) = some (.seq (.star isSpace) (relGrp 0)) := by
  constructor
  · rw [reCompile, parse_nodePattern hn, Option.bind_some]
    have := toRe_node ci 0 (n ++ c!"_node")
    rw [Nat.mul_zero] at this
    simp only [Pat.toRe, this]; rfl
  · rw [reCompile, parse_relPattern hn, Option.bind_some]
    have := toRe_rel ci 0 (n ++ c!"_rel")
    rw [Nat.mul_zero] at this
    simp only [Pat.toRe, this]; rfl

/-- The pattern of nodes and relationships: the same ways to match, in the same order, with the
same groups, on every text, and so the same matches. -/
theorem C100_nodes_rels (ci : Bool) : ∃ re, reCompile ci PatternText.nodesRels = some re ∧ (∀ s, re.run s = nodesRelsPattern.run s) ∧
    ∀ s, re.finditer s = nodesRelsPattern.finditer s := by
  refine ⟨_, by rw [reCompile, parse_nodesRels, Option.bind_some, toRe_nodesRels], fun s => ?_, fun s => ?_⟩
  · rw [run_nodesRels]
  · rw [same_finditer run_nodesRels]

/-- The patterns of properties, directions, illegal characters and arrow heads. -/
theorem C100_others :
    reCompile true PatternText.propKV = some propKV ∧ reCompile true PatternText.checkProps = some checkProps ∧
    reCompile true PatternText.listValue = some listValue ∧ reCompile true PatternText.relDirCheck = some relDirCheck ∧
    reCompile true PatternText.illegal = some illegalRe ∧ reCompile false PatternText.angles = some (plus isAngle) := by
  refine ⟨?_, ?_, ?_, ?_, ?_, ?_⟩
  · rw [reCompile, parse_propKV, Option.bind_some, toRe_propKV]
  · rw [reCompile, parse_checkProps, Option.bind_some, toRe_checkProps]
  · rw [reCompile, parse_listValue, Option.bind_some, toRe_listValue]
  · rw [reCompile, parse_relDirCheck, Option.bind_some, toRe_relDirCheck]
  · rw [reCompile, parse_illegal, Option.bind_some, toRe_illegal]
  · rw [reCompile, parse_angles, Option.bind_some, toRe_angles]

end

/-! ### The hypotheses can be met -/

/-- The clauses of the program are letters, the names of its parts are identifiers. -/
example : Letters c!"MAKE" ∧ Letters c!"report" ∧ ¬ Letters c!"MA(KE" ∧ Ident c!"left_middle" ∧ Ident c!"this" ∧ ¬ Ident c!"2nd" := by
  refine ⟨by unfold Letters; decide, by unfold Letters; decide, by unfold Letters; decide, ?_, ?_, ?_⟩ <;> unfold Ident <;> decide

/-- A clause that is not a word of letters need not compile: `MA(KE` leaves a parenthesis open, and
two groups of one name are refused. -/
example : parsePattern (PatternText.clauseAll c!"MA(KE") = none ∧ parsePattern c!"(?P<a>x)(?P<a>y)" = none ∧ parsePattern c!"a**" = none ∧
    parsePattern c!"*" = none ∧ parsePattern c!"(?P<2nd>x)" = none ∧ parsePattern c!"[a" = none ∧ parsePattern c!"a)" = none := by
  decide +kernel

/-- A pattern with groups inside groups. -/
example : ∃ p, parsePattern c!"((?P<a>x)|y)(?P<b>{[0-9]+})?" = some p ∧ p.groups = [(0, []), (1, c!"a"), (2, c!"b")] :=
  ⟨_, rfl, by decide +kernel⟩

section
attribute [local instance] demoRuntime

/-- The compiled pattern finds what the source's comment shows. -/
example : ((reCompile true PatternText.nodesRels).map fun re => (re.finditer c!"(n:Node)").map Prod.fst) = some [c!"(n:Node)", []] := by
  decide +kernel

end

end WG
