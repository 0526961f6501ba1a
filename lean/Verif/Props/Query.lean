/-
Queries, FIND and the shell loop (C46–C54).
-/
import Verif.Spec.Gdbms
import Verif.Proofs.Query
import Verif.Proofs.Parse
import Verif.Props.Index

set_option linter.unusedSectionVars false
set_option linter.unusedSimpArgs false

namespace WG

section
variable [PyRuntime]

/-! ### C46 -/

/-- C46: a query that fails to parse raises that exception, and at no time is the disk different. -/
theorem C46_parse_failure_changes_nothing (env : Env) (q : Str) (g : GPath) (fs : FS) (e : PyErr)
    (h : parseQueryString q = .error e) :
    (query env q g).run fs = (.error e, fs) ∧
      ∀ (tear : Path → Prop) (fs' : FS), CrashAt tear (query env q g) fs fs' → fs' = fs := by
  refine ⟨by rw [query_run, h], fun tear fs' hc => ?_⟩
  unfold query at hc
  simp only [Bool.and_false, Bool.false_eq_true, if_false, h] at hc
  rcases crash_bind hc with hc | ⟨a, fs1, hr, _⟩
  · exact crash_liftE hc
  · rw [run_liftE] at hr; simp at hr

/-! ### C47 -/

/-- C47: a query without FIND clause is never executed, whatever MAKEs it has: it raises and changes
nothing.  (This refutes the property, see `C47_violated`.) -/
theorem C47_without_find_never_executed (env : Env) (q : Str) (g : GPath) (fs : FS) (h : parseFind q = .ok none) :
    ∃ e, (query env q g).run fs = (.error e, fs) := by
  cases hm : parseMake q with
  | error e => exact ⟨e, by rw [query_run]; simp [parseQueryString, hm]⟩
  | ok mk => exact ⟨.attribute, by rw [query_run]; simp [parseQueryString, hm, h]⟩

/-- C47 for queries that also have a FIND: the disk after the query is the one after its MAKEs, so they
are executed.  Missing from the full property: queries of MAKEs only (`C47_violated`). -/
theorem C47_makes_are_executed_partial (env : Env) (q : Str) (g : GPath) (fs : FS) (p : ParsedQuery)
    (m : ParsedMake) (ms : List ParsedMake) (h : parseQueryString q = .ok p) (hm : p.make = some (m :: ms)) :
    ((query env q g).run fs).2 = ((make env (m :: ms) g).run fs).2 := by
  have hf : ∃ f, p.find = some f := by
    unfold parseQueryString at h
    repeat' (first | split at h | simp at h)
    subst h
    exact ⟨_, rfl⟩
  obtain ⟨f, hf⟩ := hf
  rw [query_run, h]
  simp only
  rw [execute_run hf, hm]
  simp only [executeMakes]
  cases h1 : (make env (m :: ms) g).run fs with
  | mk r fs1 =>
    cases r with
    | error e => rfl
    | ok b =>
      simp only
      have := run_readOnly (readOnly_find f g none) fs1
      cases h2 : (find f g none).run fs1 with
      | mk r2 fs2 =>
        rw [h2] at this
        cases r2 <;> exact this

/-! ### C48 -/

/-- C48: if a query raises and the disk has changed, then the query had a MAKE that was accepted: it
either returned, and FIND raised, or it raised while writing.  In particular queries without MAKE, and
queries whose MAKE is rejected, are all-or-nothing.  Missing from the full property: the cases named
(`C48_violated`). -/
theorem C48_query_all_or_nothing_partial (env : Env) (q : Str) (g : GPath) (fs fs' : FS) (e : PyErr)
    (h : (query env q g).run fs = (.error e, fs')) (hne : fs' ≠ fs) :
    ∃ p f ms, parseQueryString q = .ok p ∧ p.make = some ms ∧ p.find = some f ∧ MakeOK ms ∧
      (((∃ b, (make env ms g).run fs = (.ok b, fs')) ∧ (find f g none).run fs' = (.error e, fs')) ∨
        (make env ms g).run fs = (.error e, fs')) := by
  rw [query_run] at h
  cases hp : parseQueryString q with
  | error e' => rw [hp] at h; simp at h; exact absurd h.2.symm hne
  | ok p =>
    rw [hp] at h
    simp only at h
    have hf : ∃ f, p.find = some f := by
      unfold parseQueryString at hp
      repeat' (first | split at hp | simp at hp)
      subst hp
      exact ⟨_, rfl⟩
    obtain ⟨f, hf⟩ := hf
    rw [execute_run hf] at h
    have nomake : ∀ mk, (executeMakes env g mk).run fs = (.ok true, fs) → p.make = mk → False := by
      intro mk h1 h2
      rw [h2, h1] at h
      simp only at h
      have := run_readOnly (readOnly_find f g none) fs
      cases h3 : (find f g none).run fs with
      | mk r2 fs2 =>
        rw [h3] at this h
        cases r2 with
        | error e2 => simp at h; exact hne (h.2 ▸ this)
        | ok x => simp at h
    cases hm : p.make with
    | none => exact absurd hm (nomake none rfl)
    | some ms =>
      cases ms with
      | nil => exact absurd hm (nomake _ rfl)
      | cons m ms =>
        rw [hm] at h
        simp only [executeMakes] at h
        refine ⟨p, f, m :: ms, rfl, hm, hf, ?_, ?_⟩
        · by_cases hok : MakeOK (m :: ms)
          · exact hok
          · obtain ⟨e', he⟩ := C22_rejected_make_changes_nothing env (m :: ms) g fs (Or.inr hok)
            rw [he] at h; simp at h; exact absurd h.2.symm hne
        · cases h1 : (make env (m :: ms) g).run fs with
          | mk r fs1 =>
            rw [h1] at h
            cases r with
            | error e' => simp at h; right; rw [h.1, h.2]
            | ok b =>
              simp only at h
              have := run_readOnly (readOnly_find f g none) fs1
              cases h3 : (find f g none).run fs1 with
              | mk r2 fs2 =>
                rw [h3] at this h
                simp at this
                cases r2 with
                | ok x => simp at h
                | error e2 =>
                  simp at h
                  obtain ⟨rfl, rfl⟩ := h
                  subst this
                  exact Or.inl ⟨⟨b, rfl⟩, h3⟩

/-! ### C49 -/

/-- C49: FIND changes nothing, whatever happens and whenever it is stopped. -/
theorem C49_find_reads_only (tear : Path → Prop) (pf : ParsedFind) (g : GPath) (c : Option Criteria) (fs : FS) :
    ((find pf g c).run fs).2 = fs ∧ ∀ fs', CrashAt tear (find pf g c) fs fs' → fs' = fs :=
  ⟨run_readOnly (readOnly_find pf g c) fs, fun _ h => crash_readOnly (readOnly_find pf g c) h⟩

/-- C49: REPORT changes nothing. -/
theorem C49_report_reads_only (r : ParsedReport) (found : Found) (g : GPath) (fs : FS) :
    (report r found g).run fs = (.ok true, fs) := rfl

/-- C49: a query without MAKE changes nothing. -/
theorem C49_find_query_reads_only (env : Env) (q : Str) (g : GPath) (fs : FS) (h : parseMake q = .ok none) :
    ((query env q g).run fs).2 = fs := by
  cases hr : (query env q g).run fs with
  | mk r fs' =>
    cases hp : parseQueryString q with
    | error e => rw [(C46_parse_failure_changes_nothing env q g fs e hp).1] at hr; simp at hr; exact hr.2.symm
    | ok p =>
      have hm : p.make = none := by
        unfold parseQueryString at hp
        rw [h] at hp
        simp only at hp
        repeat' (first | split at hp | simp at hp)
        subst hp; rfl
      have hf : ∃ f, p.find = some f := by
        unfold parseQueryString at hp
        repeat' (first | split at hp | simp at hp)
        subst hp
        exact ⟨_, rfl⟩
      obtain ⟨f, hf⟩ := hf
      rw [query_run, hp] at hr
      simp only at hr
      rw [execute_run hf, hm] at hr
      simp only [executeMakes, run_pure] at hr
      have := run_readOnly (readOnly_find f g none) fs
      cases h3 : (find f g none).run fs with
      | mk r2 fs2 =>
        rw [h3] at hr this
        cases r2 <;> simp at hr this <;> rw [← hr.2, this]

/-! ### C50 -/

/-- What FIND really does on a loadable index file, whatever the pattern: it says "No results" if none
of the labels is indexed or some relationship name *is* indexed. -/
theorem C50_actual_behaviour (pf : ParsedFind) (c : Option Criteria) (g : GPath) (fs : FS) (f : FindPre)
    (D : Dict V) (labels names : List Str) (rels : Dict (List Int)) (hD : Holds fs g.idx D)
    (hs : IndexShape D labels names rels) (hf : processParsedFind pf c = .ok f) :
    ∃ r, (find pf g c).run fs = (.ok r, fs) ∧
      (r = .noResults ↔ (∀ l ∈ f.labels, l ∉ labels) ∨ ∃ n ∈ f.relNames, n ∈ names) := by
  obtain ⟨⟨L, hL, hL'⟩, ⟨N, hN, hN'⟩, _⟩ := C11_load_returns_index g.idx fs D labels names rels hD hs
  unfold find
  rw [run_bind_ok (show (liftE (processParsedFind pf c)).run fs = (.ok f, fs) by rw [run_liftE, hf])]
  unfold findShortCircuit
  have h1 : nodeLabelIsInIndex f.labels L = true ↔ ∃ l ∈ f.labels, l ∈ labels := by
    simp only [nodeLabelIsInIndex, List.any_eq_true, decide_eq_true_eq, hL']
    simp
  have h2 : relationshipNameIsInIndex f.relNames N = true ↔ ∃ n ∈ f.relNames, n ∈ names := by
    simp only [relationshipNameIsInIndex, List.any_eq_true, decide_eq_true_eq, hN']
    simp
  by_cases c1 : ∃ l ∈ f.labels, l ∈ labels
  · by_cases c2 : ∃ n ∈ f.relNames, n ∈ names
    · refine ⟨.noResults, ?_, by simp [c2]⟩
      rw [run_bind, run_bind_ok hL, run_bind_ok hN]
      simp [h1.2 c1, h2.2 c2]
    · refine ⟨.placeholder, ?_, ?_⟩
      · rw [run_bind, run_bind_ok hL, run_bind_ok hN]
        have : relationshipNameIsInIndex f.relNames N = false := by
          cases e : relationshipNameIsInIndex f.relNames N with
          | false => rfl
          | true => exact absurd (h2.1 e) c2
        simp [h1.2 c1, this]
      · simp only [reduceCtorEq, false_iff, not_or]
        obtain ⟨l, hl, hl'⟩ := c1
        exact ⟨fun h => h l hl hl', c2⟩
  · refine ⟨.noResults, ?_, ?_⟩
    · rw [run_bind, run_bind_ok hL, run_bind_ok hN]
      have : nodeLabelIsInIndex f.labels L = false := by
        cases e : nodeLabelIsInIndex f.labels L with
        | false => rfl
        | true => exact absurd (h1.1 e) c1
      simp [this]
    · simp only [true_iff]
      exact Or.inl fun l hl hl' => c1 ⟨l, hl, hl'⟩

/-- The labels written in a pattern. -/
def patLabels (p : ParsedPattern) : List Str := (writtenNodes p).filterMap (·.label)

/-- The relationship names written in a pattern. -/
def patNames (p : ParsedPattern) : List Str := (writtenRels p).filterMap (·.label)

/-- A pattern with one node and nothing else. -/
structure OneNode (p : ParsedPattern) : Prop where
  middle : truthy p.middle.text = false
  right : truthy p.right.text = false
  lm : truthy p.leftMiddle.text = false
  mr : truthy p.middleRight.text = false

theorem process_oneNode {pf : ParsedFind} {c : Option Criteria} (hc : pf.clause = .find) (h : OneNode pf.pattern) :
    processParsedFind pf c = match findNode pf.pattern.left c with
      | .error e => .error e
      | .ok l => .ok { left := l, middle := none, right := none, labels := [l.label], relNames := [] } := by
  have e1 : ∀ f, findLM pf.pattern c f = .ok f := by
    intro f
    unfold findLM
    have := h.lm
    split
    · next ht => rw [ht] at this; simp [truthy] at this
    · rfl
  have e2 : ∀ f, findMR pf.pattern c f = .ok f := by
    intro f
    unfold findMR
    have := h.mr
    split
    · next ht => rw [ht] at this; simp [truthy] at this
    · rfl
  unfold processParsedFind
  simp only [hc, ne_eq, not_true_eq_false, if_false]
  cases findNode pf.pattern.left c with
  | error e => rfl
  | ok l => simp [findMiddle, findRight, h.middle, e1, e2]

theorem findNode_ok {t : PartText} {label : Str} {props : Option (Dict V)} (hl : t.label = some label)
    (hp : getPropertyDict t.props = .ok props) :
    findNode t none = .ok { label := label, handle := t.handle, yes := props, no := [], rels := [] } := by
  simp [findNode, hp, hl, mkFindNode, addCriteriaNode]

/-- C50 for patterns of one node: FIND says "No results" iff the label is absent from the index.
Missing from the full property: patterns with relationships, where the test of relationship names is
inverted and one indexed label is enough (`C50_violated_present`, `C50_violated_absent`); FIND does not
get that far for two-node patterns (C51). -/
theorem C50_no_results_iff_absent_partial (pf : ParsedFind) (g : GPath) (fs : FS) (D : Dict V)
    (labels names : List Str) (rels : Dict (List Int)) (label : Str) (hc : pf.clause = .find)
    (hD : Holds fs g.idx D) (hs : IndexShape D labels names rels) (h1 : OneNode pf.pattern)
    (hl : pf.pattern.left.label = some label) (hp : PropsOK pf.pattern.left) :
    ∃ r, (find pf g none).run fs = (.ok r, fs) ∧
      (r = .noResults ↔ (∃ l ∈ patLabels pf.pattern, l ∉ labels) ∨ ∃ n ∈ patNames pf.pattern, n ∉ names) := by
  obtain ⟨props, hp⟩ := hp
  obtain ⟨r, h2, h3⟩ := C50_actual_behaviour pf none g fs _ D labels names rels hD hs
    (by rw [process_oneNode hc h1, findNode_ok hl hp])
  refine ⟨r, h2, h3.trans ?_⟩
  simp [patLabels, patNames, writtenNodes, writtenRels, h1.middle, h1.right, h1.lm, h1.mr, hl]

/-! ### C51 -/

/-- C51 for one node: the pattern is processed, with handle, label and properties of the node. -/
theorem C51_one_node_partial (pf : ParsedFind) (label : Str) (hc : pf.clause = .find) (h1 : OneNode pf.pattern)
    (hl : pf.pattern.left.label = some label) (hp : PropsOK pf.pattern.left) :
    ∃ f, processParsedFind pf none = .ok f ∧ f.left.label = label ∧ f.left.handle = pf.pattern.left.handle ∧
      getPropertyDict pf.pattern.left.props = .ok f.left.yes ∧ f.left.no = [] ∧ f.left.rels = [] ∧
      f.middle = none ∧ f.right = none := by
  obtain ⟨props, hp⟩ := hp
  exact ⟨_, by rw [process_oneNode hc h1, findNode_ok hl hp], rfl, rfl, hp, rfl, rfl, rfl, rfl⟩

theorem dir_ok {t : PartText} {c : Char} {cs : Str} (ht : t.text = some (c :: cs)) (hb : ¬ bothHeads t) :
    isLeftToRight (c :: cs) = .ok (pointsRight t) := by
  simp only [bothHeads, ht, Option.getD_some] at hb
  unfold isLeftToRight
  rw [if_neg hb]
  simp only [pointsRight, ht, Option.getD_some]
  cases h : (c :: cs).getLast? with
  | none => simp at h
  | some x => simp

theorem text_cases (o : Option Str) : (∃ c cs, o = some (c :: cs)) ∨ (truthy o = false ∧ ∀ c cs, o ≠ some (c :: cs)) := by
  cases o with
  | none => exact Or.inr ⟨rfl, by simp⟩
  | some s =>
    cases s with
    | nil => exact Or.inr ⟨rfl, by simp⟩
    | cons c cs => exact Or.inl ⟨c, cs, rfl⟩

theorem findLM_ok {p : ParsedPattern} {f : FindPre} {m : FindNodePre} {props : Option (Dict V)}
    (hm : f.middle = some m) (hb : truthy p.leftMiddle.text = true → ¬ bothHeads p.leftMiddle)
    (hp : getPropertyDict p.leftMiddle.props = .ok props) :
    ∃ f' L M, findLM p none f = .ok f' ∧ f'.left = { f.left with rels := f.left.rels ++ L } ∧
      f'.middle = some { m with rels := m.rels ++ M } ∧ f'.right = f.right ∧
      (truthy p.leftMiddle.text = true → ∃ x : FindRelPre, x.name = p.leftMiddle.label ∧
        x.handle = p.leftMiddle.handle ∧ getPropertyDict p.leftMiddle.props = .ok x.yes ∧
        (if pointsRight p.leftMiddle then x ∈ L else x ∈ M)) := by
  rcases text_cases p.leftMiddle.text with ⟨c, cs, ht⟩ | ⟨hf, hn⟩
  · have hd := dir_ok ht (hb (by rw [ht]; rfl))
    cases hd' : pointsRight p.leftMiddle with
    | true =>
      rw [hd'] at hd
      refine ⟨{ f with left := f.left.addRel ⟨p.leftMiddle.label, p.leftMiddle.handle, props, []⟩,
                         relNames := addRelName f.relNames p.leftMiddle.label },
        [⟨p.leftMiddle.label, p.leftMiddle.handle, props, []⟩], [], ?_, rfl, by simpa using hm, rfl, fun _ =>
        ⟨_, rfl, rfl, hp, by simp; rfl⟩⟩
      simp only [findLM, ht, findRel, hp, addCriteriaRel, hd]
    | false =>
      rw [hd'] at hd
      refine ⟨{ f with middle := some (m.addRel ⟨p.leftMiddle.label, p.leftMiddle.handle, props, []⟩),
                         relNames := addRelName f.relNames p.leftMiddle.label },
        [], [⟨p.leftMiddle.label, p.leftMiddle.handle, props, []⟩], ?_, ?_, rfl, rfl, fun _ =>
        ⟨_, rfl, rfl, hp, by simp; rfl⟩⟩
      · simp only [findLM, ht, findRel, hp, addCriteriaRel, hd, hm]
      · simp
  · refine ⟨f, [], [], ?_, by simp, by simpa using hm, rfl, by simp [hf]⟩
    unfold findLM
    split
    · next c cs h => exact absurd h (hn c cs)
    · rfl

theorem findMR_ok {p : ParsedPattern} {f : FindPre} {m r : FindNodePre} {props : Option (Dict V)}
    (hm : f.middle = some m) (hr : f.right = some r)
    (hb : truthy p.middleRight.text = true → ¬ bothHeads p.middleRight)
    (hp : getPropertyDict p.middleRight.props = .ok props) :
    ∃ f' M R, findMR p none f = .ok f' ∧ f'.left = f.left ∧
      f'.middle = some { m with rels := m.rels ++ M } ∧ f'.right = some { r with rels := r.rels ++ R } ∧
      (truthy p.middleRight.text = true → ∃ x : FindRelPre, x.name = p.middleRight.label ∧
        x.handle = p.middleRight.handle ∧ getPropertyDict p.middleRight.props = .ok x.yes ∧
        (if pointsRight p.middleRight then x ∈ M else x ∈ R)) := by
  rcases text_cases p.middleRight.text with ⟨c, cs, ht⟩ | ⟨hf, hn⟩
  · have hd := dir_ok ht (hb (by rw [ht]; rfl))
    cases hd' : pointsRight p.middleRight with
    | true =>
      rw [hd'] at hd
      refine ⟨{ f with middle := some (m.addRel ⟨p.middleRight.label, p.middleRight.handle, props, []⟩),
                         relNames := addRelName f.relNames p.middleRight.label },
        [⟨p.middleRight.label, p.middleRight.handle, props, []⟩], [], ?_, rfl, rfl, ?_, fun _ =>
        ⟨_, rfl, rfl, hp, by simp; rfl⟩⟩
      · simp only [findMR, ht, findRel, hp, addCriteriaRel, hd, hm]
      · simpa using hr
    | false =>
      rw [hd'] at hd
      refine ⟨{ f with right := some (r.addRel ⟨p.middleRight.label, p.middleRight.handle, props, []⟩),
                         relNames := addRelName f.relNames p.middleRight.label },
        [], [⟨p.middleRight.label, p.middleRight.handle, props, []⟩], ?_, rfl, ?_, rfl, fun _ =>
        ⟨_, rfl, rfl, hp, by simp; rfl⟩⟩
      · simp only [findMR, ht, findRel, hp, addCriteriaRel, hd, hr]
      · simpa using hm
  · refine ⟨f, [], [], ?_, rfl, by simpa using hm, by simpa using hr, by simp [hf]⟩
    unfold findMR
    split
    · next c cs h => exact absurd h (hn c cs)
    · rfl

/-- C51 for three nodes: a well-formed pattern is processed; left and middle node have their own
handles, labels and properties, the right node its own label; every relationship is attached to the
node it comes from, with its own name, handle and properties.  Missing from the full property: the
right node has the handle of the middle node and the properties of the left one
(`C51_violated_right`), and two-node patterns (`C51_two_nodes_fail`). -/
theorem C51_three_nodes_partial (pf : ParsedFind) (hc : pf.clause = .find) (hs : PatShape pf.pattern)
    (hm : truthy pf.pattern.middle.text = true) (hr : truthy pf.pattern.right.text = true)
    (hp : ∀ t ∈ pf.pattern.parts, PropsOK t) :
    ∃ f m r, processParsedFind pf none = .ok f ∧ f.middle = some m ∧ f.right = some r ∧
      pf.pattern.left.label = some f.left.label ∧ f.left.handle = pf.pattern.left.handle ∧
      getPropertyDict pf.pattern.left.props = .ok f.left.yes ∧
      pf.pattern.middle.label = some m.label ∧ m.handle = pf.pattern.middle.handle ∧
      getPropertyDict pf.pattern.middle.props = .ok m.yes ∧
      pf.pattern.right.label = some r.label ∧
      (truthy pf.pattern.leftMiddle.text = true → ∃ x : FindRelPre, x.name = pf.pattern.leftMiddle.label ∧
        x.handle = pf.pattern.leftMiddle.handle ∧ getPropertyDict pf.pattern.leftMiddle.props = .ok x.yes ∧
        (if pointsRight pf.pattern.leftMiddle then x ∈ f.left.rels else x ∈ m.rels)) ∧
      (truthy pf.pattern.middleRight.text = true → ∃ x : FindRelPre, x.name = pf.pattern.middleRight.label ∧
        x.handle = pf.pattern.middleRight.handle ∧ getPropertyDict pf.pattern.middleRight.props = .ok x.yes ∧
        (if pointsRight pf.pattern.middleRight then x ∈ m.rels else x ∈ r.rels)) := by
  have hp0 := hp pf.pattern.left (by simp [ParsedPattern.parts])
  have hp1 := hp pf.pattern.leftMiddle (by simp [ParsedPattern.parts])
  have hp2 := hp pf.pattern.middle (by simp [ParsedPattern.parts])
  have hp3 := hp pf.pattern.middleRight (by simp [ParsedPattern.parts])
  obtain ⟨q0, hp0⟩ := hp0
  obtain ⟨q1, hp1⟩ := hp1
  obtain ⟨q2, hp2⟩ := hp2
  obtain ⟨q3, hp3⟩ := hp3
  have hl := hs.left
  have hml := hs.middle hm
  have hrl := hs.right hr
  obtain ⟨ll, hl⟩ := Option.ne_none_iff_exists'.1 hl
  obtain ⟨ml, hml⟩ := Option.ne_none_iff_exists'.1 hml
  obtain ⟨rl, hrl⟩ := Option.ne_none_iff_exists'.1 hrl
  unfold processParsedFind
  simp only [hc, ne_eq, not_true_eq_false, if_false, findNode_ok hl hp0, findMiddle, hm, if_true, findNode_ok hml hp2,
    findRight, hp0, updateWithModel, mkFindNode, hrl, addCriteriaNode]
  obtain ⟨f1, L1, M1, e1, e2, e3, e4, e5⟩ := findLM_ok (p := pf.pattern)
    (f := { left := { label := ll, handle := pf.pattern.left.handle, yes := q0, no := [], rels := [] },
            middle := some { label := ml, handle := pf.pattern.middle.handle, yes := q2, no := [], rels := [] },
            right := some { label := rl, handle := pf.pattern.middle.handle, yes := q0, no := [], rels := [] },
            labels := [ll] ++ [ml] ++ [rl], relNames := [] }) rfl (fun h => (hs.lm h).2) hp1
  rw [e1]
  obtain ⟨f2, M2, R2, g1, g2, g3, g4, g5⟩ := findMR_ok (p := pf.pattern) (f := f1) e3 e4 (fun h => (hs.mr h).2.2) hp3
  refine ⟨f2, _, _, g1, g3, g4, ?_⟩
  rw [g2, e2]
  refine ⟨hl, rfl, rfl, hml, rfl, hp2, rfl, fun h => ?_, fun h => ?_⟩
  · obtain ⟨x, x1, x2, x3, x4⟩ := e5 h
    refine ⟨x, x1, x2, x3, ?_⟩
    split
    · next hd => rw [if_pos hd] at x4; simpa using x4
    · next hd => rw [if_neg hd] at x4; simp [x4]
  · obtain ⟨x, x1, x2, x3, x4⟩ := g5 h
    refine ⟨x, x1, x2, x3, ?_⟩
    split
    · next hd => rw [if_pos hd] at x4; simp [x4]
    · next hd => rw [if_neg hd] at x4; simpa using x4

/-- C51 is violated by every two-node pattern: it has no right node, whose label is then missing.  With or without CRITERIA. -/
theorem C51_two_nodes_fail (pf : ParsedFind) (crit : Option Criteria) (hm : truthy pf.pattern.middle.text = true)
    (hr : pf.pattern.right = .absent) : ∃ e, processParsedFind pf crit = .error e := by
  cases h : processParsedFind pf crit with
  | error e => exact ⟨e, rfl⟩
  | ok f =>
    exfalso
    unfold processParsedFind at h
    split at h
    · simp at h
    · split at h
      · simp at h
      · next l _ =>
        unfold findMiddle at h
        rw [if_pos hm] at h
        split at h
        · simp at h
        · next f1 hf1 =>
          unfold findRight at h
          rw [if_pos hm] at h
          split at h
          · simp at h
          · next f2 hf2 =>
            repeat' (first | split at hf2 | simp at hf2)
            all_goals simp_all [PartText.absent, mkFindNode]

/-! ### C52 -/

/-- C52 for patterns of one node that has properties of its own: processing with CRITERIA succeeds; if
the criteria have an entry for the handle, the node gets its yes properties on top of its own ones and
its no properties, otherwise it stays as it is.  Missing from the full property: nodes without own
properties (`C52_violated`) and patterns of several nodes (`C52_violated_three`). -/
theorem C52_criteria_refine_partial (pf : ParsedFind) (c : Criteria) (label : Str) (d : Dict V)
    (hc : pf.clause = .find) (h1 : OneNode pf.pattern) (hl : pf.pattern.left.label = some label)
    (hp : getPropertyDict pf.pattern.left.props = .ok (some d)) :
    ∃ f yes, processParsedFind pf (some c) = .ok f ∧ f.left.yes = some yes ∧ f.left.label = label ∧
      f.left.handle = pf.pattern.left.handle ∧
      ((∀ h, pf.pattern.left.handle = some h → h ∉ keys c) → yes = d ∧ f.left.no = []) ∧
      (∀ h yn, pf.pattern.left.handle = some h → dictGet h c = some yn →
        (keys yn.yes).Nodup → (keys yn.no).Nodup →
        (∀ k, dictGet k yes = (dictGet k yn.yes).or (dictGet k d)) ∧
        ∀ k, dictGet k f.left.no = dictGet k yn.no) := by
  rw [process_oneNode hc h1]
  simp only [findNode, hp, hl, mkFindNode, addCriteriaNode, addYesNo]
  cases hg : criteriaGet c pf.pattern.left.handle with
  | none =>
    refine ⟨_, d, rfl, rfl, rfl, rfl, fun _ => ⟨rfl, rfl⟩, ?_⟩
    intro h yn e1 e2
    rw [e1] at hg
    simp [criteriaGet, e2] at hg
  | some yn =>
    have hin : ¬ ∀ h, pf.pattern.left.handle = some h → h ∉ keys c := by
      intro hall
      cases hh : pf.pattern.left.handle with
      | none => rw [hh] at hg; simp [criteriaGet] at hg
      | some h =>
        rw [hh] at hg
        simp only [criteriaGet] at hg
        rw [dictGet_none_iff.2 (hall h hh)] at hg
        simp at hg
    by_cases he : yn.yes = []
    · simp only [he, List.isEmpty_nil, if_true]
      refine ⟨_, d, rfl, rfl, rfl, rfl, fun h => absurd h hin, ?_⟩
      intro h yn' e1 e2 n1 n2
      rw [e1] at hg
      simp only [criteriaGet, e2, Option.some.injEq] at hg
      subst hg
      refine ⟨fun k => by simp [he, dictGet], fun k => ?_⟩
      rw [dictGet_update n2]
      cases dictGet k yn'.no <;> rfl
    · have : yn.yes.isEmpty = false := by simpa using he
      simp only [this, Bool.false_eq_true, if_false]
      refine ⟨_, _, rfl, rfl, rfl, rfl, fun h => absurd h hin, ?_⟩
      intro h yn' e1 e2 n1 n2
      rw [e1] at hg
      simp only [criteriaGet, e2, Option.some.injEq] at hg
      subst hg
      refine ⟨fun k => dictGet_update n1 k, fun k => ?_⟩
      rw [dictGet_update n2]
      cases dictGet k yn'.no <;> rfl

/-! ### C53 -/

theorem q_not_help : isSubstr c!"help" (lower c!"q") = false := by
  have : lower c!"q" = c!"q" := rfl
  rw [this]
  decide

/-- What a shell session should do: `Session env g fs inputs log fs'`. -/
inductive Session (env : Env) (g : GPath) : FS → List Str → List Event → FS → Prop where
  | idle (fs : FS) : Session env g fs [] [] fs
  | quit (fs : FS) (rest : List Str) : Session env g fs (c!"q" :: rest) [.bye] fs
  | help (fs fs' : FS) (q : Str) (rest : List Str) (log : List Event) : AsksHelp q →
      Session env g fs rest log fs' → Session env g fs (q :: rest) (.help :: log) fs'
  | done (fs fs1 fs' : FS) (q : Str) (b : Bool) (rest : List Str) (log : List Event) : q ≠ c!"q" →
      ¬ AsksHelp q → (query env q g).run fs = (.ok b, fs1) → Session env g fs1 rest log fs' →
      Session env g fs (q :: rest) (.done :: log) fs'
  | failed (fs fs1 fs' : FS) (q : Str) (e : PyErr) (rest : List Str) (log : List Event) : q ≠ c!"q" →
      ¬ AsksHelp q → (query env q g).run fs = (.error e, fs1) → Session env g fs1 rest log fs' →
      Session env g fs (q :: rest) (.failed e :: log) fs'

/-- C53: the shell never raises; every input up to the first `q` gets its event, an exception of a query
is reported, and the next input is processed on the disk the failing query left. -/
theorem C53_shell_survives (env : Env) (g : GPath) (inputs : List Str) (fs : FS) :
    ∃ log fs', (shellLoop env g inputs).run fs = (.ok log, fs') ∧ Session env g fs inputs log fs' := by
  induction inputs generalizing fs with
  | nil => exact ⟨[], fs, rfl, .idle _⟩
  | cons q rest ih =>
    unfold shellLoop
    by_cases hq : q = c!"q"
    · rw [if_pos hq]; subst hq
      exact ⟨_, fs, rfl, .quit _ _⟩
    · rw [if_neg hq]
      by_cases hh : isSubstr c!"help" (lower q) = true
      · rw [if_pos hh]
        obtain ⟨log, fs', h1, h2⟩ := ih fs
        exact ⟨_, fs', by rw [run_bind_ok h1]; rfl, .help _ _ _ _ _ ((isSubstr_iff _ _).1 hh) h2⟩
      · rw [if_neg hh]
        have hh' : ¬ AsksHelp q := fun h => hh ((isSubstr_iff _ _).2 h)
        cases hr : (query env q g).run fs with
        | mk r fs1 =>
          obtain ⟨log, fs', h1, h2⟩ := ih fs1
          cases r with
          | ok b =>
            refine ⟨.done :: log, fs', ?_, .done _ fs1 _ _ b _ _ hq hh' hr h2⟩
            rw [run_bind_ok (a := Event.done) (fs' := fs1) (by rw [run_tryCatch, run_bind_ok hr]; rfl), run_bind_ok h1]
            rfl
          | error e =>
            refine ⟨.failed e :: log, fs', ?_, .failed _ fs1 _ _ e _ _ hq hh' hr h2⟩
            rw [run_bind_ok (a := Event.failed e) (fs' := fs1) (by rw [run_tryCatch, run_bind_err hr]; rfl),
              run_bind_ok h1]
            rfl

/-- C53: the shell leaves the loop exactly when `q` is typed; until then there is one event per
input. -/
theorem C53_ends_only_on_q (env : Env) (g : GPath) (inputs : List Str) (fs : FS) :
    ∃ log fs', (shellLoop env g inputs).run fs = (.ok log, fs') ∧ (Event.bye ∈ log ↔ c!"q" ∈ inputs) ∧
      (c!"q" ∉ inputs → log.length = inputs.length) := by
  obtain ⟨log, fs', h1, h2⟩ := C53_shell_survives env g inputs fs
  refine ⟨log, fs', h1, ?_⟩
  have hnq : ∀ q : Str, AsksHelp q → q ≠ c!"q" := by
    rintro q h rfl
    have := (isSubstr_iff _ _).2 h
    rw [q_not_help] at this
    simp at this
  clear h1
  induction h2 with
  | idle => simp
  | quit => simp
  | help fs fs' q rest log hh _ ih =>
    have := hnq q hh
    simp [ih.1, Ne.symm this]
    exact fun h => ih.2 h
  | done fs fs1 fs' q b rest log hq _ _ _ ih =>
    simp [ih.1, Ne.symm hq]
    exact fun h => ih.2 h
  | failed fs fs1 fs' q e rest log hq _ _ _ ih =>
    simp [ih.1, Ne.symm hq]
    exact fun h => ih.2 h

/-! ### C54 -/

/-- C54: an input other than `q` that does not contain "help" is executed, and the session goes on with
the disk it left.  Missing from the full property: inputs that contain "help" (`C54_violated`). -/
theorem C54_input_is_executed_partial (env : Env) (g : GPath) (q : Str) (rest : List Str) (fs : FS)
    (hq : q ≠ c!"q") (hh : ¬ AsksHelp q) :
    ∃ ev log fs', (shellLoop env g (q :: rest)).run fs = (.ok (ev :: log), fs') ∧
      (shellLoop env g rest).run ((query env q g).run fs).2 = (.ok log, fs') ∧
      ((ev = .done ∧ ∃ b, ((query env q g).run fs).1 = .ok b) ∨ ∃ e, ev = .failed e ∧ ((query env q g).run fs).1 = .error e) := by
  obtain ⟨l, fs', h1, h2⟩ := C53_shell_survives env g (q :: rest) fs
  obtain ⟨l', fs'', h1', _⟩ := C53_shell_survives env g rest ((query env q g).run fs).2
  have key : (shellLoop env g (q :: rest)).run fs = (.ok ((match ((query env q g).run fs).1 with
      | .ok _ => Event.done
      | .error e => .failed e) :: l'), fs'') := by
    rw [shellLoop, if_neg hq, if_neg fun h => hh ((isSubstr_iff _ _).1 h)]
    cases hr : (query env q g).run fs with
    | mk r fs1 =>
      rw [hr] at h1'
      cases r with
      | ok b =>
        rw [run_bind_ok (a := Event.done) (fs' := fs1) (by rw [run_tryCatch, run_bind_ok hr]; rfl), run_bind_ok h1']
        rfl
      | error e =>
        rw [run_bind_ok (a := Event.failed e) (fs' := fs1) (by rw [run_tryCatch, run_bind_err hr]; rfl),
          run_bind_ok h1']
        rfl
  refine ⟨_, _, _, key, h1', ?_⟩
  cases hr : ((query env q g).run fs).1 with
  | ok b => exact Or.inl ⟨rfl, b, rfl⟩
  | error e => exact Or.inr ⟨e, rfl, rfl⟩

/-- Why C54 fails: any input with "help" in it, in any case and anywhere, is answered with the help
text and has no effect. -/
theorem C54_help_is_not_executed (env : Env) (g : GPath) (q : Str) (fs : FS)
    (hh : AsksHelp q) : (shellLoop env g [q]).run fs = (.ok [.help], fs) := by
  replace hh := (isSubstr_iff _ _).2 hh
  have : q ≠ c!"q" := by
    rintro rfl
    rw [q_not_help] at hh
    simp at hh
  simp [shellLoop, this, hh, bind, Prog.bind, pure]

end

/-! ### Examples and counterexamples -/

section
attribute [local instance] demoRuntime

/-- `MAKE (a:A)-[r:R]->(b:B);` -/
def qMake : Str := c!"MAKE (a:A)-[r:R]->(b:B);"
/-- The same with a FIND of one node on the next line. -/
def qGood : Str := qMake ++ ['\n'] ++ c!"FIND (c:C);"
/-- The same with a FIND of two nodes. -/
def qBadFind : Str := qMake ++ ['\n'] ++ c!"FIND (c:C)-[s:S]->(d:D);"
/-- A FIND alone. -/
def qFind : Str := c!"FIND (c:C);"
/-- A query with an unbalanced bracket. -/
def qSyntax : Str := c!"MAKE (a:A;" ++ ['\n'] ++ c!"FIND (c:C);"
/-- A MAKE with "help" in a property. -/
def qHelp : Str := c!"MAKE (a:A{x: 'Helper'})-[r:R]->(b:B);" ++ ['\n'] ++ c!"FIND (c:C);"

/-- Some exception was raised. -/
def raised {α : Type} : Except PyErr α → Bool
  | .error _ => true
  | .ok _ => false

/-- C46: a syntax error. -/
example : ∃ e, (query demoEnv qSyntax demoG).run demoFresh = (.error e, demoFresh) := by
  have h : raised (parseQueryString qSyntax) = true := by decide +kernel
  cases hp : parseQueryString qSyntax with
  | ok p => rw [hp] at h; simp [raised] at h
  | error e => exact ⟨e, (C46_parse_failure_changes_nothing demoEnv qSyntax demoG demoFresh e hp).1⟩

/-- C47 violated: a query with one valid MAKE raises and stores nothing. -/
theorem C47_violated : ∃ (q : Str) (fs : FS), IsNew fs demoG ∧ parseFind q = .ok none ∧
    (∃ ms, parseMake q = .ok (some ms) ∧ MakeOK ms ∧ ((make demoEnv ms demoG).run fs).1 = .ok true) ∧
    (query demoEnv q demoG).run fs = (.error .attribute, fs) := by
  have h1 : parseFind qMake = .ok none := by decide +kernel
  have h2 : (match parseMake qMake with
    | .ok (some ms) => decide (((make demoEnv ms demoG).run demoFresh).1 = .ok true)
    | _ => false) = true := by decide +kernel
  refine ⟨qMake, demoFresh, demoFresh_new, h1, ?_, ?_⟩
  · split at h2
    · next ms hms =>
      have h3 := of_decide_eq_true h2
      exact ⟨ms, hms, (make_success demoFresh_healthy (run_of h3)).1, h3⟩
    · simp at h2
  · split at h2
    · next ms hms => rw [query_run]; simp [parseQueryString, hms, h1]
    · simp at h2

/-- C47: a query without FIND. -/
example : ∃ e, (query demoEnv qMake demoG).run demoFresh = (.error e, demoFresh) :=
  C47_without_find_never_executed demoEnv qMake demoG demoFresh (by decide +kernel)

/-- C47: a query with MAKE and FIND. -/
example : ∃ p m ms, parseQueryString qGood = .ok p ∧ p.make = some (m :: ms) ∧
    ((query demoEnv qGood demoG).run demoFresh).2 = ((make demoEnv (m :: ms) demoG).run demoFresh).2 := by
  have h : (match parseQueryString qGood with
    | .ok p => match p.make with
      | some (_ :: _) => true
      | _ => false
    | _ => false) = true := by decide +kernel
  split at h
  · next p hp =>
    split at h
    · next m ms hm => exact ⟨p, m, ms, hp, hm, C47_makes_are_executed_partial demoEnv qGood demoG demoFresh p m ms hp hm⟩
    · simp at h
  · simp at h

/-- C48 violated: MAKE is committed, then FIND raises. -/
theorem C48_violated : ∃ (q : Str) (fs fs' : FS) (e : PyErr), IsNew fs demoG ∧
    (query demoEnv q demoG).run fs = (.error e, fs') ∧ fs'.get demoG.wn ≠ fs.get demoG.wn ∧
    fs'.get demoG.db ≠ fs.get demoG.db :=
  ⟨qBadFind, demoFresh, _, .validation, demoFresh_new,
    (show _ = (Except.error PyErr.validation, ((query demoEnv qBadFind demoG).run demoFresh).2) by
      rw [← (show ((query demoEnv qBadFind demoG).run demoFresh).1 = .error .validation by decide +kernel)]),
    by decide +kernel, by decide +kernel⟩

/-- C48: the hypotheses hold for that query. -/
example : ∃ p f ms, parseQueryString qBadFind = .ok p ∧ p.make = some ms ∧ p.find = some f ∧ MakeOK ms := by
  obtain ⟨p, f, ms, h1, h2, h3, h4, _⟩ := C48_query_all_or_nothing_partial demoEnv qBadFind demoG demoFresh
    ((query demoEnv qBadFind demoG).run demoFresh).2 .validation
    (by rw [← (show ((query demoEnv qBadFind demoG).run demoFresh).1 = .error .validation by decide +kernel)])
    (by
      intro h
      have : ((query demoEnv qBadFind demoG).run demoFresh).2.get demoG.wn ≠ demoFresh.get demoG.wn := by decide +kernel
      exact this (by rw [h]))
  exact ⟨p, f, ms, h1, h2, h3, h4⟩

/-- A FIND. -/
def demoFind (p : ParsedPattern) : ParsedFind := ⟨[], .find, p⟩

/-- C49: a FIND query. -/
example : ((query demoEnv qFind demoG).run demoIdx).2 = demoIdx :=
  C49_find_query_reads_only demoEnv qFind demoG demoIdx (by decide +kernel)
example : ((find (demoFind demoThree) demoG none).run demoIdx).2 = demoIdx :=
  (C49_find_reads_only (fun _ => True) _ _ _ _).1
example : (report ⟨[], .report, []⟩ .placeholder demoG).run demoIdx = (.ok true, demoIdx) :=
  C49_report_reads_only _ _ _ _

/-- C50: one node, label indexed (A) and not (C). -/
example : ∃ r, (find (demoFind demoSingle) demoG none).run demoIdx = (.ok r, demoIdx) ∧
    (r = .noResults ↔ (∃ l ∈ patLabels demoSingle, l ∉ [c!"A", c!"B"]) ∨ ∃ n ∈ patNames demoSingle, n ∉ [c!"R"]) :=
  C50_no_results_iff_absent_partial (demoFind demoSingle) demoG demoIdx demoIndex _ _ _ c!"A" rfl demoIdx_holds
    demoIdx_shape ⟨rfl, rfl, rfl, rfl⟩ rfl ⟨none, rfl⟩
example : ((find (demoFind demoSingle) demoG none).run demoIdx).1 = .ok .placeholder := by decide +kernel
example : ((find (demoFind { demoSingle with left := demoNode c!"C" none }) demoG none).run demoIdx).1 =
    .ok .noResults := by decide +kernel
example : ∃ r, (find (demoFind demoThree) demoG none).run demoIdx = (.ok r, demoIdx) := by
  have h : (match processParsedFind (demoFind demoThree) none with
    | .ok _ => true
    | _ => false) = true := by decide +kernel
  split at h
  · next f hf =>
    obtain ⟨r, h1, _⟩ := C50_actual_behaviour _ none demoG demoIdx f demoIndex _ _ _ demoIdx_holds demoIdx_shape hf
    exact ⟨r, h1⟩
  · simp at h

/-- `(:A)-[:R]->(:B)-[:R]->(:A)` -/
def demoLoop : ParsedPattern :=
  ⟨demoNode c!"A" none, demoRel c!"-[:R]->" c!"R" none, demoNode c!"B" none,
    demoRel c!"-[:R]->" c!"R" none, demoNode c!"A" none⟩

/-- `(:A)-[:Z]->(:Y)-[:Z]->(:X)` -/
def demoAbsent : ParsedPattern :=
  ⟨demoNode c!"A" none, demoRel c!"-[:Z]->" c!"Z" none, demoNode c!"Y" none,
    demoRel c!"-[:Z]->" c!"Z" none, demoNode c!"X" none⟩

/-- C50 violated: all labels and names of the pattern are indexed, and FIND says "No results". -/
theorem C50_violated_present : ∃ (p : ParsedPattern) (fs : FS) (D : Dict V) (labels names : List Str)
    (rels : Dict (List Int)), Holds fs demoG.idx D ∧ IndexShape D labels names rels ∧
    (∀ l ∈ patLabels p, l ∈ labels) ∧ (∀ n ∈ patNames p, n ∈ names) ∧
    ((find (demoFind p) demoG none).run fs).1 = .ok .noResults :=
  ⟨demoLoop, demoIdx, demoIndex, _, _, _, demoIdx_holds, demoIdx_shape, by decide, by decide, by decide +kernel⟩

/-- C50 violated: two labels and the relationship name are not indexed, and FIND goes on. -/
theorem C50_violated_absent : ∃ (p : ParsedPattern) (fs : FS) (D : Dict V) (labels names : List Str)
    (rels : Dict (List Int)), Holds fs demoG.idx D ∧ IndexShape D labels names rels ∧
    (∃ l ∈ patLabels p, l ∉ labels) ∧ (∃ n ∈ patNames p, n ∉ names) ∧
    ((find (demoFind p) demoG none).run fs).1 = .ok .placeholder :=
  ⟨demoAbsent, demoIdx, demoIndex, _, _, _, demoIdx_holds, demoIdx_shape, by decide, by decide, by decide +kernel⟩

/-- C51: one node with properties. -/
example : ∃ f, processParsedFind (demoFind { demoSingle with left := demoNode c!"A" (some c!"{x: 1}") }) none = .ok f ∧
    f.left.label = c!"A" := by
  have h : (match getPropertyDict (some c!"{x: 1}") with
    | .ok _ => true
    | _ => false) = true := by decide +kernel
  split at h
  · next props hp =>
    obtain ⟨f, h1, h2, _⟩ := C51_one_node_partial
      (demoFind { demoSingle with left := demoNode c!"A" (some c!"{x: 1}") }) c!"A" rfl ⟨rfl, rfl, rfl, rfl⟩ rfl ⟨props, hp⟩
    exact ⟨f, h1, h2⟩
  · simp at h

/-- C51: three nodes. -/
example : ∃ f m r, processParsedFind (demoFind demoThree) none = .ok f ∧ f.middle = some m ∧ f.right = some r := by
  obtain ⟨f, m, r, h1, h2, h3, _⟩ := C51_three_nodes_partial (demoFind demoThree) rfl
    ⟨by decide, by decide, by decide, by simp [demoFind, demoThree, demoNode, demoRel, truthy, bothHeads],
      by simp [demoFind, demoThree, demoNode, demoRel, truthy, bothHeads]⟩ rfl rfl
    (by simp [demoFind, demoThree, ParsedPattern.parts, demoNode, demoRel, PropsOK, getPropertyDict])
  exact ⟨f, m, r, h1, h2, h3⟩

/-- C51 violated: every two-node FIND raises, e.g. this one. -/
theorem C51_violated : ∃ p : ParsedPattern, PatShape p ∧ (p.left.text.isSome ∧ p.middle.text.isSome ∧ p.right = .absent) ∧ (∀ t ∈ p.parts, PropsOK t) ∧
    ∃ e, processParsedFind (demoFind p) none = .error e :=
  ⟨demoPlain, ⟨by decide, by decide, by decide, by simp [demoPlain, demoNode, demoRel, truthy, bothHeads],
      by simp [demoPlain, demoNode, demoRel, truthy, bothHeads, PartText.absent]⟩, by decide,
    by simp [demoPlain, ParsedPattern.parts, demoNode, demoRel, PropsOK, getPropertyDict, PartText.absent],
    C51_two_nodes_fail (demoFind demoPlain) none rfl rfl⟩

/-- `(a:A{x: 1})-[:R]->(b:B)-[:S]->(c:C{y: 2})` -/
def demoHandles : ParsedPattern :=
  ⟨⟨some c!"(a:A{x: 1})", some c!"a", some c!"A", some c!"{x: 1}"⟩, demoRel c!"-[:R]->" c!"R" none,
    ⟨some c!"(b:B)", some c!"b", some c!"B", none⟩, demoRel c!"-[:S]->" c!"S" none,
    ⟨some c!"(c:C{y: 2})", some c!"c", some c!"C", some c!"{y: 2}"⟩⟩

/-- C51 violated: the right node of a three-node pattern has the handle of the middle node and the
properties of the left one. -/
theorem C51_violated_right : ∃ (p : ParsedPattern) (f : FindPre) (r : FindNodePre),
    processParsedFind (demoFind p) none = .ok f ∧ f.right = some r ∧ r.handle ≠ p.right.handle ∧
    getPropertyDict p.right.props ≠ .ok r.yes ∧ r.handle = p.middle.handle ∧ r.yes = f.left.yes := by
  have h : (match processParsedFind (demoFind demoHandles) none with
    | .ok f => match f.right with
      | some r => decide (r.handle ≠ demoHandles.right.handle ∧ getPropertyDict demoHandles.right.props ≠ .ok r.yes ∧
          r.handle = demoHandles.middle.handle ∧ r.yes = f.left.yes)
      | none => false
    | _ => false) = true := by decide +kernel
  split at h
  · next f hf =>
    split at h
    · next r hr => exact ⟨demoHandles, f, r, hf, hr, of_decide_eq_true h⟩
    · simp at h
  · simp at h

/-- Criteria for the handle `a`. -/
def demoCriteria : Criteria := [(c!"a", ⟨[(c!"x", .int 7)], [(c!"z", .int 8)]⟩)]

/-- C52: one node with a property that the criteria replace. -/
example : ∃ f yes, processParsedFind (demoFind { demoSingle with
      left := ⟨some c!"(a:A{x: 1})", some c!"a", some c!"A", some c!"{x: 1}"⟩ }) (some demoCriteria) = .ok f ∧
    f.left.yes = some yes ∧ dictGet c!"x" yes = some (.int 7) := by
  have h : getPropertyDict (some c!"{x: 1}") = .ok (some [(c!"x", .int 1)]) := by decide +kernel
  obtain ⟨f, yes, h1, h2, _, _, _, h3⟩ := C52_criteria_refine_partial (demoFind { demoSingle with
      left := ⟨some c!"(a:A{x: 1})", some c!"a", some c!"A", some c!"{x: 1}"⟩ }) demoCriteria c!"A" [(c!"x", .int 1)]
      rfl ⟨rfl, rfl, rfl, rfl⟩ rfl h
  refine ⟨f, yes, h1, h2, ?_⟩
  rw [(h3 c!"a" ⟨[(c!"x", .int 7)], [(c!"z", .int 8)]⟩ rfl rfl (by decide) (by decide)).1]
  decide +kernel

/-- C52 violated: a node without own properties. -/
theorem C52_violated : ∃ (p : ParsedPattern) (c : Criteria), PatShape p ∧ (∀ t ∈ p.parts, PropsOK t) ∧
    processParsedFind (demoFind p) (some c) = .error .attribute ∧
    ∃ f, processParsedFind (demoFind p) none = .ok f := by
  refine ⟨{ demoSingle with left := ⟨some c!"(a:A)", some c!"a", some c!"A", none⟩ }, demoCriteria, ?_, ?_,
    by decide +kernel, ?_⟩
  · exact ⟨by decide, by decide, by decide, by simp [demoSingle, truthy, PartText.absent],
      by simp [demoSingle, truthy, PartText.absent]⟩
  · simp [demoSingle, ParsedPattern.parts, PropsOK, getPropertyDict, PartText.absent]
  · obtain ⟨f, h, _⟩ := C51_one_node_partial
      (demoFind { demoSingle with left := ⟨some c!"(a:A)", some c!"a", some c!"A", none⟩ }) c!"A" rfl
      ⟨rfl, rfl, rfl, rfl⟩ rfl ⟨none, rfl⟩
    exact ⟨f, h⟩

/-- C52 violated: a three-node pattern, all of whose nodes have properties, with criteria for the left
node only. -/
theorem C52_violated_three : ∃ (p : ParsedPattern) (c : Criteria),
    (∀ t ∈ [p.left, p.middle, p.right], ∃ d, getPropertyDict t.props = .ok (some d)) ∧
    processParsedFind (demoFind p) (some c) = .error .type := by
  refine ⟨{ demoHandles with middle := ⟨some c!"(b:B{x: 1})", some c!"b", some c!"B", some c!"{x: 1}"⟩ },
    demoCriteria, ?_, by decide +kernel⟩
  have h1 : getPropertyDict (some c!"{x: 1}") = .ok (some [(c!"x", .int 1)]) := by decide +kernel
  have h2 : getPropertyDict (some c!"{y: 2}") = .ok (some [(c!"y", .int 2)]) := by decide +kernel
  intro t ht
  simp only [demoHandles, List.mem_cons, List.not_mem_nil, or_false] at ht
  rcases ht with rfl | rfl | rfl
  · exact ⟨_, h1⟩
  · exact ⟨_, h1⟩
  · exact ⟨_, h2⟩

/-- C53: a session with a failing query in the middle. -/
example : ∃ log fs', (shellLoop demoEnv demoG [qGood, qBadFind, qFind, c!"q"]).run demoFresh = (.ok log, fs') ∧
    Session demoEnv demoG demoFresh [qGood, qBadFind, qFind, c!"q"] log fs' :=
  C53_shell_survives _ _ _ _
example : ((shellLoop demoEnv demoG [qGood, qBadFind, qFind, c!"q"]).run demoFresh).1 =
    .ok [.done, .failed .validation, .done, .bye] := by decide +kernel
example : ∃ log fs', (shellLoop demoEnv demoG [qGood, qBadFind]).run demoFresh = (.ok log, fs') ∧ log.length = 2 := by
  obtain ⟨log, fs', h1, _, h2⟩ := C53_ends_only_on_q demoEnv demoG [qGood, qBadFind] demoFresh
  exact ⟨log, fs', h1, h2 (by decide +kernel)⟩

/-- C54: a query is executed. -/
example : ∃ ev log fs', (shellLoop demoEnv demoG [qGood, c!"q"]).run demoFresh = (.ok (ev :: log), fs') := by
  obtain ⟨ev, log, fs', h, _⟩ := C54_input_is_executed_partial demoEnv demoG qGood [c!"q"] demoFresh (by decide +kernel)
    (fun h => by
      have h1 := (isSubstr_iff _ _).2 h
      have h2 : isSubstr c!"help" (lower qGood) = false := by decide +kernel
      rw [h2] at h1; simp at h1)
  exact ⟨ev, log, fs', h⟩

/-- C54 violated: a valid query with "Helper" in a property is not executed. -/
theorem C54_violated : ∃ (q : Str) (fs : FS), IsNew fs demoG ∧ q ≠ c!"q" ∧ q ≠ c!"help" ∧
    ((query demoEnv q demoG).run fs).1 = .ok true ∧ ((query demoEnv q demoG).run fs).2.get demoG.db ≠ fs.get demoG.db ∧
    (shellLoop demoEnv demoG [q]).run fs = (.ok [.help], fs) :=
  ⟨qHelp, demoFresh, demoFresh_new, by decide +kernel, by decide +kernel, by decide +kernel, by decide +kernel,
    C54_help_is_not_executed _ _ _ _ ((isSubstr_iff _ _).1 (by decide +kernel))⟩

end

end WG
