/-
C65-C67: what well-formed queries do, from their text to the files.
-/
import Verif.Proofs.Typed
set_option linter.unusedSectionVars false
set_option linter.unusedSimpArgs false

namespace WG
open Re

section
variable [PyRuntime]

/-! ### C66: well-formed queries are accepted -/

/-- C66, partial: a query of well-formed lines (statements with any handles, labels, names, property lists and
white space, one FIND, at most one REPORT; indented, with remarks behind them and other lines between them) is
accepted, and every statement is parsed to what it says.  Missing: statements over several lines or sharing a line, keywords in mixed case, texts that contain an arrangement of the
letters of "report" outside a REPORT (`C66_violated`). -/
theorem C66_query_is_parsed_as_written_partial {l : List Line} {f : StmtText} (h : QueryGood l f) :
    ∃ p, parseQueryString (queryText l) = .ok p ∧
      (makesOf l = [] → p.make = none) ∧
      (makesOf l ≠ [] → ∃ ms, p.make = some ms ∧ ms.map ParsedMake.rawStatement = (makesOf l).map StmtText.render ∧
        ms.map ParsedMake.patterns = (makesOf l).map fun t => t.chains.map ChainText.pattern) ∧
      p.find = some ⟨f.render, .find, f.first.pattern⟩ ∧
      p.report.map ParsedReport.rawStatement = (reportsOf l).head? := by
  refine ⟨_, parseQuery_text h, ?_, ?_, rfl, ?_⟩
  · intro hm
    simp [hm, parsedMakes]
  · intro hm
    cases hml : makesOf l with
    | nil => exact absurd hml hm
    | cons t ts => exact ⟨_, rfl, by simp, by simp⟩
  · simp [parsedReport, Function.comp_def]

/-! ### C65: from the text to the files -/

theorem findsOf_good {l : List Line} {f : StmtText} (h : QueryGood l f) : f.Good c!"FIND" c!"find" :=
  findsOf_goods h.lines f (by simp [h.find])

theorem StmtText.Good.first {up low : Str} {t : StmtText} (h : t.Good up low) : t.first.Good :=
  (h.chains t.first (by simp [StmtText.chains])).1

/-- C65, partial: a well-formed query on a healthy GDBMS returns true and stores exactly the nodes, relationships
and properties written in its MAKE statements, with consecutive numbers, in the database and the index; nothing
else changes.  Missing: MAKE patterns of three nodes, relationships followed by white space, MAKEs without any
relationship, FIND patterns of two nodes (C14, C17, C23, C51), and the limits of C66. -/
theorem C65_query_stores_what_it_says_partial {l : List Line} {f : StmtText} (hq : Runnable l f) (env : Env) (g : GPath)
    (fs : FS) (d : Dict V) (labels names : List Str) (rels : Dict (List Int)) (n : Int)
    (h : Healthy fs g d labels names rels n) (hb : BelowCounter d n) :
    Stores env (queryText l) g fs d labels names rels n (makeChains l) := by
  have hfg := findsOf_good hq.good
  refine run_parsed (parseQuery_text hq.good) (makeOf_text _) ?_ hfg.first hq.find hq.short ?_ env g fs h hb ?_
  · intro c hc
    obtain ⟨t, ht, hc⟩ := List.mem_flatMap.1 hc
    exact ((makesOf_good hq.good.lines t ht).chains c hc).1
  · exact hq.rel.imp_left fun e => by simp [e]
  · cases hm : makesOf l with
    | nil => exact .inl rfl
    | cons t ts => exact .inr (by simp [StmtText.chains])

/-- C65 as it stands: one canonical MAKE line with two nodes, one FIND line with one node. -/
theorem C65_two_lines_partial {mk fd : Str} {n m x : NodeText} {r : RelText} (h : QueryGood
      [{ text := .make ⟨mk, c!" ", .two n r m, []⟩ }, { text := .find ⟨fd, c!" ", .one x, []⟩ }] ⟨fd, c!" ", .one x, []⟩) (hr : r.sp3 = [])
    (env : Env) (g : GPath) (fs : FS) (d : Dict V) (labels names : List Str) (rels : Dict (List Int)) (b : Int)
    (hh : Healthy fs g d labels names rels b) (hb : BelowCounter d b) :
    ∃ fs' v w labels' names' rels',
      (query env (mk ++ (c!" " ++ (n.render ++ (r.render ++ (m.render ++ (c!";\n" ++ (fd ++ (c!" " ++ (x.render ++ c!";"))))))))) g).run fs =
        (.ok true, fs') ∧
      Healthy fs' g (d ++ [(intStr b, v), (intStr (b + 1), w)]) labels' names' rels' (b + 3) ∧
      NodeRecord v b n ∧ NodeRecord w (b + 1) m ∧ RelKept (relationsOf v) (relationsOf w) (b + 2) r b (b + 1) := by
  have hq : Runnable [{ text := .make ⟨mk, c!" ", .two n r m, []⟩ }, { text := .find ⟨fd, c!" ", .one x, []⟩ }] ⟨fd, c!" ", .one x, []⟩ :=
    ⟨h, trivial, by simpa [makeChains, makesOf, StmtText.chains, ChainText.Short] using hr,
      .inr ⟨.two n r m, by simp [makeChains, makesOf, StmtText.chains], by simp [ChainText.rels]⟩⟩
  obtain ⟨fs', new, labels', names', rels', h1, h2, -, ⟨y, z, rfl, ⟨v, w, rfl, h3, h4, h5⟩, h6⟩, -, -⟩ :=
    C65_query_stores_what_it_says_partial hq env g fs d labels names rels b hh hb
  rw [show z = [] from h6] at h2
  refine ⟨fs', v, w, labels', names', rels', ?_, ?_, h3, h4, h5⟩
  · rw [← h1]
    congr 1
    simp [queryText, joinLines, Line.render, LineText.render, StmtText.render, ChainText.render, renderRest]
  · simpa [makeChains, makesOf, StmtText.chains, sizeOfAll, ChainText.size] using h2

/-! ### C67: queries typed in the shell -/

/-- C67, partial: a FIND and, behind it on the same line, a MAKE, typed in the shell (which reads single lines),
do what they say.  Missing: the MAKE before the FIND (`C67_make_first_is_rejected`, `C67_make_first_stores_find`),
several MAKEs, REPORT, and the limits of C65. -/
theorem C67_typed_query_partial {t : TypedText} (ht : t.Runnable) (env : Env) (g : GPath)
    (fs : FS) (d : Dict V) (labels names : List Str) (rels : Dict (List Int)) (n : Int)
    (h : Healthy fs g d labels names rels n) (hb : BelowCounter d n) :
    Stores env t.render g fs d labels names rels n t.chains := by
  refine run_parsed (typed_parse ht.good) (makeOf_text _) ?_ ht.good.find.first ht.find ht.short ?_ env g fs h hb ?_
  · intro c hc
    obtain ⟨m, hm, hc⟩ := List.mem_flatMap.1 hc
    exact ((ht.good.make m (by simpa using hm)).chains c hc).1
  · exact ht.rel.imp_left fun e => by simp [e]
  · cases hm : t.make with
    | none => exact .inl rfl
    | some t => exact .inr (by simp [StmtText.chains])

theorem typed_not_q {t : TypedText} (h : t.Good) : t.render ≠ c!"q" := by
  intro e
  have : t.render.length = 1 := by rw [e]; rfl
  simp only [TypedText.render, StmtText.render, List.length_append] at this
  rcases h.find.kw with e' | e' <;> rw [e'] at this <;> simp at this <;> omega

/-- C67, partial: in a whole session of such queries every query is done, and afterwards the database holds what
it held before and then the patterns of all the MAKEs in the order in which they were typed, with consecutive
numbers; the index knows them. -/
theorem C67_typed_session_partial {ts : List TypedText} (ht : ∀ t ∈ ts, t.Runnable ∧ ¬ AsksHelp t.render) (env : Env) (g : GPath)
    (fs : FS) (d : Dict V) (labels names : List Str) (rels : Dict (List Int)) (n : Int)
    (h : Healthy fs g d labels names rels n) (hb : BelowCounter d n) :
    ∃ fs' new labels' names' rels', (shellLoop env g (ts.map TypedText.render)).run fs = (.ok (List.replicate ts.length .done), fs') ∧
      Healthy fs' g (d ++ new) labels' names' rels' (n + sizeOfAll (ts.flatMap TypedText.chains)) ∧
      BelowCounter (d ++ new) (n + sizeOfAll (ts.flatMap TypedText.chains)) ∧
      AllRecords n (ts.flatMap TypedText.chains) new ∧
      Indexed (ts.flatMap TypedText.chains) new labels names rels labels' names' rels' ∧
      ∀ p, p ≠ g.db → p ≠ g.idx → p ≠ g.wn → fs'.get p = fs.get p := by
  induction ts generalizing fs d labels names rels n with
  | nil =>
    refine ⟨fs, [], labels, names, rels, rfl, by simpa [sizeOfAll] using h, by simpa [sizeOfAll] using hb, rfl,
      ⟨by simp, by simp, by simp⟩, fun _ _ _ _ => rfl⟩
  | cons t ts ih =>
    obtain ⟨h1, h2⟩ := ht t (by simp)
    obtain ⟨fs1, new1, l1, n1, r1, hr, hh, hb1, ha1, hi1, ho1⟩ := C67_typed_query_partial h1 env g fs d labels names rels n h hb
    obtain ⟨fs2, new2, l2, n2, r2, hr2, hh2, hb2, ha2, hi2, ho2⟩ :=
      ih (fun t' h' => ht t' (List.mem_cons_of_mem _ h')) fs1 (d ++ new1) l1 n1 r1 _ hh hb1
    have es : n + (sizeOfAll ((t :: ts).flatMap TypedText.chains) : Int) =
        n + sizeOfAll t.chains + sizeOfAll (ts.flatMap TypedText.chains) := by
      rw [List.flatMap_cons, sizeOfAll_append]
      omega
    rw [es]
    refine ⟨fs2, new1 ++ new2, l2, n2, r2, ?_, by rw [← List.append_assoc]; exact hh2, by rw [← List.append_assoc]; exact hb2,
      ?_, ?_, fun p hp1 hp2 hp3 => (ho2 p hp1 hp2 hp3).trans (ho1 p hp1 hp2 hp3)⟩
    · obtain ⟨ev, log, fs3, e1, e2, e3⟩ := C54_input_is_executed_partial env g t.render (ts.map TypedText.render) fs
        (typed_not_q h1.good) h2
      rw [hr] at e2 e3
      rw [hr2] at e2
      simp only [Prod.mk.injEq, Except.ok.injEq] at e2
      obtain ⟨rfl, rfl⟩ := e2
      rcases e3 with ⟨rfl, -⟩ | ⟨e, -, e3⟩
      · exact e1
      · simp at e3
    · exact records_append ha1 ha2
    · exact indexed_trans hi1 hi2

/-- Why C67 fails: if there is white space between the two statements, a MAKE typed before a FIND on the same line is always
refused, and nothing is stored. -/
theorem C67_make_first_is_rejected {m f : StmtText} {gap : Str} (hm : m.Good c!"MAKE" c!"make") (hf : f.Good c!"FIND" c!"find")
    (hg : Indent gap) (hne : gap ≠ []) (hl : '\n' ∉ f.sp) (env : Env) (g : GPath) (fs : FS) :
    ∃ e, (query env (makeFirst m gap f) g).run fs = (.error e, fs) := by
  rw [query_run]
  cases hp : parseQueryString (makeFirst m gap f) with
  | error e => exact ⟨e, rfl⟩
  | ok p =>
    simp only
    rw [parseQueryString, makeFirst_make hm hf hg hl, makeFirst_find hm hf hg] at hp
    simp only at hp
    split at hp
    · simp at hp
    · next r _ =>
      injection hp with hp
      subst hp
      rw [execute_run rfl]
      obtain ⟨e, he⟩ := C22_rejected_make_changes_nothing env
        [⟨makeFirst m gap f, .make, statementPatterns (makeFirst m gap f)⟩] g fs (.inr fun hok => by
          have := hok.shape ⟨.absent, .absent, .absent, .absent, .absent⟩ (by
            simp only [patsOf, List.flatMap_cons, List.flatMap_nil, List.append_nil]
            rw [makeFirst_patterns hm hf hg]
            simp [hne])
          exact this.left rfl)
      refine ⟨e, ?_⟩
      rw [show (executeMakes env g (some [⟨makeFirst m gap f, .make, statementPatterns (makeFirst m gap f)⟩])).run fs = _ from he]

/-- Why C67 fails: without white space between them, a MAKE typed before a FIND on the same line stores the pattern of the
FIND as well. -/
theorem C67_make_first_stores_find {m f : StmtText} (hm : m.Good c!"MAKE" c!"make") (hf : f.Good c!"FIND" c!"find")
    (hl : '\n' ∉ f.sp) (hr : NoAnagram c!"report" (makeFirst m [] f)) (hff : f.first.Findable) (hs : ∀ c ∈ m.chains ++ f.chains, c.Short)
    (hrel : ∃ c ∈ m.chains ++ f.chains, c.rels ≠ []) (env : Env) (g : GPath)
    (fs : FS) (d : Dict V) (labels names : List Str) (rels : Dict (List Int)) (n : Int)
    (h : Healthy fs g d labels names rels n) (hb : BelowCounter d n) :
    Stores env (makeFirst m [] f) g fs d labels names rels n (m.chains ++ f.chains) := by
  have hg : Indent [] := by simp [Indent]
  have hp : parseQueryString (makeFirst m [] f) = .ok ⟨some [⟨makeFirst m [] f, .make, statementPatterns (makeFirst m [] f)⟩],
      some ⟨f.render, .find, f.first.pattern⟩, none⟩ := by
    rw [parseQueryString, makeFirst_make hm hf hg hl, makeFirst_find hm hf hg]
    simp only [report_none hr]
  refine run_parsed hp (.inr ⟨_, _, rfl, ?_, ?_⟩) ?_ hf.first hff hs (.inr hrel) env g fs h hb (.inr (by simp [StmtText.chains]))
  · simp
  · simp only [patsOf, List.flatMap_cons, List.flatMap_nil, List.append_nil]
    rw [makeFirst_patterns hm hf hg]
    simp
  · intro c hc
    rcases List.mem_append.1 hc with hc | hc
    · exact (hm.chains c hc).1
    · exact (hf.chains c hc).1

end

/-! ### Examples and counterexamples -/

section
attribute [local instance] demoRuntime

/-- `(h:L props)`. -/
def eNode (h l : Str) (props : Option Str) : NodeText := ⟨[], h, [], [], l, [], props, []⟩
/-- `-[r:KNOWS]->`. -/
def eRel : RelText := ⟨false, 0, [], c!"r", [], some ([], c!"KNOWS", []), none, 0, true, []⟩
/-- `{x: 5}`. -/
def eProp : PropText := ⟨[], c!"x", [], c!" ", .atom (.int 0 5), []⟩
/-- `MAKE (a:Man{x: 5})-[r:KNOWS]->(b:Man);`. -/
def eMake : StmtText := ⟨c!"MAKE", c!" ", .two (eNode c!"a" c!"Man" (some c!"{x: 5}")) eRel (eNode c!"b" c!"Man" none), []⟩
/-- `FIND (c:Man);`. -/
def eFind : StmtText := ⟨c!"FIND", c!" ", .one (eNode c!"c" c!"Man" none), []⟩

theorem eNode_good {h l : Str} (hh : h.all isWord = true) (hl : l.all isWord = true) (hne : l ≠ []) : (eNode h l none).Good :=
  ⟨⟨rfl, hh, rfl, fun _ => rfl, rfl, hl, hne, rfl, by simp [eNode], rfl⟩, by simp [eNode, GoodProps]⟩

theorem eProps_good : GoodProps (some c!"{x: 5}") := by
  rintro p h
  injection h with h
  subst h
  refine ⟨[eProp], [], by decide, ?_, rfl⟩
  simp only [List.mem_singleton, forall_eq]
  exact ⟨rfl, by decide, by decide, rfl, by decide, trivial, rfl, fun _ => rfl⟩

theorem eNode_props : (eNode c!"a" c!"Man" (some c!"{x: 5}")).Good :=
  ⟨⟨rfl, by decide, rfl, fun _ => rfl, rfl, by decide, by decide, rfl, by
    rintro p h
    injection h with h
    subst h
    exact ⟨_, rfl, by decide⟩, rfl⟩, eProps_good⟩

theorem eRel_good : eRel.Good :=
  ⟨⟨rfl, by decide, rfl, fun _ => rfl, by
    rintro a l b h
    simp only [eRel, Option.some.injEq, Prod.mk.injEq] at h
    obtain ⟨rfl, rfl, rfl⟩ := h
    decide, by simp [eRel], rfl⟩, by simp [eRel, GoodProps], rfl, by
    rintro a l b h
    simp only [eRel, Option.some.injEq, Prod.mk.injEq] at h
    obtain ⟨rfl, rfl, rfl⟩ := h
    intro _
    decide⟩

theorem eMake_good : eMake.Good c!"MAKE" c!"make" where
  kw := .inl rfl
  sp := by decide
  rest := by simp [eMake]
  chains := by
    simp only [eMake, StmtText.chains, List.map_nil, List.mem_singleton, forall_eq]
    exact ⟨⟨eNode_props, eRel_good, eNode_good (by decide) (by decide) (by decide)⟩, by decide⟩
  line := by decide
  close := by
    rintro c h
    simp [eMake, StmtText.chains] at h
    subst h
    rfl

theorem eFind_good : eFind.Good c!"FIND" c!"find" where
  kw := .inl rfl
  sp := by decide
  rest := by simp [eFind]
  chains := by
    simp only [eFind, StmtText.chains, List.map_nil, List.mem_singleton, forall_eq]
    exact ⟨eNode_good (by decide) (by decide) (by decide), by decide⟩
  line := by decide
  close := by
    rintro c h
    simp [eFind, StmtText.chains] at h
    subst h
    rfl

/-- The two lines. -/
def eQuery : List Line := [{ text := .make eMake }, { text := .find eFind }]

theorem eQuery_text : queryText eQuery = c!"MAKE (a:Man{x: 5})-[r:KNOWS]->(b:Man);\nFIND (c:Man);" := by decide

theorem eQuery_good : QueryGood eQuery eFind where
  lines := by
    simp only [eQuery, List.mem_cons, List.not_mem_nil, or_false, forall_eq_or_imp, forall_eq]
    exact ⟨line_good eMake_good, line_good eFind_good⟩
  find := rfl
  quiet h := by simp [eQuery, makesOf] at h
  report := .inl ⟨rfl, by
    have := eQuery_text
    unfold queryText at this
    rw [this]
    exact noAnagram_of (k := 't') (by decide) (by decide)⟩

theorem eQuery_runnable : Runnable eQuery eFind where
  good := eQuery_good
  find := trivial
  short := by simp [makeChains, makesOf, eQuery, eMake, StmtText.chains, ChainText.Short, eRel]
  rel := .inr ⟨eMake.first, by simp [makeChains, makesOf, eQuery, StmtText.chains], by simp [eMake, ChainText.rels]⟩

/-- C66 on these two lines. -/
example : ∃ p, parseQueryString c!"MAKE (a:Man{x: 5})-[r:KNOWS]->(b:Man);\nFIND (c:Man);" = .ok p ∧
    p.find = some ⟨c!"FIND (c:Man);", .find, eFind.first.pattern⟩ := by
  obtain ⟨p, h, -, -, h2, -⟩ := C66_query_is_parsed_as_written_partial eQuery_good
  exact ⟨p, by rw [← eQuery_text]; exact h, h2⟩

/-- C65 on these two lines and a new GDBMS. -/
example : Stores demoEnv c!"MAKE (a:Man{x: 5})-[r:KNOWS]->(b:Man);\nFIND (c:Man);" demoG demoFresh [] [] [] [] 0 [eMake.first] := by
  rw [← eQuery_text]
  exact C65_query_stores_what_it_says_partial eQuery_runnable demoEnv demoG demoFresh [] [] [] [] 0 demoFresh_healthy (below_nil 0)

/-- C65, the two-line form. -/
example : ∃ fs' v w labels' names' rels', (query demoEnv (queryText eQuery) demoG).run demoFresh = (.ok true, fs') ∧
    Healthy fs' demoG [(c!"0", v), (c!"1", w)] labels' names' rels' 3 ∧ NodeRecord v 0 (eNode c!"a" c!"Man" (some c!"{x: 5}")) := by
  obtain ⟨fs', v, w, l, n, r, h1, h2, h3, -⟩ := C65_two_lines_partial (mk := c!"MAKE") (fd := c!"FIND") eQuery_good rfl demoEnv demoG
    demoFresh [] [] [] [] 0 demoFresh_healthy (below_nil 0)
  exact ⟨fs', v, w, l, n, r, by rw [← h1]; rfl, h2, h3⟩

/-- Five lines: an indented MAKE with a remark, an empty line, a FIND, a clause that is not executed, a REPORT. -/
def eFive : List Line := [{ ind := c!"  ", text := .make eMake, tail := c!" two men" }, { text := .other [] }, { text := .find eFind },
  { text := .other c!"CRITERIA c.name = 7;" }, { text := .report c!"REPORT" c!" wn(c)" }]

theorem eFive_text : queryText eFive =
    c!"  MAKE (a:Man{x: 5})-[r:KNOWS]->(b:Man); two men\n\nFIND (c:Man);\nCRITERIA c.name = 7;\nREPORT wn(c);" := by decide

theorem eFive_runnable : Runnable eFive eFind where
  good :=
    { lines := by
        simp only [eFive, List.mem_cons, List.not_mem_nil, or_false, forall_eq_or_imp, forall_eq]
        refine ⟨⟨by simp [Indent], eMake_good, ⟨by decide, by decide, noKeyword_of_search (by decide +kernel), noKeyword_of_search (by decide +kernel)⟩,
          fun _ _ h => by simp at h, fun _ h => by simp at h⟩, line_good (x := .other []) (stray_of (noKeyword_of rfl) (noKeyword_of rfl)), line_good eFind_good,
          line_good (x := .other _) (stray_of (noKeyword_of_search (by decide +kernel)) (noKeyword_of_search (by decide +kernel))),
          line_good (x := .report _ _) ⟨.inl rfl, by decide, by decide, quietParens_of (by decide)⟩⟩
      find := rfl
      quiet h := by simp [eFive, makesOf] at h
      report := .inr ⟨c!"REPORT wn(c);", rfl, by
        simp only [eFind, ChainText.handles, eNode, List.mem_singleton, forall_eq]
        exact ⟨c!"REPORT wn(", c!");", rfl⟩, by
        simp only [eFive, List.mem_cons, List.not_mem_nil, or_false, forall_eq_or_imp, forall_eq]
        exact ⟨noKeyword_of_search (by decide +kernel), noKeyword_of_search (by decide +kernel), noKeyword_of_search (by decide +kernel), noKeyword_of_search (by decide +kernel),
          noKeyword_of_search (by decide +kernel)⟩⟩ }
  find := trivial
  short := by simp [makeChains, makesOf, eFive, eMake, StmtText.chains, ChainText.Short, eRel]
  rel := .inr ⟨eMake.first, by simp [makeChains, makesOf, eFive, StmtText.chains], by simp [eMake, ChainText.rels]⟩

/-- C65 on these five lines. -/
example : Stores demoEnv c!"  MAKE (a:Man{x: 5})-[r:KNOWS]->(b:Man); two men\n\nFIND (c:Man);\nCRITERIA c.name = 7;\nREPORT wn(c);"
    demoG demoFresh [] [] [] [] 0 [eMake.first] := by
  rw [← eFive_text]
  exact C65_query_stores_what_it_says_partial eFive_runnable demoEnv demoG demoFresh [] [] [] [] 0 demoFresh_healthy (below_nil 0)

/-- C66 on these five lines: the REPORT. -/
example : ∃ p, parseQueryString (queryText eFive) = .ok p ∧ p.report.map ParsedReport.rawStatement = some c!"REPORT wn(c);" := by
  obtain ⟨p, h, -, -, -, h2⟩ := C66_query_is_parsed_as_written_partial eFive_runnable.good
  exact ⟨p, h, h2⟩

/-- The typed form `FIND (c:Man); MAKE (a:Man{x: 5})-[r:KNOWS]->(b:Man);`. -/
def eTyped : TypedText := ⟨eFind, c!" ", some eMake⟩

theorem eTyped_runnable : eTyped.Runnable where
  good :=
    { find := eFind_good
      gap := by simp [eTyped, Indent]
      make := by
        rintro m h
        injection h with h
        subst h
        exact eMake_good
      report := noAnagram_of (k := 't') (by decide) (by decide)
      line := by decide }
  find := trivial
  short := by simp [TypedText.chains, eTyped, eMake, StmtText.chains, ChainText.Short, eRel]
  rel := .inr ⟨eMake.first, by simp [TypedText.chains, eTyped, StmtText.chains], by simp [eMake, ChainText.rels]⟩

/-- C67 for it. -/
example : Stores demoEnv c!"FIND (c:Man); MAKE (a:Man{x: 5})-[r:KNOWS]->(b:Man);" demoG demoFresh [] [] [] [] 0 [eMake.first] :=
  C67_typed_query_partial eTyped_runnable demoEnv demoG demoFresh [] [] [] [] 0 demoFresh_healthy (below_nil 0)

/-- C67: typed twice. -/
example : ∃ fs' new labels' names' rels', (shellLoop demoEnv demoG [eTyped.render, eTyped.render]).run demoFresh = (.ok [.done, .done], fs') ∧
    Healthy fs' demoG new labels' names' rels' 6 ∧ AllRecords 0 [eMake.first, eMake.first] new := by
  have hh : ¬ AsksHelp eTyped.render := fun h => by
    have := (isSubstr_iff _ _).2 h
    revert this
    decide +kernel
  obtain ⟨fs', new, l, n, r, h1, h2, -, h3, -⟩ := C67_typed_session_partial (ts := [eTyped, eTyped])
    (by simpa using ⟨eTyped_runnable, hh⟩) demoEnv demoG demoFresh [] [] [] [] 0 demoFresh_healthy (below_nil 0)
  exact ⟨fs', new, l, n, r, h1, h2, h3⟩

/-- C67 is violated: the query `MAKE (a:Man{x: 5})-[r:KNOWS]->(b:Man); FIND (c:Man);`, typed on one line, is refused, although on
two lines it is executed. -/
theorem C67_violated : ∃ (m f : StmtText) (fs : FS), m.Good c!"MAKE" c!"make" ∧ f.Good c!"FIND" c!"find" ∧
    Healthy fs demoG [] [] [] [] 0 ∧ ((query demoEnv (m.render ++ (c!"\n" ++ f.render)) demoG).run fs).1 = .ok true ∧
    ∃ e, (query demoEnv (m.render ++ (c!" " ++ f.render)) demoG).run fs = (.error e, fs) := by
  refine ⟨eMake, eFind, demoFresh, eMake_good, eFind_good, demoFresh_healthy, ?_,
    C67_make_first_is_rejected eMake_good eFind_good (by simp [Indent]) (by simp) (by decide) demoEnv demoG demoFresh⟩
  obtain ⟨fs', _, _, _, _, h, -⟩ := C65_query_stores_what_it_says_partial eQuery_runnable demoEnv demoG demoFresh [] [] [] [] 0
    demoFresh_healthy (below_nil 0)
  have e : eMake.render ++ (c!"\n" ++ eFind.render) = queryText eQuery := rfl
  rw [e, h]

/-- C67 is violated: without the blank, the node of the FIND is stored as well. -/
theorem C67_violated_stored : Stores demoEnv c!"MAKE (a:Man{x: 5})-[r:KNOWS]->(b:Man);FIND (c:Man);" demoG demoFresh [] [] [] [] 0
    [eMake.first, eFind.first] := by
  refine C67_make_first_stores_find eMake_good eFind_good (by decide) (noAnagram_of (k := 't') (by decide) (by decide)) trivial ?_ ?_
    demoEnv demoG demoFresh [] [] [] [] 0 demoFresh_healthy (below_nil 0)
  · simp [eMake, eFind, StmtText.chains, ChainText.Short, eRel]
  · exact ⟨eMake.first, by simp [StmtText.chains], by simp [eMake, ChainText.rels]⟩

/-- `FIND (c:Porter);`. -/
def eFindPorter : StmtText := ⟨c!"FIND", c!" ", .one (eNode c!"c" c!"Porter" none), []⟩

theorem eFindPorter_good : eFindPorter.Good c!"FIND" c!"find" where
  kw := .inl rfl
  sp := by decide
  rest := by simp [eFindPorter]
  chains := by
    simp only [eFindPorter, StmtText.chains, List.map_nil, List.mem_singleton, forall_eq]
    exact ⟨eNode_good (by decide) (by decide) (by decide), by decide⟩
  line := by decide
  close := by
    rintro c h
    simp [eFindPorter, StmtText.chains] at h
    subst h
    rfl

/-- C66 is violated: `FIND (c:Porter);` is a well-formed query, but the label is taken for a misspelt REPORT. -/
theorem C66_violated : ∃ (l : List Line) (f : StmtText), (∀ x ∈ l, x.Good) ∧ findsOf l = [f] ∧ reportsOf l = [] ∧
    parseQueryString (queryText l) = .error .clauseSyntax := by
  refine ⟨[{ text := .find eFindPorter }], eFindPorter, ?_, rfl, rfl, by decide +kernel⟩
  simp only [List.mem_singleton, forall_eq]
  exact line_good eFindPorter_good

/-- C65 is violated: so nothing is executed. -/
theorem C65_violated : ∃ (l : List Line) (f : StmtText), (∀ x ∈ l, x.Good) ∧ findsOf l = [f] ∧ reportsOf l = [] ∧
    makesOf l = [eMake] ∧ (query demoEnv (queryText l) demoG).run demoFresh = (.error .clauseSyntax, demoFresh) := by
  refine ⟨[{ text := .make eMake }, { text := .find eFindPorter }], eFindPorter, ?_, rfl, rfl, rfl, ?_⟩
  · simp only [List.mem_cons, List.not_mem_nil, or_false, forall_eq_or_imp, forall_eq]
    exact ⟨line_good eMake_good, line_good eFindPorter_good⟩
  · have : parseQueryString (queryText [{ text := .make eMake }, { text := .find eFindPorter }]) = .error .clauseSyntax := by decide +kernel
    rw [query_run, this]

end

end WG
