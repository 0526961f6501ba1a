/-
Queries with a REPORT, or with something that looks like one: C40, C65, C66, C76 and C86 without conditions on the letters of REPORT.
-/
import Verif.Proofs.Report
import Verif.Props.Page
import Verif.Props.Exact

set_option linter.unusedSectionVars false
set_option linter.unusedSimpArgs false

namespace WG
open Re

section
variable [PyRuntime]

/-- The REPORTs of a text are determined by it. -/
theorem reports_only {q : Str} {rs rs' : List Str} (h : Reports (splitLines q) rs) (h' : Reports (splitLines q) rs') : rs = rs' :=
  reports_unique (splitLines_line q) h h'

theorem extract_reports {q : Str} {rs : List Str} (h : Reports (splitLines q) rs) :
    (reportAll.finditer q).map Prod.fst = rs := by
  have := reports_found (splitLines_line q) h
  rwa [splitLines_join] at this

/-- C40, C39, C41: every text, every list of handles: when the REPORT part of the query is accepted, and what it is. -/
theorem C40_any_text (q : Str) (hs : List Str) :
    (ReportsRight q hs → ∃ rs, Reports (splitLines q) rs ∧ parseReport q hs = .ok (parsedReport rs)) ∧
    (¬ ReportsRight q hs → ∃ e, parseReport q hs = .error e) := by
  obtain ⟨rs, hr⟩ := reports_exists (splitLines q)
  have hf := extract_reports hr
  have hex : rs ≠ [] → extractAllStatements q .report = .ok (some rs) := fun h => extract_of_finditer rfl hf h
  cases rs with
  | nil =>
    have hnil : reportAll.finditer q = [] := by simpa using hf
    have h1 : parseReport q hs = if (reportSpelling.finditer q).isEmpty then .ok none else .error .clauseSyntax := by
      have : extractAllStatements q .report = if (reportSpelling.finditer q).isEmpty then .ok none else .error .clauseSyntax := by
        rw [extract_def]
        simp only [clauseRe, hnil, List.map_nil, checkClauseSpelling]
        cases (reportSpelling.finditer q).isEmpty <;> rfl
      unfold parseReport
      rw [this]
      cases (reportSpelling.finditer q).isEmpty <;> rfl
    have h2 := reportSpelling_iff q
    constructor
    · rintro (⟨-, hm⟩ | ⟨s, hs, -⟩)
      · refine ⟨[], hr, ?_⟩
        rw [← h2, Classical.not_not] at hm
        rw [h1, hm]; rfl
      · exact absurd (reports_only hr hs) (by simp)
    · intro hn
      have hm : LooksMisspeltReport q := Classical.byContradiction fun hm => hn (.inl ⟨hr, hm⟩)
      rw [← h2] at hm
      refine ⟨.clauseSyntax, ?_⟩
      rw [h1]
      cases h : reportSpelling.finditer q with
      | nil => exact absurd h hm
      | cons => rfl
  | cons s ss =>
    have he := hex (by simp)
    cases ss with
    | nil =>
      obtain ⟨h1, h2⟩ := C40_report_accepted_iff q s hs he
      constructor
      · rintro (⟨h, -⟩ | ⟨s', hs', hp, hh⟩)
        · exact absurd (reports_only hr h) (by simp)
        · obtain rfl : s = s' := by simpa using reports_only hr hs'
          obtain ⟨r, hr'⟩ := h1.2 ⟨hh, hp⟩
          refine ⟨[s], hr, ?_⟩
          rw [hr']
          have := hr'
          unfold parseReport at this
          rw [he] at this
          simp only [ne_eq, not_true_eq_false, if_false] at this
          split at this
          · simp at this
          · split at this
            · simp only [Except.ok.injEq, Option.some.injEq] at this
              rw [← this]; rfl
            · simp at this
      · intro hn
        cases hp : parseReport q hs with
        | error e => exact ⟨e, rfl⟩
        | ok o =>
          exfalso
          cases o with
          | some r =>
            obtain ⟨hh, hp⟩ := h1.1 ⟨r, hp⟩
            exact hn (.inr ⟨s, hr, hp, hh⟩)
          | none =>
            unfold parseReport at hp
            rw [he] at hp
            simp only [ne_eq, not_true_eq_false, if_false] at hp
            split at hp
            · simp at hp
            · split at hp <;> simp at hp
    | cons s' ss =>
      have hp : parseReport q hs = .error .multipleClause := by
        unfold parseReport
        rw [he]
        simp
      refine ⟨?_, fun _ => ⟨_, hp⟩⟩
      rintro (⟨h, -⟩ | ⟨s', hs', -⟩)
      · exact absurd (reports_only hr h) (by simp)
      · exact absurd (reports_only hr hs') (by simp)

theorem right_handles {q : Str} {c : ChainText} : ReportsRight q c.pattern.patternHandles ↔ ReportsRight q c.handles := by
  have key : ∀ s : Str, (∀ h ∈ c.pattern.patternHandles, h <:+: s) ↔ ∀ h ∈ c.handles, h <:+: s := by
    intro s
    rw [ParsedPattern.patternHandles, handles_pattern]
    constructor
    · intro h x hx
      cases x with
      | nil => exact List.nil_infix
      | cons a x => exact h _ (List.mem_filter.2 ⟨hx, rfl⟩)
    · exact fun h x hx => h x (List.mem_filter.1 hx).1
  simp only [ReportsRight, key]

/-- C66, every query of well-formed lines with one FIND: it is accepted if and only if nothing is wrong with its REPORTs, and then its
statements are parsed as written; otherwise nothing happens. -/
theorem C66_report_exact {l : List Line} {f : StmtText} (hl : ∀ x ∈ l, x.Good) (hf : findsOf l = [f])
    (hq : makesOf l = [] → ∀ x ∈ l, ∀ t, x.text = .other t → '(' ∉ t) :
    (ReportsRight (queryText l) f.first.handles → ∃ rs, Reports (splitLines (queryText l)) rs ∧ parseQueryString (queryText l) =
      .ok ⟨parsedMakes (makesOf l), some ⟨f.render, .find, f.first.pattern⟩, parsedReport rs⟩) ∧
    (¬ ReportsRight (queryText l) f.first.handles → ∃ e, parseQueryString (queryText l) = .error e ∧
      ∀ env g fs, (query env (queryText l) g).run fs = (.error e, fs)) := by
  have hfr := checkRels_good (l := [f]) (fun t ht => findsOf_goods hl t (by rw [hf]; exact ht))
  simp only [List.map_cons, List.map_nil] at hfr
  have h1 : parseMake (queryText l) = .ok (parsedMakes (makesOf l)) := parseMake_text hl hq
  have h2 : parseFind (queryText l) = .ok (some ⟨f.render, .find, f.first.pattern⟩) := by
    have := parseFind_loose (fun x hx => (hl x hx).loose) hf
    rw [hfr] at this
    exact this
  obtain ⟨h3, h4⟩ := C40_any_text (queryText l) f.first.pattern.patternHandles
  rw [right_handles] at h3 h4
  constructor
  · intro h
    obtain ⟨rs, hr, e⟩ := h3 h
    refine ⟨rs, hr, ?_⟩
    rw [parseQueryString, h1, h2]
    simp only [e]
  · intro h
    obtain ⟨e, he⟩ := h4 h
    have : parseQueryString (queryText l) = .error e := by
      rw [parseQueryString, h1, h2]
      simp only [he]
    refine ⟨e, this, fun env g fs => ?_⟩
    rw [query_run, this]

/-- C76, the outcome of every query of well-formed lines with one FIND, whatever letters it has: if something is wrong with its REPORTs
nothing happens; otherwise the statements are executed as C76 says. -/
theorem C76_report_outcome {l : List Line} {f : StmtText} (hl : ∀ x ∈ l, x.Good) (hf : findsOf l = [f])
    (hq : makesOf l = [] → ∀ x ∈ l, ∀ t, x.text = .other t → '(' ∉ t) (env : Env) (g : GPath)
    (fs : FS) (d : Dict V) (labels names : List Str) (rels : Dict (List Int)) (n : Int)
    (h : Healthy fs g d labels names rels n) (hb : BelowCounter d n) :
    (¬ ReportsRight (queryText l) f.first.handles → ∃ e, (query env (queryText l) g).run fs = (.error e, fs)) ∧
    (ReportsRight (queryText l) f.first.handles ∧ makesOf l ≠ [] ∧ (∀ c ∈ makeChains l, c.rels = []) →
      Ruins env (queryText l) g fs d n (makeChains l)) ∧
    (ReportsRight (queryText l) f.first.handles ∧ (makesOf l = [] ∨ (∃ c ∈ makeChains l, c.rels ≠ [])) →
      Leaves env (queryText l) g fs d labels names rels n (makeChains l) f.first.findResult) := by
  obtain ⟨h1, h2⟩ := C66_report_exact hl hf hq
  have hg : ∀ c ∈ makeChains l, c.Good := fun c hc => by
    obtain ⟨t, ht, hc⟩ := List.mem_flatMap.1 hc
    exact ((makesOf_good hl t ht).chains c hc).1
  refine ⟨fun hn => ?_, fun ⟨hr, hm, hrel⟩ => ?_, fun ⟨hr, hrel⟩ => ?_⟩
  · obtain ⟨e, -, he⟩ := h2 hn
    exact ⟨e, he env g fs⟩
  · obtain ⟨rs, -, hp⟩ := h1 hr
    refine run_ruins hp (makeOf_text _) hg hrel env g fs h hb ?_
    cases e : makesOf l with
    | nil => exact absurd e hm
    | cons t ts => simp [parsedMakes]
  · obtain ⟨rs, -, hp⟩ := h1 hr
    refine run_leaves hp (makeOf_text _) hg (StmtText.Good.first (findsOf_goods hl f (by simp [hf]))) ?_ env g fs h hb ?_
    · exact hrel.imp_left fun e => by simp [makeChains, e]
    · cases hm : makesOf l with
      | nil => exact .inl rfl
      | cons t ts => exact .inr (by simp [StmtText.chains])

/-- C65 for every query of well-formed lines with a REPORT, or letters that look like one: if nothing is wrong with the REPORTs, the
query does what C65 says. -/
theorem C65_report_partial {l : List Line} {f : StmtText} (hl : ∀ x ∈ l, x.Good) (hf : findsOf l = [f])
    (hq : makesOf l = [] → ∀ x ∈ l, ∀ t, x.text = .other t → '(' ∉ t) (hr : ReportsRight (queryText l) f.first.handles)
    (hff : f.first.Findable) (hs : ∀ c ∈ makeChains l, c.Short) (hrel : makesOf l = [] ∨ ∃ c ∈ makeChains l, c.rels ≠ [])
    (env : Env) (g : GPath) (fs : FS) (d : Dict V) (labels names : List Str) (rels : Dict (List Int)) (n : Int)
    (h : Healthy fs g d labels names rels n) (hb : BelowCounter d n) :
    Stores env (queryText l) g fs d labels names rels n (makeChains l) := by
  obtain ⟨rs, -, hp⟩ := (C66_report_exact hl hf hq).1 hr
  refine run_parsed hp (makeOf_text _) (fun c hc => ?_) (StmtText.Good.first (findsOf_goods hl f (by simp [hf]))) hff hs ?_ env g fs h hb ?_
  · obtain ⟨t, ht, hc⟩ := List.mem_flatMap.1 hc
    exact ((makesOf_good hl t ht).chains c hc).1
  · exact hrel.imp_left fun e => by simp [makeChains, e]
  · cases hm : makesOf l with
    | nil => exact .inl rfl
    | cons t ts => exact .inr (by simp [StmtText.chains])

/-! ### Several statements on a line -/

/-- C86: how a query of several lines with several statements on each line is parsed, whatever letters it has. -/
theorem C86_report_exact {p : List (List RowStmt)} {f : RowStmt} {fs : List RowStmt} (hp : ∀ l ∈ p, ∀ x ∈ l, x.Loose) {txt : Str} (ht : PageOf p txt)
    (hf : findRows p = [f :: fs]) (h1 : ∀ l ∈ findRows p ++ checkedRows p, ∀ r ∈ rowRels l, r.Proper) :
    (ReportsRight txt f.stmt.first.handles → ∃ rs, Reports (splitLines txt) rs ∧ parseQueryString txt =
      .ok ⟨pageMakes p, some ⟨f.stmt.render ++ renderRow fs, .find, f.stmt.first.pattern⟩, parsedReport rs⟩) ∧
    (¬ ReportsRight txt f.stmt.first.handles → ∃ e, parseQueryString txt = .error e) := by
  obtain ⟨h3, h4⟩ := C40_any_text txt f.stmt.first.pattern.patternHandles
  rw [right_handles] at h3 h4
  have e0 : parseQueryString txt = (match parseReport txt f.stmt.first.pattern.patternHandles with
      | .error e => .error e
      | .ok r => .ok ⟨pageMakes p, some ⟨f.stmt.render ++ renderRow fs, .find, f.stmt.first.pattern⟩, r⟩) := by
    rw [parseQueryString, page_parseMake hp ht, page_parseFind hp ht hf, page_check_ok fun l hl => h1 l (by simp [hl]),
      checkAll_ok fun r hr => h1 (f :: fs) (by simp [hf]) r hr]
    dsimp only
    cases parseReport txt f.stmt.first.pattern.patternHandles <;> rfl
  constructor
  · intro h
    obtain ⟨rs, hr, e⟩ := h3 h
    exact ⟨rs, hr, by rw [e0, e]⟩
  · intro h
    obtain ⟨e, he⟩ := h4 h
    exact ⟨e, by rw [e0, he]⟩

/-- C86: the outcome of every query of any number of lines with any number of statements, whatever letters it has: nothing happens if it
is refused or something is wrong with its REPORTs; otherwise it stores the patterns of all the statements that stand behind a MAKE on the
same line, or ruins the index if they have no relationship. -/
theorem C86_report_outcome {p : List (List RowStmt)} {f : StmtText} (hp : ∀ l ∈ p, ∀ x ∈ l, x.Loose) {txt : Str} (ht : PageOf p txt)
    (hf : pageFind p = some f) (env : Env) (g : GPath)
    (fs : FS) (d : Dict V) (labels names : List Str) (rels : Dict (List Int)) (n : Int)
    (h : Healthy fs g d labels names rels n) (hb : BelowCounter d n) :
    (PageRefused p ∨ ¬ ReportsRight txt f.first.handles → ∃ e, (query env txt g).run fs = (.error e, fs)) ∧
    (¬ PageRefused p ∧ ReportsRight txt f.first.handles ∧ makeRows p ≠ [] ∧ (∀ c ∈ pageChains p, c.rels = []) →
      Ruins env txt g fs d n (pageChains p)) ∧
    (¬ PageRefused p ∧ ReportsRight txt f.first.handles ∧ (makeRows p = [] ∨ (∃ c ∈ pageChains p, c.rels ≠ [])) →
      Leaves env txt g fs d labels names rels n (pageChains p) f.first.findResult) := by
  by_cases hn : PageRefused p
  · exact ⟨fun _ => C86_page_refused hp ht hn env g fs, fun h => absurd hn h.1, fun h => absurd hn h.1⟩
  obtain ⟨⟨f', fs', hff⟩, hpr, hboth, hg⟩ := not_pageRefused hn
  obtain rfl : f'.stmt = f := by simpa [pageFind, hff] using hf
  obtain ⟨hok, hbad⟩ := C86_report_exact hp ht hff hpr
  have hst : ∀ c ∈ pageChains p, c.Storable := by
    intro c hc
    obtain ⟨l, hl, hc⟩ := List.mem_flatMap.1 hc
    obtain ⟨x, hx, hc⟩ := List.mem_flatMap.1 hc
    refine ((makeRows_loose hp hl x hx).facts.chains c hc).1.storable fun r hr => hboth l hl r ?_
    exact List.mem_flatMap.2 ⟨x, hx, List.mem_flatMap.2 ⟨c, hc, hr⟩⟩
  have hfst : f'.stmt.first.Storable := by
    have hl : f' :: fs' ∈ findRows p := by simp [hff]
    refine ((findRows_loose hp hl f' (by simp)).facts.chains f'.stmt.first (by simp [StmtText.chains])).1.storable fun r hr => not_both ?_
    exact hpr _ (List.mem_append_left _ hl) r (List.mem_flatMap.2 ⟨f', by simp, List.mem_flatMap.2 ⟨_, by simp [StmtText.chains], hr⟩⟩)
  refine ⟨fun h => ?_, fun ⟨_, hr, hm, hrel⟩ => ?_, fun ⟨_, hr, hrel⟩ => ?_⟩
  · rcases h with h | h
    · exact absurd h hn
    · obtain ⟨e, he⟩ := hbad h
      exact query_parse_error he env g fs
  · obtain ⟨rs, -, hparse⟩ := hok hr
    refine run_ruins_st hparse (page_makeOf hg) hst hrel env g fs h hb ?_
    obtain ⟨l, ls, e⟩ := List.exists_cons_of_ne_nil hm
    obtain ⟨pm, pms, e1, e2⟩ := pageMakes_some (p := p) (l := l) (by simp [e])
    simp [e1]
  · obtain ⟨rs, -, hparse⟩ := hok hr
    refine run_leaves_st hparse (page_makeOf hg) hst hfst ?_ env g fs h hb ?_
    · exact hrel.imp_left fun e => by simp [pageChains, e]
    · by_cases hm : makeRows p = []
      · exact .inl (by simp [pageMakes, hm])
      · exact .inr (page_ne hm)

end

section
attribute [local instance] demoRuntime

/-- `FIND (h:reporter);`. -/
def rFind (h : Str) : StmtText := ⟨c!"FIND", c!" ", .one (eNode h c!"reporter" none), []⟩

theorem rFind_good {h : Str} (hw : h = c!"r" ∨ h = c!"a") : (rFind h).Good c!"FIND" c!"find" where
  kw := .inl rfl
  sp := show c!" ".all isSpace = true by decide
  rest := by simp [rFind]
  chains := by
    simp only [rFind, StmtText.chains, List.map_nil, List.mem_singleton, forall_eq]
    rcases hw with rfl | rfl <;> exact ⟨eNode_good (by decide) (by decide) (by decide), by decide⟩
  line := by rcases hw with rfl | rfl <;> decide
  close := by
    rintro c hc
    simp [rFind, StmtText.chains] at hc
    subst hc
    rfl

/-- `FIND (h:reporter);` below the MAKE of the other examples. -/
def rQuery (h : Str) : List Line := [{ text := .make eMake }, { text := .find (rFind h) }]

theorem rQuery_good {h : Str} (hw : h = c!"r" ∨ h = c!"a") : ∀ x ∈ rQuery h, x.Good := by
  simp only [rQuery, List.mem_cons, List.not_mem_nil, or_false, forall_eq_or_imp, forall_eq]
  exact ⟨line_good eMake_good, line_good (rFind_good hw)⟩

/-- The label counts as a REPORT. -/
theorem rQuery_report {h : Str} (hw : h = c!"r" ∨ h = c!"a") : Reports (splitLines (queryText (rQuery h))) [c!"reporter);"] := by
  obtain ⟨rs, hr⟩ := reports_exists (splitLines (queryText (rQuery h)))
  have h1 := extract_reports hr
  have h2 : (reportAll.finditer (queryText (rQuery h))).map Prod.fst = [c!"reporter);"] := by
    rcases hw with rfl | rfl <;> decide +kernel
  rwa [← h2, h1]

/-- C65: `FIND (r:reporter);` is executed, because its handle stands in `reporter);`. -/
example : Stores demoEnv (queryText (rQuery c!"r")) demoG demoFresh [] [] [] [] 0 [eMake.first] := by
  refine C65_report_partial (f := rFind c!"r") (rQuery_good (.inl rfl)) rfl (by intro h; simp [rQuery, makesOf] at h)
    (.inr ⟨_, rQuery_report (.inl rfl), .inr ⟨c!"er);", rfl⟩, ?_⟩) trivial ?_ (.inr ⟨eMake.first, ?_, ?_⟩)
    demoEnv demoG demoFresh [] [] [] [] 0 demoFresh_healthy (below_nil 0)
  · simp [rFind, ChainText.handles, eNode]
    exact ⟨[], c!"eporter);", rfl⟩
  · simp [rQuery, makeChains, makesOf, eMake, StmtText.chains, ChainText.Short, eRel]
  · simp [rQuery, makeChains, makesOf, StmtText.chains]
  · simp [eMake, ChainText.rels]

/-- C66 is violated: `FIND (a:reporter);` is refused, because its handle does not stand in `reporter);`. -/
theorem C66_violated_label : (∀ x ∈ rQuery c!"a", x.Good) ∧ reportsOf (rQuery c!"a") = [] ∧
    ∃ e, ∀ env g fs, (query env (queryText (rQuery c!"a")) g).run fs = (.error e, fs) := by
  refine ⟨rQuery_good (.inr rfl), rfl, ?_⟩
  obtain ⟨e, -, h⟩ := (C66_report_exact (f := rFind c!"a") (rQuery_good (.inr rfl)) rfl (by intro h; simp [rQuery, makesOf] at h)).2 (by
    rintro (⟨h, -⟩ | ⟨s, h, -, hh⟩)
    · exact absurd (reports_only h (rQuery_report (.inr rfl))) (by simp)
    · obtain rfl : s = c!"reporter);" := by simpa using reports_only h (rQuery_report (.inr rfl))
      have := hh c!"a" (by simp [rFind, ChainText.handles, eNode])
      exact absurd (this.subset (List.mem_singleton.2 rfl)) (by decide))
  exact ⟨e, h⟩

/-- The same text as a page: refused for the handle `a`, executed for `r`. -/
example (h : Str) (hw : h = c!"r" ∨ h = c!"a") :
    ReportsRight (pageText [[⟨[], true, eMake⟩], [⟨[], false, rFind h⟩]]) (rFind h).first.handles ↔ h = c!"r" := by
  have e : pageText [[⟨[], true, eMake⟩], [⟨[], false, rFind h⟩]] = queryText (rQuery h) := by
    rcases hw with rfl | rfl <;> rfl
  rw [e]
  constructor
  · rintro (⟨h', -⟩ | ⟨s, h', -, hh⟩)
    · exact absurd (reports_only h' (rQuery_report hw)) (by simp)
    · obtain rfl : s = c!"reporter);" := by simpa using reports_only h' (rQuery_report hw)
      rcases hw with rfl | rfl
      · rfl
      · exact absurd ((hh c!"a" (by simp [rFind, ChainText.handles, eNode])).subset (List.mem_singleton.2 rfl)) (by decide)
  · rintro rfl
    refine .inr ⟨_, rQuery_report (.inl rfl), .inr ⟨c!"er);", rfl⟩, ?_⟩
    simp [rFind, ChainText.handles, eNode]
    exact ⟨[], c!"eporter);", rfl⟩

end
end WG
