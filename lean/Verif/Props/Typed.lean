/-
Lines typed in the shell, with any number of statements and a REPORT: C67, C85.
-/
import Verif.Spec.Typed
import Verif.Props.Report
import Verif.Props.Durable

set_option linter.unusedSectionVars false
set_option linter.unusedSimpArgs false

namespace WG

section
variable [PyRuntime]

theorem line_not_q {x : TypedLine} (hl : ∀ s ∈ x.row, s.Loose) (hq : x ≠ ⟨[], c!"q"⟩) : x.text ≠ c!"q" := by
  obtain ⟨row, tail⟩ := x
  intro e
  cases row with
  | nil => exact hq (by rw [show tail = c!"q" from e])
  | cons y row =>
    have hk := (hl y (by simp)).facts.kwLen
    have : (renderRow (y :: row) ++ tail).length = 1 := by rw [show renderRow (y :: row) ++ tail = c!"q" from e]; rfl
    simp only [renderRow, StmtText.render, List.length_append] at this
    omega

theorem pageOf_line {l : List RowStmt} {t : Str} (ht : Remark t) : PageOf [l] (renderRow l ++ t) :=
  ⟨[t], rfl, by simpa using ht, rfl⟩

theorem makeRows_line (l : List RowStmt) : (fromMake l = [] ∧ makeRows [l] = []) ∨ (fromMake l ≠ [] ∧ makeRows [l] = [fromMake l]) := by
  cases h : fromMake l with
  | nil => exact .inl ⟨rfl, by simp [makeRows, h]⟩
  | cons m ms => exact .inr ⟨by simp, by simp [makeRows, h]⟩

theorem findRows_line (l : List RowStmt) : (fromFind l = [] ∧ findRows [l] = []) ∨ (fromFind l ≠ [] ∧ findRows [l] = [fromFind l]) := by
  cases h : fromFind l with
  | nil => exact .inl ⟨rfl, by simp [findRows, h]⟩
  | cons m ms => exact .inr ⟨by simp, by simp [findRows, h]⟩

theorem pageChains_line (l : List RowStmt) : pageChains [l] = rowChains (fromMake l) := by
  rcases makeRows_line l with ⟨h1, h2⟩ | ⟨h1, h2⟩ <;> simp [pageChains, h1, h2, rowChains]

theorem fromFind_all {l : List RowStmt} (h : ∀ x ∈ l, x.isMake = true) : fromFind l = [] := by
  induction l with
  | nil => rfl
  | cons x l ih =>
    have := ih fun y hy => h y (List.mem_cons_of_mem _ hy)
    simpa [fromFind, h x (by simp)] using this

/-- For a query of one line the two ways of saying that its statements are refused agree. -/
theorem pageRefused_line (l : List RowStmt) : PageRefused [l] ↔ RowRefused l := by
  constructor
  · rintro (h | ⟨l', hl, r, hr, hbad⟩ | ⟨l', hl, r, hr, hboth⟩ | ⟨l', hl, x, hx, hgap⟩)
    · rcases findRows_line l with ⟨h1, h2⟩ | ⟨h1, h2⟩
      · refine Classical.byContradiction fun hn => ?_
        obtain ⟨⟨f, fs, hf⟩, -⟩ := not_refused hn
        rw [h1] at hf
        simp at hf
      · simp [h2] at h
    · refine .inr (.inl ⟨r, ?_, hbad⟩)
      rcases List.mem_append.1 hl with hl | hl
      · obtain ⟨l'', h1, rfl, -⟩ := mem_findRows hl
        obtain rfl := List.mem_singleton.1 h1
        exact rowRels_fromFind hr
      · obtain ⟨l'', h1, rfl, -⟩ := mem_makeRows ((List.takeWhile_sublist _).subset hl)
        obtain rfl := List.mem_singleton.1 h1
        exact rowRels_fromMake hr
    · obtain ⟨l'', h1, rfl, -⟩ := mem_makeRows hl
      obtain rfl := List.mem_singleton.1 h1
      exact .inr (.inl ⟨r, rowRels_fromMake hr, fun hp => not_both hp hboth⟩)
    · obtain ⟨l'', h1, rfl, -⟩ := mem_makeRows hl
      obtain rfl := List.mem_singleton.1 h1
      exact .inr (.inr ⟨x, hx, hgap⟩)
  · rintro (h | ⟨r, hr, hbad⟩ | ⟨x, hx, hgap⟩)
    · rcases findRows_line l with ⟨-, h2⟩ | ⟨h1, -⟩
      · exact .inl (by simp [h2])
      · exact absurd (fromFind_all h) h1
    · rcases findRows_line l with ⟨h1, h2⟩ | ⟨h1, h2⟩
      · exact .inl (by simp [h2])
      · refine .inr (.inl ?_)
        cases l with
        | nil => simp [rowRels] at hr
        | cons x l =>
          cases hk : x.isMake with
          | true =>
            have e : fromMake (x :: l) = x :: l := by simp [fromMake, hk]
            refine ⟨x :: l, List.mem_append_right _ ?_, r, hr, hbad⟩
            have hne : (rowRels (x :: l)).isEmpty = false := by
              cases hrr : rowRels (x :: l) with
              | nil => rw [hrr] at hr; simp at hr
              | cons => rfl
            simp [checkedRows, makeRows, e, hne]
          | false =>
            have e : fromFind (x :: l) = x :: l := by simp [fromFind, hk]
            exact ⟨x :: l, List.mem_append_left _ (by simp [findRows, e]), r, hr, hbad⟩
    · refine .inr (.inr (.inr ⟨fromMake l, ?_, x, hx, hgap⟩))
      rcases makeRows_line l with ⟨h1, -⟩ | ⟨-, h2⟩
      · simp [h1] at hx
      · simp [h2]

theorem pageFind_line (l : List RowStmt) : pageFind [l] = rowFind l := by
  rcases findRows_line l with ⟨h1, h2⟩ | ⟨h1, h2⟩ <;> simp [pageFind, rowFind, h1, h2]

/-- C85, C67: the outcome of every line, whatever letters it has. -/
theorem C85_line_outcome {x : TypedLine} (hl : ∀ s ∈ x.row, s.Loose) (ht : Remark x.tail) (env : Env) (g : GPath)
    (fs : FS) (d : Dict V) (labels names : List Str) (rels : Dict (List Int)) (n : Int)
    (h : Healthy fs g d labels names rels n) (hb : BelowCounter d n) :
    (x.Refused → ∃ e, (query env x.text g).run fs = (.error e, fs)) ∧
    (¬ x.Refused → ∃ f, rowFind x.row = some f ∧
      (fromMake x.row ≠ [] ∧ (∀ c ∈ rowChains (fromMake x.row), c.rels = []) → Ruins env x.text g fs d n (rowChains (fromMake x.row))) ∧
      (fromMake x.row = [] ∨ (∃ c ∈ rowChains (fromMake x.row), c.rels ≠ []) →
        Leaves env x.text g fs d labels names rels n (rowChains (fromMake x.row)) f.first.findResult)) := by
  have hp : ∀ l ∈ [x.row], ∀ s ∈ l, s.Loose := by simpa using hl
  have hpage : PageOf [x.row] x.text := pageOf_line ht
  have hm : makeRows [x.row] = [] ↔ fromMake x.row = [] := by
    rcases makeRows_line x.row with ⟨h1, h2⟩ | ⟨h1, h2⟩ <;> simp [h1, h2]
  constructor
  · intro hr
    by_cases hr' : RowRefused x.row
    · exact C86_page_refused hp hpage ((pageRefused_line _).2 hr') env g fs
    · obtain ⟨f, hf, hrep⟩ := hr.resolve_left hr'
      exact (C86_report_outcome hp hpage (by rw [pageFind_line, hf]) env g fs d labels names rels n h hb).1 (.inr hrep)
  · intro hr
    have hr' : ¬ RowRefused x.row := fun h => hr (.inl h)
    obtain ⟨⟨f, fs', hf⟩, -⟩ := not_refused hr'
    have hf : rowFind x.row = some f.stmt := by simp [rowFind, hf]
    have hrep : ReportsRight x.text f.stmt.first.handles := Classical.byContradiction fun hn => hr (.inr ⟨_, hf, hn⟩)
    obtain ⟨-, h2, h3⟩ := C86_report_outcome hp hpage (by rw [pageFind_line, hf]) env g fs d labels names rels n h hb
    rw [pageChains_line, pageRefused_line] at h2 h3
    rw [ne_eq, hm] at h2
    rw [hm] at h3
    exact ⟨f.stmt, hf, fun h => h2 ⟨hr', hrep, h⟩, fun h => h3 ⟨hr', hrep, h⟩⟩

/-- C85: a whole session of such lines.  Each is answered with help, refused without effect, or executed; afterwards the database holds what
it held before and then the patterns the lines store, in their order and with consecutive numbers, and the index knows them. -/
theorem C85_line_session {ls : List TypedLine} (hl : ∀ x ∈ ls, TypedFair x) (env : Env) (g : GPath)
    (fs : FS) (d : Dict V) (labels names : List Str) (rels : Dict (List Int)) (n : Int)
    (h : Healthy fs g d labels names rels n) (hb : BelowCounter d n) :
    ∃ fs' log cs new labels' names' rels', (shellLoop env g (ls.map TypedLine.text)).run fs = (.ok log, fs') ∧ TypedDo ls log cs ∧
      Healthy fs' g (d ++ new) labels' names' rels' (n + sizeOfAll cs) ∧ BelowCounter (d ++ new) (n + sizeOfAll cs) ∧
      ActualAll n cs new ∧ Indexed cs new labels names rels labels' names' rels' ∧
      ∀ p, p ≠ g.db → p ≠ g.idx → p ≠ g.wn → fs'.get p = fs.get p := by
  induction ls generalizing fs d labels names rels n with
  | nil =>
    refine ⟨fs, [], [], [], labels, names, rels, rfl, .nil, by simpa [sizeOfAll] using h, by simpa [sizeOfAll] using hb, rfl,
      ⟨by simp, by simp, by simp⟩, fun _ _ _ _ => rfl⟩
  | cons x ls ih =>
    have hx := hl x (by simp)
    have ih := @ih fun l' h' => hl l' (List.mem_cons_of_mem _ h')
    by_cases hh : AsksHelp x.text
    · obtain ⟨fs', log, cs, new, l', n', r', h1, h2, h3⟩ := ih fs d labels names rels n h hb
      refine ⟨fs', .help :: log, [] ++ cs, new, l', n', r', ?_, .cons (.help hh) h2, h3⟩
      rw [List.map_cons, shellLoop, if_neg (line_not_q hx.loose hx.quit), if_pos ((isSubstr_iff _ _).2 hh), run_bind, h1]
      rfl
    · obtain ⟨ev, log, fs3, e1, e2, e3⟩ := C54_input_is_executed_partial env g x.text (ls.map TypedLine.text) fs
        (line_not_q hx.loose hx.quit) hh
      by_cases hr : x.Refused
      · obtain ⟨e, he⟩ := (C85_line_outcome hx.loose hx.tail env g fs d labels names rels n h hb).1 hr
        rw [he] at e2 e3
        obtain ⟨fs', log', cs, new, l', n', r', h1, h2, h3⟩ := ih fs d labels names rels n h hb
        rw [h1] at e2
        simp only [Prod.mk.injEq, Except.ok.injEq] at e2
        obtain ⟨rfl, rfl⟩ := e2
        refine ⟨fs', ev :: log', [] ++ cs, new, l', n', r', e1, .cons ?_ h2, h3⟩
        rcases e3 with ⟨-, b, e3⟩ | ⟨e', rfl, e3⟩
        · simp at e3
        · exact .refused e' hh hr
      · obtain ⟨f, hf, -, h3⟩ := (C85_line_outcome hx.loose hx.tail env g fs d labels names rels n h hb).2 hr
        have hrel : fromMake x.row = [] ∨ ∃ c ∈ rowChains (fromMake x.row), c.rels ≠ [] := Classical.byContradiction fun hn =>
          hx.fair ⟨hh, hr, fun e => hn (.inl e), fun c hc => Classical.byContradiction fun e => hn (.inr ⟨c, hc, e⟩)⟩
        obtain ⟨fs1, new1, l1, n1, r1, hrun, hh1, hb1, ha1, hi1, ho1⟩ := h3 hrel
        obtain ⟨fs2, log', cs, new2, l2, n2, r2, hr2, hd2, hh2, hb2, ha2, hi2, ho2⟩ := ih fs1 (d ++ new1) l1 n1 r1 _ hh1 hb1
        have es : n + (sizeOfAll (rowChains (fromMake x.row) ++ cs) : Int) =
            n + sizeOfAll (rowChains (fromMake x.row)) + sizeOfAll cs := by
          rw [sizeOfAll_append]
          omega
        rw [hrun] at e2 e3
        rw [hr2] at e2
        simp only [Prod.mk.injEq, Except.ok.injEq] at e2
        obtain ⟨rfl, rfl⟩ := e2
        refine ⟨fs2, ev :: log', rowChains (fromMake x.row) ++ cs, new1 ++ new2, l2, n2, r2, e1, .cons ?_ hd2, ?_, ?_,
          records_append ha1 ha2, indexed_trans hi1 hi2, fun p hp1 hp2 hp3 => (ho2 p hp1 hp2 hp3).trans (ho1 p hp1 hp2 hp3)⟩
        · rcases e3 with ⟨rfl, b, e3⟩ | ⟨e', rfl, e3⟩
          · refine .done hh hr f hf ?_
            cases hc : f.first <;> rw [hc] at e3 <;> simp [ChainText.findResult] at e3 ⊢
          · exact .failed hh hr f hf e' e3
        · rw [es, ← List.append_assoc]; exact hh2
        · rw [es, ← List.append_assoc]; exact hb2

end

section
attribute [local instance] demoRuntime

/-- `FIND (c:Man); REPORT c; MAKE ...;MAKE (a:Man); and so on`. -/
def tLine : TypedLine := ⟨[⟨[], false, eFind⟩, ⟨c!" REPORT c; ", true, eMake⟩, ⟨[], true, aOne⟩], c!" and so on"⟩
/-- `FIND (c:Man); REPORT d;`. -/
def tBad : TypedLine := ⟨[⟨[], false, eFind⟩], c!" REPORT d;"⟩

theorem tGap : Between c!" REPORT c; " :=
  ⟨by decide, noKeyword_of (by decide), noKeyword_of (by decide)⟩

theorem tLine_loose : ∀ s ∈ tLine.row, s.Loose := by
  simp only [tLine, List.mem_cons, List.not_mem_nil, or_false, forall_eq_or_imp, forall_eq]
  exact ⟨⟨between_of_indent (by simp [Indent]), by decide, by simp, fun _ => eFind_good.loose⟩, ⟨tGap, by decide, fun _ => eMake_good.loose, by simp⟩,
    ⟨between_of_indent (by simp [Indent]), by decide, fun _ => aOne_good.loose, by simp⟩⟩

theorem tLine_runs : ¬ RowRefused tLine.row := by
  rintro (h | ⟨r, hr, hp⟩ | h)
  · simp [tLine] at h
  · exact hp (pRels (l := tLine.row) (by simp [tLine]) r hr)
  · simp [tLine, fromMake, HasBlank] at h

theorem reports_of {q : Str} {rs : List Str} (h : (reportAll.finditer q).map Prod.fst = rs) : Reports (splitLines q) rs := by
  obtain ⟨rs', hr⟩ := reports_exists (splitLines q)
  rw [← h, extract_reports hr]
  exact hr

theorem tLine_accepted : ¬ tLine.Refused := by
  rintro (h | ⟨f, hf, hn⟩)
  · exact tLine_runs h
  · obtain rfl : eFind = f := by simpa [rowFind, tLine, fromFind] using hf
    refine hn (.inr ⟨_, reports_of (rs := [c!"REPORT c; MAKE (a:Man{x: 5})-[r:KNOWS]->(b:Man);MAKE (a:Man);"]) (by decide +kernel), .inl ⟨_, rfl⟩, ?_⟩)
    simp only [eFind, ChainText.handles, eNode, List.mem_singleton, forall_eq]
    exact ⟨c!"REPORT ", _, rfl⟩

theorem tLine_tail : Remark tLine.tail :=
  ⟨by decide, by decide, noKeyword_of (by decide), noKeyword_of (by decide)⟩

/-- The REPORT between the statements does no harm: both MAKE statements are stored. -/
example : Leaves demoEnv tLine.text demoG demoFresh [] [] [] [] 0 (eMake.chains ++ aOne.chains) (.ok true) := by
  obtain ⟨f, hf, -, h⟩ := (C85_line_outcome tLine_loose tLine_tail demoEnv demoG demoFresh [] [] [] [] 0 demoFresh_healthy (below_nil 0)).2
    tLine_accepted
  obtain rfl : eFind = f := by simpa [rowFind, tLine, fromFind] using hf
  exact h (.inr ⟨eMake.first, by simp [tLine, fromMake, rowChains, StmtText.chains], by simp [eMake, ChainText.rels]⟩)

theorem tBad_refused : tBad.Refused := by
  refine .inr ⟨eFind, rfl, ?_⟩
  have hr : Reports (splitLines tBad.text) [c!"REPORT d;"] := reports_of (by decide +kernel)
  rintro (⟨h, -⟩ | ⟨s, h, -, hh⟩)
  · exact absurd (reports_only h hr) (by simp)
  · obtain rfl : s = c!"REPORT d;" := by simpa using reports_only h hr
    exact absurd ((hh c!"c" (by simp [eFind, ChainText.handles, eNode])).subset (List.mem_singleton.2 rfl)) (by decide)

theorem tLine_fair : TypedFair tLine where
  loose := tLine_loose
  tail := tLine_tail
  quit := by simp [tLine, tBad, wRow]
  fair h := absurd (h.rel eMake.first (by simp [tLine, fromMake, rowChains, StmtText.chains])) (by simp [eMake, ChainText.rels])

theorem tBad_fair : TypedFair tBad where
  loose := by
    simp only [tBad, List.mem_singleton, forall_eq]
    exact ⟨between_of_indent (by simp [Indent]), by decide, by simp, fun _ => eFind_good.loose⟩
  tail := ⟨by decide, by decide, noKeyword_of (by decide), noKeyword_of (by decide)⟩
  quit := by simp [tLine, tBad, wRow]
  fair h := h.accepted tBad_refused

/-- The statements in one row, without a REPORT. -/
theorem wRow_fair : TypedFair ⟨wRow, []⟩ where
  loose := wRow_loose
  tail := ⟨by decide, by decide, noKeyword_nil (by decide), noKeyword_nil (by decide)⟩
  quit := by simp [tLine, tBad, wRow]
  fair h := by
    obtain ⟨c, hc, hr⟩ := wRow_rel
    exact hr (h.rel c hc)

/-- A session of four lines. -/
example : ∃ fs' log cs new labels' names' rels',
    (shellLoop demoEnv demoG ([tLine, tBad, ⟨wRow, []⟩, tLine].map TypedLine.text)).run demoFresh = (.ok log, fs') ∧
      TypedDo [tLine, tBad, ⟨wRow, []⟩, tLine] log cs ∧
      Healthy fs' demoG ([] ++ new) labels' names' rels' (0 + sizeOfAll cs) ∧ BelowCounter ([] ++ new) (0 + sizeOfAll cs) ∧
      ActualAll 0 cs new ∧ Indexed cs new [] [] [] labels' names' rels' ∧
      ∀ p, p ≠ demoG.db → p ≠ demoG.idx → p ≠ demoG.wn → fs'.get p = demoFresh.get p :=
  C85_line_session (by
    simp only [List.mem_cons, List.not_mem_nil, or_false, forall_eq_or_imp, forall_eq]
    exact ⟨tLine_fair, tBad_fair, wRow_fair, tLine_fair⟩) demoEnv demoG demoFresh [] [] [] [] 0 demoFresh_healthy (below_nil 0)

end

end WG
