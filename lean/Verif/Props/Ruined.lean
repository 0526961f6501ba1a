/-
Sessions in which a line ruins the index: C69, C85.
-/
import Verif.Props.Typed

set_option linter.unusedSectionVars false
set_option linter.unusedSimpArgs false

namespace WG

section
variable [PyRuntime]

theorem run_loadIndexSet_bad {p : Path} {name : Str} {fs : FS} (h : Unreadable fs p) : (loadIndexSet p name).run fs = (.ok [], fs) := by
  obtain ⟨t, h1, h2⟩ := h
  unfold loadIndexSet
  rw [run_tryCatch, run_bind_ok (run_readFile_some h1), show (loads t : Except PyErr V) = .error .jsonDecode by simp [loads, h2]]
  rfl

/-- Without a readable index FIND finds nothing, and the disk stays as it is. -/
theorem find_lost {pf : ParsedFind} {c : Option Criteria} {f : FindPre} {g : GPath} {fs : FS} (h : Unreadable fs g.idx)
    (hp : processParsedFind pf c = .ok f) : (find pf g c).run fs = (.ok .noResults, fs) := by
  unfold find
  rw [hp, run_bind_ok (run_liftE_ok _ _)]
  have e : (findShortCircuit f g).run fs = (.ok false, fs) := by
    unfold findShortCircuit
    unfold loadNodeLabelsIndex loadRelationshipNamesIndex
    rw [run_bind_ok (run_loadIndexSet_bad h), run_bind_ok (run_loadIndexSet_bad h)]
    simp [nodeLabelIsInIndex, Prog.run, pure]
  rw [run_bind_ok e]
  rfl

theorem find_lost_step {raw : Str} {c : ChainText} (hc : c.Storable) {fs : FS} {g : GPath} (h : Unreadable fs g.idx) :
    (match (find ⟨raw, .find, c.pattern⟩ g none).run fs with
      | (.error e, fs') => (.error e, fs')
      | (.ok _, fs') => ((.ok true : Except PyErr Bool), fs')) = (c.findResult, fs) := by
  have hok : c.Findable → (match (find ⟨raw, .find, c.pattern⟩ g none).run fs with
      | (.error e, fs') => (.error e, fs')
      | (.ok _, fs') => ((.ok true : Except PyErr Bool), fs')) = (.ok true, fs) := by
    intro hf
    obtain ⟨f, hp⟩ := find_ok (raw := raw) hc hf
    rw [find_lost h hp]
  cases c with
  | one n => exact hok trivial
  | two n r m =>
    unfold find
    rw [find_two hc.1 hc.2.2]
    rfl
  | three n r m r' m' => exact hok trivial

theorem first_actual {n : Int} {cs : List ChainText} {new : Dict V} (h : ActualAll n cs new) (hne : cs ≠ []) : intStr n ∈ keys new := by
  cases cs with
  | nil => exact absurd rfl hne
  | cons c cs =>
    obtain ⟨x, y, rfl, h, -⟩ := h
    rw [keys, List.map_append, List.mem_append]
    left
    cases c with
    | one => obtain ⟨v, rfl, -⟩ := h; simp
    | two => obtain ⟨v, w, rfl, -⟩ := h; simp
    | three => obtain ⟨v, w, w1, w2, rfl, -⟩ := h; simp

/-- The outcome of a line on a disk whose index is lost and whose counter names a node that is there. -/
theorem line_stuck {x : TypedLine} (hl : ∀ s ∈ x.row, s.Loose) (ht : Remark x.tail) (env : Env) (g : GPath) (fs : FS) (d : Dict V) (n : Int)
    (hd : Holds fs g.db d) (hn : (getCurrentWiggleNumber g.wn).run fs = (.ok n, fs)) (hk : intStr n ∈ keys d) (hi : Unreadable fs g.idx) :
    (x.Refused → ∃ e, (query env x.text g).run fs = (.error e, fs)) ∧
    (¬ x.Refused → ∃ f, rowFind x.row = some f ∧
      (fromMake x.row ≠ [] → (query env x.text g).run fs = (.error .nodeExists, fs)) ∧
      (fromMake x.row = [] → (query env x.text g).run fs = (f.first.findResult, fs))) := by
  have hp : ∀ l ∈ [x.row], ∀ s ∈ l, s.Loose := by simpa using hl
  have hpage : PageOf [x.row] x.text := pageOf_line ht
  have hm : makeRows [x.row] = [] ↔ fromMake x.row = [] := by
    rcases makeRows_line x.row with ⟨h1, h2⟩ | ⟨h1, h2⟩ <;> simp [h1, h2]
  by_cases hr' : RowRefused x.row
  · exact ⟨fun _ => C86_page_refused hp hpage ((pageRefused_line _).2 hr') env g fs, fun h => absurd (.inl hr') h⟩
  obtain ⟨⟨f', fs', hff⟩, hpr, hboth, hg⟩ := not_pageRefused fun h => hr' ((pageRefused_line _).1 h)
  have hf : rowFind x.row = some f'.stmt := by rw [← pageFind_line]; simp [pageFind, hff]
  obtain ⟨hok, hbad⟩ := C86_report_exact hp hpage hff hpr
  constructor
  · intro hr
    obtain ⟨f, hf', hrep⟩ := hr.resolve_left hr'
    rw [hf] at hf'
    cases hf'
    obtain ⟨e, he⟩ := hbad hrep
    exact query_parse_error he env g fs
  · intro hr
    obtain ⟨rs, -, hparse⟩ := hok (Classical.byContradiction fun hn => hr (.inr ⟨_, hf, hn⟩))
    have hst : ∀ c ∈ pageChains [x.row], c.Storable := by
      intro c hc
      obtain ⟨l, hl, hc⟩ := List.mem_flatMap.1 hc
      obtain ⟨x, hx, hc⟩ := List.mem_flatMap.1 hc
      refine ((makeRows_loose hp hl x hx).facts.chains c hc).1.storable fun r hr => hboth l hl r ?_
      exact List.mem_flatMap.2 ⟨x, hx, List.mem_flatMap.2 ⟨c, hc, hr⟩⟩
    have hfst : f'.stmt.first.Storable := by
      have hl : f' :: fs' ∈ findRows [x.row] := by simp [hff]
      refine ((findRows_loose hp hl f' (by simp)).facts.chains f'.stmt.first (by simp [StmtText.chains])).1.storable fun r hr => not_both ?_
      exact hpr _ (List.mem_append_left _ hl) r (List.mem_flatMap.2 ⟨f', by simp, List.mem_flatMap.2 ⟨_, by simp [StmtText.chains], hr⟩⟩)
    refine ⟨f'.stmt, hf, fun hne => ?_, fun he => ?_⟩
    · rw [query_parsed_run hparse]
      have hne' : makeRows [x.row] ≠ [] := fun e => hne (hm.1 e)
      rcases page_makeOf hg with ⟨-, e⟩ | ⟨p, ps, e, hcl, hpats⟩
      · exact absurd e (page_ne hne')
      · obtain ⟨e1, h1, h2⟩ := C26_stuck env (p :: ps) g fs d n hd hn hk (by rw [hpats]; simpa using page_ne hne')
        obtain rfl := h2 (makes_ok_st hcl hpats hst)
        rw [e, show (executeMakes env g (some (p :: ps))).run fs = (make env (p :: ps) g).run fs from rfl, h1]
    · rw [query_parsed_run hparse, show pageMakes [x.row] = none by simp [pageMakes, hm.2 he]]
      simp only [executeMakes, Prog.run, pure]
      exact find_lost_step hfst hi

/-- A session on such a disk changes nothing. -/
theorem session_stuck {ls : List TypedLine} (hl : ∀ x ∈ ls, TypedWritten x) (env : Env) (g : GPath) (fs : FS) (d : Dict V) (n : Int)
    (hd : Holds fs g.db d) (hn : (getCurrentWiggleNumber g.wn).run fs = (.ok n, fs)) (hk : intStr n ∈ keys d) (hi : Unreadable fs g.idx) :
    ∃ log, (shellLoop env g (ls.map TypedLine.text)).run fs = (.ok log, fs) ∧ StuckDo ls log := by
  induction ls with
  | nil => exact ⟨[], rfl, .nil⟩
  | cons x ls ih =>
    have hx := hl x (by simp)
    obtain ⟨log, h1, h2⟩ := ih fun l' h' => hl l' (List.mem_cons_of_mem _ h')
    by_cases hh : AsksHelp x.text
    · refine ⟨.help :: log, ?_, .cons (.help hh) h2⟩
      rw [List.map_cons, shellLoop, if_neg (line_not_q hx.loose hx.quit), if_pos ((isSubstr_iff _ _).2 hh), run_bind, h1]
      rfl
    · obtain ⟨ev, log', fs3, e1, e2, e3⟩ := C54_input_is_executed_partial env g x.text (ls.map TypedLine.text) fs
        (line_not_q hx.loose hx.quit) hh
      obtain ⟨hbad, hok⟩ := line_stuck hx.loose hx.tail env g fs d n hd hn hk hi
      have key : ((query env x.text g).run fs).2 = fs → StuckDoes x ev →
          ∃ log, (shellLoop env g ((x :: ls).map TypedLine.text)).run fs = (.ok log, fs) ∧ StuckDo (x :: ls) log := by
        intro hs hev
        rw [hs, h1] at e2
        simp only [Prod.mk.injEq, Except.ok.injEq] at e2
        obtain ⟨rfl, rfl⟩ := e2
        exact ⟨ev :: log, e1, .cons hev h2⟩
      by_cases hr : x.Refused
      · obtain ⟨e, he⟩ := hbad hr
        refine key (by rw [he]) ?_
        rw [he] at e3
        rcases e3 with ⟨-, b, e3⟩ | ⟨e', rfl, e3⟩
        · simp at e3
        · exact .refused e' hh hr
      · obtain ⟨f, hf, hm, hnm⟩ := hok hr
        by_cases hmk : fromMake x.row = []
        · have he := hnm hmk
          refine key (by rw [he]) ?_
          rw [he] at e3
          rcases e3 with ⟨rfl, b, e3⟩ | ⟨e', rfl, e3⟩
          · refine .done hh hr hmk f hf ?_
            cases hc : f.first <;> rw [hc] at e3 <;> simp [ChainText.findResult] at e3 ⊢
          · exact .failed hh hr hmk f hf e' e3
        · have he := hm hmk
          refine key (by rw [he]) ?_
          rw [he] at e3
          rcases e3 with ⟨-, b, e3⟩ | ⟨e', rfl, e3⟩
          · simp at e3
          · simp only [Except.error.injEq] at e3
            subst e3
            exact .stuck hh hr hmk

theorem shellLoop_append {env : Env} {g : GPath} {a b : List Str} (ha : ∀ q ∈ a, q ≠ c!"q") {fs fs1 fs2 : FS} {l1 l2 : List Event}
    (h1 : (shellLoop env g a).run fs = (.ok l1, fs1)) (h2 : (shellLoop env g b).run fs1 = (.ok l2, fs2)) :
    (shellLoop env g (a ++ b)).run fs = (.ok (l1 ++ l2), fs2) := by
  induction a generalizing fs l1 with
  | nil =>
    simp only [shellLoop, Prog.run, pure, Prod.mk.injEq, Except.ok.injEq] at h1
    obtain ⟨rfl, rfl⟩ := h1
    exact h2
  | cons q a ih =>
    have hq := ha q (by simp)
    have ih := @ih fun q' h' => ha q' (List.mem_cons_of_mem _ h')
    by_cases hh : AsksHelp q
    · rw [shellLoop, if_neg hq, if_pos ((isSubstr_iff _ _).2 hh), run_bind] at h1
      rw [List.cons_append, shellLoop, if_neg hq, if_pos ((isSubstr_iff _ _).2 hh), run_bind]
      obtain ⟨l, fs', e1, -⟩ := C53_shell_survives env g a fs
      rw [e1] at h1
      simp only [Prog.run, pure, Prod.mk.injEq, Except.ok.injEq] at h1
      obtain ⟨rfl, rfl⟩ := h1
      rw [ih e1]
      rfl
    · have hh' : ¬ isSubstr c!"help" (lower q) = true := fun h => hh ((isSubstr_iff _ _).1 h)
      rw [shellLoop, if_neg hq, if_neg hh', run_bind] at h1
      rw [List.cons_append, shellLoop, if_neg hq, if_neg hh', run_bind]
      obtain ⟨ev, he⟩ := query_caught env q g fs
      rw [he] at h1 ⊢
      simp only [run_bind] at h1 ⊢
      obtain ⟨l, fs', e1, -⟩ := C53_shell_survives env g a ((query env q g).run fs).2
      rw [e1] at h1
      simp only [Prog.run, pure, Prod.mk.injEq, Except.ok.injEq] at h1
      obtain ⟨rfl, rfl⟩ := h1
      rw [ih e1]
      rfl

/-- C85, C69: a session in which the line `x` is the first that stores nothing but nodes.  The lines before it are executed as they
should be; `x` fails halfway, its nodes are in the database, the index is lost and the counter still names its first node; every later line
that would store something fails, and nothing changes any more. -/
theorem C85_ruined_session {a b : List TypedLine} {x : TypedLine} (ha : ∀ y ∈ a, TypedFair y) (hx : TypedWritten x) (hr : TypedRuins x)
    (hb : ∀ y ∈ b, TypedWritten y) (env : Env) (g : GPath)
    (fs : FS) (d : Dict V) (labels names : List Str) (rels : Dict (List Int)) (n : Int)
    (h : Healthy fs g d labels names rels n) (hbc : BelowCounter d n) :
    ∃ fs' loga logb cs new lost,
      (shellLoop env g ((a ++ x :: b).map TypedLine.text)).run fs = (.ok (loga ++ .failed .jsonDecode :: logb), fs') ∧
      TypedDo a loga cs ∧ StuckDo b logb ∧ ActualAll n cs new ∧ ActualAll (n + sizeOfAll cs) (rowChains (fromMake x.row)) lost ∧
      Holds fs' g.db (d ++ new ++ lost) ∧ (getCurrentWiggleNumber g.wn).run fs' = (.ok (n + sizeOfAll cs), fs') ∧
      Unreadable fs' g.idx ∧ Dead fs' g ∧ ∀ p, p ≠ g.db → p ≠ g.idx → p ≠ g.wn → fs'.get p = fs.get p := by
  obtain ⟨fs1, loga, cs, new, l1, n1, r1, h1, h2, h3, h4, h5, -, h7⟩ := C85_line_session ha env g fs d labels names rels n h hbc
  obtain ⟨f, hf, hru, -⟩ := (C85_line_outcome hx.loose hx.tail env g fs1 _ _ _ _ _ h3 h4).2 hr.accepted
  obtain ⟨fs2, lost, k1, k2, k3, k4, k5⟩ := hru ⟨hr.make, hr.rel⟩
  have hc : (getCurrentWiggleNumber g.wn).run fs2 = (.ok (n + sizeOfAll cs), fs2) :=
    counter_congr (k5 _ (Ne.symm h3.db_wn) (Ne.symm h3.idx_wn)).symm h3.counter
  have hk : intStr (n + sizeOfAll cs) ∈ keys (d ++ new ++ lost) := by
    rw [keys, List.map_append, List.mem_append]
    exact .inr (first_actual k3 (rowChains_ne hr.make))
  obtain ⟨logb, m1, m2⟩ := session_stuck hb env g fs2 _ _ k2 hc hk k4
  obtain ⟨ev, log', fs3, e1, e2, e3⟩ := C54_input_is_executed_partial env g x.text (b.map TypedLine.text) fs1
    (line_not_q hx.loose hx.quit) hr.help
  rw [k1] at e2 e3
  rw [m1] at e2
  simp only [Prod.mk.injEq, Except.ok.injEq] at e2
  obtain ⟨rfl, rfl⟩ := e2
  have hev : ev = .failed .jsonDecode := by
    rcases e3 with ⟨-, b, e3⟩ | ⟨e', rfl, e3⟩
    · simp at e3
    · simp only [Except.error.injEq] at e3
      rw [e3]
  subst hev
  refine ⟨fs2, loga, logb, cs, new, lost, ?_, h2, m2, h5, k3, k2, hc, k4, dead_stuck k2 hc hk,
    fun p p1 p2 p3 => (k5 p p1 p2).trans (h7 p p1 p2 p3)⟩
  rw [List.map_append, List.map_cons]
  refine shellLoop_append (fun q hq => ?_) h1 e1
  obtain ⟨y, hy, rfl⟩ := List.mem_map.1 hq
  exact line_not_q (ha y hy).loose (ha y hy).quit

/-- Every session is of one of the two kinds. -/
theorem typed_split {ls : List TypedLine} (hl : ∀ x ∈ ls, TypedWritten x) :
    (∀ x ∈ ls, TypedFair x) ∨ ∃ a x b, ls = a ++ x :: b ∧ (∀ y ∈ a, TypedFair y) ∧ TypedWritten x ∧ TypedRuins x ∧ ∀ y ∈ b, TypedWritten y := by
  induction ls with
  | nil => exact .inl (by simp)
  | cons x ls ih =>
    have hx := hl x (by simp)
    have ht := fun y hy => hl y (List.mem_cons_of_mem _ hy)
    by_cases hr : TypedRuins x
    · exact .inr ⟨[], x, ls, rfl, by simp, hx, hr, ht⟩
    · rcases ih ht with h | ⟨a, y, b, rfl, h1, h2⟩
      · refine .inl fun y hy => ?_
        rcases List.mem_cons.1 hy with rfl | hy
        · exact ⟨hx, hr⟩
        · exact h y hy
      · refine .inr ⟨x :: a, y, b, rfl, fun z hz => ?_, h2⟩
        rcases List.mem_cons.1 hz with rfl | hz
        · exact ⟨hx, hr⟩
        · exact h1 z hz

/-- C85: every session of written lines.  All the lines up to the first that stores nothing but nodes are executed as they should be; the
database holds what it held, then the patterns of these lines, then the nodes of that one line, and nothing else ever changes it. -/
theorem C85_any_session {ls : List TypedLine} (hl : ∀ x ∈ ls, TypedWritten x) (env : Env) (g : GPath)
    (fs : FS) (d : Dict V) (labels names : List Str) (rels : Dict (List Int)) (n : Int)
    (h : Healthy fs g d labels names rels n) (hb : BelowCounter d n) :
    ∃ fs' log cs new a b, (shellLoop env g (ls.map TypedLine.text)).run fs = (.ok log, fs') ∧ ls = a ++ b ∧ (∀ y ∈ a, ¬ TypedRuins y) ∧
      ActualAll n cs new ∧
      ((b = [] ∧ TypedDo a log cs ∧ ∃ labels' names' rels', Healthy fs' g (d ++ new) labels' names' rels' (n + sizeOfAll cs) ∧
          BelowCounter (d ++ new) (n + sizeOfAll cs) ∧ Indexed cs new labels names rels labels' names' rels') ∨
        ∃ x b' loga logb lost, b = x :: b' ∧ TypedRuins x ∧ log = loga ++ .failed .jsonDecode :: logb ∧ TypedDo a loga cs ∧ StuckDo b' logb ∧
          ActualAll (n + sizeOfAll cs) (rowChains (fromMake x.row)) lost ∧ Holds fs' g.db (d ++ new ++ lost) ∧ Unreadable fs' g.idx ∧
          Dead fs' g) ∧
      ∀ p, p ≠ g.db → p ≠ g.idx → p ≠ g.wn → fs'.get p = fs.get p := by
  rcases typed_split hl with hf | ⟨a, x, b, rfl, ha, hx, hr, hb'⟩
  · obtain ⟨fs', log, cs, new, l', n', r', h1, h2, h3, h4, h5, h6, h7⟩ := C85_line_session hf env g fs d labels names rels n h hb
    exact ⟨fs', log, cs, new, ls, [], h1, by simp, fun y hy => (hf y hy).fair, h5, .inl ⟨rfl, h2, l', n', r', h3, h4, h6⟩, h7⟩
  · obtain ⟨fs', loga, logb, cs, new, lost, h1, h2, h3, h4, h5, h6, h7, h8, h9, h10⟩ :=
      C85_ruined_session ha hx hr hb' env g fs d labels names rels n h hb
    exact ⟨fs', _, cs, new, a, x :: b, h1, rfl, fun y hy => (ha y hy).fair, h4,
      .inr ⟨x, b, loga, logb, lost, rfl, hr, rfl, h2, h3, h5, h6, h8, h9⟩, h10⟩

end

section
attribute [local instance] demoRuntime

/-- `FIND (c:Man);MAKE (a:Man);`. -/
def tAlone : TypedLine := ⟨[⟨[], false, eFind⟩, ⟨[], true, aOne⟩], []⟩

theorem tAlone_written : TypedWritten tAlone where
  loose := by
    simp only [tAlone, List.mem_cons, List.not_mem_nil, or_false, forall_eq_or_imp, forall_eq]
    exact ⟨⟨between_of_indent (by simp [Indent]), by decide, by simp, fun _ => eFind_good.loose⟩,
      ⟨between_of_indent (by simp [Indent]), by decide, fun _ => aOne_good.loose, by simp⟩⟩
  tail := ⟨by decide, by decide, noKeyword_nil (by decide), noKeyword_nil (by decide)⟩
  quit := by simp [tAlone]

theorem tAlone_ruins : TypedRuins tAlone where
  help := fun h => absurd ((isSubstr_iff _ _).2 h) (by decide +kernel)
  accepted := by
    rintro (h | ⟨f, hf, hn⟩)
    · rcases h with h | ⟨r, hr, hp⟩ | h
      · simp [tAlone] at h
      · simp [tAlone, rowRels, StmtText.rels, StmtText.chains, aOne, eFind, ChainText.rels] at hr
      · simp [tAlone, fromMake, HasBlank] at h
    · exact hn (.inl ⟨reports_of (by decide +kernel), fun h => (reportSpelling_iff _).2 h (by decide +kernel)⟩)
  make := by simp [tAlone, fromMake]
  rel := by simp [tAlone, fromMake, rowChains, StmtText.chains, aOne, ChainText.rels]

/-- Two lines are executed, the third ruins the index, the fourth is like the first and fails. -/
example : ∃ fs' loga logb cs new lost,
    (shellLoop demoEnv demoG (([tLine, tBad] ++ tAlone :: [tLine]).map TypedLine.text)).run demoFresh =
      (.ok (loga ++ .failed .jsonDecode :: logb), fs') ∧
    TypedDo [tLine, tBad] loga cs ∧ StuckDo [tLine] logb ∧ ActualAll 0 cs new ∧
    ActualAll (0 + sizeOfAll cs) (rowChains (fromMake tAlone.row)) lost ∧
    Holds fs' demoG.db ([] ++ new ++ lost) ∧ (getCurrentWiggleNumber demoG.wn).run fs' = (.ok (0 + sizeOfAll cs), fs') ∧
    Unreadable fs' demoG.idx ∧ Dead fs' demoG ∧ ∀ p, p ≠ demoG.db → p ≠ demoG.idx → p ≠ demoG.wn → fs'.get p = demoFresh.get p :=
  C85_ruined_session (by
    simp only [List.mem_cons, List.not_mem_nil, or_false, forall_eq_or_imp, forall_eq]
    exact ⟨tLine_fair, tBad_fair⟩) tAlone_written tAlone_ruins (by
    simp only [List.mem_singleton, forall_eq]
    exact tLine_fair.toTypedWritten) demoEnv demoG demoFresh [] [] [] [] 0 demoFresh_healthy (below_nil 0)

end

end WG
