/-
C102: what is seen on the terminal, `print` and the log together.
-/
import Verif.Props.Log
import Verif.Props.Screen
import Verif.Proofs.Terminal
set_option linter.unusedSectionVars false

namespace WG
section
variable [PyRuntime]

/-- C102: the terminal shows the screen of C87 to C90 and the log of C101, and the program does what it does without them. -/
theorem C102_joins (env : Env) (inputs : List Str) :
    (startWiggleShellT env inputs).Joins (startWiggleShellS env inputs) (startWiggleShellL env inputs) (startWiggleShell env inputs) :=
  joins_start env inputs

/-- C102: a query shows everything of the log before everything else. -/
theorem C102_log_first (env : Env) (q : Str) (g : GPath) (fs : FS) :
    (queryT env q g).outs fs = ((queryL env q g).logs fs).map .logged ++ ((queryS env q g).shows fs).map .shown :=
  Term.outs_of (ordered_query env q g fs)

/-- On an index that is not JSON, every query that ends normally says "No results". -/
theorem query_shows_unreadable {env : Env} {q : Str} {g : GPath} {fs fs' : FS} {b : Bool} (hd : g.db ≠ g.idx) (h : Unreadable fs g.idx)
    (hr : (query env q g).run fs = (.ok b, fs')) : (queryS env q g).shows fs = [noResultsLine] := by
  have hu : Unreadable fs' g.idx := by
    rcases query_cases env q g fs with ⟨ms, _, h2, -⟩ | ⟨-, h2⟩
    · rw [hr] at h2
      have := (make_unreadable (env := env) ms hd h).2
      rwa [← h2] at this
    · rw [hr] at h2
      simp only at h2
      rwa [h2]
  cases hp : parseQueryString q with
  | error e =>
    rw [query_run, hp] at hr
    cases hr
  | ok p =>
    obtain ⟨mk, fo, rep⟩ := p
    obtain ⟨f, hf⟩ := parse_find hp
    cases hf
    rw [query_shows_parsed hp env g fs fs' b hr]
    cases hq : processParsedFind f none with
    | ok fp =>
      rw [find_unreadable hq hu]
      rfl
    | error e =>
      exfalso
      have hfind : ∀ fs, (find f g none).run fs = (.error e, fs) := by
        intro fs
        unfold find
        rw [run_bind, hq, run_liftE]
      rw [query_parsed_run hp] at hr
      cases hm : (executeMakes env g mk).run fs with
      | mk r fs1 =>
        rw [hm] at hr
        cases r with
        | error e => cases hr
        | ok a =>
          simp only [hfind] at hr
          cases hr

/-- C102: the terminal of a session, text by text. -/
theorem C102_session (env : Env) (g : GPath) (inputs : List Str) (fs : FS) (hd : g.db ≠ g.idx) (hw : g.wn ≠ g.idx) :
    TerminalShows env g fs inputs (onTerminal SHELL_LEVEL ((shellLoopT env g inputs).outs fs)) := by
  induction inputs generalizing fs with
  | nil => exact .waiting fs
  | cons q rest ih =>
    by_cases hq : q = c!"q"
    · subst hq
      exact .bye fs rest
    · by_cases hh : isSubstr c!"help" (lower q) = true
      · rw [shellT_help env g q rest fs hq hh]
        exact .help fs q rest _ hq ((isSubstr_iff _ _).1 hh) (ih fs)
      · have hn : ¬ AsksHelp q := fun k => hh ((isSubstr_iff _ _).2 k)
        rw [shellT_outs env g q rest fs hq hh]
        simp only [List.cons_append, List.append_assoc]
        have hc : ∀ l, onTerminal SHELL_LEVEL (.shown askQuery :: .shown (echoLine q) :: l) =
          .shown asksQuery :: .shown (echoes q) :: onTerminal SHELL_LEVEL l := fun _ => rfl
        rw [hc]
        simp only [onTerminal_append, onTerminal_logged, onTerminal_shown]
        cases hr : (query env q g).run fs with
        | mk r fs' =>
          rcases C101_shell_query env q g fs hd hw with ⟨h1, h2, h3⟩ | ⟨h1, h3⟩
          · rw [hr] at h1
            cases h1
            rw [h3, query_shows_unreadable hd h2 hr]
            exact .warned fs fs' q rest _ hq hn h2 hr (ih fs')
          · rw [h3]
            cases r with
            | error e =>
              rw [query_shows_error hr]
              exact .failed fs fs' q rest _ e hq hn hr (ih fs')
            | ok b =>
              cases query_true hr
              have hu : ¬ Unreadable fs g.idx := fun hu => h1 ⟨by rw [hr], hu⟩
              rcases query_shows_any env q g fs with e | e <;> rw [e]
              · exact .silent fs fs' q rest _ hq hn hu hr (ih fs')
              · exact .noResults fs fs' q rest _ hq hn hu hr (ih fs')

/-- C102: what is written to the terminal before the first query is the greeting and the dialogue about the GDBMS, nothing of the log. -/
theorem C102_start (env : Env) (inputs : List Str) (fs : FS) :
    (startWiggleShellT env inputs).outs fs = (greeting ++ (selectGdbmsS inputs).shows fs).map .shown ++
      match (selectGdbms inputs).run fs with
      | (.ok (some (g, rest)), fs') => .shown (.using g) :: (shellLoopT env g rest).outs fs'
      | _ => [] := by
  unfold startWiggleShellT
  have hg : welcome = greeting := rfl
  have hs := t_scr_run (agrees_select inputs fs)
  rw [← hg]
  cases h1 : (selectGdbms inputs).run fs with
  | mk r fs1 =>
    rw [h1] at hs
    cases r with
    | error e =>
      exact (Term.outs_of (t_bind_ok (t_scr_run (putAll_run _ fs)) (t_bind_err hs))).trans (by simp)
    | ok sel =>
      cases sel with
      | none => exact (Term.outs_of (t_bind_ok (t_scr_run (putAll_run _ fs)) (t_bind_ok hs rfl))).trans (by simp)
      | some x =>
        obtain ⟨g, rest⟩ := x
        have hj := (joins_shell env g rest fs1).1
        cases h2 : (shellLoop env g rest).run fs1 with
        | mk r2 fs2 =>
          rw [h2] at hj
          cases r2 with
          | error e => exact (Term.outs_of (t_bind_ok (t_scr_run (putAll_run _ fs)) (t_bind_ok hs (t_put_run (t_bind_err hj))))).trans (by simp)
          | ok l =>
            exact (Term.outs_of (t_bind_ok (t_scr_run (putAll_run _ fs)) (t_bind_ok hs (t_put_run (t_bind_ok hj rfl))))).trans (by simp)

/-- C102: the terminal of a run of the whole program. -/
theorem C102_program (env : Env) (inputs : List Str) (fs : FS) :
    (onTerminal SHELL_LEVEL ((startWiggleShellT env inputs).outs fs) = (greeting ++ (selectGdbmsS inputs).shows fs).map .shown ∧
        ∀ g rest fs', (selectGdbms inputs).run fs ≠ (.ok (some (g, rest)), fs')) ∨
      ∃ g used rest fs' out, inputs = used ++ rest ∧ (selectGdbms inputs).run fs = (.ok (some (g, rest)), fs') ∧
        TerminalShows env g fs' rest out ∧
        onTerminal SHELL_LEVEL ((startWiggleShellT env inputs).outs fs) =
          (greeting ++ (selectGdbmsS inputs).shows fs).map .shown ++ .shown (.using g) :: out := by
  rw [C102_start, onTerminal_append, onTerminal_shown]
  cases hr : (selectGdbms inputs).run fs with
  | mk r fs' =>
    cases r with
    | error e => exact .inl ⟨List.append_nil _, by simp⟩
    | ok sel =>
      cases sel with
      | none => exact .inl ⟨List.append_nil _, by simp⟩
      | some x =>
        obtain ⟨⟨name, hn⟩, used, hu⟩ := (returns_select inputs).run hr x.1 x.2 rfl
        refine .inr ⟨x.1, used, x.2, fs', _, hu, rfl, C102_session env _ _ fs' ?_ ?_, rfl⟩ <;> rw [hn]
        · exact (gdbms_ne DBMS_FOLDER name).1
        · exact (gdbms_ne DBMS_FOLDER name).2.2.symm

theorem filter_shown {outs : List Out} (h : visible SHELL_LEVEL (loggedOf outs) = []) :
    onTerminal SHELL_LEVEL outs = (shownOf outs).map .shown := by
  induction outs with
  | nil => rfl
  | cons o outs ih =>
    cases o with
    | shown x => exact congrArg (Out.shown x :: ·) (ih h)
    | logged e =>
      have hl : loggedOf (.logged e :: outs) = e :: loggedOf outs := rfl
      rw [hl, visible, List.filter_cons] at h
      split at h
      · cases h
      · next hn =>
        have : onTerminal SHELL_LEVEL (.logged e :: outs) = onTerminal SHELL_LEVEL outs := List.filter_cons_of_neg (by simpa using hn)
        rw [this]
        exact ih h

/-- C102: as long as nothing is typed that breaks the GDBMS (C69), the terminal shows the screen of C87 to C90 and nothing else. -/
theorem C102_usable (env : Env) (g : GPath) (inputs : List Str) (fs : FS) (h : Usable fs g)
    (hq : ∀ q ∈ inputs, q ≠ c!"q" → ¬ AsksHelp q → ∀ ms, Makes q ms → ¬ Poison ms) :
    onTerminal SHELL_LEVEL ((shellLoopT env g inputs).outs fs) = ((shellLoopS env g inputs).shows fs).map .shown := by
  obtain ⟨-, h1, h2⟩ := joins_shell env g inputs fs
  rw [← h1]
  refine filter_shown ?_
  have : loggedOf ((shellLoopT env g inputs).outs fs) = (shellLoopL env g inputs).logs fs := h2
  rw [this]
  exact C101_silent_while_usable env g inputs fs h hq

theorem usable_not_broken {fs : FS} {g : GPath} (h : Usable fs g) : ¬ Broken fs g := by
  obtain ⟨d, labels, names, rels, n, hh, -⟩ := h
  rintro (hb | hb)
  · exact not_unreadable hh.db hb
  · obtain ⟨D, hD, -⟩ := hh.idx
    exact not_unreadable hD hb

theorem stock_usable {R : Int → ChainText → Dict V → Prop} {fs : FS} {g : GPath} {cs : List ChainText} (h : Stock R fs g cs) : Usable fs g := by
  obtain ⟨d, labels, names, rels, h1, h2, -⟩ := h
  exact ⟨d, labels, names, rels, _, h1, h2⟩

theorem fair_harmless {ts : List Typed} (ht : ∀ t ∈ ts, t.Fair) (env : Env) {fs : FS} {g : GPath} (h : Usable fs g) :
    ∀ q ∈ ts.map Typed.text ++ [c!"q"], q ≠ c!"q" → ¬ AsksHelp q → ∀ ms, Makes q ms → ¬ Poison ms := by
  intro q hm h0 hn ms h1 h2
  rcases List.mem_append.1 hm with hm | hm
  · obtain ⟨t, h3, rfl⟩ := List.mem_map.1 hm
    have h4 := ht t h3
    cases t with
    | query t =>
      obtain ⟨h5, h6, -⟩ := h4
      have hu := h
      obtain ⟨d, labels, names, rels, n, hh, hb⟩ := h
      obtain ⟨fs1, new, l1, n1, r1, hr, hh1, hb1, -⟩ := typed_leaves h5 h6 env g fs hh hb
      have := (C69_poison_breaks env _ g fs ms hu h1 h2).2
      have hr' : (query env (Typed.query t).text g).run fs = _ := hr
      rw [hr'] at this
      exact usable_not_broken ⟨_, _, _, _, _, hh1, hb1⟩ this
    | other s => exact (h4.2.resolve_left hn) ms h1
  · exact absurd (List.mem_singleton.1 hm) h0

/-- C102: the terminal of a session with fair texts on a GDBMS that holds the patterns `cs` is the screen of C87, text by text. -/
theorem C102_fair_session (env : Env) (g : GPath) (ts : List Typed) (fs : FS) (cs : List ChainText) (ht : ∀ t ∈ ts, t.Fair)
    (h : Stock ActualRecords fs g cs) :
    ∃ out, SessionShown cs ts out ∧ onTerminal SHELL_LEVEL ((shellLoopT env g (ts.map Typed.text ++ [c!"q"])).outs fs) = out.map .shown :=
  ⟨_, C87_session_exact env g ts fs cs ht h, C102_usable env g _ fs (stock_usable h) (fair_harmless ht env (stock_usable h))⟩

theorem run_starts {R : Int → ChainText → Dict V → Prop} {ok : Typed → Prop} (r : ProgRun) (w w' : World) (fs : FS) (h : Keeps R fs w)
    (hr : r.Leads ok w w') : ∃ g cs fs', (selectGdbms r.inputs).run fs = (.ok (some (g, r.typed.map Typed.text ++ [c!"q"])), fs') ∧
      Stock R fs' g cs ∧ ∀ t ∈ r.typed, ok t := by
  cases hr with
  | new _ hok ha ht hp hs =>
    have h1 := new_keeps stock_onFiles (z := []) (fun h3 => ⟨[], [], [], [], h3, below_nil 0, rfl, by simp, by simp, by simp⟩) h hp hs
    refine ⟨_, [], _, ?_, h1.stock (r.pick, []) (by simp), hok⟩
    show (selectGdbms (r.answer :: _)).run fs = _
    by_cases hy : r.answer = c!"y" ∨ r.answer = c!"yes"
    · have hw : w = [] := ha.resolve_left fun h => h (by simpa using hy)
      have hm : menuNames fs DBMS_FOLDER = [] := by
        have := h.menu
        rw [hw] at this
        exact List.Perm.eq_nil this
      rw [selectGdbms, if_pos hy]
      have he : ∀ inputs, (getExistingGdbms DBMS_FOLDER inputs).run fs = (createNewDbms DBMS_FOLDER inputs).run fs := by
        intro inputs
        cases inputs <;> rw [getExistingGdbms, run_bind_ok (menu_run h.folder), if_pos hm]
      rw [he]
      exact select_new stock_onFiles h ht hp hs
    · rw [selectGdbms, if_neg hy]
      exact select_new stock_onFiles h ht hp hs
  | old w w' name cs hok ha ht hi hp =>
    have hx : (name, cs) ∈ w ++ (name, cs) :: w' := by simp
    refine ⟨_, cs, fs, ?_, h.stock (name, cs) hx, hok⟩
    show (selectGdbms (r.answer :: _)).run fs = _
    rw [selectGdbms, if_pos (by simpa using ha), hp]
    exact select_old stock_onFiles h (x := (name, cs)) hx ht hi

/-- C102: the terminal of a fair run of the whole program is the screen of C88. -/
theorem C102_fair_run (env : Env) (r : ProgRun) (w w' : World) (fs : FS) (h : Keeps ActualRecords fs w) (hr : r.Leads Typed.Fair w w') :
    ∃ out, RunShown w r out ∧ onTerminal SHELL_LEVEL ((startWiggleShellT env r.inputs).outs fs) = out.map .shown := by
  refine ⟨_, C88_run_exact env r w w' fs h hr, ?_⟩
  obtain ⟨g, cs, fs', h1, h2, h3⟩ := run_starts r w w' fs h hr
  obtain ⟨-, h4, h5⟩ := joins_start env r.inputs fs
  rw [← h4]
  refine filter_shown ?_
  have : loggedOf ((startWiggleShellT env r.inputs).outs fs) = (startWiggleShellL env r.inputs).logs fs := h5
  rw [this, C101_start, h1]
  exact C101_silent_while_usable env g _ fs' (stock_usable h2) (fair_harmless h3 env (stock_usable h2))

/-- C102: once the index file is not JSON, every text but `q` and `help` is answered by the exception it raises or by the two warnings and
"No results". -/
theorem C102_broken (env : Env) (g : GPath) (inputs : List Str) (fs fs' : FS) (log : List Event) (h : Unreadable fs g.idx)
    (hr : (shellLoop env g inputs).run fs = (.ok log, fs')) (hd : g.db ≠ g.idx) (hw : g.wn ≠ g.idx) :
    BrokenShows inputs log (onTerminal SHELL_LEVEL ((shellLoopT env g inputs).outs fs)) := by
  have stays : ∀ q fs, Unreadable fs g.idx → Unreadable ((query env q g).run fs).2 g.idx := by
    intro q fs h
    rcases query_cases env q g fs with ⟨ms, _, h2, -⟩ | ⟨-, h2⟩
    · rw [h2]
      exact (make_unreadable ms hd h).2
    · rwa [h2]
  obtain ⟨log', fs'', h1, hs⟩ := C53_shell_survives env g inputs fs
  rw [hr] at h1
  cases h1
  clear hr
  have ht := C102_session env g inputs fs hd hw
  generalize onTerminal SHELL_LEVEL ((shellLoopT env g inputs).outs fs) = out at ht
  induction ht generalizing log with
  | waiting =>
    cases hs
    exact .waiting
  | bye =>
    cases hs with
    | quit => exact .bye _
    | help =>
      rename_i hh _
      have := hh.length_le
      have hl : List.length (lower c!"q") = 1 := rfl
      simp [hl] at this
    | done => contradiction
    | failed => contradiction
  | help fs q rest out hq hh _ ih =>
    cases hs with
    | quit => exact absurd rfl hq
    | help =>
      rename_i hs
      exact .help q rest _ out (ih _ h hs)
    | done => contradiction
    | failed => contradiction
  | warned fs fs1 q rest out hq hn _ hr _ ih =>
    have hu := stays q fs h
    rw [hr] at hu
    cases hs with
    | quit => exact absurd rfl hq
    | help => contradiction
    | done =>
      rename_i hr' hs
      rw [hr] at hr'
      cases hr'
      exact .done q rest _ out (ih _ hu hs)
    | failed =>
      rename_i hr' hs
      rw [hr] at hr'
      cases hr'
  | failed fs fs1 q rest out e hq hn hr _ ih =>
    have hu := stays q fs h
    rw [hr] at hu
    cases hs with
    | quit => exact absurd rfl hq
    | help => contradiction
    | done =>
      rename_i hr' hs
      rw [hr] at hr'
      cases hr'
    | failed =>
      rename_i hr' hs
      rw [hr] at hr'
      cases hr'
      exact .failed q rest e _ out (ih _ hu hs)
  | silent fs fs1 q rest out _ _ hu => exact absurd h hu
  | noResults fs fs1 q rest out _ _ hu => exact absurd h hu

end
section
attribute [local instance] demoRuntime

/-- C102: a GDBMS is made, broken by a MAKE of one node, and asked; everything that is seen. -/
example : onTerminal SHELL_LEVEL ((startWiggleShellT demoEnv [c!"n", c!"mine", eLonely, c!"FIND (c:Man);", c!"q"]).outs
    { folders := [c!"dbms"], dirs := [], plain := [], files := [] }) =
    (greeting ++ [asksUse, asksName, saysUsing c!"mine", .using (gdbmsPath DBMS_FOLDER c!"mine"), asksQuery, echoes eLonely,
      .error .jsonDecode, asksQuery, echoes c!"FIND (c:Man);"]).map .shown ++
    indexWarnings.map .logged ++ [saysNoResults, asksQuery, echoes c!"q", saysBye].map .shown := by
  decide +kernel

/-- C102: what else is written to the log by a query with a MAKE is not seen; without the level it would be. -/
example : onTerminal SHELL_LEVEL ((queryT demoEnv eTyped.render demoG).outs demoFresh) = [] ∧
    (queryT demoEnv eTyped.render demoG).outs demoFresh ≠ [] := by
  decide +kernel

/-- C102: a broken GDBMS. -/
example : BrokenShows [c!"FIND (c:Man);", c!"hello", c!"q"] [.done, .failed .attribute, .bye]
    (onTerminal SHELL_LEVEL ((shellLoopT demoEnv demoG [c!"FIND (c:Man);", c!"hello", c!"q"]).outs (demoFS c!"{}" [] c!"0"))) :=
  C102_broken demoEnv demoG _ _ (demoFS c!"{}" [] c!"0") _ ⟨[], rfl, by decide +kernel⟩ (by decide +kernel) (by decide) (by decide)

/-- Every record is a man, and there are three. -/
def tMen (fs : FS) : Bool :=
  match (fs.get demoG.db).bind jsonLoad with
  | some (.dict d) => decide (d.length = 3) && d.all fun r => match r.2 with
    | .dict o => decide (dictGet c!"node_label" o = some (.str c!"Man"))
    | _ => false
  | _ => false

/-- The label is in the text of the index. -/
def tNamed (fs : FS) : Bool :=
  match fs.get demoG.idx with
  | some t => isSubstr c!"\"Man\"" t
  | none => false

/-- All of it. -/
def tAll (x : Except PyErr (List Event) × FS) : Bool :=
  decide (x.1 = .ok [.done, .failed .jsonDecode]) && tMen x.2 && tNamed x.2 &&
    decide (onTerminal SHELL_LEVEL ((shellLoopT demoEnv demoG [c!"FIND (c:Man);"]).outs x.2) =
      [.shown asksQuery, .shown (echoes c!"FIND (c:Man);"),
        .logged (warned c!"Empty node_labels indexes, returning a new one"),
        .logged (warned c!"Empty relationship_names indexes, returning a new one"), .shown saysNoResults, .shown asksQuery])

theorem tAll_true : tAll ((shellLoop demoEnv demoG [eTyped.render, eLonely]).run demoFresh) = true := by decide +kernel

/-- C102 violated: two men are made, then a third, which breaks the index.  The database has three men and the index file names their label, but
the user is told that the index is empty and that there are no results. -/
theorem C102_violated : ∃ (fs : FS) (d : Dict V), (shellLoop demoEnv demoG [eTyped.render, eLonely]).run demoFresh =
      (.ok [.done, .failed .jsonDecode], fs) ∧ Holds fs demoG.db d ∧ d.length = 3 ∧
    (∀ r ∈ d, ∃ o, r.2 = .dict o ∧ dictGet c!"node_label" o = some (.str c!"Man")) ∧
    (∃ t, fs.get demoG.idx = some t ∧ c!"\"Man\"" <:+: t) ∧
    onTerminal SHELL_LEVEL ((shellLoopT demoEnv demoG [c!"FIND (c:Man);"]).outs fs) =
      [.shown asksQuery, .shown (echoes c!"FIND (c:Man);"),
        .logged (warned c!"Empty node_labels indexes, returning a new one"),
        .logged (warned c!"Empty relationship_names indexes, returning a new one"), .shown saysNoResults, .shown asksQuery] := by
  have h := tAll_true
  generalize (shellLoop demoEnv demoG [eTyped.render, eLonely]).run demoFresh = x at h
  obtain ⟨r, fs⟩ := x
  simp only [tAll, Bool.and_eq_true, decide_eq_true_eq] at h
  obtain ⟨⟨⟨h0, h1⟩, h2⟩, h3⟩ := h
  subst h0
  unfold tMen at h1
  unfold tNamed at h2
  cases hd : fs.get demoG.db with
  | none => simp [hd] at h1
  | some t =>
    cases hi : fs.get demoG.idx with
    | none => simp [hi] at h2
    | some u =>
      rw [hd] at h1
      rw [hi] at h2
      simp only [Option.bind_some] at h1
      split at h1
      · next d hl =>
        simp only [Bool.and_eq_true, decide_eq_true_eq, List.all_eq_true] at h1
        refine ⟨fs, d, rfl, ⟨t, hd, hl⟩, h1.1, fun r hr => ?_, ⟨u, hi, (isSubstr_iff _ _).1 h2⟩, h3⟩
        have := h1.2 r hr
        split at this
        · next o ho => exact ⟨o, ho, by simpa using this⟩
        · cases this
      · cases h1

/-- C102: a fair session on a new GDBMS. -/
example : ∃ out, SessionShown [] [.query eTyped, .query sKnown] out ∧
    onTerminal SHELL_LEVEL ((shellLoopT demoEnv demoG ([Typed.query eTyped, .query sKnown].map Typed.text ++ [c!"q"])).outs demoFresh) =
      out.map .shown :=
  C102_fair_session demoEnv demoG [.query eTyped, .query sKnown] demoFresh [] (by simpa using ⟨eTyped_fair, sFair (.inl rfl)⟩) demoFresh_stock

/-- C102: a fair run on a disk that has the GDBMS "zoo". -/
example : ∃ fs w w' out, (newRun [c!"zoo"] c!"ark").Leads Typed.Fair w w' ∧ RunShown w (newRun [c!"zoo"] c!"ark") out ∧
    onTerminal SHELL_LEVEL ((startWiggleShellT demoEnv (newRun [c!"zoo"] c!"ark").inputs).outs fs) = out.map .shown := by
  obtain ⟨fs, cs, h⟩ := zoo_disk
  have hl : (newRun [c!"zoo"] c!"ark").Leads Typed.Fair [(c!"zoo", cs)] ([(c!"zoo", cs)] ++ [(c!"ark", (newRun [c!"zoo"] c!"ark").chains)]) :=
    .new _ (fun t h => (ok_fair (newRun_ok _ _ t h)).1) (.inl (by decide)) (by simp [newRun, Shelf.names]) (by simp [newRun, Shelf.names]) (by decide)
  obtain ⟨out, h1, h2⟩ := C102_fair_run demoEnv _ _ _ fs h hl
  exact ⟨fs, _, _, out, hl, h1, h2⟩

end
end WG
