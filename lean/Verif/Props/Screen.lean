/-
C87, C88, C89: what the user is shown.
-/
import Verif.Proofs.Unseen
import Verif.Props.Durable

set_option linter.unusedSectionVars false
set_option linter.unusedSimpArgs false

namespace WG

section
variable [PyRuntime]

/-! ### C87 -/

/-- What C87 comes to: in every session of well-formed queries on a GDBMS with the patterns `cs`, "No results" appears for exactly
those FINDs none of whose labels was made before, in this session or earlier, or one of whose relationship names was. -/
theorem C87_session_exact (env : Env) (g : GPath) (ts : List Typed) (fs : FS) (cs : List ChainText) (ht : ∀ t ∈ ts, t.Fair)
    (h : Stock ActualRecords fs g cs) : SessionShown cs ts ((shellLoopS env g (ts.map Typed.text ++ [c!"q"])).shows fs) :=
  session_shown (fun t hm => ⟨ht t hm, fun _ _ _ _ h => h⟩) h

theorem one_says {cs : List ChainText} {n : NodeText} : SaysNoResults cs (.one n) ↔ Missing cs (.one n) := by
  simp [SaysNoResults, Missing, ChainText.labels, ChainText.rels]

/-- C87, partial: a query whose FIND has one node shows "No results" exactly if no pattern made so far, its own included, has the
label; otherwise it shows nothing.  Missing: FINDs with relationships (`C87_violated_silent`, `C87_violated_made`). -/
theorem C87_one_node_partial (env : Env) (g : GPath) (t : TypedText) (n : NodeText) (fs : FS) (cs : List ChainText) (ht : (Typed.query t).Fair)
    (hn : t.find.first = .one n) (h : Stock ActualRecords fs g cs) :
    (Missing (cs ++ t.chains) t.find.first → (shellLoopS env g [t.render, c!"q"]).shows fs =
      [asksQuery, echoes t.render, saysNoResults, asksQuery, echoes c!"q", saysBye]) ∧
    (¬ Missing (cs ++ t.chains) t.find.first → (shellLoopS env g [t.render, c!"q"]).shows fs =
      [asksQuery, echoes t.render, asksQuery, echoes c!"q", saysBye]) := by
  have h1 := C87_session_exact env g [.query t] fs cs (by simpa using ht) h
  rw [hn]
  have e : [Typed.query t].map Typed.text ++ [c!"q"] = [t.render, c!"q"] := rfl
  rw [e] at h1
  generalize (shellLoopS env g [t.render, c!"q"]).shows fs = o at h1 ⊢
  cases h1 with
  | query _ _ _ a out ha h2 =>
    cases h2
    rw [hn] at ha
    have ha : SaysNoResults (cs ++ t.chains) (.one n) ∧ a = [saysNoResults] ∨ ¬ SaysNoResults (cs ++ t.chains) (.one n) ∧ a = [] := ha
    rw [one_says] at ha
    rcases ha with ⟨h3, rfl⟩ | ⟨h3, rfl⟩
    · exact ⟨fun _ => rfl, fun h => absurd h3 h⟩
    · exact ⟨fun h => absurd h h3, fun _ => rfl⟩

/-! ### C88 -/

/-- What C88 comes to: in every run that leads from one world to the next, the screen shows the welcome, the question, the selection
(the menu with the names in order, each with its letter, before every letter; every refused letter once, every refused name
*twice*), the GDBMS in use, and then the session. -/
theorem C88_run_exact (env : Env) (r : ProgRun) (w w' : World) (fs : FS) (h : Keeps ActualRecords fs w) (hr : r.Leads Typed.Fair w w') :
    RunShown w r ((startWiggleShellS env r.inputs).shows fs) :=
  run_shown (fun _ ht => ⟨ht, fun _ _ _ _ h => h⟩) env r w w' fs h hr

/-- Why C88 fails, on every disk: a name that is refused because it is taken is reported twice. -/
theorem C88_reported_twice (folder name : Str) (rest : List Str) (fs fs' : FS) (e : PyErr) (he : e.isValueError = true)
    (h : (getNewGdbmsFilePaths name folder).run fs = (.error e, fs')) :
    (createNewDbmsS folder (name :: rest)).shows fs =
      asksName :: saysTaken name :: saysTaken name :: (createNewDbmsS folder rest).shows fs' := by
  rw [newDbms_shows, h]
  simp only [he, if_true]
  rfl

/-- C88, partial: a letter that is not in the menu is reported once, and the menu is shown again. -/
theorem C88_letter_once_partial (folder letter : Str) (rest : List Str) (fs : FS) (h : DBMS_FOLDER ∈ fs.folders)
    (hn : ∃ x, (DBMS_FOLDER, x) ∈ fs.dirs ∧ x ∉ notGdbms) (hl : ∀ name, ¬ Offered fs DBMS_FOLDER letter name) (hd : fs.dirs.Nodup) :
    ∃ names, names.Pairwise (· ≤ ·) ∧ names.Nodup ∧ (∀ x, x ∈ names ↔ (DBMS_FOLDER, x) ∈ fs.dirs ∧ x ∉ notGdbms) ∧
      (getExistingGdbmsS folder (letter :: rest)).shows fs =
        menuShown names ++ (asksLetter :: saysMissing letter :: (getExistingGdbmsS folder rest).shows fs) := by
  have hm : ∀ x, x ∈ menuNames fs DBMS_FOLDER ↔ (DBMS_FOLDER, x) ∈ fs.dirs ∧ x ∉ notGdbms := by
    intro x
    rw [mem_menuNames]
    simp [notGdbms]
  have hne : menuNames fs DBMS_FOLDER ≠ [] := by
    obtain ⟨x, hx⟩ := hn
    intro e
    have := (hm x).2 hx
    rw [e] at this
    simp at this
  refine ⟨_, sortStrs_sorted _, menuNames_nodup hd, hm, ?_⟩
  rw [existing_shows h hne]
  cases e : dictGet letter (menuOf (menuNames fs DBMS_FOLDER)) with
  | none => rfl
  | some name =>
    obtain ⟨i, h1, h2, h3⟩ := menu_get_index e
    exact absurd ⟨_, i, sortStrs_sorted _, menuNames_nodup hd, hm, h1, h2, h3⟩ (hl name)

/-! ### C90 -/

/-- Why C90 fails: two GDBMSs with the same labels and the same relationship names give the same screen, whatever well-formed queries are
typed, and however many. -/
theorem C90_same_screen (env : Env) (g g' : GPath) (ts : List TypedText) (fs fs' : FS) (cs cs' : List ChainText)
    (ht : ∀ t ∈ ts, (Typed.query t).Fair) (h : Stock ActualRecords fs g cs) (h' : Stock ActualRecords fs' g' cs') (hw : SameWords cs cs') :
    (shellLoopS env g (ts.map TypedText.render ++ [c!"q"])).shows fs = (shellLoopS env g' (ts.map TypedText.render ++ [c!"q"])).shows fs' := by
  have ht' : ∀ t ∈ ts.map Typed.query, t.Fair := by simpa using ht
  have h1 := C87_session_exact env g (ts.map Typed.query) fs cs ht' h
  have h2 := C87_session_exact env g' (ts.map Typed.query) fs' cs' ht' h'
  have e : (ts.map Typed.query).map Typed.text = ts.map TypedText.render := by simp [Function.comp_def, Typed.text]
  rw [e] at h1 h2
  exact sessionShown_unique ts hw h1 h2

/-- Why C90 fails, whatever is typed, well-formed or not: the records of the database are never looked at.  Two disks whose database files have
records under the same numbers, whatever these records are, give the same screen. -/
theorem C90_records_unseen (env : Env) (g : GPath) (inputs : List Str) (fs fs' : FS) (h1 : g.db ≠ g.idx) (h2 : g.db ≠ g.wn)
    (h : SameNumbers g fs fs') : (shellLoopS env g inputs).shows fs = (shellLoopS env g inputs).shows fs' :=
  session_alike h1 h2 env inputs ⟨⟨h.dirs, by simp [h.idx, h.wn]⟩, .inl h.db⟩

/-- C90, partial: a label that was made in the one GDBMS only can be seen, by a FIND for it.  Missing: everything but labels, above all the
properties and the connections (`C90_same_screen`, `C90_violated`). -/
theorem C90_label_seen_partial (env : Env) (g g' : GPath) (t : TypedText) (n : NodeText) (fs fs' : FS) (cs cs' : List ChainText)
    (ht : (Typed.query t).Fair) (hn : t.find.first = .one n) (hm : t.chains = []) (h : Stock ActualRecords fs g cs)
    (h' : Stock ActualRecords fs' g' cs') (hl : ∀ l ∈ (ChainText.one n).labels, LabelMade cs l) (hl' : ∃ l ∈ (ChainText.one n).labels, ¬ LabelMade cs' l) :
    (shellLoopS env g [t.render, c!"q"]).shows fs ≠ (shellLoopS env g' [t.render, c!"q"]).shows fs' := by
  have h1 := (C87_one_node_partial env g t n fs cs ht hn h).2
  have h2 := (C87_one_node_partial env g' t n fs' cs' ht hn h').1
  rw [hm, List.append_nil, hn] at h1 h2
  rw [h1 (by
    rintro (⟨l, h3, h4⟩ | ⟨r, h3, -⟩)
    · exact h4 (hl l h3)
    · simp [ChainText.rels] at h3), h2 (.inl hl')]
  simp

/-! ### C89 -/

/-- C89: what the program does is not changed by what it shows, whatever is typed and whatever is on the disk. -/
theorem C89_same_behaviour (env : Env) (inputs : List Str) : (startWiggleShellS env inputs).Agrees (startWiggleShell env inputs) :=
  agrees_start env inputs

/-- C89: whatever is typed, and whatever is on the disk, every text is answered: the prompt, the text, and then the exception if the query
raised one, otherwise "No results" or nothing.  After "q" nothing is asked any more. -/
theorem C89_every_text_answered (env : Env) (g : GPath) (inputs : List Str) (fs : FS) :
    ∃ log fs', (shellLoopS env g inputs).prog.run fs = (.ok (.ok log, (shellLoopS env g inputs).shows fs), fs') ∧
      LogShown inputs log ((shellLoopS env g inputs).shows fs) := by
  induction inputs generalizing fs with
  | nil => exact ⟨[], fs, rfl, .waiting⟩
  | cons q rest ih =>
    by_cases hq : q = c!"q"
    · subst hq
      exact ⟨[.bye], fs, rfl, .bye rest⟩
    · by_cases hh : AsksHelp q
      · obtain ⟨log, fs', h1, h2⟩ := ih fs
        have hs := shell_shows_help env g q rest fs hq hh
        have ha := agrees_shell env g (q :: rest) fs
        have hr := agrees_shell env g rest fs
        rw [h1] at hr
        simp only [Prod.mk.injEq, Except.ok.injEq, and_true] at hr
        rw [shellLoop, if_neg hq, if_pos ((isSubstr_iff _ _).2 hh), run_bind_ok (a := log) (fs' := fs') (Prod.ext hr.1.symm hr.2.symm)] at ha
        refine ⟨.help :: log, fs', ha, ?_⟩
        rw [hs]
        exact .help q rest log _ hq hh h2
      · obtain ⟨ev, log, fs', h1, h2, h3⟩ := C54_input_is_executed_partial env g q rest fs hq hh
        obtain ⟨log', fs'', h4, h5⟩ := ih ((query env q g).run fs).2
        have hr := agrees_shell env g rest ((query env q g).run fs).2
        rw [h4, h2] at hr
        simp only [Prod.mk.injEq, Except.ok.injEq, and_true] at hr
        obtain ⟨rfl, rfl⟩ := hr
        refine ⟨ev :: log', fs'', (agrees_shell env g (q :: rest)).out h1, ?_⟩
        rw [shell_shows env g q rest fs hq hh]
        rcases h3 with ⟨rfl, b, e⟩ | ⟨e, rfl, e'⟩
        · rw [e]
          simp only [List.nil_append]
          rcases query_shows_any env q g fs with e' | e' <;> rw [e']
          · exact .silent q rest log' _ hq hh h5
          · exact .noResults q rest log' _ hq hh h5
        · rw [e', query_shows_error (Prod.ext e' rfl)]
          exact .failed q rest e log' _ hq hh h5

end

section
attribute [local instance] demoRuntime

/-- `-[r:…]->`. -/
def sRel (h name : Str) : RelText := ⟨false, 0, [], h, [], some ([], name, []), none, 0, true, []⟩

/-- `FIND (a:Man)-[r:…]->(b:…)-[s:…]->(c:Man);`. -/
def sFind (name label : Str) : StmtText :=
  ⟨c!"FIND", c!" ", .three (eNode c!"a" c!"Man" none) (sRel c!"r" name) (eNode c!"b" label none) (sRel c!"s" name) (eNode c!"c" c!"Man" none), []⟩

/-- `FIND (a:Man)-[r:KNOWS]->(b:Man)-[s:KNOWS]->(c:Man);` -/
def sKnown : TypedText := ⟨sFind c!"KNOWS" c!"Man", [], none⟩
/-- `FIND (a:Man)-[r:LIKES]->(b:Cat)-[s:LIKES]->(c:Man);` -/
def sUnknown : TypedText := ⟨sFind c!"LIKES" c!"Cat", [], none⟩

theorem sFair {t : TypedText} (h : t = sKnown ∨ t = sUnknown) : (Typed.query t).Fair := by
  refine ⟨?_, .inl (by rcases h with rfl | rfl <;> rfl), fun hh => ?_⟩
  · have hr : ∀ h name, h = c!"r" ∨ h = c!"s" → name = c!"KNOWS" ∨ name = c!"LIKES" → (sRel h name).Good := by
      intro h name hh hn
      refine ⟨⟨rfl, by rcases hh with rfl | rfl <;> rfl, rfl, fun _ => rfl, ?_, by simp [sRel], rfl⟩, by simp [sRel, GoodProps], rfl, ?_⟩ <;>
      · rintro a l b h
        simp only [sRel, Option.some.injEq, Prod.mk.injEq] at h
        obtain ⟨rfl, rfl, rfl⟩ := h
        rcases hn with rfl | rfl <;> decide
    rcases h with rfl | rfl
    · exact
      { find :=
          { kw := .inl rfl, sp := by decide, rest := by simp [sKnown, sFind],
            chains := by
              simp only [sKnown, sFind, StmtText.chains, List.map_nil, List.mem_singleton, forall_eq]
              exact ⟨⟨eNode_good (by decide) (by decide) (by decide), hr _ _ (.inl rfl) (.inl rfl), eNode_good (by decide) (by decide) (by decide), hr _ _ (.inr rfl) (.inl rfl),
                eNode_good (by decide) (by decide) (by decide)⟩, by decide⟩
            line := by decide
            close := by
              rintro c h
              simp [sKnown, sFind, StmtText.chains] at h
              subst h
              rfl }
        gap := by simp [sKnown, Indent]
        make := by simp [sKnown]
        report := noAnagram_of (k := 't') (by decide) (by decide)
        line := by decide }
    · exact
      { find :=
          { kw := .inl rfl, sp := by decide, rest := by simp [sUnknown, sFind],
            chains := by
              simp only [sUnknown, sFind, StmtText.chains, List.map_nil, List.mem_singleton, forall_eq]
              exact ⟨⟨eNode_good (by decide) (by decide) (by decide), hr _ _ (.inl rfl) (.inr rfl), eNode_good (by decide) (by decide) (by decide), hr _ _ (.inr rfl) (.inr rfl),
                eNode_good (by decide) (by decide) (by decide)⟩, by decide⟩
            line := by decide
            close := by
              rintro c h
              simp [sUnknown, sFind, StmtText.chains] at h
              subst h
              rfl }
        gap := by simp [sUnknown, Indent]
        make := by simp [sUnknown]
        report := noAnagram_of (k := 'p') (by decide) (by decide)
        line := by decide }
  · have := (isSubstr_iff _ _).2 hh
    revert this
    rcases h with rfl | rfl <;> decide +kernel

/-- C87 on a new GDBMS: `FIND (c:Man); MAKE (a:Man{x: 5})-[r:KNOWS]->(b:Man);` finds what it makes and shows nothing. -/
example : (shellLoopS demoEnv demoG [eTyped.render, c!"q"]).shows demoFresh =
    [asksQuery, echoes eTyped.render, asksQuery, echoes c!"q", saysBye] :=
  (C87_one_node_partial demoEnv demoG eTyped _ demoFresh [] eTyped_fair rfl demoFresh_stock).2 (by
    show ¬ Missing ([] ++ eTyped.chains) (.one (eNode c!"c" c!"Man" none))
    rw [← one_says]
    simp only [SaysNoResults, eTyped, eFind, ChainText.labels, ChainText.rels, eNode, LabelMade]
    simp [TypedText.chains, StmtText.chains, eMake, ChainText.labels, eNode])

/-- The screen of eTyped followed by another query without MAKE. -/
theorem two_shown {t : TypedText} {b : Bool} (ht : (Typed.query t).Fair) (hc : t.chains = []) (hf : t.find.first.findResult = .ok b) :
    (SaysNoResults eTyped.chains t.find.first → (shellLoopS demoEnv demoG [eTyped.render, t.render, c!"q"]).shows demoFresh =
      [asksQuery, echoes eTyped.render, asksQuery, echoes t.render, saysNoResults, asksQuery, echoes c!"q", saysBye]) ∧
    (¬ SaysNoResults eTyped.chains t.find.first → (shellLoopS demoEnv demoG [eTyped.render, t.render, c!"q"]).shows demoFresh =
      [asksQuery, echoes eTyped.render, asksQuery, echoes t.render, asksQuery, echoes c!"q", saysBye]) := by
  have h1 := C87_session_exact demoEnv demoG [.query eTyped, .query t] demoFresh [] (by simpa using ⟨eTyped_fair, ht⟩) demoFresh_stock
  have e : [Typed.query eTyped, Typed.query t].map Typed.text ++ [c!"q"] = [eTyped.render, t.render, c!"q"] := rfl
  rw [e] at h1
  generalize (shellLoopS demoEnv demoG [eTyped.render, t.render, c!"q"]).shows demoFresh = o at h1 ⊢
  cases h1 with
  | query _ _ _ a out ha h2 =>
    cases h2 with
    | query _ _ _ a' out' ha' h3 =>
      cases h3
      have hs : ¬ SaysNoResults ([] ++ eTyped.chains) eTyped.find.first := by
        show ¬ SaysNoResults ([] ++ eTyped.chains) (.one (eNode c!"c" c!"Man" none))
        simp only [SaysNoResults, eTyped, eFind, ChainText.labels, ChainText.rels, eNode, LabelMade]
        simp [TypedText.chains, StmtText.chains, eMake, ChainText.labels, eNode]
      have ha : SaysNoResults ([] ++ eTyped.chains) eTyped.find.first ∧ a = [saysNoResults] ∨ ¬ SaysNoResults ([] ++ eTyped.chains) eTyped.find.first ∧ a = [] := ha
      rcases ha with ⟨h4, rfl⟩ | ⟨-, rfl⟩
      · exact absurd h4 hs
      · rw [Answered, hf, hc, List.append_nil, List.nil_append] at ha'
        rcases ha' with ⟨h5, rfl⟩ | ⟨h5, rfl⟩
        · exact ⟨fun _ => rfl, fun h => absurd h5 h⟩
        · exact ⟨fun h => absurd h h5, fun _ => rfl⟩

/-- C87 violated: all labels and relationship names of the FIND have been made, and "No results" appears. -/
theorem C87_violated_made : ∃ (t t' : TypedText), (Typed.query t).Fair ∧ (Typed.query t').Fair ∧ ¬ Missing (t.chains ++ t'.chains) t'.find.first ∧
    (shellLoopS demoEnv demoG [t.render, t'.render, c!"q"]).shows demoFresh =
      [asksQuery, echoes t.render, asksQuery, echoes t'.render, saysNoResults, asksQuery, echoes c!"q", saysBye] := by
  refine ⟨eTyped, sKnown, eTyped_fair, sFair (.inl rfl), ?_, (two_shown (sFair (.inl rfl)) rfl rfl).1 ?_⟩ <;>
  simp [Missing, SaysNoResults, sKnown, sFind, ChainText.labels, ChainText.rels, LabelMade, NameMade, eNode, sRel, RelText.nameStr, TypedText.chains,
    eTyped, StmtText.chains, eMake, eRel]

/-- C87 violated: a label and the relationship name of the FIND have never been made, and it shows nothing. -/
theorem C87_violated_silent : ∃ (t t' : TypedText), (Typed.query t).Fair ∧ (Typed.query t').Fair ∧ Missing (t.chains ++ t'.chains) t'.find.first ∧
    (shellLoopS demoEnv demoG [t.render, t'.render, c!"q"]).shows demoFresh =
      [asksQuery, echoes t.render, asksQuery, echoes t'.render, asksQuery, echoes c!"q", saysBye] := by
  refine ⟨eTyped, sUnknown, eTyped_fair, sFair (.inr rfl), ?_, (two_shown (sFair (.inr rfl)) rfl rfl).2 ?_⟩ <;>
  simp [Missing, SaysNoResults, sUnknown, sFind, ChainText.labels, ChainText.rels, LabelMade, NameMade, eNode, sRel, RelText.nameStr, TypedText.chains,
    eTyped, StmtText.chains, eMake, eRel]

/-- C88 on a bare disk: a GDBMS "zoo" is created, a query, a text that is none and the query again are typed. -/
example : RunShown [] (newRun [] c!"zoo") ((startWiggleShellS demoEnv (newRun [] c!"zoo").inputs).shows bareDisk) :=
  C88_run_exact demoEnv _ [] _ bareDisk (bareDisk_keeps _)
    (.new [] (fun t h => (ok_fair (newRun_ok _ _ t h)).1) (.inl (by decide)) (by simp [newRun]) (by decide) (by decide))

/-- A disk that has the GDBMS "zoo" only. -/
theorem zoo_disk : ∃ fs cs, Keeps ActualRecords fs [(c!"zoo", cs)] := by
  obtain ⟨⟨log, fs, -, -, h⟩, -⟩ := run_world (fun t ht => ⟨ht, fun _ _ _ _ h => h⟩) demoEnv (newRun [] c!"zoo") [] _ bareDisk
    (bareDisk_keeps ActualRecords)
    (.new (ok := Typed.Fair) [] (fun t h => (ok_fair (newRun_ok _ _ t h)).1) (.inl (by decide)) (by simp [newRun]) (by decide) (by decide))
  exact ⟨fs, _, h⟩

/-- C88 violated: on a disk that has the GDBMS "zoo", the name is typed once, and reported twice. -/
theorem C88_violated : ∃ (w w' : World) (r : ProgRun) (fs : FS) (rest : List Shown), Keeps ActualRecords fs w ∧ r.Leads Typed.Fair w w' ∧
    r.inputs.count c!"zoo" = 1 ∧ (startWiggleShellS demoEnv r.inputs).shows fs =
      greeting ++ (asksUse :: asksName :: saysTaken c!"zoo" :: saysTaken c!"zoo" :: asksName :: rest) := by
  obtain ⟨fs, cs, h⟩ := zoo_disk
  have hl : (newRun [c!"zoo"] c!"ark").Leads Typed.Fair [(c!"zoo", cs)] ([(c!"zoo", cs)] ++ [(c!"ark", (newRun [c!"zoo"] c!"ark").chains)]) :=
    .new _ (fun t h => (ok_fair (newRun_ok _ _ t h)).1) (.inl (by decide)) (by simp [newRun, Shelf.names]) (by simp [newRun, Shelf.names]) (by decide)
  obtain ⟨name, sel, ses, h1, h2, h3⟩ := C88_run_exact demoEnv _ _ _ fs h hl
  cases h1 with
  | new _ ha => exact ⟨_, _, _, fs, _, h, hl, by decide +kernel, h3⟩
  | old _ _ _ ha => exact absurd ha (by decide)

/-- C88: the letter `x` is not in the menu of a disk that has the GDBMS "zoo" only. -/
example : ∃ fs, (getExistingGdbmsS DBMS_FOLDER [c!"x"]).shows fs =
    menuShown [c!"zoo"] ++ (asksLetter :: saysMissing c!"x" :: (getExistingGdbmsS DBMS_FOLDER []).shows fs) := by
  obtain ⟨fs, cs, h⟩ := zoo_disk
  have hm : ∀ x, (DBMS_FOLDER, x) ∈ fs.dirs ∧ x ∉ notGdbms ↔ x = c!"zoo" := by
    intro x
    rw [← h.names x]
    simp [Shelf.names]
  obtain ⟨names, h1, hd, h2, h3⟩ := C88_letter_once_partial DBMS_FOLDER c!"x" [] fs h.folder ⟨_, (hm _).2 rfl⟩ (by
    rintro name ⟨l, i, -, -, -, h1, hi, h2⟩
    have : ∀ i : Fin 26, 'x' ≠ Char.ofNat (65 + i.1) := by decide
    exact this ⟨i, hi⟩ (by simpa using h2)) h.dirs
  have e : names = [c!"zoo"] := by
    have h4 : ∀ x, x ∈ names ↔ x = c!"zoo" := fun x => (h2 x).trans (hm x)
    match names, hd, h4 with
    | [], _, h4 => exact absurd ((h4 _).2 rfl) (by simp)
    | [x], _, h4 => rw [(h4 x).1 (by simp)]
    | x :: y :: l, hd, h4 =>
      have ex := (h4 x).1 (by simp)
      have ey := (h4 y).1 (by simp)
      subst ex ey
      simp at hd
  subst e
  exact ⟨fs, h3⟩

/-- C90 violated: a GDBMS with two men who know each other, and one with four.  No session of well-formed queries can tell them apart. -/
theorem C90_violated : ∃ (fs fs' : FS) (cs cs' : List ChainText), Stock ActualRecords fs demoG cs ∧ Stock ActualRecords fs' demoG cs' ∧
    sizeOfAll cs = 3 ∧ sizeOfAll cs' = 6 ∧ ∀ (env : Env) (ts : List TypedText), (∀ t ∈ ts, (Typed.query t).Fair) →
      (shellLoopS env demoG (ts.map TypedText.render ++ [c!"q"])).shows fs = (shellLoopS env demoG (ts.map TypedText.render ++ [c!"q"])).shows fs' := by
  obtain ⟨_, fs, -, -, h⟩ := session_stock (R := ActualRecords) (env := demoEnv) (ts := [.query eTyped]) (fun t h => by
    have e : t = .query eTyped := by simpa using h
    subst e
    exact ⟨eTyped_fair, fun _ _ _ _ h => h⟩) demoFresh_stock
  obtain ⟨_, fs', -, -, h'⟩ := session_stock (R := ActualRecords) (env := demoEnv) (ts := [.query eTyped]) (fun t h => by
    have e : t = .query eTyped := by simpa using h
    subst e
    exact ⟨eTyped_fair, fun _ _ _ _ h => h⟩) h
  refine ⟨fs, fs', _, _, h, h', by decide +kernel, by decide +kernel, fun env ts ht => C90_same_screen env demoG demoG ts fs fs' _ _ ht h h' ?_⟩
  constructor <;> intro x <;> simp [LabelMade, NameMade, List.flatMap, Typed.chains]

/-- C90: two disks with one record each, and it is not the same. -/
example (env : Env) (inputs : List Str) (v v' : V) (hv : v = .int 5) (hv' : v' = .str c!"five") :
    (shellLoopS env demoG inputs).shows (demoFresh.set demoG.db (jsonDump (.dict [(c!"0", v)])).1) =
      (shellLoopS env demoG inputs).shows (demoFresh.set demoG.db (jsonDump (.dict [(c!"0", v')])).1) := by
  subst hv hv'
  refine C90_records_unseen env demoG inputs _ _ (by decide) (by decide) ⟨rfl, rfl, rfl, _, _, ⟨FS.get_set_self _ _ _, _, FS.get_set_self _ _ _, ?_⟩,
    ⟨FS.get_set_self _ _ _, _, FS.get_set_self _ _ _, ?_⟩, by simp⟩
  · exact jsonLoad_dump _ (by simp [Val.Ser, Val.SerDict])
  · exact jsonLoad_dump _ (by simp [Val.Ser, Val.SerDict])

/-- `FIND (c:Man);` -/
def sMan : TypedText := ⟨eFind, [], none⟩

/-- C90: a GDBMS with two men, and one without. -/
example : ∃ fs, (shellLoopS demoEnv demoG [sMan.render, c!"q"]).shows fs ≠ (shellLoopS demoEnv demoG [sMan.render, c!"q"]).shows demoFresh := by
  obtain ⟨_, fs, -, -, h⟩ := session_stock (R := ActualRecords) (env := demoEnv) (ts := [.query eTyped]) (fun t h => by
    have e : t = .query eTyped := by simpa using h
    subst e
    exact ⟨eTyped_fair, fun _ _ _ _ h => h⟩) demoFresh_stock
  refine ⟨fs, C90_label_seen_partial demoEnv demoG demoG sMan (eNode c!"c" c!"Man" none) fs demoFresh _ _ ⟨?_, .inl rfl, fun hh => ?_⟩ rfl rfl h
    demoFresh_stock ?_ ?_⟩
  · exact
      { find := eFind_good
        gap := by simp [sMan, Indent]
        make := by simp [sMan]
        report := noAnagram_of (k := 't') (by decide) (by decide)
        line := by decide }
  · have := (isSubstr_iff _ _).2 hh
    revert this
    decide +kernel
  · simp [ChainText.labels, LabelMade, List.flatMap, Typed.chains, TypedText.chains, eTyped, StmtText.chains, eMake, eNode]
  · simp [ChainText.labels, LabelMade]

/-- C89 and C87 for a text that is no query: the session shows the error. -/
example : ∃ log fs', (shellLoopS demoEnv demoG [c!"hello", c!"q"]).prog.run demoFresh =
      (.ok (.ok log, (shellLoopS demoEnv demoG [c!"hello", c!"q"]).shows demoFresh), fs') ∧
    LogShown [c!"hello", c!"q"] log ((shellLoopS demoEnv demoG [c!"hello", c!"q"]).shows demoFresh) :=
  C89_every_text_answered demoEnv demoG _ demoFresh

end

end WG
