/-
C103: leaving the shell and coming back makes no difference.
-/
import Verif.Proofs.Pause
import Verif.Props.Terminal
import Verif.Props.Gdbms
set_option linter.unusedSectionVars false
set_option linter.unusedSimpArgs false

namespace WG

section
variable [PyRuntime]

/-- C103: a session that is left with `q` after the texts `a`, and one with the texts `b` on the disk it leaves: the events, the disk and the
terminal are those of one session with the texts `a ++ b`, but for the goodbye. -/
theorem C103_session (env : Env) (g : GPath) (a b : List Str) (fs : FS) (hq : c!"q" ∉ a) :
    ∃ l1 l2 fs1 fs2, (shellLoop env g (a ++ [c!"q"])).run fs = (.ok (l1 ++ [.bye]), fs1) ∧
      (shellLoop env g b).run fs1 = (.ok l2, fs2) ∧ (shellLoop env g (a ++ b)).run fs = (.ok (l1 ++ l2), fs2) ∧
      ∃ T, (shellLoopT env g (a ++ [c!"q"])).outs fs = T ++ [.shown asksQuery, .shown (echoes c!"q"), .shown saysBye] ∧
        (shellLoopT env g (a ++ b)).outs fs = T ++ (shellLoopT env g b).outs fs1 :=
  shell_split env g a b fs hq

/-- The run of the program once the GDBMS is chosen. -/
theorem start_chosen (env : Env) {inputs rest : List Str} {fs fs' fs'' : FS} {g : GPath} {log : List Event}
    (h : (selectGdbms inputs).run fs = (.ok (some (g, rest)), fs')) (hl : (shellLoop env g rest).run fs' = (.ok log, fs'')) :
    (startWiggleShell env inputs).run fs = (.ok (some log), fs'') := by
  rw [startWiggleShell, run_bind_ok h]
  simp only
  rw [run_bind_ok hl]
  rfl

/-- Choosing the same GDBMS again, whatever was written to its files in the meantime. -/
theorem choose_again {s : List Str} {g : GPath} {fs fs' : FS} (h : DBMS_FOLDER ∈ fs.folders) (hn : menuNames fs DBMS_FOLDER ≠ [])
    (hs : (selectGdbms (c!"y" :: s)).run fs = (.ok (some (g, [])), fs')) :
    (∀ q ∈ [g.db, g.idx, g.wn], (fs.get q).isSome = true) ∧
    ∀ fs1, SameShape fs fs1 → ∀ r, (selectGdbms (c!"y" :: s ++ r)).run fs1 = (.ok (some (g, r)), fs1) ∧
      (selectGdbmsS (c!"y" :: s ++ r)).shows fs1 = (selectGdbmsS (c!"y" :: s)).shows fs := by
  rw [selectGdbms, if_pos (.inl rfl)] at hs
  obtain ⟨h1, h2⟩ := existing_more h hn hs
  refine ⟨h1, fun fs1 hf r => ?_⟩
  obtain ⟨h3, h4⟩ := h2 fs1 hf r
  refine ⟨?_, ?_⟩
  · rw [List.cons_append, selectGdbms, if_pos (.inl rfl)]
    exact h3
  · rw [List.cons_append, select_shows, select_shows, if_pos (.inl rfl), if_pos (.inl rfl), h4]

/-- C103: the program is started, the GDBMS is chosen with the answers `y` and `s`, the texts `a` are typed, the shell is left with `q`, the
program is started again, the same is answered, and the texts `b` are typed: the events, the disk and the terminal are those of one run with the
texts `a ++ b`, but for the goodbye and the dialogue at the second start, which is that of the first. -/
theorem C103_pause (env : Env) (s a b : List Str) (g : GPath) (fs fs' : FS) (hf : DBMS_FOLDER ∈ fs.folders)
    (hn : ∃ name, (DBMS_FOLDER, name) ∈ fs.dirs ∧ name ∉ notGdbms) (hs : (selectGdbms (c!"y" :: s)).run fs = (.ok (some (g, [])), fs'))
    (hq : c!"q" ∉ a) :
    ∃ l1 l2 fs1 fs2, (startWiggleShell env (c!"y" :: s ++ (a ++ [c!"q"]))).run fs = (.ok (some (l1 ++ [.bye])), fs1) ∧
      (startWiggleShell env (c!"y" :: s ++ b)).run fs1 = (.ok (some l2), fs2) ∧
      (startWiggleShell env (c!"y" :: s ++ (a ++ b))).run fs = (.ok (some (l1 ++ l2)), fs2) ∧
      ∃ pre T U, pre = (greeting ++ (selectGdbmsS (c!"y" :: s)).shows fs ++ [Shown.using g]).map .shown ∧
        (startWiggleShellT env (c!"y" :: s ++ (a ++ [c!"q"]))).outs fs = pre ++ T ++ [.shown asksQuery, .shown (echoes c!"q"), .shown saysBye] ∧
        (startWiggleShellT env (c!"y" :: s ++ b)).outs fs1 = pre ++ U ∧
        (startWiggleShellT env (c!"y" :: s ++ (a ++ b))).outs fs = pre ++ T ++ U := by
  have hm : menuNames fs DBMS_FOLDER ≠ [] := by
    obtain ⟨name, h1, h2⟩ := hn
    intro e
    have : name ∈ menuNames fs DBMS_FOLDER := mem_menuNames.2 ⟨h1, by simpa [notGdbms] using h2⟩
    rw [e] at this
    cases this
  obtain ⟨hx, hc⟩ := choose_again hf hm hs
  obtain ⟨l1, l2, fs1, fs2, h1, h2, h3, T, h4, h5⟩ := C103_session env g a b fs hq
  have hsh : SameShape fs fs1 := by
    have := shape_run (within_shellLoop env g (a ++ [c!"q"])) hx
    rwa [h1] at this
  refine ⟨l1, l2, fs1, fs2, start_chosen env (hc fs (.refl _) _).1 h1, start_chosen env (hc fs1 hsh _).1 h2,
    start_chosen env (hc fs (.refl _) _).1 h3,
    _, T, (shellLoopT env g b).outs fs1, rfl, ?_, ?_, ?_⟩
  · rw [C102_start, (hc fs (.refl _) _).1, (hc fs (.refl _) _).2]
    simp only [h4, List.append_assoc, List.cons_append, List.nil_append, List.map_append, List.map_cons, List.map_nil]
  · rw [C102_start, (hc fs1 hsh _).1, (hc fs1 hsh _).2]
    simp only [List.append_assoc, List.cons_append, List.nil_append, List.map_append, List.map_cons, List.map_nil]
  · rw [C102_start, (hc fs (.refl _) _).1, (hc fs (.refl _) _).2]
    simp only [h5, List.append_assoc, List.cons_append, List.nil_append, List.map_append, List.map_cons, List.map_nil]

/-- C103: the same when the GDBMS is a new one, made under `name` at the first start: there is a letter under which it is chosen at the second. -/
theorem C103_pause_new (env : Env) (name : Str) (a b : List Str) (fs fs' : FS) (g : GPath) (hs : name ∉ notGdbms)
    (hw : ∀ x ∈ fs.dirs, x.1 ∈ fs.folders) (hn : fs.dirs.Nodup)
    (hc : (fs.dirs.filter fun x => x.1 = DBMS_FOLDER ∧ x.2 ∉ notGdbms ∧ x.2 ≠ name).length ≤ 25)
    (h : (getNewGdbmsFilePaths name DBMS_FOLDER).run fs = (.ok g, fs')) (hq : c!"q" ∉ a) :
    ∃ letter l1 l2 fs1 fs2, (startWiggleShell env (c!"n" :: name :: (a ++ [c!"q"]))).run fs = (.ok (some (l1 ++ [.bye])), fs1) ∧
      (startWiggleShell env (c!"y" :: letter :: b)).run fs1 = (.ok (some l2), fs2) ∧
      (startWiggleShell env (c!"n" :: name :: (a ++ b))).run fs = (.ok (some (l1 ++ l2)), fs2) ∧
      ∃ T U, (startWiggleShellT env (c!"n" :: name :: (a ++ [c!"q"]))).outs fs =
          (greeting ++ [asksUse, asksName, saysUsing name, .using g]).map .shown ++ T ++
            [.shown asksQuery, .shown (echoes c!"q"), .shown saysBye] ∧
        (startWiggleShellT env (c!"y" :: letter :: b)).outs fs1 =
          (greeting ++ (selectGdbmsS [c!"y", letter]).shows fs' ++ [Shown.using g]).map .shown ++ U ∧
        (startWiggleShellT env (c!"n" :: name :: (a ++ b))).outs fs =
          (greeting ++ [asksUse, asksName, saysUsing name, .using g]).map .shown ++ T ++ U := by
  have hsel : ∀ r, (selectGdbms (c!"n" :: name :: r)).run fs = (.ok (some (g, r)), fs') := by
    intro r
    rw [selectGdbms, if_neg (by decide), createNewDbms, run_tryCatch, run_bind_ok h]
    rfl
  have hsho : ∀ r, (selectGdbmsS (c!"n" :: name :: r)).shows fs = [asksUse, asksName, saysUsing name] := by
    intro r
    rw [select_shows, if_neg (by decide), newDbms_shows, h]
    rfl
  obtain ⟨letter, hl⟩ := C63_created_can_be_selected fs fs' name g hs hw hn hc h
  obtain ⟨hf', hm'⟩ := created_menu hs hw h
  obtain ⟨hx, hch⟩ := choose_again hf' hm' (hl [])
  obtain ⟨l1, l2, fs1, fs2, h1, h2, h3, T, h4, h5⟩ := C103_session env g a b fs' hq
  have hsh : SameShape fs' fs1 := by
    have := shape_run (within_shellLoop env g (a ++ [c!"q"])) hx
    rwa [h1] at this
  have hc1 := hch fs1 hsh b
  simp only [List.cons_append, List.nil_append] at hc1
  refine ⟨letter, l1, l2, fs1, fs2, start_chosen env (hsel _) h1, start_chosen env hc1.1 h2, start_chosen env (hsel _) h3,
    T, (shellLoopT env g b).outs fs1, ?_, ?_, ?_⟩
  · rw [C102_start, hsel, hsho]
    simp [h4]
  · rw [C102_start, hc1.1, hc1.2]
    simp
  · rw [C102_start, hsel, hsho]
    simp [h5]

end
section
attribute [local instance] demoRuntime

/-- A later start of the program. -/
def laterEnv : Env := { demoEnv with importTime := demoLater }

/-- A disk with a GDBMS called "man". -/
def pauseDisk : FS := ((getNewGdbmsFilePaths c!"man" DBMS_FOLDER).run { folders := [c!"dbms"], dirs := [], plain := [], files := [] }).2

theorem pause_chosen : (selectGdbms [c!"y", c!"X", c!"A"]).run pauseDisk = (.ok (some (gdbmsPath DBMS_FOLDER c!"man", [])), pauseDisk) := by
  decide +kernel

/-- C103: men are made, the shell is left, the GDBMS is chosen again (at the second try) and the men are found. -/
example : ∃ l1 l2 fs1 fs2,
    (startWiggleShell demoEnv ([c!"y", c!"X", c!"A"] ++ ([eTyped.render] ++ [c!"q"]))).run pauseDisk = (.ok (some (l1 ++ [.bye])), fs1) ∧
      (startWiggleShell demoEnv ([c!"y", c!"X", c!"A"] ++ [c!"FIND (c:Man);"])).run fs1 = (.ok (some l2), fs2) ∧
      (startWiggleShell demoEnv ([c!"y", c!"X", c!"A"] ++ ([eTyped.render] ++ [c!"FIND (c:Man);"]))).run pauseDisk =
        (.ok (some (l1 ++ l2)), fs2) := by
  obtain ⟨l1, l2, fs1, fs2, h1, h2, h3, -⟩ := C103_pause demoEnv [c!"X", c!"A"] [eTyped.render] [c!"FIND (c:Man);"] _ pauseDisk _
    (by decide +kernel) ⟨c!"man", by decide +kernel, by decide⟩ pause_chosen (by decide +kernel)
  exact ⟨l1, l2, fs1, fs2, h1, h2, h3⟩

/-- C103: what it says about a disk is not that nothing happens to it. -/
example : ((startWiggleShell demoEnv [c!"y", c!"A", eTyped.render, c!"q"]).run pauseDisk).2.get (gdbmsPath DBMS_FOLDER c!"man").db ≠
    pauseDisk.get (gdbmsPath DBMS_FOLDER c!"man").db := by
  decide +kernel

/-- C103: with a new GDBMS. -/
example : ∃ letter l1 l2 fs1 fs2,
    (startWiggleShell demoEnv (c!"n" :: c!"man" :: ([eTyped.render, eLonely] ++ [c!"q"]))).run
        { folders := [c!"dbms"], dirs := [], plain := [], files := [] } = (.ok (some (l1 ++ [.bye])), fs1) ∧
      (startWiggleShell demoEnv (c!"y" :: letter :: [c!"FIND (c:Man);"])).run fs1 = (.ok (some l2), fs2) ∧
      (startWiggleShell demoEnv (c!"n" :: c!"man" :: ([eTyped.render, eLonely] ++ [c!"FIND (c:Man);"]))).run
        { folders := [c!"dbms"], dirs := [], plain := [], files := [] } = (.ok (some (l1 ++ l2)), fs2) := by
  obtain ⟨letter, l1, l2, fs1, fs2, h1, h2, h3, -⟩ := C103_pause_new demoEnv c!"man" [eTyped.render, eLonely] [c!"FIND (c:Man);"]
    { folders := [c!"dbms"], dirs := [], plain := [], files := [] } pauseDisk (gdbmsPath DBMS_FOLDER c!"man") (by decide) (by simp) (by simp)
    (by simp) (by decide +kernel) (by decide +kernel)
  exact ⟨letter, l1, l2, fs1, fs2, h1, h2, h3⟩

/-- C103, sharpness: the environment has to be the same.  A second process has its own start time, which is what the code writes as the time a
record was made: the two runs leave another database than the one. -/
theorem C103_start_time_differs : ∃ (env env' : Env) (g : GPath) (s a b : List Str) (fs : FS), env.ord = env'.ord ∧ env.now = env'.now ∧
    c!"q" ∉ a ∧ (selectGdbms (c!"y" :: s)).run fs = (.ok (some (g, [])), fs) ∧
    ((startWiggleShell env' (c!"y" :: s ++ b)).run ((startWiggleShell env (c!"y" :: s ++ (a ++ [c!"q"]))).run fs).2).2.get g.db ≠
      ((startWiggleShell env (c!"y" :: s ++ (a ++ b))).run fs).2.get g.db :=
  ⟨demoEnv, laterEnv, gdbmsPath DBMS_FOLDER c!"man", [c!"X", c!"A"], [c!"FIND (c:Man);"], [eTyped.render], pauseDisk, rfl, rfl,
    by decide +kernel, pause_chosen, by decide +kernel⟩

/-- C103, sharpness: a text `q` in the middle of `a` ends the session. -/
theorem C103_q_ends : ∃ (env : Env) (g : GPath) (a b : List Str) (fs : FS), c!"q" ∈ a ∧
    ((shellLoop env g b).run ((shellLoop env g (a ++ [c!"q"])).run fs).2).2.get g.db ≠ ((shellLoop env g (a ++ b)).run fs).2.get g.db :=
  ⟨demoEnv, demoG, [c!"q"], [eTyped.render], demoFresh, by simp, by decide +kernel⟩

end
end WG
