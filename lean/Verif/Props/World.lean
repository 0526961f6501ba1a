/-
C71: whole runs of the program.  What was typed in earlier runs is there in later ones, GDBMS by GDBMS.
-/
import Verif.Proofs.World

set_option linter.unusedSectionVars false

namespace WG

section
variable [PyRuntime]

/-- C71, one run, partial: if the disk holds the patterns of a world, then a run of the program that names a new GDBMS or chooses an
old one by its letter (perhaps after attempts that are refused), types well-formed queries, with any texts that make nothing among
them, and ends with "q", ends well: every one of the queries is done, and the disk holds the patterns of the next
world.  No other GDBMS is changed.  Missing from the full property: the names that the menu hides, more than 26 GDBMSs, and
the queries that are known to fail (C65, C67, C69). -/
theorem C71_run_partial (env : Env) (r : ProgRun) (w w' : World) (fs : FS) (h : Keeps ChainRecords fs w) (hr : r.Leads Typed.OK w w') :
    ∃ log fs', (startWiggleShell env r.inputs).run fs = (.ok (some log), fs') ∧ GoodLog r.typed log ∧ Keeps ChainRecords fs' w' := by
  obtain ⟨⟨log, fs', h1, h2, h3⟩, h4⟩ := run_world (fun _ => ok_fair) env r w w' fs h hr
  exact ⟨log, fs', h1, goodLog_of h4 h2, h3⟩

/-- C71, any number of runs, each in a process of its own. -/
theorem C71_runs_partial (rs : List (Env × ProgRun)) (w w' : World) (fs : FS) (h : Keeps ChainRecords fs w) (hr : LeadAll Typed.OK w rs w') :
    Keeps ChainRecords (runAll rs fs) w' := by
  induction rs generalizing w fs with
  | nil => cases hr; exact h
  | cons r rs ih =>
    obtain ⟨w1, h1, h2⟩ := hr
    obtain ⟨log, fs', h3, -, h4⟩ := C71_run_partial r.1 r.2 w w1 fs h h1
    rw [runAll, h3]
    exact ih w1 fs' h4 h2

/-- Why C71 fails: a GDBMS called "tests" or "__pycache__" can be created and used, but no later run reaches it, whatever is typed. -/
theorem C71_hidden (fs : FS) (name : Str) (hs : name ∈ notGdbms) (h : DBMS_FOLDER ∈ fs.folders) (hn : fs.dirs.Nodup)
    (hd : (DBMS_FOLDER, name) ∈ fs.dirs) (hf : fs.get (dbPath DBMS_FOLDER name) ≠ none) (inputs : List Str) (g : GPath)
    (rest : List Str) (fs' : FS) (hr : (selectGdbms inputs).run fs = (.ok (some (g, rest)), fs')) :
    g ≠ gdbmsPath DBMS_FOLDER name := by
  cases inputs with
  | nil => simp [selectGdbms, pure] at hr
  | cons a inputs =>
    rw [selectGdbms] at hr
    split at hr
    · by_cases hex : ∃ x, (DBMS_FOLDER, x) ∈ fs.dirs ∧ x ∉ notGdbms
      · obtain ⟨r, h1, h2⟩ := C62_selects_existing fs DBMS_FOLDER inputs h hn hex
        rw [h1] at hr
        simp only [Prod.mk.injEq, Except.ok.injEq] at hr
        obtain ⟨_, letter, x, _, ⟨names, i, _, _, h3, h4, _⟩, rfl, _⟩ := h2 g rest hr.1
        intro e
        have : x = name := congrArg (fun g : GPath => g.db.dir) e
        subst this
        exact ((h3 x).1 (List.mem_of_getElem? h4)).2 hs
      · have hm : menuNames fs DBMS_FOLDER = [] := by
          rw [List.eq_nil_iff_forall_not_mem]
          intro x hx
          obtain ⟨h1, h2, h3⟩ := mem_menuNames.1 hx
          exact hex ⟨x, h1, by simp [notGdbms, h2, h3]⟩
        have he : (getExistingGdbms DBMS_FOLDER inputs).run fs = (createNewDbms DBMS_FOLDER inputs).run fs := by
          cases inputs <;> rw [getExistingGdbms, run_bind_ok (menu_run h), if_pos hm]
        rw [he] at hr
        exact createNewDbms_other inputs fs fs' g rest hd hf hr
    · exact createNewDbms_other inputs fs fs' g rest hd hf hr

end

section
attribute [local instance] demoRuntime

/-- A disk with the default folder and nothing else. -/
def bareDisk : FS := ⟨[DBMS_FOLDER], [], [], []⟩

theorem bareDisk_keeps (R : Int → ChainText → Dict V → Prop) : Keeps R bareDisk [] where
  folder := by decide
  dirs := by decide
  nodup := by decide
  names x := by simp [Shelf.names, bareDisk]
  free x _ _ := ⟨.inr (by simp [bareDisk]), rfl, rfl, rfl⟩
  stock := by simp

theorem eTyped_ok : (Typed.query eTyped).OK := by
  refine ⟨eTyped_runnable, fun h => ?_⟩
  have := (isSubstr_iff _ _).2 h
  revert this
  decide +kernel

/-- A run that creates a GDBMS under this name and types a query, a text that is none, and the query again. -/
def newRun (tries : List Str) (name : Str) : ProgRun := ⟨c!"n", tries, name, [.query eTyped, .other c!"hello", .query eTyped]⟩

theorem newRun_ok (tries : List Str) (name : Str) : ∀ t ∈ (newRun tries name).typed, t.OK := by
  simp only [newRun, List.mem_cons, List.not_mem_nil, or_false, forall_eq_or_imp, forall_eq]
  exact ⟨eTyped_ok, ⟨by decide, .inr (not_makes (by decide +kernel))⟩, eTyped_ok⟩

/-- C71: three runs.  The first creates "zoo", the second first tries "zoo" and then creates "ark", the third chooses "zoo",
whose letter is now B, after typing an x. -/
def threeRuns : List (Env × ProgRun) :=
  [(demoEnv, newRun [] c!"zoo"), (demoEnv, newRun [c!"zoo"] c!"ark"), (demoEnv, ⟨c!"yes", [c!"x"], c!"B", [.query eTyped]⟩)]

example : Keeps ChainRecords (runAll threeRuns bareDisk)
    [(c!"zoo", (eTyped.chains ++ eTyped.chains) ++ eTyped.chains), (c!"ark", eTyped.chains ++ eTyped.chains)] := by
  have e : ∀ tries name, (newRun tries name).chains = eTyped.chains ++ eTyped.chains := fun _ _ => rfl
  refine C71_runs_partial threeRuns [] _ bareDisk (bareDisk_keeps _) ⟨_, .new [] (newRun_ok _ _) (.inl (by decide)) (by simp [newRun])
    (by decide) (by decide), _, .new _ (newRun_ok _ _) (.inl (by decide)) ?_ ?_ (by decide), _,
    .old [] [(c!"ark", eTyped.chains ++ eTyped.chains)] c!"zoo" (eTyped.chains ++ eTyped.chains) ?_ (by decide) ?_ ?_ ?_, rfl⟩
  · simp [newRun, Shelf.names]
  · simp [newRun, Shelf.names]
  · simpa using eTyped_ok
  · simp only [List.mem_cons, List.not_mem_nil, or_false, forall_eq]
    intro i hi _ e
    simp only [menuLetter, List.cons.injEq, and_true] at e
    have : ∀ i : Fin 26, 'x' ≠ Char.ofNat (65 + i.1) := by decide
    exact this ⟨i, hi⟩ e
  · simp only [Shelf.names, List.map_cons, List.map_nil, List.nil_append]; decide
  · simp only [Shelf.names, List.map_cons, List.map_nil, List.nil_append]; decide

/-- C71 fails: a first run creates "tests" and stores patterns there, every query is done; no later run reaches that GDBMS. -/
theorem C71_violated : ∃ (fs : FS) (r : ProgRun) (log : List Event) (fs' : FS), Keeps ChainRecords fs [] ∧ (∀ t ∈ r.typed, t.OK) ∧ r.chains ≠ [] ∧
    (startWiggleShell demoEnv r.inputs).run fs = (.ok (some log), fs') ∧ GoodLog r.typed log ∧
    Stock ChainRecords fs' (gdbmsPath DBMS_FOLDER r.pick) r.chains ∧
    ∀ inputs g rest fs'', (selectGdbms inputs).run fs' = (.ok (some (g, rest)), fs'') → g ≠ gdbmsPath DBMS_FOLDER r.pick := by
  obtain ⟨fs1, h1, -, h2, -⟩ := C55_created_is_empty bareDisk DBMS_FOLDER c!"tests" ⟨.inr (by decide), rfl, rfl, rfl⟩
  have hs : Stock ChainRecords fs1 (gdbmsPath DBMS_FOLDER c!"tests") [] := ⟨[], [], [], [], h2, below_nil 0, rfl, by simp, by simp, by simp⟩
  obtain ⟨log, fs', h3, h4, h5⟩ := session_stock (env := demoEnv) (fun t h' => ok_fair (newRun_ok [] c!"tests" t h')) hs
  have hf : fs1 = ((getNewGdbmsFilePaths c!"tests" DBMS_FOLDER).run bareDisk).2 := by rw [h1]
  have ho := only_shellLoop demoEnv (gdbmsPath DBMS_FOLDER c!"tests") ((newRun [] c!"tests").typed.map Typed.text ++ [c!"q"])
  have hd : fs'.dirs = fs1.dirs := by
    have := run_only_dirs ho fs1
    rw [h3] at this
    exact this
  have hfo : fs'.folders = fs1.folders := by
    have := (run_only_folders ho fs1).1
    rw [h3] at this
    exact this
  refine ⟨bareDisk, newRun [] c!"tests", log, fs', bareDisk_keeps _, newRun_ok _ _, by decide, ?_, goodLog_of (newRun_ok _ _) h4, h5, fun inputs g rest fs'' hr => ?_⟩
  · unfold startWiggleShell
    have : (selectGdbms (newRun [] c!"tests").inputs).run bareDisk =
        (.ok (some (gdbmsPath DBMS_FOLDER c!"tests", (newRun [] c!"tests").typed.map Typed.text ++ [c!"q"])), fs1) := by
      show (selectGdbms (c!"n" :: c!"tests" :: _)).run bareDisk = _
      rw [selectGdbms, if_neg (by decide), createNewDbms, run_tryCatch, run_bind_ok h1]
      rfl
    rw [run_bind_ok this]
    simp only
    rw [run_bind_ok h3]
    rfl
  · refine C71_hidden fs' c!"tests" (by decide) ?_ ?_ ?_ ?_ inputs g rest fs'' hr
    · rw [hfo, hf]; decide +kernel
    · rw [hd, hf]; decide +kernel
    · rw [hd, hf]; decide +kernel
    · exact Option.isSome_iff_ne_none.1 h5.files.1

end

end WG
