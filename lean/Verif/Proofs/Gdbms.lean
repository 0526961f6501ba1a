/- Lemmas about GDBMS management. -/
import Verif.Model.Gdbms
import Verif.Proofs.Crash
import Verif.Proofs.Dict

set_option linter.unusedSectionVars false
set_option linter.unusedSimpArgs false

namespace WG

/-! ### Creation -/

/-- The disk after `mkdir(parents=True, exist_ok=True)`. -/
def withDir (fs : FS) (folder dir : Str) : FS := (exec (.mkdir folder dir) fs).2

/-- The directory exists or can be created. -/
def CanMkdir (fs : FS) (folder dir : Str) : Prop := (folder, dir) ∈ fs.dirs ∨ (folder, dir) ∉ fs.plain

instance (fs : FS) (f d : Str) : Decidable (CanMkdir fs f d) := by unfold CanMkdir; infer_instance

theorem withDir_def (fs : FS) (f d : Str) : withDir fs f d =
    if (f, d) ∈ fs.dirs then fs
    else if (f, d) ∈ fs.plain then fs
    else { fs with folders := if f ∈ fs.folders then fs.folders else fs.folders ++ [f],
                   dirs := fs.dirs ++ [(f, d)] } := by
  simp only [withDir, exec]
  split
  · rfl
  · split <;> rfl

@[simp] theorem withDir_get (fs : FS) (f d : Str) (p : Path) : (withDir fs f d).get p = fs.get p :=
  exec_frame (by simp [Op.target]) fs

theorem withDir_of_mem {fs : FS} {f d : Str} (h : (f, d) ∈ fs.dirs) : withDir fs f d = fs := by
  simp [withDir, exec, h]

theorem withDir_mem {fs : FS} {f d : Str} (h : CanMkdir fs f d) : (f, d) ∈ (withDir fs f d).dirs := by
  rw [withDir_def]
  by_cases h1 : (f, d) ∈ fs.dirs
  · simp [h1]
  · rcases h with h | h
    · exact absurd h h1
    · simp [h1, h]

theorem withDir_dirs_mono {fs : FS} {f d : Str} {x : Str × Str} (h : x ∈ fs.dirs) :
    x ∈ (withDir fs f d).dirs := by
  rw [withDir_def]
  split
  · exact h
  · split
    · exact h
    · simp [h]

theorem withDir_dirs {fs : FS} {f d : Str} {x : Str × Str} (h : x ∈ (withDir fs f d).dirs) :
    x ∈ fs.dirs ∨ x = (f, d) := by
  rw [withDir_def] at h
  split at h
  · exact Or.inl h
  · split at h
    · exact Or.inl h
    · simp at h; exact h

theorem withDir_plain (fs : FS) (f d : Str) : (withDir fs f d).plain = fs.plain := by
  rw [withDir_def]
  split
  · rfl
  · split <;> rfl

theorem withDir_files (fs : FS) (f d : Str) : (withDir fs f d).files = fs.files := by
  rw [withDir_def]
  split
  · rfl
  · split <;> rfl

theorem mkdir_ok {fs : FS} {f d : Str} (h : CanMkdir fs f d) {e : PyErr} :
    (unitOp (.mkdir f d) e).run fs = (.ok (), withDir fs f d) := by
  unfold unitOp withDir
  simp only [Prog.run]
  by_cases h1 : (f, d) ∈ fs.dirs
  · simp [exec, h1, Prog.run]
  · rcases h with h | h
    · exact absurd h h1
    · simp [exec, h1, h, Prog.run]

theorem mkdir_fail {fs : FS} {f d : Str} (h : ¬ CanMkdir fs f d) {e : PyErr} :
    (unitOp (.mkdir f d) e).run fs = (.error e, fs) := by
  unfold CanMkdir at h
  simp at h
  simp [unitOp, Prog.run, exec, h]

theorem run_isFile (p : Path) (fs : FS) : (flagOp (.isFile p)).run fs = (.ok (fs.get p).isSome, fs) := rfl

theorem createNewFile_blocked {p : Path} {text : Str} {fs : FS} (h : ¬ CanMkdir fs p.folder p.dir) :
    (createNewFile p text).run fs = (.error .osError, fs) := by
  unfold createNewFile
  rw [run_bind_err (mkdir_fail h)]

theorem createNewFile_taken {p : Path} {text : Str} {fs : FS} (h : CanMkdir fs p.folder p.dir)
    (hp : fs.get p ≠ none) :
    (createNewFile p text).run fs = (.error .value, withDir fs p.folder p.dir) := by
  unfold createNewFile
  rw [run_bind_ok (mkdir_ok h), run_bind_ok (run_isFile _ _)]
  cases h' : fs.get p with
  | none => exact absurd h' hp
  | some t => simp [h', Prog.run]

theorem createNewFile_new {p : Path} {text : Str} {fs : FS} (h : CanMkdir fs p.folder p.dir)
    (hp : fs.get p = none) :
    (createNewFile p text).run fs = (.ok p, (withDir fs p.folder p.dir).set p text) := by
  unfold createNewFile
  rw [run_bind_ok (mkdir_ok h), run_bind_ok (run_isFile _ _)]
  have hd := withDir_mem h
  simp only [withDir_get, hp, Option.isSome_none, Bool.false_eq_true, if_false]
  have h1 : (unitOp (.touch p) .osError).run (withDir fs p.folder p.dir) =
      (.ok (), (withDir fs p.folder p.dir).set p []) := by
    simp [unitOp, Prog.run, exec, hd, hp]
  rw [run_bind_ok h1, run_bind_ok (run_openW (by simpa using hd)),
    run_bind_ok (run_write (FS.get_set_self _ _ _))]
  simp [pure, Prog.run]

/-- The three files of a GDBMS are different. -/
theorem gdbms_ne (folder name : Str) :
    dbPath folder name ≠ idxPath folder name ∧ dbPath folder name ≠ wnPath folder name ∧
      idxPath folder name ≠ wnPath folder name := by
  simp [dbPath, idxPath, wnPath]

/-- Creation succeeds if none of the three files exists. -/
theorem create_new {folder name : Str} {fs : FS} (h : CanMkdir fs folder name)
    (h1 : fs.get (dbPath folder name) = none) (h2 : fs.get (idxPath folder name) = none)
    (h3 : fs.get (wnPath folder name) = none) :
    (getNewGdbmsFilePaths name folder).run fs = (.ok (gdbmsPath folder name),
      (((withDir fs folder name).set (dbPath folder name) c!"{}").set (idxPath folder name)
        newIndexText).set
          (wnPath folder name) c!"0") := by
  obtain ⟨n1, n2, n3⟩ := gdbms_ne folder name
  have hd := withDir_mem h
  have c1 : CanMkdir ((withDir fs folder name).set (dbPath folder name) c!"{}") folder name := Or.inl hd
  have c2 : CanMkdir (((withDir fs folder name).set (dbPath folder name) c!"{}").set (idxPath folder name)
    newIndexText) folder name := Or.inl hd
  unfold getNewGdbmsFilePaths createNewDatabase createNewIndexesFile createNewWiggleNumberFile
  rw [run_bind_ok (createNewFile_new (p := dbPath folder name) h h1)]
  simp only [show (dbPath folder name).folder = folder from rfl, show (dbPath folder name).dir = name from rfl]
  rw [run_bind_ok (createNewFile_new (p := idxPath folder name) c1
    (by rw [FS.get_set_ne n1]; simpa using h2))]
  have e1 : withDir ((withDir fs folder name).set (dbPath folder name) c!"{}") folder name =
      (withDir fs folder name).set (dbPath folder name) c!"{}" := withDir_of_mem hd
  simp only [show (idxPath folder name).folder = folder from rfl, show (idxPath folder name).dir = name from rfl,
    show (dbPath folder name).folder = folder from rfl, show (dbPath folder name).dir = name from rfl]
  rw [e1]
  rw [run_bind_ok (createNewFile_new (p := wnPath folder name) c2
    (by rw [FS.get_set_ne n3, FS.get_set_ne n2]; simpa using h3))]
  simp only [show (wnPath folder name).folder = folder from rfl, show (wnPath folder name).dir = name from rfl]
  rw [withDir_of_mem (by exact hd)]
  rfl

theorem create_blocked {folder name : Str} {fs : FS} (h : ¬ CanMkdir fs folder name) :
    (getNewGdbmsFilePaths name folder).run fs = (.error .osError, fs) := by
  unfold getNewGdbmsFilePaths createNewDatabase
  rw [run_bind_err (createNewFile_blocked (p := dbPath folder name) h)]

theorem create_db_taken {folder name : Str} {fs : FS} (h : CanMkdir fs folder name)
    (h1 : fs.get (dbPath folder name) ≠ none) :
    (getNewGdbmsFilePaths name folder).run fs = (.error .value, withDir fs folder name) := by
  unfold getNewGdbmsFilePaths createNewDatabase
  rw [run_bind_err (createNewFile_taken (p := dbPath folder name) h h1)]
  rfl

theorem create_idx_taken {folder name : Str} {fs : FS} (h : CanMkdir fs folder name)
    (h1 : fs.get (dbPath folder name) = none) (h2 : fs.get (idxPath folder name) ≠ none) :
    (getNewGdbmsFilePaths name folder).run fs =
      (.error .value, (withDir fs folder name).set (dbPath folder name) c!"{}") := by
  obtain ⟨n1, n2, n3⟩ := gdbms_ne folder name
  have hd := withDir_mem h
  have c1 : CanMkdir ((withDir fs folder name).set (dbPath folder name) c!"{}") folder name := Or.inl hd
  have c2 : CanMkdir (((withDir fs folder name).set (dbPath folder name) c!"{}").set (idxPath folder name)
    newIndexText) folder name := Or.inl hd
  unfold getNewGdbmsFilePaths createNewDatabase createNewIndexesFile
  rw [run_bind_ok (createNewFile_new (p := dbPath folder name) h h1)]
  simp only [show (dbPath folder name).folder = folder from rfl, show (dbPath folder name).dir = name from rfl]
  rw [run_bind_err (createNewFile_taken (p := idxPath folder name) c1
    (by rw [FS.get_set_ne n1]; simpa using h2))]
  exact congrArg _ (withDir_of_mem hd)

theorem create_wn_taken {folder name : Str} {fs : FS} (h : CanMkdir fs folder name)
    (h1 : fs.get (dbPath folder name) = none) (h2 : fs.get (idxPath folder name) = none)
    (h3 : fs.get (wnPath folder name) ≠ none) :
    (getNewGdbmsFilePaths name folder).run fs =
      (.error .value, ((withDir fs folder name).set (dbPath folder name) c!"{}").set (idxPath folder name)
        newIndexText) := by
  obtain ⟨n1, n2, n3⟩ := gdbms_ne folder name
  have hd := withDir_mem h
  have c1 : CanMkdir ((withDir fs folder name).set (dbPath folder name) c!"{}") folder name := Or.inl hd
  have c2 : CanMkdir (((withDir fs folder name).set (dbPath folder name) c!"{}").set (idxPath folder name)
    newIndexText) folder name := Or.inl hd
  unfold getNewGdbmsFilePaths createNewDatabase createNewIndexesFile createNewWiggleNumberFile
  rw [run_bind_ok (createNewFile_new (p := dbPath folder name) h h1)]
  simp only [show (dbPath folder name).folder = folder from rfl, show (dbPath folder name).dir = name from rfl]
  rw [run_bind_ok (createNewFile_new (p := idxPath folder name) c1
    (by rw [FS.get_set_ne n1]; simpa using h2))]
  have e1 : withDir ((withDir fs folder name).set (dbPath folder name) c!"{}") folder name =
      (withDir fs folder name).set (dbPath folder name) c!"{}" := withDir_of_mem hd
  simp only [show (idxPath folder name).folder = folder from rfl, show (idxPath folder name).dir = name from rfl,
    show (dbPath folder name).folder = folder from rfl, show (dbPath folder name).dir = name from rfl]
  rw [e1]
  rw [run_bind_err (createNewFile_taken (p := wnPath folder name) c2
    (by rw [FS.get_set_ne n3, FS.get_set_ne n2]; simpa using h3))]
  exact congrArg _ (withDir_of_mem (by exact hd))

/-! ### Crash states of creation -/

/-- Existing files of `fs` are the same in `fs'`. -/
def KeepsFiles (fs fs' : FS) : Prop := ∀ p text, fs.get p = some text → fs'.get p = some text

theorem KeepsFiles.refl (fs : FS) : KeepsFiles fs fs := fun _ _ h => h

theorem KeepsFiles.trans {a b c : FS} (h : KeepsFiles a b) (h' : KeepsFiles b c) : KeepsFiles a c :=
  fun p t e => h' p t (h p t e)

theorem keeps_withDir (fs : FS) (f d : Str) : KeepsFiles fs (withDir fs f d) := fun p t h => by simpa using h

theorem keeps_set {fs : FS} {p : Path} {s : Str} (h : fs.get p = none) : KeepsFiles fs (fs.set p s) := by
  intro q t hq
  have : p ≠ q := by rintro rfl; rw [h] at hq; cases hq
  rw [FS.get_set_ne this]; exact hq

/-- However far the creation of one file gets, existing files stay as they are. -/
theorem crash_createNewFile {tear : Path → Prop} {p : Path} {text : Str} {fs fs' : FS}
    (h : CrashAt tear (createNewFile p text) fs fs') : KeepsFiles fs fs' := by
  have hmk : ∀ {fs fs' : FS} {f d : Str} {e : PyErr}, CrashAt tear (unitOp (.mkdir f d) e) fs fs' →
      KeepsFiles fs fs' := by
    intro fs fs' f d e h
    rcases crash_unitOp h with h | h | ⟨p, pos, s, n, hop, _⟩
    · subst h; exact .refl _
    · subst h; exact keeps_withDir _ _ _
    · cases hop
  have keep : ∀ {op : Op} {e : PyErr} {fs1 fs2 : FS}, (∀ q, op.target = some q → q = p) → fs.get p = none →
      KeepsFiles fs fs1 → CrashAt tear (unitOp op e) fs1 fs2 → KeepsFiles fs fs2 := by
    intro op e fs1 fs2 ht hn hk hc q t hq
    have hne : p ≠ q := by rintro rfl; rw [hn] at hq; cases hq
    have : fs2.get q = fs1.get q := by
      rcases crash_unitOp hc with h | h | ⟨p', pos, s, n, hop, _, h⟩
      · subst h; rfl
      · subst h; exact exec_frame (fun e => hne (ht q e).symm) _
      · subst h; subst hop
        exact exec_frame (fun e => hne (by
          have := ht q (by simpa [Op.target] using e)
          exact this.symm)) _
    rw [this]; exact hk q t hq
  unfold createNewFile at h
  rcases crash_bind h with ha | ⟨u, fs1, hr, hb⟩
  · exact hmk ha
  · have hk1 : KeepsFiles fs fs1 := by
      by_cases hc : CanMkdir fs p.folder p.dir
      · rw [mkdir_ok hc] at hr; simp at hr; subst hr; exact keeps_withDir _ _ _
      · rw [mkdir_fail hc] at hr; simp at hr
    rcases crash_bind hb with hc | ⟨b, fs2, hr2, hd⟩
    · have := crash_readOnly (Prog.AllOps.flagOp (by rfl)) hc
      subst this; exact hk1
    · rw [run_isFile] at hr2
      simp at hr2
      obtain ⟨hb', rfl⟩ := hr2
      split at hd
      · have := crash_raise hd
        subst this; exact hk1
      · next hne =>
        have hn : fs.get p = none := by
          cases e : fs.get p with
          | none => rfl
          | some t => rw [hk1 p t e] at hb'; exact absurd hb'.symm hne
        rcases crash_bind hd with hc | ⟨_, fs3, hr3, he⟩
        · exact keep (by simp [Op.target]) hn hk1 hc
        have hk3 : KeepsFiles fs fs3 := by
          have := crash_run tear (unitOp (.touch p) .osError) fs1
          rw [hr3] at this
          exact keep (by simp [Op.target]) hn hk1 this
        rcases crash_bind he with hc | ⟨_, fs4, hr4, hf⟩
        · exact keep (by simp [Op.target]) hn hk3 hc
        have hk4 : KeepsFiles fs fs4 := by
          have := crash_run tear (unitOp (.openW p) .osError) fs3
          rw [hr4] at this
          exact keep (by simp [Op.target]) hn hk3 this
        rcases crash_bind hf with hc | ⟨_, fs5, hr5, hg⟩
        · exact keep (by simp [Op.target]) hn hk4 hc
        have hk5 : KeepsFiles fs fs5 := by
          have := crash_run tear (unitOp (.write p 0 text) .osError) fs4
          rw [hr5] at this
          exact keep (by simp [Op.target]) hn hk4 this
        have := crash_pure hg
        subst this; exact hk5

theorem keeps_createNewFile (p : Path) (text : Str) (fs : FS) :
    KeepsFiles fs ((createNewFile p text).run fs).2 :=
  crash_createNewFile (tear := fun _ => True) (crash_run _ _ _)

theorem crash_create {tear : Path → Prop} {name folder : Str} {fs fs' : FS}
    (h : CrashAt tear (getNewGdbmsFilePaths name folder) fs fs') : KeepsFiles fs fs' := by
  unfold getNewGdbmsFilePaths createNewDatabase createNewIndexesFile createNewWiggleNumberFile at h
  rcases crash_bind h with ha | ⟨_, fs1, hr, hb⟩
  · exact crash_createNewFile ha
  have k1 := keeps_createNewFile (dbPath folder name) c!"{}" fs
  rw [hr] at k1
  rcases crash_bind hb with hc | ⟨_, fs2, hr2, hd⟩
  · exact k1.trans (crash_createNewFile hc)
  have k2 := keeps_createNewFile (idxPath folder name)
    newIndexText fs1
  rw [hr2] at k2
  rcases crash_bind hd with he | ⟨_, fs3, hr3, hf⟩
  · exact (k1.trans k2).trans (crash_createNewFile he)
  have k3 := keeps_createNewFile (wnPath folder name) c!"0" fs2
  rw [hr3] at k3
  have := crash_pure hf
  subst this
  exact (k1.trans k2).trans k3

/-! ### Sorting -/

theorem strLe_iff (a b : Str) : strLe a b = true ↔ a ≤ b := by
  induction a generalizing b with
  | nil => simp [strLe]
  | cons x a ih =>
    cases b with
    | nil => simp [strLe]
    | cons y b =>
      rw [strLe, List.cons_le_cons_iff]
      split
      · next e => subst e; rw [ih]; simp [Char.lt_irrefl]
      · next e =>
        have : x < y ↔ x.toNat < y.toNat := by rw [Char.lt_def, UInt32.lt_iff_toNat_lt]; rfl
        simp [e, this]

theorem insertSorted_perm (x : Str) (l : List Str) : (insertSorted x l).Perm (x :: l) := by
  induction l with
  | nil => exact .refl _
  | cons y l ih =>
    rw [insertSorted]
    split
    · exact .refl _
    · exact (ih.cons y).trans (.swap ..)

theorem sortStrs_perm (l : List Str) : (sortStrs l).Perm l := by
  induction l with
  | nil => exact .refl _
  | cons x l ih => exact (insertSorted_perm x _).trans (ih.cons x)

theorem insertSorted_sorted (x : Str) (l : List Str) (h : l.Pairwise (· ≤ ·)) :
    (insertSorted x l).Pairwise (· ≤ ·) := by
  induction l with
  | nil => simp [insertSorted]
  | cons y l ih =>
    rw [insertSorted]
    rw [List.pairwise_cons] at h
    split
    · next e =>
      rw [strLe_iff] at e
      rw [List.pairwise_cons]
      refine ⟨fun z hz => ?_, List.pairwise_cons.2 h⟩
      rcases List.mem_cons.1 hz with rfl | hz
      · exact e
      · exact List.le_trans e (h.1 z hz)
    · next e =>
      rw [strLe_iff] at e
      rw [List.pairwise_cons]
      refine ⟨fun z hz => ?_, ih h.2⟩
      rcases List.mem_cons.1 ((insertSorted_perm x l).mem_iff.1 hz) with rfl | hz
      · exact (List.le_total y z).resolve_right e
      · exact h.1 z hz

theorem sortStrs_sorted (l : List Str) : (sortStrs l).Pairwise (· ≤ ·) := by
  induction l with
  | nil => exact .nil
  | cons x l ih => exact insertSorted_sorted x _ ih

/-! ### The menu -/

theorem listExisting_run {skips : List Str} {folder : Str} {fs : FS} (h : folder ∈ fs.folders) :
    (listExistingDbms skips folder).run fs =
      (.ok (sortStrs (((fs.dirs.filter fun x => x.1 = folder).map Prod.snd).filter
        fun x => !(skips.contains x))), fs) := by
  simp [listExistingDbms, Prog.run, exec, h]

theorem listExisting_missing {skips : List Str} {folder : Str} {fs : FS} (h : folder ∉ fs.folders) :
    (listExistingDbms skips folder).run fs = (.error .fileNotFound, fs) := by
  simp [listExistingDbms, Prog.run, exec, h]

/-- The names on the disk that the menu takes into account. -/
def menuNames (fs : FS) (folder : Str) : List Str :=
  sortStrs (((fs.dirs.filter fun x => x.1 = folder).map Prod.snd).filter fun x => !(menuSkips.contains x))

/-- The menu. -/
def menuOf (names : List Str) : Dict Str := (asciiUppercase.zip names).map fun x => ([x.1], x.2)

theorem mem_menuNames {fs : FS} {folder name : Str} :
    name ∈ menuNames fs folder ↔ (folder, name) ∈ fs.dirs ∧ name ≠ c!"tests" ∧ name ≠ c!"__pycache__" := by
  rw [menuNames, (sortStrs_perm _).mem_iff]
  simp [menuSkips]

theorem zip_fst_sublist {α β : Type} (l : List α) (l' : List β) : ((l.zip l').map Prod.fst).Sublist l := by
  induction l generalizing l' with
  | nil => simp
  | cons x l ih =>
    cases l' with
    | nil => simp
    | cons y l' => simpa using ih l'

theorem menuOf_nodup (names : List Str) : (keys (menuOf names)).Nodup := by
  have h1 : (keys (menuOf names)) = ((asciiUppercase.zip names).map Prod.fst).map fun c => [c] := by
    simp [keys, menuOf]
  rw [h1]
  refine List.Pairwise.map _ (R := (· ≠ ·)) (fun a b h e => h (by simpa using e)) ?_
  exact List.Nodup.sublist (zip_fst_sublist _ _) (by decide)

theorem menu_run {folder : Str} {fs : FS} (h : folder ∈ fs.folders) :
    (getAndDisplayAvailableDbms folder).run fs =
      (.ok (if menuNames fs folder = [] then none else some (menuOf (menuNames fs folder))), fs) := by
  unfold getAndDisplayAvailableDbms
  rw [run_bind_ok (listExisting_run h)]
  change Prog.run (if (menuNames fs folder).isEmpty = true then _ else _) fs = _
  by_cases e : menuNames fs folder = []
  · simp [e, pure, Prog.run]
  · simp only [List.isEmpty_iff, e, if_false, pure, Prog.run]
    have hf : (asciiUppercase.zip (menuNames fs folder)).filter (fun x => !(menuSkips.contains x.2)) =
        asciiUppercase.zip (menuNames fs folder) := by
      rw [List.filter_eq_self]
      intro x hx
      have := (mem_menuNames.1 (List.of_mem_zip hx).2).2
      simp [menuSkips, this]
    have : sortStrs (((fs.dirs.filter fun x => x.1 = folder).map Prod.snd).filter
        fun x => !(menuSkips.contains x)) = menuNames fs folder := rfl
    rw [this, hf]
    change (Except.ok (some (dictOf (menuOf (menuNames fs folder)))), fs) = _
    rw [dictOf_nodup _ (menuOf_nodup _)]

theorem menu_missing {folder : Str} {fs : FS} (h : folder ∉ fs.folders) :
    (getAndDisplayAvailableDbms folder).run fs = (.error .fileNotFound, fs) := by
  unfold getAndDisplayAvailableDbms
  rw [run_bind_err (listExisting_missing h)]

theorem menuOf_ne {names : List Str} (h : names ≠ []) : menuOf names ≠ [] := by
  cases names with
  | nil => exact absurd rfl h
  | cons x xs => simp [menuOf, asciiUppercase]

theorem menu_get_mem {names : List Str} {letter name : Str} (h : dictGet letter (menuOf names) = some name) :
    name ∈ names := by
  have := dictGet_some_mem h
  simp only [menuOf, List.mem_map] at this
  obtain ⟨x, hx, e⟩ := this
  simp at e
  rw [← e.2]
  exact (List.of_mem_zip hx).2

/-! ### Selection -/

theorem existing_run (folder name : Str) (fs : FS) :
    (getExistingFiles folder name).run fs =
      (if (fs.get (dbPath folder name)).isSome ∧ (fs.get (idxPath folder name)).isSome ∧
          (fs.get (wnPath folder name)).isSome then .ok (gdbmsPath folder name) else .error .fileNotFound, fs) := by
  have one : ∀ p : Path, (getExistingFile p).run fs =
      (if (fs.get p).isSome then .ok p else .error .fileNotFound, fs) := by
    intro p
    unfold getExistingFile
    rw [run_bind_ok (run_isFile _ _)]
    by_cases h : (fs.get p).isSome = true
    · simp [h, pure, Prog.run]
    · simp [h, pure, Prog.run]
  unfold getExistingFiles
  by_cases h1 : (fs.get (dbPath folder name)).isSome = true
  · rw [run_bind_ok (by rw [one, if_pos h1])]
    by_cases h2 : (fs.get (idxPath folder name)).isSome = true
    · rw [run_bind_ok (by rw [one, if_pos h2])]
      by_cases h3 : (fs.get (wnPath folder name)).isSome = true
      · rw [run_bind_ok (by rw [one, if_pos h3])]
        simp [h1, h2, h3, pure, Prog.run, gdbmsPath]
      · rw [run_bind_err (by rw [one, if_neg h3])]
        simp [h3]
    · rw [run_bind_err (by rw [one, if_neg h2])]
      simp [h2]
  · rw [run_bind_err (by rw [one, if_neg h1])]
    simp [h1]

/-- One round of the selection loop. -/
theorem select_round {folder letter : Str} {rest : List Str} {fs : FS} (h : DBMS_FOLDER ∈ fs.folders)
    (hn : menuNames fs DBMS_FOLDER ≠ []) :
    (getExistingGdbms folder (letter :: rest)).run fs =
      match dictGet letter (menuOf (menuNames fs DBMS_FOLDER)) with
      | none => (getExistingGdbms folder rest).run fs
      | some name =>
        if (fs.get (dbPath folder name)).isSome ∧ (fs.get (idxPath folder name)).isSome ∧
          (fs.get (wnPath folder name)).isSome then (.ok (some (gdbmsPath folder name, rest)), fs)
        else (getExistingGdbms folder rest).run fs := by
  rw [getExistingGdbms]
  rw [run_bind_ok (menu_run h), if_neg hn]
  cases hm : menuOf (menuNames fs DBMS_FOLDER) with
  | nil => exact absurd hm (menuOf_ne hn)
  | cons c cs =>
    simp only
    cases hg : dictGet letter (c :: cs) with
    | none => rfl
    | some name =>
      simp only
      rw [run_tryCatch]
      by_cases h' : (fs.get (dbPath folder name)).isSome ∧ (fs.get (idxPath folder name)).isSome ∧
          (fs.get (wnPath folder name)).isSome
      · rw [run_bind_ok (by rw [existing_run, if_pos h']), if_pos h']
        simp [pure, Prog.run]
      · rw [run_bind_err (by rw [existing_run, if_neg h']), if_neg h']
        simp

theorem select_none {folder : Str} {fs : FS} (h : DBMS_FOLDER ∈ fs.folders)
    (hn : menuNames fs DBMS_FOLDER ≠ []) : (getExistingGdbms folder []).run fs = (.ok none, fs) := by
  rw [getExistingGdbms]
  rw [run_bind_ok (menu_run h), if_neg hn]
  cases hm : menuOf (menuNames fs DBMS_FOLDER) with
  | nil => exact absurd hm (menuOf_ne hn)
  | cons c cs => rfl

/-! ### Deletion -/

/-- The disk without the given files. -/
def without (fs : FS) (ps : List Path) : FS := { fs with files := fs.files.filter fun x => x.1 ∉ ps }

theorem lookup_filter_keep {p : Path} {f : Path × Str → Bool} (l : List (Path × Str)) (h : ∀ s, f (p, s) = true) :
    lookupFile p (l.filter f) = lookupFile p l := by
  induction l with
  | nil => rfl
  | cons x l ih =>
    obtain ⟨q, s⟩ := x
    by_cases e : q = p
    · subst e; simp [List.filter_cons, h, lookupFile]
    · rw [List.filter_cons]
      split
      · simp [lookupFile, e, ih]
      · simp [lookupFile, e, ih]

theorem without_get_ne {fs : FS} {ps : List Path} {p : Path} (h : p ∉ ps) : (without fs ps).get p = fs.get p := by
  unfold without FS.get
  exact lookup_filter_keep _ (by simp [h])

theorem lookup_none {p : Path} {l : List (Path × Str)} (h : p ∉ l.map Prod.fst) : lookupFile p l = none := by
  induction l with
  | nil => rfl
  | cons x l ih =>
    obtain ⟨q, s⟩ := x
    simp at h
    rw [lookupFile, if_neg (by rintro rfl; simp at h), ih (by simpa using h.2)]

theorem lookup_some {p : Path} {l : List (Path × Str)} (h : p ∈ l.map Prod.fst) : (lookupFile p l).isSome = true := by
  induction l with
  | nil => simp at h
  | cons x l ih =>
    obtain ⟨q, s⟩ := x
    rw [lookupFile]
    split
    · rfl
    · next e =>
      refine ih ?_
      simp only [List.map_cons, List.mem_cons] at h
      rcases h with h | h
      · exact absurd h (fun h => e h.symm)
      · exact h

theorem without_get_mem {fs : FS} {ps : List Path} {p : Path} (h : p ∈ ps) : (without fs ps).get p = none := by
  unfold without FS.get
  exact lookup_none (by simp [h])

theorem removeAll_run {ps : List Path} (hn : ps.Nodup) {fs : FS} (h : ∀ p ∈ ps, (fs.get p).isSome = true) :
    (removeAll ps).run fs = (.ok (), without fs ps) := by
  induction ps generalizing fs with
  | nil =>
    have : fs.files.filter (fun _ => true) = fs.files := List.filter_eq_self.2 (by simp)
    simp [removeAll, pure, Prog.run, without, this]
  | cons p ps ih =>
    rw [List.nodup_cons] at hn
    rw [removeAll]
    have h1 : (unitOp (.remove p) .fileNotFound).run fs = (.ok (), without fs [p]) := by
      simp [unitOp, Prog.run, exec, h p (by simp), without]
    rw [run_bind_ok h1, ih hn.2]
    · simp [without, List.filter_filter]
      refine List.filter_congr fun x _ => ?_
      by_cases e1 : x.1 = p <;> by_cases e2 : x.1 ∈ ps <;> simp [e1, e2]
    · intro q hq
      rw [without_get_ne (by rintro h; simp at h; subst h; exact hn.1 hq)]
      exact h q (by simp [hq])

section
variable [PyRuntime]

theorem globDirs_plain {name : Str} (h : hasMagic name = false) (d : Str) : globDirs name d = (d == name) := by
  simp [globDirs, h]

/-- The files of a directory. -/
def filesOf (fs : FS) (folder name : Str) : List Path :=
  (fs.files.map Prod.fst).filter fun p => decide (p.folder = folder) && decide (p.dir = name)

theorem delete_missing {name folder : Str} {fs : FS} (h : (folder, name) ∉ fs.dirs) :
    (deleteGdbms name folder).run fs = (.error .exception, fs) := by
  unfold deleteGdbms
  rw [run_bind_ok (show (flagOp (.isDir folder name)).run fs = (.ok false, fs) by simp [flagOp, Prog.run, exec, h])]
  simp

theorem delete_run {name folder : Str} {fs : FS} (hd : (folder, name) ∈ fs.dirs) (hm : hasMagic name = false)
    (hn : (fs.files.map Prod.fst).Nodup) (hh : ∀ p ∈ filesOf fs folder name, isHidden p.file = false) :
    (deleteGdbms name folder).run fs = (.ok 0,
      { without fs (filesOf fs folder name) with dirs := fs.dirs.filter fun x => x ≠ (folder, name) }) := by
  unfold deleteGdbms
  rw [run_bind_ok (show (flagOp (.isDir folder name)).run fs = (.ok true, fs) by simp [flagOp, Prog.run, exec, hd])]
  simp only [not_true_eq_false, if_false]
  have hl : ((fs.files.map Prod.fst).filter fun p =>
      decide (p.folder = folder) && globDirs name p.dir && !isHidden p.file) = filesOf fs folder name := by
    unfold filesOf
    refine List.filter_congr fun p hp => ?_
    rw [globDirs_plain hm]
    by_cases e1 : p.folder = folder
    · by_cases e2 : p.dir = name
      · have := hh p (by simp only [filesOf, List.mem_filter]; exact ⟨hp, by simp [e1, e2]⟩)
        simp [e1, e2, this]
      · simp [e1, e2]
    · simp [e1]
  rw [run_bind_ok (show Prog.run _ fs = (.ok (filesOf fs folder name), fs) by
    simp only [Prog.run, exec, hl])]
  rw [run_bind_ok (removeAll_run (ps := filesOf fs folder name) (hn.sublist List.filter_sublist) (by
    intro p hp
    exact lookup_some (List.mem_filter.1 hp).1))]
  have hr : (unitOp (.rmdir folder name) .osError).run (without fs (filesOf fs folder name)) = (.ok (),
      { without fs (filesOf fs folder name) with dirs := fs.dirs.filter fun x => x ≠ (folder, name) }) := by
    have : ((without fs (filesOf fs folder name)).files.all
        fun x => ¬ (x.1.folder = folder ∧ x.1.dir = name)) = true := by
      simp only [List.all_eq_true, without, List.mem_filter, decide_eq_true_eq]
      rintro x ⟨hx, hx'⟩ ⟨h1, h2⟩
      exact hx' (by simp only [filesOf, List.mem_filter]; exact ⟨List.mem_map_of_mem hx, by simp [h1, h2]⟩)
    simp only [unitOp, Prog.run, exec]
    rw [if_pos ⟨hd, this⟩]
    rfl
  rw [run_bind_ok hr]
  rfl

theorem only_removeAll (ps qs : List Path) (h : ∀ p ∈ ps, p ∈ qs) : (removeAll ps).AllOps fun o =>
    ∀ q, o.target = some q → q ∈ qs := by
  induction ps with
  | nil => exact .ret _
  | cons p ps ih =>
    refine .bind (.unitOp ?_) fun _ => ih fun q hq => h q (by simp [hq])
    intro q hq
    simp [Op.target] at hq
    subst hq
    exact h _ (by simp)

end

theorem crash_targets {α : Type} {tear : Path → Prop} {p : Prog α} {fs fs' : FS} {q : Path}
    (h : p.AllOps fun o => o.target ≠ some q) (hc : CrashAt tear p fs fs') : fs'.get q = fs.get q := by
  induction hc with
  | here => rfl
  | torn p pos s n k fs ht =>
    cases h with
    | act _ _ h1 h2 => exact exec_frame (by simpa [Op.target] using h1) _
  | step op k fs fs' hc ih =>
    cases h with
    | act _ _ h1 h2 =>
      rw [ih (h2 _)]
      exact exec_frame h1 _

/-- However far a deletion gets, files in other directories stay, if the name has no magic
characters. -/
theorem crash_delete [PyRuntime] {tear : Path → Prop} {name folder : Str} {fs fs' : FS}
    (hm : hasMagic name = false) (h : CrashAt tear (deleteGdbms name folder) fs fs') {q : Path}
    (hq : ¬ (q.folder = folder ∧ q.dir = name)) : fs'.get q = fs.get q := by
  unfold deleteGdbms at h
  rcases crash_bind h with ha | ⟨b, fs1, hr, hb⟩
  · rw [crash_readOnly (Prog.AllOps.flagOp (by rfl)) ha]
  simp [flagOp, Prog.run, exec] at hr
  obtain ⟨hb', rfl⟩ := hr
  split at hb
  · rw [crash_raise hb]
  rcases crash_bind hb with hc | ⟨l, fs2, hr2, hd⟩
  · have : fs' = fs := by
      refine crash_readOnly ?_ hc
      refine .act _ _ rfl ?_
      intro r
      cases r <;> first | exact .ret _ | exact .raise _
    rw [this]
  simp only [Prog.run, exec, Prod.mk.injEq, Except.ok.injEq] at hr2
  obtain ⟨rfl, rfl⟩ := hr2
  refine crash_targets (q := q) ?_ hd
  refine .bind ((only_removeAll _ _ fun _ h => h).mono ?_) fun _ => .bind (.unitOp (by simp [Op.target])) fun _ => .ret _
  intro o ho e
  have := ho q e
  simp only [List.mem_filter, globDirs_plain hm] at this
  obtain ⟨_, this⟩ := this
  simp at this
  exact hq this.1

/-- Creation touches only its three files. -/
theorem targets_create (name folder : Str) : (getNewGdbmsFilePaths name folder).AllOps fun o =>
    ∀ q, o.target = some q → q ∈ [dbPath folder name, idxPath folder name, wnPath folder name] := by
  have one : ∀ (p : Path) (text : Str), p ∈ [dbPath folder name, idxPath folder name, wnPath folder name] →
      (createNewFile p text).AllOps fun o => ∀ q, o.target = some q →
        q ∈ [dbPath folder name, idxPath folder name, wnPath folder name] := by
    intro p text hp
    unfold createNewFile
    refine .bind (.unitOp (by simp [Op.target])) fun _ => .bind (.flagOp (by simp [Op.target])) fun b => ?_
    have hp' : ∀ q, some p = some q → q ∈ [dbPath folder name, idxPath folder name, wnPath folder name] := by
      intro q e; simp at e; subst e; exact hp
    split
    · exact .raise _
    · refine .bind (.unitOp ?_) fun _ => .bind (.unitOp ?_) fun _ => .bind (.unitOp ?_) fun _ => .ret _
      all_goals exact hp'
  unfold getNewGdbmsFilePaths createNewDatabase createNewIndexesFile createNewWiggleNumberFile
  exact .bind (one _ _ (by simp)) fun _ => .bind (one _ _ (by simp)) fun _ => .bind (one _ _ (by simp)) fun _ => .ret _

/-! ### Letters -/

theorem menuNames_nodup {fs : FS} {folder : Str} (h : fs.dirs.Nodup) : (menuNames fs folder).Nodup := by
  rw [menuNames, (sortStrs_perm _).nodup_iff]
  refine List.Nodup.sublist List.filter_sublist ?_
  have h2 : (fs.dirs.filter fun x => x.1 = folder).Nodup := h.sublist List.filter_sublist
  have h3 : ∀ x ∈ fs.dirs.filter (fun x => x.1 = folder), x.1 = folder := by
    intro x hx; simpa using (List.mem_filter.1 hx).2
  generalize fs.dirs.filter (fun x => x.1 = folder) = l at h2 h3
  induction l with
  | nil => simp
  | cons x l ih =>
    rw [List.nodup_cons] at h2
    rw [List.map_cons, List.nodup_cons]
    refine ⟨fun hm => ?_, ih h2.2 fun y hy => h3 y (by simp [hy])⟩
    obtain ⟨y, hy, e⟩ := List.mem_map.1 hm
    have : y = x := Prod.ext (by rw [h3 y (by simp [hy]), h3 x (by simp)]) e
    subst this
    exact h2.1 hy

theorem menuNames_length {fs : FS} {folder : Str} {n : Nat}
    (h : (fs.dirs.filter fun x => x.1 = folder ∧ x.2 ∉ [c!"tests", c!"__pycache__"]).length ≤ n) :
    (menuNames fs folder).length ≤ n := by
  rw [menuNames, (sortStrs_perm _).length_eq]
  refine Nat.le_trans (Nat.le_of_eq ?_) h
  rw [List.filter_map, List.length_map, List.filter_filter]
  congr 1
  refine List.filter_congr fun x _ => ?_
  by_cases e : x.1 = folder <;> simp [e, menuSkips]

theorem length_filter_le_succ {α : Type} [DecidableEq α] {p : α → Bool} {l : List α} {y : α} (h : l.Nodup) :
    (l.filter p).length ≤ (l.filter fun x => p x && decide (x ≠ y)).length + 1 := by
  induction l with
  | nil => simp
  | cons x l ih =>
    rw [List.nodup_cons] at h
    by_cases e : x = y
    · subst e
      have : (l.filter fun z => p z && decide (z ≠ x)) = l.filter p := by
        refine List.filter_congr fun z hz => ?_
        have : z ≠ x := by rintro rfl; exact h.1 hz
        simp [this]
      simp only [List.filter_cons, ne_eq, not_true_eq_false, decide_false, Bool.and_false]
      rw [this]
      split <;> simp
    · have := ih h.2
      simp only [List.filter_cons, ne_eq, e, not_false_eq_true, decide_true, Bool.and_true]
      split
      · simp; simpa using this
      · simpa using this

theorem upper_get (i : Nat) (h : i < 26) : asciiUppercase[i]? = some (Char.ofNat (65 + i)) := by
  have : ∀ i : Fin 26, asciiUppercase[i.1]? = some (Char.ofNat (65 + i.1)) := by decide
  exact this ⟨i, h⟩

theorem upper_length : asciiUppercase.length = 26 := by decide

theorem menu_get_index {names : List Str} {l name : Str} (h : dictGet l (menuOf names) = some name) :
    ∃ i, names[i]? = some name ∧ i < 26 ∧ l = [Char.ofNat (65 + i)] := by
  have := dictGet_some_mem h
  simp only [menuOf, List.mem_map] at this
  obtain ⟨x, hx, e⟩ := this
  obtain ⟨i, hi, e'⟩ := List.mem_iff_getElem.1 hx
  simp only [Prod.mk.injEq] at e
  have hi' := hi
  rw [List.length_zip, upper_length] at hi
  rw [List.getElem_zip] at e'
  have h1 := upper_get i (by omega)
  rw [List.getElem?_eq_getElem (by rw [upper_length]; omega)] at h1
  refine ⟨i, ?_, by omega, ?_⟩
  · rw [List.getElem?_eq_getElem (by omega), ← e.2, ← e']
  · rw [← e.1, ← e']
    simp at h1
    simp [h1]

theorem menu_letter {names : List Str} (hn : names.Nodup) (hl : names.length ≤ 26) {name : Str} (h : name ∈ names) :
    ∃ l, dictGet l (menuOf names) = some name ∧ ∀ l', dictGet l' (menuOf names) = some name → l' = l := by
  obtain ⟨i, hi, e⟩ := List.mem_iff_getElem.1 h
  refine ⟨[Char.ofNat (65 + i)], ?_, ?_⟩
  · refine dictGet_of_mem (menuOf_nodup _) ?_
    simp only [menuOf, List.mem_map]
    refine ⟨(Char.ofNat (65 + i), name), ?_, rfl⟩
    refine List.mem_iff_getElem.2 ⟨i, by rw [List.length_zip, upper_length]; omega, ?_⟩
    rw [List.getElem_zip]
    have h1 := upper_get i (by omega)
    rw [List.getElem?_eq_getElem (by rw [upper_length]; omega)] at h1
    simp at h1
    rw [h1, e]
  · intro l' hl'
    obtain ⟨j, h1, h2, h3⟩ := menu_get_index hl'
    rw [List.getElem?_eq_some_iff] at h1
    obtain ⟨hj, h1⟩ := h1
    have : i = j := by
      rw [← e] at h1
      exact ((List.getElem_inj hn).1 h1).symm
    subst this
    exact h3

theorem createDbms_ok {folder : Str} {inputs rest : List Str} {fs fs' : FS} {g : GPath}
    (h : (createNewDbms folder inputs).run fs = (.ok (some (g, rest)), fs')) :
    ∃ typed name, inputs = typed ++ name :: rest ∧ g = gdbmsPath folder name ∧
      fs'.get (dbPath folder name) ≠ none ∧ fs'.get (idxPath folder name) ≠ none ∧
      fs'.get (wnPath folder name) ≠ none := by
  induction inputs generalizing fs with
  | nil => simp [createNewDbms] at h
  | cons name inputs ih =>
    rw [createNewDbms, run_tryCatch, run_bind] at h
    cases hr : (getNewGdbmsFilePaths name folder).run fs with
    | mk r fs1 =>
      rw [hr] at h
      cases r with
      | error e =>
        simp only at h
        split at h
        · obtain ⟨typed, name', h1, h2⟩ := ih h
          exact ⟨name :: typed, name', by simp [h1], h2⟩
        · simp at h
      | ok g1 =>
        simp [pure, Prog.run] at h
        obtain ⟨⟨rfl, rfl⟩, rfl⟩ := h
        have hcm : CanMkdir fs folder name := by
          by_cases hc : CanMkdir fs folder name
          · exact hc
          · rw [create_blocked hc] at hr; simp at hr
        by_cases h1 : fs.get (dbPath folder name) = none
        case neg => rw [create_db_taken hcm h1] at hr; simp at hr
        by_cases h2 : fs.get (idxPath folder name) = none
        case neg => rw [create_idx_taken hcm h1 h2] at hr; simp at hr
        by_cases h3 : fs.get (wnPath folder name) = none
        case neg => rw [create_wn_taken hcm h1 h2 h3] at hr; simp at hr
        obtain ⟨n1, n2, n3⟩ := gdbms_ne folder name
        rw [create_new hcm h1 h2 h3] at hr
        simp only [Prod.mk.injEq, Except.ok.injEq] at hr
        obtain ⟨rfl, rfl⟩ := hr
        refine ⟨[], name, rfl, rfl, ?_, ?_, ?_⟩
        · rw [FS.get_set_ne n2.symm, FS.get_set_ne n1.symm, FS.get_set_self]; simp
        · rw [FS.get_set_ne n3.symm, FS.get_set_self]; simp
        · rw [FS.get_set_self]; simp

end WG
