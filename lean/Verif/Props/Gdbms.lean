/-
Creation, deletion, listing and selection of GDBMSs (C55–C63).
-/
import Verif.Proofs.Gdbms
import Verif.Spec.Gdbms
import Verif.Proofs.Query
import Verif.Proofs.Consistent
import Verif.Props.Index

set_option linter.unusedSectionVars false

namespace WG

section
variable [PyRuntime]

/-! ### C55 -/

/-- C55: creating a GDBMS under a free name returns its three paths and leaves a new GDBMS: an empty
graph, empty indexes and the counter 0. -/
theorem C55_created_is_empty (fs : FS) (folder name : Str) (h : NameFree fs folder name) :
    ∃ fs', (getNewGdbmsFilePaths name folder).run fs = (.ok (gdbmsPath folder name), fs') ∧
      IsNew fs' (gdbmsPath folder name) ∧ Healthy fs' (gdbmsPath folder name) [] [] [] [] 0 ∧
      ∃ t, fs'.get (wnPath folder name) = some t ∧ pyInt t = some 0 := by
  obtain ⟨n1, n2, n3⟩ := gdbms_ne folder name
  refine ⟨_, create_new h.mkdir h.db h.idx h.wn, ?_⟩
  have hnew : IsNew ((((withDir fs folder name).set (dbPath folder name) c!"{}").set (idxPath folder name)
      newIndexText).set (wnPath folder name) c!"0") (gdbmsPath folder name) := by
    refine ⟨?_, ?_, ?_, ?_, n1, n2, n3⟩
    · show FS.get _ (dbPath folder name) = _
      rw [FS.get_set_ne n2.symm, FS.get_set_ne n1.symm, FS.get_set_self]
    · show FS.get _ (idxPath folder name) = _
      rw [FS.get_set_ne n3.symm, FS.get_set_self]
      rfl
    · show FS.get _ (wnPath folder name) = _
      rw [FS.get_set_self]
    · exact withDir_mem h.mkdir
  exact ⟨hnew, (consistent_new hnew).healthy, _, hnew.wn, pyInt_intStr 0⟩

/-! ### C56 -/

/-- C56: however far a creation gets (also when the machine stops in the middle), no existing file
is changed. -/
theorem C56_creation_changes_no_file (tear : Path → Prop) (fs fs' : FS) (folder name : Str)
    (h : CrashAt tear (getNewGdbmsFilePaths name folder) fs fs') (p : Path) (text : Str)
    (hp : fs.get p = some text) : fs'.get p = some text :=
  crash_create h p text hp

/-- C56: the same for a creation that ends, with or without an exception. -/
theorem C56_creation_changes_no_file_run (fs : FS) (folder name : Str) (p : Path) (text : Str)
    (hp : fs.get p = some text) : ((getNewGdbmsFilePaths name folder).run fs).2.get p = some text :=
  crash_create (crash_run (fun _ => True) _ _) p text hp

/-- C56: if one of the three files exists, creation raises ValueError. -/
theorem C56_existing_is_refused (fs : FS) (folder name : Str) (hd : (folder, name) ∈ fs.dirs)
    (h : fs.get (dbPath folder name) ≠ none ∨ fs.get (idxPath folder name) ≠ none ∨
      fs.get (wnPath folder name) ≠ none) :
    ((getNewGdbmsFilePaths name folder).run fs).1 = .error .value := by
  have hc : CanMkdir fs folder name := Or.inl hd
  by_cases h1 : fs.get (dbPath folder name) = none
  · by_cases h2 : fs.get (idxPath folder name) = none
    · have h3 : fs.get (wnPath folder name) ≠ none := by
        rcases h with h | h | h
        · exact absurd h1 h
        · exact absurd h2 h
        · exact h
      rw [create_wn_taken hc h1 h2 h3]
    · rw [create_idx_taken hc h1 h2]
  · rw [create_db_taken hc h1]

/-! ### C57 -/

/-- C57: a creation that fails because the database file exists, or because the folder has a plain
file of that name, leaves the disk as it was; any other failure leaves only new files of the GDBMS
behind.  Missing from the full property: when the database file is missing but another file of the
GDBMS exists, the new database file stays (`C57_violated`). -/
theorem C57_failed_creation_partial (fs fs' : FS) (folder name : Str) (e : PyErr)
    (h : (getNewGdbmsFilePaths name folder).run fs = (.error e, fs')) :
    (fs.get (dbPath folder name) ≠ none → (folder, name) ∈ fs.dirs → fs' = fs) ∧
    ((folder, name) ∉ fs.dirs → (folder, name) ∈ fs.plain → fs' = fs) ∧
    (∀ p, p ∉ [dbPath folder name, idxPath folder name] → fs'.get p = fs.get p) := by
  refine ⟨fun h1 h2 => ?_, fun h1 h2 => ?_, fun p hp => ?_⟩
  · rw [create_db_taken (Or.inl h2) h1, withDir_of_mem h2] at h
    simp at h; exact h.2.symm
  · rw [create_blocked (by simp [CanMkdir, h1, h2])] at h
    simp at h; exact h.2.symm
  · simp only [List.mem_cons, List.not_mem_nil, or_false, not_or] at hp
    by_cases hc : CanMkdir fs folder name
    · by_cases h1 : fs.get (dbPath folder name) = none
      · by_cases h2 : fs.get (idxPath folder name) = none
        · by_cases h3 : fs.get (wnPath folder name) = none
          · rw [create_new hc h1 h2 h3] at h; simp at h
          · rw [create_wn_taken hc h1 h2 h3] at h
            simp at h; rw [← h.2, FS.get_set_ne (Ne.symm hp.2), FS.get_set_ne (Ne.symm hp.1), withDir_get]
        · rw [create_idx_taken hc h1 h2] at h
          simp at h; rw [← h.2, FS.get_set_ne (Ne.symm hp.1), withDir_get]
      · rw [create_db_taken hc h1] at h
        simp at h; rw [← h.2, withDir_get]
    · rw [create_blocked hc] at h
      simp at h; rw [h.2]

/-! ### C58 -/

/-- C58: a query, however far it gets, changes no file but the three of its GDBMS. -/
theorem C58_query_is_isolated_partial (tear : Path → Prop) (env : Env) (q : Str) (g : GPath) (fs fs' : FS)
    (h : CrashAt tear (query env q g) fs fs') (p : Path) (hp : p ∉ [g.db, g.idx, g.wn]) :
    fs'.get p = fs.get p ∧ fs'.dirs = fs.dirs :=
  ⟨crash_frame (only_query env q g) hp h, crash_dirs (only_query env q g) h⟩

/-- C58: the same for a whole shell session. -/
theorem C58_session_is_isolated_partial (tear : Path → Prop) (env : Env) (inputs : List Str) (g : GPath)
    (fs fs' : FS) (h : CrashAt tear (shellLoop env g inputs) fs fs') (p : Path) (hp : p ∉ [g.db, g.idx, g.wn]) :
    fs'.get p = fs.get p ∧ fs'.dirs = fs.dirs :=
  ⟨crash_frame (only_shellLoop env g inputs) hp h, crash_dirs (only_shellLoop env g inputs) h⟩

/-- C58: MAKE and the wipes. -/
theorem C58_operations_are_isolated_partial (tear : Path → Prop) (o : GOp) (g : GPath) (fs fs' : FS)
    (h : CrashAt tear (o.prog g) fs fs') (p : Path) (hp : p ∉ [g.db, g.idx, g.wn]) :
    fs'.get p = fs.get p ∧ fs'.dirs = fs.dirs := by
  have : (o.prog g).AllOps (Op.only [g.db, g.idx, g.wn]) := by
    cases o with
    | make env pml => exact only_make env pml g
    | wipeDatabase b => exact (only_wipeDatabase g.db b).mono fun _ => Op.only_mono (by simp)
    | wipeLabels b => exact (only_wipeIndex _ g.idx _ b).mono fun _ => Op.only_mono (by simp)
    | wipeNames b => exact (only_wipeIndex _ g.idx _ b).mono fun _ => Op.only_mono (by simp)
    | wipeRels b => exact (only_wipeIndex _ g.idx _ b).mono fun _ => Op.only_mono (by simp)
  exact ⟨crash_frame this hp h, crash_dirs this h⟩

/-- C58: creating a GDBMS changes no file of another one. -/
theorem C58_creation_is_isolated_partial (tear : Path → Prop) (folder name : Str) (fs fs' : FS)
    (h : CrashAt tear (getNewGdbmsFilePaths name folder) fs fs') (p : Path)
    (hp : ¬ (p.folder = folder ∧ p.dir = name)) : fs'.get p = fs.get p := by
  refine crash_targets ((targets_create name folder).mono fun o ho e => ?_) h
  have := ho p e
  simp only [List.mem_cons, List.not_mem_nil, or_false] at this
  rcases this with rfl | rfl | rfl <;> exact hp ⟨rfl, rfl⟩

/-- C58: deleting a GDBMS whose name has no `*`, `?` or `[` changes no file of another one.  Missing
from the full property: names with these characters (`C58_violated`). -/
theorem C58_deletion_is_isolated_partial (tear : Path → Prop) (folder name : Str) (fs fs' : FS)
    (hm : ∀ c ∈ name, c ≠ '*' ∧ c ≠ '?' ∧ c ≠ '[')
    (h : CrashAt tear (deleteGdbms name folder) fs fs') (p : Path)
    (hp : ¬ (p.folder = folder ∧ p.dir = name)) : fs'.get p = fs.get p := by
  refine crash_delete ?_ h hp
  simp only [hasMagic, List.any_eq_false]
  intro c hc
  have := hm c hc
  simp [this]

/-! ### C59 -/

/-- C59: deleting an existing GDBMS whose name has no `*`, `?` or `[` and whose directory has no hidden
files returns 0 and removes exactly its directory and the files in it; deleting a GDBMS that does not
exist raises and changes nothing.  (A disk has at most one file of each name.)  Missing from the full
property: the names and files excluded here (`C59_violated`, `C59_violated_hidden`). -/
theorem C59_delete_exactly_one_partial (fs : FS) (folder name : Str) :
    ((folder, name) ∉ fs.dirs → (deleteGdbms name folder).run fs = (.error .exception, fs)) ∧
    ((folder, name) ∈ fs.dirs → (∀ c ∈ name, c ≠ '*' ∧ c ≠ '?' ∧ c ≠ '[') → (fs.files.map Prod.fst).Nodup →
      (∀ p, p.folder = folder → p.dir = name → p.file.head? = some '.' → fs.get p = none) →
      ∃ fs', (deleteGdbms name folder).run fs = (.ok 0, fs') ∧
        (∀ x, x ∈ fs'.dirs ↔ x ∈ fs.dirs ∧ x ≠ (folder, name)) ∧
        (∀ p, p.folder = folder → p.dir = name → fs'.get p = none) ∧
        (∀ p, ¬ (p.folder = folder ∧ p.dir = name) → fs'.get p = fs.get p)) := by
  refine ⟨delete_missing, fun hd hm hn hh => ?_⟩
  have hm' : hasMagic name = false := by
    simp only [hasMagic, List.any_eq_false]
    intro c hc
    have := hm c hc
    simp [this]
  refine ⟨_, delete_run hd hm' hn ?_, ?_, ?_, ?_⟩
  · intro p hp
    simp only [filesOf, List.mem_filter, Bool.and_eq_true, decide_eq_true_eq] at hp
    obtain ⟨hp, h1, h2⟩ := hp
    have hs := lookup_some hp
    cases hf : p.file with
    | nil => rfl
    | cons c cs =>
      by_cases e : c = '.'
      · have := hh p h1 h2 (by simp [hf, e])
        rw [FS.get] at this
        rw [this] at hs; simp at hs
      · unfold isHidden
        split
        · next h => simp at h; exact absurd h.1 e
        · rfl
  · intro x; simp
  · intro p h1 h2
    show (without fs (filesOf fs folder name)).get p = none
    by_cases hp : p ∈ filesOf fs folder name
    · exact without_get_mem hp
    · rw [without_get_ne hp]
      refine lookup_none fun hmem => hp ?_
      simp only [filesOf, List.mem_filter]
      exact ⟨hmem, by simp [h1, h2]⟩
  · intro p hp
    show (without fs (filesOf fs folder name)).get p = fs.get p
    refine without_get_ne fun hmem => hp ?_
    simp only [filesOf, List.mem_filter, Bool.and_eq_true, decide_eq_true_eq] at hmem
    exact hmem.2

/-! ### C60 -/

/-- C60: listing an existing folder returns its sub-directories minus the skipped names, each as often
as the folder has it, in ascending order of code points, and changes nothing. -/
theorem C60_listing_sorted_complete (fs : FS) (folder : Str) (skips : List Str) (h : folder ∈ fs.folders) :
    ∃ names, (listExistingDbms skips folder).run fs = (.ok names, fs) ∧
      names.Pairwise (· ≤ ·) ∧
      (∀ x, x ∈ names ↔ (folder, x) ∈ fs.dirs ∧ x ∉ skips) ∧
      (∀ x, x ∉ skips → names.count x = fs.dirs.count (folder, x)) := by
  refine ⟨_, listExisting_run h, sortStrs_sorted _, fun x => ?_, fun x hx => ?_⟩
  · rw [(sortStrs_perm _).mem_iff]
    simp
  · rw [(sortStrs_perm _).count_eq]
    rw [List.count_filter (by simpa using hx)]
    generalize fs.dirs = l
    induction l with
    | nil => rfl
    | cons y l ih =>
      obtain ⟨a, b⟩ := y
      by_cases e : a = folder
      · subst e
        simp only [List.filter_cons, decide_true, if_true, List.map_cons, List.count_cons, ih]
        by_cases e2 : b = x <;> simp [e2]
      · simp only [List.filter_cons, decide_false, e, List.count_cons]
        simp [e, ih]

/-- C60: listing a folder that does not exist raises. -/
theorem C60_listing_missing_folder (fs : FS) (folder : Str) (skips : List Str) (h : folder ∉ fs.folders) :
    (listExistingDbms skips folder).run fs = (.error .fileNotFound, fs) := listExisting_missing h

/-! ### C61 -/

/-- C61: if a folder has at most 26 GDBMSs, the menu offers every one of them under a letter of its
own.  (A folder has at most one sub-directory of each name.)  Missing from the full property: more than
26 GDBMSs (`C61_violated`). -/
theorem C61_menu_complete_partial (fs : FS) (folder : Str) (h : folder ∈ fs.folders) (hn : fs.dirs.Nodup)
    (hc : ((fs.dirs.filter fun x => x.1 = folder ∧ x.2 ∉ notGdbms).length) ≤ 26)
    (hex : ∃ name, (folder, name) ∈ fs.dirs ∧ name ∉ notGdbms) :
    ∃ menu, (getAndDisplayAvailableDbms folder).run fs = (.ok (some menu), fs) ∧
      (keys menu).Nodup ∧
      (∀ l ∈ keys menu, ∃ c, l = [c] ∧ 'A' ≤ c ∧ c ≤ 'Z') ∧
      (∀ name, (folder, name) ∈ fs.dirs → name ∉ notGdbms →
        ∃ l, dictGet l menu = some name ∧ ∀ l', dictGet l' menu = some name → l' = l) := by
  have hne : menuNames fs folder ≠ [] := by
    obtain ⟨name, h1, h2⟩ := hex
    have : name ∈ menuNames fs folder := mem_menuNames.2 ⟨h1, by simpa [notGdbms] using h2⟩
    intro e; rw [e] at this; simp at this
  have hlen : (menuNames fs folder).length ≤ 26 := menuNames_length hc
  refine ⟨_, by rw [menu_run h, if_neg hne], menuOf_nodup _, ?_, ?_⟩
  · intro l hl
    simp only [keys, menuOf, List.map_map, List.mem_map] at hl
    obtain ⟨x, hx, rfl⟩ := hl
    have : x.1 ∈ asciiUppercase := (List.of_mem_zip hx).1
    have hall : ∀ c ∈ asciiUppercase, 'A' ≤ c ∧ c ≤ 'Z' := by decide
    exact ⟨x.1, rfl, hall _ this⟩
  · intro name h1 h2
    have hm : name ∈ menuNames fs folder := mem_menuNames.2 ⟨h1, by simpa [notGdbms] using h2⟩
    exact menu_letter (menuNames_nodup hn) hlen hm

/-! ### C62 -/

/-- C62: if the default folder has GDBMSs, selecting changes nothing and, whatever is typed, either
keeps asking, or returns the paths of three existing files of the GDBMS whose letter was the last one
typed. -/
theorem C62_selects_existing (fs : FS) (folder : Str) (inputs : List Str) (h : DBMS_FOLDER ∈ fs.folders)
    (hn : fs.dirs.Nodup) (hex : ∃ name, (DBMS_FOLDER, name) ∈ fs.dirs ∧ name ∉ notGdbms) :
    ∃ r, (getExistingGdbms folder inputs).run fs = (.ok r, fs) ∧
      ∀ g rest, r = some (g, rest) → ∃ typed letter name, inputs = typed ++ letter :: rest ∧
        Offered fs DBMS_FOLDER letter name ∧ g = gdbmsPath folder name ∧ Complete fs folder name := by
  have hne : menuNames fs DBMS_FOLDER ≠ [] := by
    obtain ⟨name, h1, h2⟩ := hex
    have : name ∈ menuNames fs DBMS_FOLDER := mem_menuNames.2 ⟨h1, by simpa [notGdbms] using h2⟩
    intro e; rw [e] at this; simp at this
  induction inputs with
  | nil => exact ⟨none, select_none h hne, by simp⟩
  | cons l inputs ih =>
    rw [select_round h hne]
    have again : ∃ r, (getExistingGdbms folder inputs).run fs = (.ok r, fs) ∧
      ∀ g rest, r = some (g, rest) → ∃ typed letter name, l :: inputs = typed ++ letter :: rest ∧
        Offered fs DBMS_FOLDER letter name ∧ g = gdbmsPath folder name ∧ Complete fs folder name := by
      obtain ⟨r, h1, h2⟩ := ih
      refine ⟨r, h1, fun g rest e => ?_⟩
      obtain ⟨typed, letter, name, h3, h4⟩ := h2 g rest e
      exact ⟨l :: typed, letter, name, by simp [h3], h4⟩
    cases hg : dictGet l (menuOf (menuNames fs DBMS_FOLDER)) with
    | none => exact again
    | some name =>
      simp only
      split
      · next hc =>
        refine ⟨_, rfl, fun g rest e => ?_⟩
        simp at e
        obtain ⟨rfl, rfl⟩ := e
        refine ⟨[], l, name, rfl, ?_, rfl, ?_⟩
        · obtain ⟨i, h1, h2, h3⟩ := menu_get_index hg
          refine ⟨menuNames fs DBMS_FOLDER, i, sortStrs_sorted _, menuNames_nodup hn, fun x => ?_, h1, h2, h3⟩
          rw [mem_menuNames]; simp [notGdbms]
        · simpa [Complete, Option.isSome_iff_ne_none] using hc
      · exact again

/-- C62: if the default folder has no GDBMS, one is created: when selection returns, three files of a
name that was typed exist. -/
theorem C62_selects_created (fs fs' : FS) (folder : Str) (inputs : List Str) (g : GPath) (rest : List Str)
    (h : DBMS_FOLDER ∈ fs.folders) (hno : ∀ name, (DBMS_FOLDER, name) ∈ fs.dirs → name ∈ notGdbms)
    (hr : (getExistingGdbms folder inputs).run fs = (.ok (some (g, rest)), fs')) :
    ∃ typed name, inputs = typed ++ name :: rest ∧ g = gdbmsPath folder name ∧ Complete fs' folder name := by
  have hne : menuNames fs DBMS_FOLDER = [] := by
    rw [List.eq_nil_iff_forall_not_mem]
    intro x hx
    obtain ⟨h1, h2, h3⟩ := mem_menuNames.1 hx
    have := hno x h1
    simp [notGdbms, h2, h3] at this
  have he : (getExistingGdbms folder inputs).run fs = (createNewDbms folder inputs).run fs := by
    cases inputs <;> rw [getExistingGdbms, run_bind_ok (menu_run h), if_pos hne]
  rw [he] at hr
  obtain ⟨typed, name, h1, h2, h3⟩ := createDbms_ok hr
  exact ⟨typed, name, h1, h2, h3⟩

/-! ### C63 -/

/-- C63: a GDBMS created in the default folder, with at most 25 others there, can be selected
afterwards under some letter and yields the same paths. -/
theorem C63_created_can_be_selected (fs fs' : FS) (name : Str) (g : GPath) (hs : name ∉ notGdbms)
    (hw : ∀ x ∈ fs.dirs, x.1 ∈ fs.folders) (hn : fs.dirs.Nodup)
    (hc : (fs.dirs.filter fun x => x.1 = DBMS_FOLDER ∧ x.2 ∉ notGdbms ∧ x.2 ≠ name).length ≤ 25)
    (h : (getNewGdbmsFilePaths name DBMS_FOLDER).run fs = (.ok g, fs')) :
    ∃ letter, ∀ rest, (selectGdbms (c!"y" :: letter :: rest)).run fs' = (.ok (some (g, rest)), fs') := by
  have hcm : CanMkdir fs DBMS_FOLDER name := by
    by_cases hc : CanMkdir fs DBMS_FOLDER name
    · exact hc
    · rw [create_blocked hc] at h; simp at h
  by_cases h1 : fs.get (dbPath DBMS_FOLDER name) = none
  case neg => rw [create_db_taken hcm h1] at h; simp at h
  by_cases h2 : fs.get (idxPath DBMS_FOLDER name) = none
  case neg => rw [create_idx_taken hcm h1 h2] at h; simp at h
  by_cases h3 : fs.get (wnPath DBMS_FOLDER name) = none
  case neg => rw [create_wn_taken hcm h1 h2 h3] at h; simp at h
  obtain ⟨n1, n2, n3⟩ := gdbms_ne DBMS_FOLDER name
  rw [create_new hcm h1 h2 h3] at h
  simp only [Prod.mk.injEq, Except.ok.injEq] at h
  obtain ⟨rfl, rfl⟩ := h
  generalize hfs : (((withDir fs DBMS_FOLDER name).set (dbPath DBMS_FOLDER name) c!"{}").set
    (idxPath DBMS_FOLDER name) newIndexText).set (wnPath DBMS_FOLDER name) c!"0" = fs'
  have hd : fs'.dirs = (withDir fs DBMS_FOLDER name).dirs := by rw [← hfs]; rfl
  have hf : fs'.folders = (withDir fs DBMS_FOLDER name).folders := by rw [← hfs]; rfl
  have hmem := withDir_mem hcm
  have hfold : DBMS_FOLDER ∈ fs'.folders := by
    rw [hf]
    rw [withDir_def]
    by_cases hin : (DBMS_FOLDER, name) ∈ fs.dirs
    · rw [if_pos hin]; exact hw _ hin
    · rw [if_neg hin, if_neg (hcm.resolve_left hin)]
      simp only
      split <;> simp_all
  have hnd : fs'.dirs.Nodup := by
    rw [hd, withDir_def]
    by_cases hin : (DBMS_FOLDER, name) ∈ fs.dirs
    · rw [if_pos hin]; exact hn
    · rw [if_neg hin, if_neg (hcm.resolve_left hin)]
      simp only
      rw [List.nodup_append]
      exact ⟨hn, by simp, by simp; intro a b hab e1 e2; subst e1; subst e2; exact hin hab⟩
  have hin' : name ∈ menuNames fs' DBMS_FOLDER :=
    mem_menuNames.2 ⟨by rw [hd]; exact hmem, by simpa [notGdbms] using hs⟩
  have hlen : (menuNames fs' DBMS_FOLDER).length ≤ 26 := by
    refine menuNames_length ?_
    refine Nat.le_trans (length_filter_le_succ (y := (DBMS_FOLDER, name)) hnd) ?_
    have : (fs'.dirs.filter fun x => decide (x.1 = DBMS_FOLDER ∧ x.2 ∉ notGdbms) && decide (x ≠ (DBMS_FOLDER, name))) =
        fs.dirs.filter fun x => x.1 = DBMS_FOLDER ∧ x.2 ∉ notGdbms ∧ x.2 ≠ name := by
      have e1 : ∀ l : List (Str × Str), (l.filter fun x => decide (x.1 = DBMS_FOLDER ∧ x.2 ∉ notGdbms) &&
          decide (x ≠ (DBMS_FOLDER, name))) = l.filter fun x => x.1 = DBMS_FOLDER ∧ x.2 ∉ notGdbms ∧ x.2 ≠ name := by
        intro l
        refine List.filter_congr fun x _ => ?_
        obtain ⟨a, b⟩ := x
        by_cases e1 : a = DBMS_FOLDER <;> by_cases e2 : b ∈ notGdbms <;> by_cases e3 : b = name <;>
          simp [e1, e2, e3]
      rw [e1, hd, withDir_def]
      by_cases hin : (DBMS_FOLDER, name) ∈ fs.dirs
      · rw [if_pos hin]
      · rw [if_neg hin, if_neg (hcm.resolve_left hin)]
        simp
    have key : (fs'.dirs.filter fun x => decide (x.1 = DBMS_FOLDER ∧ x.2 ∉ notGdbms) &&
        decide (x ≠ (DBMS_FOLDER, name))).length + 1 ≤ 26 := by rw [this]; omega
    exact key
  obtain ⟨letter, hl, _⟩ := menu_letter (menuNames_nodup hnd) hlen hin'
  refine ⟨letter, fun rest => ?_⟩
  rw [selectGdbms, if_pos (Or.inl rfl), select_round hfold (by intro e; rw [e] at hin'; simp at hin'), hl]
  simp only
  rw [if_pos]
  rw [← hfs, FS.get_set_ne n2.symm, FS.get_set_ne n1.symm, FS.get_set_self, FS.get_set_ne n3.symm,
    FS.get_set_self, FS.get_set_self]
  simp

end

/-! ### Examples and counterexamples -/

section
attribute [local instance] demoRuntime

theorem run_of_err {α : Type} {p : Prog α} {fs : FS} {e : PyErr} (h : (p.run fs).1 = .error e) :
    p.run fs = (.error e, (p.run fs).2) := by rw [← h]

/-- The default folder with a GDBMS `ab`. -/
def demoAb : FS :=
  { folders := [DBMS_FOLDER], dirs := [(DBMS_FOLDER, c!"ab")], plain := [(DBMS_FOLDER, c!"readme")],
    files := [(dbPath DBMS_FOLDER c!"ab", c!"{}"), (idxPath DBMS_FOLDER c!"ab", newIndexText),
      (wnPath DBMS_FOLDER c!"ab", c!"0")] }

/-- … and a GDBMS `a[b]`. -/
def demoMagic : FS :=
  { demoAb with
    dirs := [(DBMS_FOLDER, c!"ab"), (DBMS_FOLDER, c!"a[b]")],
    files := demoAb.files ++ [(dbPath DBMS_FOLDER c!"a[b]", c!"{}"), (idxPath DBMS_FOLDER c!"a[b]", newIndexText),
      (wnPath DBMS_FOLDER c!"a[b]", c!"0")] }

/-- … or a hidden file in `ab`. -/
def demoHidden : FS := { demoAb with files := demoAb.files ++ [(⟨DBMS_FOLDER, c!"ab", c!".DS_Store"⟩, c!"x")] }

/-- A directory `ab` with an index file only. -/
def demoStale : FS := { demoAb with files := [(idxPath DBMS_FOLDER c!"ab", newIndexText)] }

/-- 27 GDBMSs. -/
def demoMany : FS :=
  { folders := [DBMS_FOLDER], plain := [], files := [],
    dirs := (List.range 27).map fun i => (DBMS_FOLDER, c!"g" ++ [Char.ofNat (97 + i)]) }

/-- C55: a second GDBMS beside `ab`. -/
example : ∃ fs', (getNewGdbmsFilePaths c!"new" DBMS_FOLDER).run demoAb = (.ok (gdbmsPath DBMS_FOLDER c!"new"), fs') ∧
    IsNew fs' (gdbmsPath DBMS_FOLDER c!"new") := by
  obtain ⟨fs', h1, h2, _⟩ := C55_created_is_empty demoAb DBMS_FOLDER c!"new" ⟨by decide, by decide, by decide, by decide⟩
  exact ⟨fs', h1, h2⟩

/-- C56: a name in use, and the other file. -/
example : ((getNewGdbmsFilePaths c!"ab" DBMS_FOLDER).run demoStale).1 = .error .value :=
  C56_existing_is_refused demoStale DBMS_FOLDER c!"ab" (by decide) (Or.inr (Or.inl (by decide)))
example : ((getNewGdbmsFilePaths c!"new" DBMS_FOLDER).run demoAb).2.get (wnPath DBMS_FOLDER c!"ab") = some c!"0" :=
  C56_creation_changes_no_file_run _ _ _ _ _ (by decide)
example : demoAb.get (wnPath DBMS_FOLDER c!"ab") = some c!"0" :=
  C56_creation_changes_no_file (fun _ => True) demoAb demoAb DBMS_FOLDER c!"new" (.here _ _) _ _ (by decide)

/-- C57: the name of an existing GDBMS. -/
example : ((getNewGdbmsFilePaths c!"ab" DBMS_FOLDER).run demoAb).2 = demoAb :=
  (C57_failed_creation_partial demoAb _ DBMS_FOLDER c!"ab" .value
    (run_of_err (C56_existing_is_refused demoAb DBMS_FOLDER c!"ab" (by decide) (Or.inl (by decide))))).1
    (by decide) (by decide)

/-- C57 violated: with a left-over index file, creation raises ValueError but leaves a new database file
behind. -/
theorem C57_violated : ∃ (fs fs' : FS) (folder name : Str),
    (getNewGdbmsFilePaths name folder).run fs = (.error .value, fs') ∧ fs'.get (dbPath folder name) = some c!"{}" ∧
    fs.get (dbPath folder name) = none :=
  ⟨demoStale, _, DBMS_FOLDER, c!"ab", run_of_err (by decide), by decide, by decide⟩

/-- C58: a query beside another GDBMS. -/
example (env : Env) (q : Str) : ((query env q (gdbmsPath DBMS_FOLDER c!"new")).run demoAb).2.get
    (dbPath DBMS_FOLDER c!"ab") = some c!"{}" := by
  rw [(C58_query_is_isolated_partial (fun _ => True) env q _ demoAb _ (crash_run _ _ _) _ (by decide)).1]
  decide
example (env : Env) (l : List Str) : ((shellLoop env (gdbmsPath DBMS_FOLDER c!"new") l).run demoAb).2.get
    (dbPath DBMS_FOLDER c!"ab") = some c!"{}" := by
  rw [(C58_session_is_isolated_partial (fun _ => True) env l _ demoAb _ (crash_run _ _ _) _ (by decide)).1]
  decide
example (o : GOp) : ((o.prog (gdbmsPath DBMS_FOLDER c!"new")).run demoAb).2.get
    (dbPath DBMS_FOLDER c!"ab") = some c!"{}" := by
  rw [(C58_operations_are_isolated_partial (fun _ => True) o _ demoAb _ (crash_run _ _ _) _ (by decide)).1]
  decide
example : ((getNewGdbmsFilePaths c!"new" DBMS_FOLDER).run demoAb).2.get (dbPath DBMS_FOLDER c!"ab") = some c!"{}" := by
  rw [C58_creation_is_isolated_partial (fun _ => True) _ _ demoAb _ (crash_run _ _ _) _ (by decide)]
  decide
example : ((deleteGdbms c!"ab" DBMS_FOLDER).run demoMagic).2.get (dbPath DBMS_FOLDER c!"a[b]") = some c!"{}" := by
  rw [C58_deletion_is_isolated_partial (fun _ => True) _ _ demoMagic _ (by decide) (crash_run _ _ _) _ (by decide)]
  decide

/-- C58 violated: deleting `a[b]` removes the database file of `ab`. -/
theorem C58_violated : ∃ (fs : FS) (folder name other : Str), name ≠ other ∧
    (folder, name) ∈ fs.dirs ∧ (folder, other) ∈ fs.dirs ∧ fs.get (dbPath folder other) ≠ none ∧
    ((deleteGdbms name folder).run fs).2.get (dbPath folder other) = none :=
  ⟨demoMagic, DBMS_FOLDER, c!"a[b]", c!"ab", by decide, by decide, by decide, by decide, by decide +kernel⟩

/-- C59: deleting `ab`. -/
example : ∃ fs', (deleteGdbms c!"ab" DBMS_FOLDER).run demoAb = (.ok 0, fs') ∧
    ∀ x, x ∈ fs'.dirs ↔ x ∈ demoAb.dirs ∧ x ≠ (DBMS_FOLDER, c!"ab") := by
  obtain ⟨fs', h1, h2, _⟩ := (C59_delete_exactly_one_partial demoAb DBMS_FOLDER c!"ab").2 (by decide) (by decide)
    (by decide) (by
      intro p _ _ h
      by_cases e1 : p = dbPath DBMS_FOLDER c!"ab"
      · subst e1; simp [dbPath] at h
      by_cases e2 : p = idxPath DBMS_FOLDER c!"ab"
      · subst e2; simp [idxPath] at h
      by_cases e3 : p = wnPath DBMS_FOLDER c!"ab"
      · subst e3; simp [wnPath] at h
      exact lookup_none (by simp [demoAb, e1, e2, e3]))
  exact ⟨fs', h1, h2⟩

/-- C59 violated: deleting the existing `a[b]` raises, its own files stay, and the files of `ab` are
gone. -/
theorem C59_violated : ∃ (fs : FS) (folder name other : Str), name ≠ other ∧ (folder, name) ∈ fs.dirs ∧
    ((deleteGdbms name folder).run fs).1 = .error .osError ∧
    ((deleteGdbms name folder).run fs).2.get (dbPath folder name) = fs.get (dbPath folder name) ∧
    fs.get (dbPath folder name) ≠ none ∧ fs.get (dbPath folder other) ≠ none ∧
    ((deleteGdbms name folder).run fs).2.get (dbPath folder other) = none :=
  ⟨demoMagic, DBMS_FOLDER, c!"a[b]", c!"ab", by decide, by decide, by decide +kernel, by decide +kernel, by decide,
    by decide, by decide +kernel⟩

/-- C59 violated: with a hidden file in it, the directory stays although all other files are gone. -/
theorem C59_violated_hidden : ∃ (fs : FS) (folder name : Str), (folder, name) ∈ fs.dirs ∧
    ((deleteGdbms name folder).run fs).1 = .error .osError ∧
    ((deleteGdbms name folder).run fs).2.get (dbPath folder name) = none ∧
    (folder, name) ∈ ((deleteGdbms name folder).run fs).2.dirs :=
  ⟨demoHidden, DBMS_FOLDER, c!"ab", by decide, by decide +kernel, by decide +kernel, by decide +kernel⟩

/-- C60: two GDBMSs. -/
example : ∃ names, (listExistingDbms [c!"tests"] DBMS_FOLDER).run demoMagic = (.ok names, demoMagic) ∧
    names.Pairwise (· ≤ ·) := by
  obtain ⟨names, h1, h2, _⟩ := C60_listing_sorted_complete demoMagic DBMS_FOLDER [c!"tests"] (by decide)
  exact ⟨names, h1, h2⟩
example : (listExistingDbms [] c!"nowhere").run demoMagic = (.error .fileNotFound, demoMagic) :=
  C60_listing_missing_folder demoMagic c!"nowhere" [] (by decide)
example : ((listExistingDbms [c!"tests"] DBMS_FOLDER).run demoMagic).1 = .ok [c!"a[b]", c!"ab"] := by decide +kernel

/-- C61: two GDBMSs. -/
example : ∃ menu, (getAndDisplayAvailableDbms DBMS_FOLDER).run demoMagic = (.ok (some menu), demoMagic) ∧
    ∃ l, dictGet l menu = some c!"ab" := by
  obtain ⟨menu, h1, _, _, h2⟩ := C61_menu_complete_partial demoMagic DBMS_FOLDER (by decide) (by decide) (by decide)
    ⟨c!"ab", by decide, by decide⟩
  obtain ⟨l, h3, _⟩ := h2 c!"ab" (by decide) (by decide)
  exact ⟨menu, h1, l, h3⟩

/-- C61 violated: with 27 GDBMSs one is on the disk but not in the menu. -/
theorem C61_violated : ∃ (fs : FS) (folder name : Str) (menu : Dict Str), (folder, name) ∈ fs.dirs ∧
    name ∉ notGdbms ∧ (getAndDisplayAvailableDbms folder).run fs = (.ok (some menu), fs) ∧
    ∀ l, dictGet l menu ≠ some name := by
  have hm : menuNames demoMany DBMS_FOLDER = (List.range 27).map fun i => c!"g" ++ [Char.ofNat (97 + i)] := by
    decide +kernel
  refine ⟨demoMany, DBMS_FOLDER, c!"g{", menuOf (menuNames demoMany DBMS_FOLDER), by decide +kernel, by decide, ?_, ?_⟩
  · rw [menu_run (by decide), if_neg (by rw [hm]; decide)]
  · intro l hl
    have := dictGet_some_mem hl
    have hall : ∀ x ∈ menuOf (menuNames demoMany DBMS_FOLDER), x.2 ≠ c!"g{" := by rw [hm]; decide +kernel
    exact hall _ this rfl

/-- C62: selecting among two, with a wrong letter first; and creating one in an empty folder. -/
example : ∃ r, (getExistingGdbms DBMS_FOLDER [c!"z", c!"B"]).run demoMagic = (.ok r, demoMagic) ∧
    ∀ g rest, r = some (g, rest) → ∃ typed letter name, [c!"z", c!"B"] = typed ++ letter :: rest ∧
      Offered demoMagic DBMS_FOLDER letter name ∧ g = gdbmsPath DBMS_FOLDER name ∧ Complete demoMagic DBMS_FOLDER name :=
  C62_selects_existing demoMagic DBMS_FOLDER [c!"z", c!"B"] (by decide) (by decide) ⟨c!"ab", by decide, by decide⟩
example : ((getExistingGdbms DBMS_FOLDER [c!"z", c!"B"]).run demoMagic).1 =
    .ok (some (gdbmsPath DBMS_FOLDER c!"ab", [])) := by decide +kernel
example : ∃ typed name, [c!"x"] = typed ++ name :: [] ∧
    gdbmsPath DBMS_FOLDER c!"x" = gdbmsPath DBMS_FOLDER name ∧
    Complete ((getExistingGdbms DBMS_FOLDER [c!"x"]).run { demoAb with dirs := [], files := [] }).2 DBMS_FOLDER name :=
  C62_selects_created { demoAb with dirs := [], files := [] } _ DBMS_FOLDER [c!"x"] (gdbmsPath DBMS_FOLDER c!"x") []
    (by decide) (by intro _ h; cases h) (run_of (by decide +kernel))

/-- C63: create a second GDBMS and select it. -/
example : ∃ letter, ∀ rest, (selectGdbms (c!"y" :: letter :: rest)).run
      ((getNewGdbmsFilePaths c!"new" DBMS_FOLDER).run demoAb).2 =
    (.ok (some (gdbmsPath DBMS_FOLDER c!"new", rest)), ((getNewGdbmsFilePaths c!"new" DBMS_FOLDER).run demoAb).2) :=
  C63_created_can_be_selected demoAb _ c!"new" _ (by decide) (by decide) (by decide) (by decide)
    (run_of (by decide +kernel))

end

end WG
