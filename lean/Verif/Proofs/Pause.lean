/-
Leaving the shell and coming back.
-/
import Verif.Proofs.Terminal
import Verif.Proofs.Concurrent
import Verif.Props.Query
set_option linter.unusedSectionVars false
set_option linter.unusedSimpArgs false

namespace WG

/-- The two disks have the same folders, directories and files (whatever is in them). -/
structure SameShape (fs fs' : FS) : Prop where
  folders : fs'.folders = fs.folders
  dirs : fs'.dirs = fs.dirs
  files : ∀ p, (fs'.get p).isSome = (fs.get p).isSome

theorem SameShape.refl (fs : FS) : SameShape fs fs := ⟨rfl, rfl, fun _ => rfl⟩

theorem SameShape.trans {a b c : FS} (h : SameShape a b) (h' : SameShape b c) : SameShape a c :=
  ⟨h'.folders.trans h.folders, h'.dirs.trans h.dirs, fun p => (h'.files p).trans (h.files p)⟩

theorem shape_set {fs : FS} {p : Path} (h : (fs.get p).isSome = true) (s : Str) : SameShape fs (fs.set p s) := by
  refine ⟨rfl, rfl, fun q => ?_⟩
  by_cases e : p = q
  · subst e
    rw [FS.get_set_self, h]
    rfl
  · rw [FS.get_set_ne e]

theorem shape_exec {ps : List Path} {o : Op} (ho : o.within ps) {fs : FS} (h : ∀ q ∈ ps, (fs.get q).isSome = true) :
    SameShape fs (exec o fs).2 := by
  cases o <;> simp only [Op.within] at ho <;> simp only [exec]
  · split <;> exact .refl _
  · split
    · exact shape_set (h _ ho) _
    · exact .refl _
  · split
    · exact shape_set (h _ ho) _
    · exact .refl _
  · split
    · exact shape_set (h _ ho) _
    · exact .refl _
  · exact .refl _

theorem shape_run {α : Type} {ps : List Path} {p : Prog α} (hp : p.AllOps (Op.within ps)) {fs : FS}
    (h : ∀ q ∈ ps, (fs.get q).isSome = true) : SameShape fs (p.run fs).2 := by
  induction hp generalizing fs with
  | ret a => exact .refl _
  | raise e => exact .refl _
  | act op k ho _ ih =>
    have h1 := shape_exec ho h
    exact h1.trans (ih _ fun q hq => (h1.files q).trans (h q hq))

theorem shape_menu {fs fs' : FS} (h : SameShape fs fs') (folder : Str) : menuNames fs' folder = menuNames fs folder := by
  simp only [menuNames, h.dirs]

/-- A GDBMS that was just made in the default folder is in the menu. -/
theorem created_menu {fs fs' : FS} {name : Str} {g : GPath} (hs : name ∉ notGdbms) (hw : ∀ x ∈ fs.dirs, x.1 ∈ fs.folders)
    (h : (getNewGdbmsFilePaths name DBMS_FOLDER).run fs = (.ok g, fs')) : DBMS_FOLDER ∈ fs'.folders ∧ menuNames fs' DBMS_FOLDER ≠ [] := by
  have hcm : CanMkdir fs DBMS_FOLDER name := by
    by_cases hc : CanMkdir fs DBMS_FOLDER name
    · exact hc
    · rw [create_blocked hc] at h; simp at h
  by_cases h1 : fs.get (dbPath DBMS_FOLDER name) = none
  case neg => rw [create_db_taken hcm h1] at h; simp at h
  by_cases h2 : fs.get (idxPath DBMS_FOLDER name) = none
  case neg => rw [create_idx_taken hcm h1 h2] at h; simp at h
  by_cases h3 : fs.get (wnPath DBMS_FOLDER name) = none
  case neg => rw [create_wn_taken hcm h1 h2 h3] at h; simp at h
  rw [create_new hcm h1 h2 h3] at h
  simp only [Prod.mk.injEq, Except.ok.injEq] at h
  obtain ⟨rfl, rfl⟩ := h
  refine ⟨?_, fun e => ?_⟩
  · show DBMS_FOLDER ∈ (withDir fs DBMS_FOLDER name).folders
    rw [withDir_def]
    by_cases hin : (DBMS_FOLDER, name) ∈ fs.dirs
    · rw [if_pos hin]; exact hw _ hin
    · rw [if_neg hin, if_neg (hcm.resolve_left hin)]
      simp only
      split <;> simp_all
  · have hm : (DBMS_FOLDER, name) ∈ (withDir fs DBMS_FOLDER name).dirs := withDir_mem hcm
    have : name ∈ menuNames ((((withDir fs DBMS_FOLDER name).set (dbPath DBMS_FOLDER name) c!"{}").set (idxPath DBMS_FOLDER name)
        newIndexText).set (wnPath DBMS_FOLDER name) c!"0") DBMS_FOLDER :=
      mem_menuNames.2 ⟨hm, by simpa [notGdbms] using hs⟩
    rw [e] at this
    cases this

section
variable [PyRuntime]

/-- What a choice of letters that selects a GDBMS does in front of more input, and on a disk of the same shape. -/
theorem existing_more {folder : Str} {s : List Str} {g : GPath} {fs fs1 : FS} (h : DBMS_FOLDER ∈ fs.folders)
    (hn : menuNames fs DBMS_FOLDER ≠ []) (hs : (getExistingGdbms folder s).run fs = (.ok (some (g, [])), fs1)) :
    (∀ q ∈ [g.db, g.idx, g.wn], (fs.get q).isSome = true) ∧
    ∀ fs', SameShape fs fs' → ∀ r, (getExistingGdbms folder (s ++ r)).run fs' = (.ok (some (g, r)), fs') ∧
      (getExistingGdbmsS folder (s ++ r)).shows fs' = (getExistingGdbmsS folder s).shows fs := by
  induction s with
  | nil =>
    exfalso
    have hr := menu_run h
    rw [if_neg hn] at hr
    rw [getExistingGdbms, run_bind_ok hr] at hs
    cases hm : menuOf (menuNames fs DBMS_FOLDER) with
    | nil => exact absurd hm (menuOf_ne hn)
    | cons c cs =>
      rw [hm] at hs
      cases hs
  | cons letter s ih =>
    rw [select_round h hn] at hs
    have key : ∀ fs', SameShape fs fs' → DBMS_FOLDER ∈ fs'.folders ∧ menuNames fs' DBMS_FOLDER ≠ [] := fun fs' hf =>
      ⟨hf.folders ▸ h, shape_menu hf _ ▸ hn⟩
    have again : (getExistingGdbms folder s).run fs = (.ok (some (g, [])), fs1) → (∀ name, dictGet letter (menuOf (menuNames fs DBMS_FOLDER)) = some name →
        ¬ ((fs.get (dbPath folder name)).isSome = true ∧ (fs.get (idxPath folder name)).isSome = true ∧
          (fs.get (wnPath folder name)).isSome = true)) →
        (∀ q ∈ [g.db, g.idx, g.wn], (fs.get q).isSome = true) ∧
        ∀ fs', SameShape fs fs' → ∀ r, (getExistingGdbms folder (letter :: s ++ r)).run fs' = (.ok (some (g, r)), fs') ∧
          (getExistingGdbmsS folder (letter :: s ++ r)).shows fs' = (getExistingGdbmsS folder (letter :: s)).shows fs := by
      intro hs hno
      obtain ⟨h1, h2⟩ := ih hs
      refine ⟨h1, fun fs' hf r => ?_⟩
      obtain ⟨k1, k2⟩ := key fs' hf
      obtain ⟨h3, h4⟩ := h2 fs' hf r
      rw [List.cons_append, select_round k1 k2, existing_shows k1 k2, existing_shows h hn, shape_menu hf]
      cases e : dictGet letter (menuOf (menuNames fs DBMS_FOLDER)) with
      | none => exact ⟨h3, by rw [h4]⟩
      | some name =>
        simp only [hf.files]
        rw [if_neg (hno name e), if_neg (hno name e), if_neg (hno name e)]
        exact ⟨h3, by rw [h4]⟩
    cases e : dictGet letter (menuOf (menuNames fs DBMS_FOLDER)) with
    | none =>
      rw [e] at hs
      exact again hs fun name he => by rw [e] at he; cases he
    | some name =>
      rw [e] at hs
      simp only at hs
      by_cases hc : (fs.get (dbPath folder name)).isSome = true ∧ (fs.get (idxPath folder name)).isSome = true ∧
          (fs.get (wnPath folder name)).isSome = true
      · rw [if_pos hc] at hs
        simp only [Prod.mk.injEq, Except.ok.injEq, Option.some.injEq] at hs
        obtain ⟨⟨rfl, rfl⟩, rfl⟩ := hs
        refine ⟨by simpa [gdbmsPath] using hc, fun fs' hf r => ?_⟩
        obtain ⟨k1, k2⟩ := key fs' hf
        rw [List.cons_append, select_round k1 k2, existing_shows k1 k2, existing_shows h hn, shape_menu hf, e]
        simp only [hf.files]
        rw [if_pos hc, if_pos hc, if_pos hc]
        exact ⟨rfl, rfl⟩
      · rw [if_neg hc] at hs
        exact again hs fun n he => by rw [e] at he; cases he; exact hc

/-- A session in two parts. -/
theorem shell_split (env : Env) (g : GPath) (a b : List Str) (fs : FS) (hq : c!"q" ∉ a) :
    ∃ l1 l2 fs1 fs2, (shellLoop env g (a ++ [c!"q"])).run fs = (.ok (l1 ++ [.bye]), fs1) ∧
      (shellLoop env g b).run fs1 = (.ok l2, fs2) ∧ (shellLoop env g (a ++ b)).run fs = (.ok (l1 ++ l2), fs2) ∧
      ∃ T, (shellLoopT env g (a ++ [c!"q"])).outs fs = T ++ [.shown askQuery, .shown (echoLine c!"q"), .shown byeLine] ∧
        (shellLoopT env g (a ++ b)).outs fs = T ++ (shellLoopT env g b).outs fs1 := by
  induction a generalizing fs with
  | nil =>
    obtain ⟨l2, fs2, h2, _⟩ := C53_shell_survives env g b fs
    exact ⟨[], l2, fs, fs2, rfl, h2, h2, [], rfl, rfl⟩
  | cons q a ih =>
    obtain ⟨hq, ha⟩ : q ≠ c!"q" ∧ c!"q" ∉ a := by
      simp only [List.mem_cons, not_or] at hq
      exact ⟨fun h => hq.1 h.symm, hq.2⟩
    simp only [List.cons_append]
    by_cases hh : isSubstr c!"help" (lower q) = true
    · obtain ⟨l1, l2, fs1, fs2, h1, h2, h3, T, h4, h5⟩ := ih fs ha
      have go : ∀ rest l fs', (shellLoop env g rest).run fs = (.ok l, fs') →
          (shellLoop env g (q :: rest)).run fs = (.ok (.help :: l), fs') := by
        intro rest l fs' h
        rw [shellLoop, if_neg hq, if_pos hh, run_bind_ok h]
        rfl
      refine ⟨.help :: l1, l2, fs1, fs2, go _ _ _ h1, h2, go _ _ _ h3, .shown askQuery :: .shown (echoLine q) :: .shown helpLine :: T, ?_, ?_⟩
      · rw [shellT_help env g q _ fs hq hh, h4]
        rfl
      · rw [shellT_help env g q _ fs hq hh, h5]
        rfl
    · obtain ⟨l1, l2, fs1, fs2, h1, h2, h3, T, h4, h5⟩ := ih ((query env q g).run fs).2 ha
      obtain ⟨ev, go⟩ : ∃ ev : Event, ∀ rest l fs', (shellLoop env g rest).run ((query env q g).run fs).2 = (.ok l, fs') →
          (shellLoop env g (q :: rest)).run fs = (.ok (ev :: l), fs') := by
        cases hr : (query env q g).run fs with
        | mk r fs0 =>
          cases r with
          | ok x =>
            refine ⟨.done, fun rest l fs' h => ?_⟩
            rw [shellLoop, if_neg hq, if_neg hh, run_bind_ok (a := Event.done) (fs' := fs0) (by rw [run_tryCatch, run_bind_ok hr]; rfl), run_bind_ok h]
            rfl
          | error e =>
            refine ⟨.failed e, fun rest l fs' h => ?_⟩
            rw [shellLoop, if_neg hq, if_neg hh, run_bind_ok (a := Event.failed e) (fs' := fs0) (by rw [run_tryCatch, run_bind_err hr]; rfl), run_bind_ok h]
            rfl
      refine ⟨ev :: l1, l2, fs1, fs2, go _ _ _ h1, h2, go _ _ _ h3,
        .shown askQuery :: .shown (echoLine q) :: ((queryL env q g).logs fs).map .logged ++
          ((queryS env q g).shows fs ++ (match ((query env q g).run fs).1 with
            | .ok _ => []
            | .error e => [Shown.error e])).map .shown ++ T, ?_, ?_⟩
      · rw [shellT_outs env g q _ fs hq hh, h4]
        simp only [List.append_assoc, List.cons_append]
        rfl
      · rw [shellT_outs env g q _ fs hq hh, h5]
        simp only [List.append_assoc, List.cons_append]
        rfl

end
end WG
