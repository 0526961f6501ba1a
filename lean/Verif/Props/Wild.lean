/-
C59, continued: what deleting a GDBMS does for names with `*`, `?` and `[`, and for directories with hidden files.
-/
import Verif.Proofs.Wild
import Verif.Props.Gdbms

set_option linter.unusedSectionVars false

namespace WG

section
variable [PyRuntime]

/-- C59, what really happens: deleting an existing GDBMS removes exactly the files that are not hidden in all directories that its name,
read as a pattern, looks at.  If no file is left in its own directory, that directory is removed and the result is 0, otherwise
an OSError is raised and all directories stay.  (A disk has at most one file of each name.) -/
theorem C59_delete_outcome (fs : FS) (folder name : Str) (hd : (folder, name) ∈ fs.dirs) (hn : (fs.files.map Prod.fst).Nodup)
    (hr : Readable name) :
    ∃ r fs', (deleteGdbms name folder).run fs = (r, fs') ∧
      (∀ p : Path, p.folder = folder → LooksAt name p.dir → p.file.head? ≠ some '.' → fs'.get p = none) ∧
      (∀ p : Path, ¬ (p.folder = folder ∧ LooksAt name p.dir ∧ p.file.head? ≠ some '.') → fs'.get p = fs.get p) ∧
      ((∃ p : Path, p.folder = folder ∧ p.dir = name ∧ fs'.get p ≠ none) → r = .error .osError ∧ fs'.dirs = fs.dirs) ∧
      ((∀ p : Path, p.folder = folder → p.dir = name → fs'.get p = none) →
        r = .ok 0 ∧ ∀ x, x ∈ fs'.dirs ↔ x ∈ fs.dirs ∧ x ≠ (folder, name)) := by
  have hp : ∀ p : Path, fs.get p ≠ none → (p ∈ pickedFiles fs folder name ↔
      p.folder = folder ∧ LooksAt name p.dir ∧ p.file.head? ≠ some '.') := by
    intro p hp
    have : p ∈ fs.files.map Prod.fst := by
      apply Classical.byContradiction
      intro h
      exact hp (lookup_none h)
    simp only [pickedFiles, List.mem_filter, this, true_and, Bool.and_eq_true, decide_eq_true_eq, globDirs_iff hr, Bool.not_eq_true',
      ← Bool.not_eq_true, hidden_iff, and_assoc]
  have h1 : ∀ p : Path, p.folder = folder → LooksAt name p.dir → p.file.head? ≠ some '.' →
      (without fs (pickedFiles fs folder name)).get p = none := by
    intro p a b c
    by_cases hm : p ∈ pickedFiles fs folder name
    · exact without_get_mem hm
    · rw [without_get_ne hm]
      apply Classical.byContradiction
      intro h
      exact hm ((hp p h).2 ⟨a, b, c⟩)
  have h2 : ∀ p : Path, ¬ (p.folder = folder ∧ LooksAt name p.dir ∧ p.file.head? ≠ some '.') →
      (without fs (pickedFiles fs folder name)).get p = fs.get p := by
    intro p h
    by_cases hm : fs.get p = none
    · by_cases hm' : p ∈ pickedFiles fs folder name
      · rw [without_get_mem hm', hm]
      · exact without_get_ne hm'
    · exact without_get_ne fun h' => h ((hp p hm).1 h')
  have h3 : ((without fs (pickedFiles fs folder name)).files.all fun x => ¬ (x.1.folder = folder ∧ x.1.dir = name)) = true ↔
      ∀ p : Path, p.folder = folder → p.dir = name → (without fs (pickedFiles fs folder name)).get p = none := by
    rw [List.all_eq_true]
    constructor
    · intro h p a b
      refine lookup_none fun hm => ?_
      obtain ⟨x, hx, rfl⟩ := List.mem_map.1 hm
      have := h x hx
      simp [a, b] at this
    · intro h x hx
      simp only [decide_eq_true_eq]
      rintro ⟨a, b⟩
      have h4 := h x.1 a b
      have h5 := lookup_some (List.mem_map_of_mem (f := Prod.fst) hx)
      unfold FS.get at h4
      rw [h4] at h5
      simp at h5
  rw [delete_outcome hd hn]
  by_cases h4 : ((without fs (pickedFiles fs folder name)).files.all fun x => ¬ (x.1.folder = folder ∧ x.1.dir = name)) = true
  · rw [if_pos h4]
    refine ⟨_, _, rfl, h1, h2, ?_, fun _ => ⟨rfl, fun x => by simp⟩⟩
    rintro ⟨p, a, b, c⟩
    exact absurd (h3.1 h4 p a b) c
  · rw [if_neg h4]
    exact ⟨_, _, rfl, h1, h2, fun _ => ⟨rfl, rfl⟩, fun h => absurd (h3.2 h) h4⟩

/-- So deleting a GDBMS called `x*` removes the files of every GDBMS whose name starts with `x`. -/
theorem C59_star_removes_all (fs : FS) (folder pre suf : Str) (hd : (folder, pre ++ c!"*") ∈ fs.dirs) (hn : (fs.files.map Prod.fst).Nodup)
    (hpre : ∀ c ∈ pre, c ∉ ['*', '?', '[']) (hh : (pre ++ suf).head? = some '.' → pre.head? = some '.') :
    (((deleteGdbms (pre ++ c!"*") folder).run fs).2.get (dbPath folder (pre ++ suf)) = none) ∧
    (((deleteGdbms (pre ++ c!"*") folder).run fs).2.get (idxPath folder (pre ++ suf)) = none) ∧
    (((deleteGdbms (pre ++ c!"*") folder).run fs).2.get (wnPath folder (pre ++ suf)) = none) := by
  have hr : Readable (pre ++ c!"*") := by
    clear hd hh
    induction pre with
    | nil => exact .char _ _ (by decide) .nil
    | cons c pre ih =>
      refine .char _ _ ?_ (ih fun c' hc => hpre c' (List.mem_cons_of_mem _ hc))
      have := hpre c (by simp)
      simp at this
      exact this.2.2
  have hw : Wild (pre ++ c!"*") (pre ++ suf) := by
    clear hd hh hr
    induction pre with
    | nil =>
      have := Wild.star [] suf [] .nil
      simpa using this
    | cons c pre ih => exact .char _ _ _ (hpre c (by simp)) (ih fun c' hc => hpre c' (List.mem_cons_of_mem _ hc))
  have hl : LooksAt (pre ++ c!"*") (pre ++ suf) := by
    unfold LooksAt
    rw [if_pos ⟨'*', by simp, by simp⟩]
    refine ⟨hw, fun h => ?_⟩
    have := hh h
    cases pre with
    | nil => simp at this
    | cons c pre => simpa using this
  obtain ⟨r, fs', h1, h2, -⟩ := C59_delete_outcome fs folder (pre ++ c!"*") hd hn hr
  rw [h1]
  exact ⟨h2 _ rfl hl (by simp [dbPath]), h2 _ rfl hl (by simp [idxPath]), h2 _ rfl hl (by simp [wnPath])⟩

end

section
attribute [local instance] demoRuntime

/-- GDBMSs called `a*`, `ab` and `.ab`. -/
def starDisk : FS := ⟨[DBMS_FOLDER], [(DBMS_FOLDER, c!"a*"), (DBMS_FOLDER, c!"ab"), (DBMS_FOLDER, c!".ab")], [],
  [(dbPath DBMS_FOLDER c!"a*", c!"{}"), (dbPath DBMS_FOLDER c!"ab", c!"{}"), (dbPath DBMS_FOLDER c!".ab", c!"{}")]⟩

example : ((deleteGdbms c!"a*" DBMS_FOLDER).run starDisk).2.get (dbPath DBMS_FOLDER c!"ab") = none :=
  (C59_star_removes_all starDisk DBMS_FOLDER c!"a" c!"b" (by decide) (by decide) (by decide) (by decide)).1

theorem readable_set : Readable c!"[.a]?[!cd]*[" :=
  .set c!".a" c!"?[!cd]*[" (by decide) (by simp [InSet]) (.char _ _ (by decide) (.nset c!"cd" c!"*[" (by decide) (by simp [InSet])
    (.char _ _ (by decide) (.alone [] (by decide) .nil))))

/-- `[.a]?[!cd]*[` matches `axb-[`, but not the hidden `.xb-[`. -/
example : LooksAt c!"[.a]?[!cd]*[" c!"axb-[" ∧ ¬ LooksAt c!"[.a]?[!cd]*[" c!".xb-[" := by
  rw [← globDirs_iff readable_set, ← globDirs_iff readable_set]
  decide

end

end WG
