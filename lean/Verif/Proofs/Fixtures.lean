/-
The fixtures of the project's tests.
-/
import Verif.Spec.Fixtures
import Verif.Model.Fixtures
import Verif.Proofs.Storage
import Verif.Proofs.Gdbms
import Verif.Proofs.Json

set_option linter.unusedSectionVars false
set_option linter.unusedSimpArgs false

namespace WG

section
variable [PyRuntime]

theorem writeZero_run {p : Path} {fs : FS} (h : (p.folder, p.dir) ∈ fs.dirs) :
    (writeZero p).run fs = (.ok (), fs.set p c!"0") := by
  unfold writeZero
  rw [run_bind_ok (run_openW h), run_write (FS.get_set_self _ _ _)]
  simp

theorem writeZero_text {p : Path} {fs fs' : FS} (h : (writeZero p).run fs = (.ok (), fs')) :
    fs'.get p = some c!"0" := by
  by_cases hd : (p.folder, p.dir) ∈ fs.dirs
  · rw [writeZero_run hd] at h
    simp only [Prod.mk.injEq, true_and] at h
    rw [← h, FS.get_set_self]
  · unfold writeZero at h
    rw [run_bind_err (run_openW_fail hd)] at h
    simp at h

theorem get_other {fs : FS} {p q : Path} {t : Str} (h : q ≠ p) : (fs.set p t).get q = fs.get q :=
  FS.get_set_ne (Ne.symm h) fs t

theorem dict_other {k k' : Str} {v : V} {d : Dict V} (h : k' ≠ k) : dictGet k' (dictSet k v d) = dictGet k' d :=
  dictGet_dictSet_ne (Ne.symm h)

theorem ser_emptyDict : (Val.dict [] : V).Ser := by simp [Val.Ser, Val.SerDict]

theorem ser_emptyList : (Val.list [] : V).Ser := by simp [Val.Ser, Val.SerList]

/-- One wipe of an index file. -/
theorem entryCleared {p : Path} {fs : FS} {t : Str} {D : Dict V} {key : Str} {e : V} (he : e.Ser) (hl : jsonLoad t = some (.dict D)) :
    EntryCleared p key e D (fs.set p (dumpText (.dict (dictSet key e D)))) :=
  ⟨_, _, FS.get_set_self _ _ _, jsonLoad_dump _ (ser_dictSet (jsonLoad_ser hl) he), dictGet_dictSet_self, fun _ h => dict_other h⟩

/-- Three wipes of an index file. -/
theorem threeWipes {D : Dict V} {p : Path} {fs : FS} {t : Str} (h : fs.get p = some t)
    (hl : jsonLoad t = some (.dict D)) (k : Prog Unit) :
    (do let _ ← wipeNodeRelationshipsIndex p true
        let _ ← wipeNodeLabelsIndex p true
        let _ ← wipeRelationshipNamesIndex p true
        k).run fs =
      k.run (fs.set p (dumpText (.dict (dictSet RELATIONSHIP_NAMES_INDEX_NAME (.list [])
        (dictSet NODE_LABELS_INDEX_NAME (.list []) (dictSet NODE_RELATIONSHIPS_INDEX_NAME (.dict []) D)))))) := by
  have hD := jsonLoad_ser hl
  have h1 : (Val.dict (dictSet NODE_RELATIONSHIPS_INDEX_NAME (.dict []) D) : V).Ser := ser_dictSet hD ser_emptyDict
  have h2 : (Val.dict (dictSet NODE_LABELS_INDEX_NAME (.list [])
    (dictSet NODE_RELATIONSHIPS_INDEX_NAME (.dict []) D)) : V).Ser := ser_dictSet h1 ser_emptyList
  unfold wipeNodeRelationshipsIndex wipeNodeLabelsIndex wipeRelationshipNamesIndex wipeIndexSet
  rw [run_bind_ok (run_wipeIndexWith ser_emptyDict h hl),
    run_bind_ok (run_wipeIndexWith ser_emptyList (FS.get_set_self _ _ _) (jsonLoad_dump _ h1)),
    run_bind_ok (run_wipeIndexWith ser_emptyList (FS.get_set_self _ _ _) (jsonLoad_dump _ h2))]
  simp

theorem wipeRel_type {p : Path} {fs : FS} {t : Str} {v : V} (h : fs.get p = some t) (hl : jsonLoad t = some v)
    (hv : ∀ D, v ≠ .dict D) : (wipeNodeRelationshipsIndex p true).run fs = (.error .type, fs) := by
  unfold wipeNodeRelationshipsIndex wipeIndexWith
  rw [if_pos rfl, run_bind_ok (run_readFile_some h), loads_some hl, run_bind_ok (run_liftE_ok _ _)]
  have : setItem v NODE_RELATIONSHIPS_INDEX_NAME (.dict []) = .error .type := by
    cases v <;> first | rfl | exact absurd rfl (hv _)
  rw [this]
  rfl

theorem fixture_bind_ok {α β : Type} {p : Prog α} {f : α → Prog β} {fs fs' : FS} {b : β}
    (h : (p >>= f).run fs = (.ok b, fs')) : ∃ a fs1, p.run fs = (.ok a, fs1) ∧ (f a).run fs1 = (.ok b, fs') := by
  rw [run_bind] at h
  split at h
  · next a fs1 e => exact ⟨a, fs1, e, h⟩
  · simp at h

theorem teardown_text {g : GPath} {fs fs' : FS} (h : (dbmsTeardown g).run fs = (.ok (), fs')) :
    fs'.get g.idx = some c!"0" := by
  unfold dbmsTeardown at h
  obtain ⟨_, _, -, h⟩ := fixture_bind_ok h
  obtain ⟨_, _, -, h⟩ := fixture_bind_ok h
  obtain ⟨_, _, -, h⟩ := fixture_bind_ok h
  obtain ⟨_, _, -, h⟩ := fixture_bind_ok h
  exact writeZero_text h

theorem int_text (n : Int) : jsonLoad (intStr n) = some (.int n : V) := by
  have := jsonLoad_dump (.int n) (by simp [Val.Ser])
  simpa [dumpText, jsonDump, emit, emitText] using this

/-- What a sequence of deletions leaves. -/
theorem deleteEach_run {folder : Str} {names : List Str} (hnd : names.Nodup) {fs : FS}
    (hd : ∀ n ∈ names, (folder, n) ∈ fs.dirs) (hm : ∀ n ∈ names, hasMagic n = false)
    (hn : (fs.files.map Prod.fst).Nodup)
    (hh : ∀ n ∈ names, ∀ p ∈ filesOf fs folder n, isHidden p.file = false) :
    ∃ fs', (deleteEach folder names).run fs = (.ok (), fs') ∧
      fs'.folders = fs.folders ∧ fs'.plain = fs.plain ∧
      fs'.dirs = (fs.dirs.filter fun x => !(decide (x.1 = folder) && names.contains x.2)) ∧
      (∀ p, p.folder = folder → p.dir ∈ names → fs'.get p = none) ∧
      (∀ p, ¬ (p.folder = folder ∧ p.dir ∈ names) → fs'.get p = fs.get p) := by
  induction names generalizing fs with
  | nil => exact ⟨fs, rfl, rfl, rfl, (List.filter_eq_self.2 (by simp)).symm, by simp, fun _ _ => rfl⟩
  | cons n ns ih =>
    rw [List.nodup_cons] at hnd
    have e := delete_run (hd n (by simp)) (hm n (by simp)) hn (hh n (by simp))
    rw [deleteEach, run_bind_ok e]
    obtain ⟨fs', h1, hf, hp, h2, h3, h4⟩ := ih hnd.2
      (fs := { without fs (filesOf fs folder n) with dirs := fs.dirs.filter fun x => x ≠ (folder, n) }) (by
        intro m hm'
        simp only [List.mem_filter, decide_eq_true_eq, ne_eq, Prod.mk.injEq, true_and, decide_not, Bool.not_eq_true',
          decide_eq_false_iff_not]
        exact ⟨hd m (by simp [hm']), by rintro rfl; exact hnd.1 hm'⟩)
      (fun m hm' => hm m (by simp [hm']))
      (by
        refine hn.sublist ?_
        exact List.filter_sublist.map _)
      (by
        intro m hm' p hp
        refine hh m (by simp [hm']) p ?_
        simp only [filesOf, List.mem_filter] at hp ⊢
        refine ⟨?_, hp.2⟩
        have := hp.1
        simp only [without, List.mem_map, List.mem_filter] at this ⊢
        obtain ⟨x, hx, rfl⟩ := this
        exact ⟨x, hx.1, rfl⟩)
    refine ⟨fs', h1, by rw [hf]; rfl, by rw [hp]; rfl, ?_, ?_, ?_⟩
    · rw [h2]
      simp only [List.filter_filter]
      refine List.filter_congr fun x _ => ?_
      obtain ⟨a, b⟩ := x
      by_cases e1 : a = folder <;> by_cases e2 : b = n <;> by_cases e3 : b ∈ ns <;> simp [e1, e2, e3]
    · intro p p1 p2
      by_cases e1 : p.dir ∈ ns
      · exact h3 p p1 e1
      · have e2 : p.dir = n := by simpa [e1] using p2
        rw [h4 p (by simp [e1])]
        show (without fs (filesOf fs folder n)).get p = none
        by_cases hp : p ∈ filesOf fs folder n
        · exact without_get_mem hp
        · rw [without_get_ne hp]
          refine lookup_none fun hmem => hp ?_
          simp only [filesOf, List.mem_filter]
          exact ⟨hmem, by simp [p1, e2]⟩
    · intro p hp
      simp only [List.mem_cons, not_and, not_or] at hp
      rw [h4 p (by intro h; exact (hp h.1).2 h.2)]
      show (without fs (filesOf fs folder n)).get p = fs.get p
      refine without_get_ne fun hmem => ?_
      simp only [filesOf, List.mem_filter, Bool.and_eq_true, decide_eq_true_eq] at hmem
      exact (hp hmem.2.1).1 hmem.2.2

end

end WG
