/-
C83: the fixtures of the project's own tests.
-/
import Verif.Spec.Fixtures
import Verif.Proofs.Fixtures
import Verif.Proofs.Damage
import Verif.Spec.DemoFS

set_option linter.unusedSectionVars false
set_option linter.unusedSimpArgs false

namespace WG

section
variable [PyRuntime]

/-- C83: before a test, `clear_dbms_test` turns any GDBMS whose index file is a JSON object into an empty
one, and changes no other file. -/
theorem C83_setup (g : GPath) (fs : FS) (t : Str) (D : Dict V)
    (hdb : (g.db.folder, g.db.dir) ∈ fs.dirs) (hwn : (g.wn.folder, g.wn.dir) ∈ fs.dirs)
    (hne : g.db ≠ g.idx ∧ g.db ≠ g.wn ∧ g.idx ≠ g.wn)
    (hi : fs.get g.idx = some t) (hl : jsonLoad t = some (.dict D)) :
    ∃ fs', (dbmsSetup g).run fs = (.ok (), fs') ∧ Emptied g D fs' ∧
      ∀ q, q ≠ g.db → q ≠ g.idx → q ≠ g.wn → fs'.get q = fs.get q := by
  obtain ⟨n1, n2, n3⟩ := hne
  unfold dbmsSetup
  rw [run_bind_ok (run_wipe_true hdb), threeWipes (by rw [get_other (Ne.symm n1)]; exact hi) hl,
    writeZero_run (by simpa using hwn)]
  refine ⟨_, rfl, ⟨?_, ?_, FS.get_set_self _ _ _⟩, ?_⟩
  · rw [get_other n2, get_other n1, FS.get_set_self]
    simp [dumpText, jsonDump, emit, emitText]
  · refine ⟨_, _, by rw [get_other n3, FS.get_set_self], jsonLoad_dump _
      (ser_dictSet (ser_dictSet (ser_dictSet (jsonLoad_ser hl) ser_emptyDict) ser_emptyList) ser_emptyList), ?_, ?_, ?_, ?_⟩
    · rw [dict_other (by decide), show c!"node_labels" = NODE_LABELS_INDEX_NAME from rfl, dictGet_dictSet_self]
    · rw [show c!"relationship_names" = RELATIONSHIP_NAMES_INDEX_NAME from rfl, dictGet_dictSet_self]
    · rw [dict_other (by decide), dict_other (by decide),
        show c!"node_relationships" = NODE_RELATIONSHIPS_INDEX_NAME from rfl, dictGet_dictSet_self]
    · intro k hk
      simp only [List.mem_cons, List.not_mem_nil, or_false, not_or] at hk
      rw [dict_other (k := RELATIONSHIP_NAMES_INDEX_NAME) hk.2.1, dict_other (k := NODE_LABELS_INDEX_NAME) hk.1,
        dict_other (k := NODE_RELATIONSHIPS_INDEX_NAME) hk.2.2]
  · intro q h1 h2 h3
    rw [get_other h3, get_other h2, get_other h1]

/-- C83: the fixtures for one file clear it, before the test as after it, and change no other file. -/
theorem C83_one (k : OneFixture) (g : GPath) (fs : FS) (t : Str) (D : Dict V)
    (hdb : (g.db.folder, g.db.dir) ∈ fs.dirs) (hwn : (g.wn.folder, g.wn.dir) ∈ fs.dirs)
    (hi : fs.get g.idx = some t) (hl : jsonLoad t = some (.dict D)) :
    ∃ fs', (k.clear g).run fs = (.ok (), fs') ∧ OneCleared g D fs' k ∧ (∀ q, q ≠ k.file g → fs'.get q = fs.get q) ∧
      fs'.dirs = fs.dirs ∧ fs'.folders = fs.folders := by
  cases k with
  | database =>
    refine ⟨_, by unfold OneFixture.clear; rw [run_bind_ok (run_wipe_true hdb)]; rfl, ?_, fun q hq => get_other hq, rfl, rfl⟩
    show (fs.set g.db (dumpText (.dict []))).get g.db = _
    rw [FS.get_set_self]
    simp [dumpText, jsonDump, emit, emitText]
  | nodeRelationships =>
    refine ⟨_, by unfold OneFixture.clear wipeNodeRelationshipsIndex; rw [run_bind_ok (run_wipeIndexWith ser_emptyDict hi hl)]; rfl,
      entryCleared ser_emptyDict hl, fun q hq => get_other hq, rfl, rfl⟩
  | nodeLabels =>
    refine ⟨_, by unfold OneFixture.clear wipeNodeLabelsIndex wipeIndexSet; rw [run_bind_ok (run_wipeIndexWith ser_emptyList hi hl)]; rfl,
      entryCleared ser_emptyList hl, fun q hq => get_other hq, rfl, rfl⟩
  | relationshipNames =>
    refine ⟨_, by unfold OneFixture.clear wipeRelationshipNamesIndex wipeIndexSet; rw [run_bind_ok (run_wipeIndexWith ser_emptyList hi hl)]; rfl,
      entryCleared ser_emptyList hl, fun q hq => get_other hq, rfl, rfl⟩
  | wiggleNumber =>
    exact ⟨_, writeZero_run hwn, FS.get_set_self _ _ _, fun q hq => get_other hq, rfl, rfl⟩

/-- C83: the fixtures for an index cannot repair an index file that is missing or holds no JSON object: they raise, and the
disk stays as it is (`NoDict`, C97, says which exception). -/
theorem C83_one_damaged (g : GPath) (fs : FS) (e : PyErr) (h : NoDict fs g.idx e) :
    ∀ k ∈ [OneFixture.nodeRelationships, .nodeLabels, .relationshipNames], (k.clear g).run fs = (.error e, fs) := by
  intro k hk
  simp only [List.mem_cons, List.not_mem_nil, or_false] at hk
  rcases hk with rfl | rfl | rfl
  · exact run_bind_err (wipeFault_run ser_emptyDict h)
  · exact run_bind_err (wipeFault_run ser_emptyList h)
  · exact run_bind_err (wipeFault_run ser_emptyList h)

/-- C83 fails: after a test, `clear_dbms_test` raises TypeError whenever the counter file holds the text
of an integer, which is all the program ever writes there.  The database is emptied; the index file and
the counter stay as the test left them. -/
theorem C83_violated (g : GPath) (fs : FS) (n : Int) (hdb : (g.db.folder, g.db.dir) ∈ fs.dirs)
    (hne : g.db ≠ g.idx ∧ g.db ≠ g.wn) (hn : fs.get g.wn = some (intStr n)) :
    ∃ fs', (dbmsTeardown g).run fs = (.error .type, fs') ∧
      fs'.get g.db = some c!"{}" ∧ ∀ q, q ≠ g.db → fs'.get q = fs.get q := by
  unfold dbmsTeardown
  rw [run_bind_ok (run_wipe_true hdb),
    run_bind_err (wipeRel_type (v := .int n) (by rw [get_other (Ne.symm hne.2)]; exact hn) (int_text n)
      (by simp))]
  refine ⟨_, rfl, ?_, fun q hq => get_other hq⟩
  rw [FS.get_set_self]
  simp [dumpText, jsonDump, emit, emitText]

/-- C83 fails on every disk: when the part after the test does end normally, the index file is left with
the text `0`, which is no index. -/
theorem C83_violated_index (g : GPath) (fs fs' : FS) (h : (dbmsTeardown g).run fs = (.ok (), fs')) (D : Dict V) :
    fs'.get g.idx = some c!"0" ∧ ¬ Emptied g D fs' := by
  have e := teardown_text h
  refine ⟨e, fun he => ?_⟩
  obtain ⟨t, D', h1, h2, -⟩ := he.idx
  rw [e] at h1
  simp only [Option.some.injEq] at h1
  subst h1
  rw [show c!"0" = intStr 0 from rfl, int_text] at h2
  simp at h2

/-- C83: `wigsh_clear_test_gdbmss` removes every directory of a tidy folder except `sample_gdbms`, with
its files, and touches nothing else. -/
theorem C83_clear (folder : Str) (fs : FS) (h : Tidy folder fs) :
    ∃ fs', (clearTestGdbmss folder).run fs = (.ok (), fs') ∧ fs'.folders = fs.folders ∧ fs'.plain = fs.plain ∧
      (∀ x, x ∈ fs'.dirs ↔ x ∈ fs.dirs ∧ (x.1 = folder → x.2 = c!"sample_gdbms")) ∧
      (∀ p, p.folder = folder → p.dir ≠ c!"sample_gdbms" → fs'.get p = none) ∧
      (∀ p, p.folder ≠ folder ∨ p.dir = c!"sample_gdbms" → fs'.get p = fs.get p) := by
  have hmem : ∀ x, x ∈ sortStrs (((fs.dirs.filter fun x => x.1 = folder).map Prod.snd).filter
      fun x => !(fixtureSkips.contains x)) ↔ (folder, x) ∈ fs.dirs ∧ x ≠ c!"sample_gdbms" := by
    intro x
    rw [(sortStrs_perm _).mem_iff]
    simp [fixtureSkips]
  unfold clearTestGdbmss
  rw [run_bind_ok (listExisting_run h.isThere)]
  generalize hN : sortStrs _ = names at hmem
  have hnd : names.Nodup := by
    rw [← hN]
    refine (sortStrs_perm _).nodup_iff.2 (List.Nodup.sublist List.filter_sublist ?_)
    refine List.Pairwise.map _ ?_ (List.Pairwise.and_mem.1 (h.oneEach.sublist List.filter_sublist))
    rintro ⟨a, b⟩ ⟨a', b'⟩ ⟨ha, hb, hne⟩ e
    simp only [List.mem_filter, decide_eq_true_eq] at ha hb
    exact hne (by rw [ha.2, hb.2]; simpa using e)
  obtain ⟨fs', h1, hf, hp, h2, h3, h4⟩ := deleteEach_run (folder := folder) hnd (fs := fs)
    (fun n hn => ((hmem n).1 hn).1)
    (by
      intro n hn
      simp only [hasMagic, List.any_eq_false]
      intro c hc
      simp [h.noMagic n ((hmem n).1 hn).1 c hc])
    h.oneFile
    (by
      intro n hn p hp
      simp only [filesOf, List.mem_filter, Bool.and_eq_true, decide_eq_true_eq] at hp
      have hs := lookup_some hp.1
      cases hf : p.file with
      | nil => rfl
      | cons c cs =>
        by_cases e : c = '.'
        · have := h.noHidden p hp.2.1 (by simp [hf, e])
          rw [FS.get] at this
          rw [this] at hs; simp at hs
        · unfold isHidden
          split
          · next h => simp at h; exact absurd h.1 e
          · rfl)
  refine ⟨fs', h1, hf, hp, ?_, ?_, ?_⟩
  · rintro ⟨a, b⟩
    rw [h2]
    simp only [List.mem_filter, Bool.not_eq_true', Bool.and_eq_false_iff, decide_eq_false_iff_not]
    constructor
    · rintro ⟨hx, hy⟩
      refine ⟨hx, fun e => ?_⟩
      subst e
      rcases hy with hy | hy
      · exact absurd rfl hy
      · have : b ∉ names := by simpa using hy
        rw [hmem] at this
        simpa [hx] using this
    · rintro ⟨hx, hy⟩
      refine ⟨hx, ?_⟩
      by_cases e : a = folder
      · right
        have hb := hy e
        have : b ∉ names := by rw [hmem]; simp [hb]
        simpa using this
      · exact .inl e
  · intro p e1 e2
    by_cases e3 : p.dir ∈ names
    · exact h3 p e1 e3
    · rw [h4 p (fun h => e3 h.2)]
      cases hg : fs.get p with
      | none => rfl
      | some t =>
        have := h.inside p (by simp [hg])
        exact absurd ((hmem _).2 ⟨by rw [← e1]; exact this, e2⟩) e3
  · intro p hp
    refine h4 p fun ⟨e1, e2⟩ => ?_
    have := (hmem _).1 e2
    rcases hp with hp | hp
    · exact hp e1
    · exact this.2 hp

/-- C83: before a test, `wigsh_setup_databases` leaves a tidy folder with `sample_gdbms` (if it was there)
and `test`, the latter holding an empty database and nothing else; afterwards the same clearing runs
again (`C83_clear`). -/
theorem C83_setup_databases (folder : Str) (fs : FS) (h : Tidy folder fs) (hfree : (folder, c!"test") ∉ fs.plain) :
    ∃ fs', (setupDatabases folder).run fs = (.ok (), fs') ∧
      (∀ x, x ∈ fs'.dirs ↔ (x ∈ fs.dirs ∧ (x.1 = folder → x.2 = c!"sample_gdbms")) ∨ x = (folder, c!"test")) ∧
      fs'.get ⟨folder, c!"test", c!"database_test.json"⟩ = some c!"{}" ∧
      (∀ p, p.folder = folder → p.dir ≠ c!"sample_gdbms" → p ≠ ⟨folder, c!"test", c!"database_test.json"⟩ →
        fs'.get p = none) ∧
      (∀ p, p.folder ≠ folder ∨ p.dir = c!"sample_gdbms" → fs'.get p = fs.get p) := by
  obtain ⟨fs1, h1, hf, hp, h2, h3, h4⟩ := C83_clear folder fs h
  have hcan : CanMkdir fs1 folder c!"test" := .inr (by rw [hp]; exact hfree)
  have hnew : fs1.get (dbPath folder c!"test") = none := h3 _ rfl (by show c!"test" ≠ _; decide)
  unfold setupDatabases createNewDatabase
  rw [run_bind_ok h1, run_bind_ok (createNewFile_new (p := dbPath folder c!"test") hcan hnew)]
  have hdb : dbPath folder c!"test" = ⟨folder, c!"test", c!"database_test.json"⟩ := rfl
  refine ⟨_, rfl, ?_, ?_, ?_, ?_⟩
  · intro x
    show x ∈ (withDir fs1 folder c!"test").dirs ↔ _
    rw [← h2]
    refine ⟨withDir_dirs, ?_⟩
    rintro (hx | rfl)
    · exact withDir_dirs_mono hx
    · exact withDir_mem hcan
  · rw [← hdb, FS.get_set_self]
  · intro p e1 e2 e3
    rw [← hdb] at e3
    rw [get_other e3, withDir_get]
    exact h3 p e1 e2
  · intro p e
    rw [get_other (by
      rintro rfl
      rcases e with e | e
      · exact e rfl
      · revert e; show c!"test" = _ → False; decide), withDir_get]
    exact h4 p e

end

section
attribute [local instance] demoRuntime

/-- A GDBMS that has been used: a record, a label, an entry of its own in the index file, counter 1. -/
def demoUsed : FS :=
  ⟨[c!"f"], [(c!"f", c!"sample_gdbms"), (c!"f", c!"test"), (c!"f", c!"b"), (c!"h", c!"b")], [],
    [(dbPath c!"f" c!"sample_gdbms", c!"{\"1\": {}}"),
     (idxPath c!"f" c!"sample_gdbms",
       c!"{\"node_labels\": [\"A\"], \"extra\": 1, \"node_relationships\": {\"1\": [2]}, \"relationship_names\": [\"R\"]}"),
     (wnPath c!"f" c!"sample_gdbms", c!"1"),
     (dbPath c!"f" c!"test", c!"{}"), (⟨c!"f", c!"b", c!"x.json"⟩, c!"1"), (⟨c!"h", c!"b", c!"x.json"⟩, c!"2")]⟩

/-- The same with a counter file that is no number but a JSON object. -/
def demoOdd : FS := demoUsed.set (wnPath c!"f" c!"sample_gdbms") c!"{}"

theorem demoUsed_tidy : Tidy c!"f" demoUsed where
  isThere := by decide
  oneEach := by decide
  oneFile := by decide
  inside := by
    intro p hp
    have : p ∈ demoUsed.files.map Prod.fst := Classical.byContradiction fun h => hp (lookup_none h)
    revert p
    have : ∀ p ∈ demoUsed.files.map Prod.fst, (p.folder, p.dir) ∈ demoUsed.dirs := by decide
    exact fun p _ h => this p h
  noMagic := by
    intro name h
    have : ∀ x ∈ demoUsed.dirs, ∀ c ∈ x.2, c ≠ '*' ∧ c ≠ '?' ∧ c ≠ '[' := by decide
    exact this _ h
  noHidden := by
    intro p _ hh
    refine lookup_none fun h => ?_
    have : ∀ p ∈ demoUsed.files.map Prod.fst, p.file.head? ≠ some '.' := by decide
    exact this p h hh

/-- C83 applies to a used GDBMS: the setup succeeds, the part after the test raises. -/
example : ∃ D, ∃ fs', (dbmsSetup (gdbmsPath c!"f" c!"sample_gdbms")).run demoUsed = (.ok (), fs') ∧
    Emptied (gdbmsPath c!"f" c!"sample_gdbms") D fs' := by
  have hl : ∃ D, jsonLoad c!"{\"node_labels\": [\"A\"], \"extra\": 1, \"node_relationships\": {\"1\": [2]}, \"relationship_names\": [\"R\"]}"
      = some (.dict D) := ⟨_, by rfl⟩
  obtain ⟨D, hl⟩ := hl
  obtain ⟨fs', h1, h2, -⟩ := C83_setup (gdbmsPath c!"f" c!"sample_gdbms") demoUsed _ D (by decide) (by decide) (by decide)
    (by rfl) hl
  exact ⟨D, fs', h1, h2⟩

example : ∃ fs', (dbmsTeardown (gdbmsPath c!"f" c!"sample_gdbms")).run demoUsed = (.error .type, fs') ∧
    fs'.get (idxPath c!"f" c!"sample_gdbms") = demoUsed.get (idxPath c!"f" c!"sample_gdbms") ∧
    fs'.get (wnPath c!"f" c!"sample_gdbms") = some c!"1" := by
  obtain ⟨fs', h1, -, h3⟩ := C83_violated (gdbmsPath c!"f" c!"sample_gdbms") demoUsed 1 (by decide) (by decide) (by rfl)
  exact ⟨fs', h1, h3 _ (by decide), by rw [h3 _ (by decide)]; rfl⟩

/-- The fixtures for one file on that GDBMS, and on one whose index file has been cut off. -/
example : (∀ k : OneFixture, ((k.clear (gdbmsPath c!"f" c!"sample_gdbms")).run demoUsed).1 = .ok ()) ∧
    ((OneFixture.nodeLabels.clear (gdbmsPath c!"f" c!"sample_gdbms")).run (demoUsed.set (idxPath c!"f" c!"sample_gdbms") c!"{\"node_l")).1 =
      .error .jsonDecode := by
  refine ⟨fun k => ?_, by decide +kernel⟩
  cases k <;> decide +kernel

/-- The hypothesis of `C83_violated_index` is met by a disk whose counter file is a JSON object. -/
example : ((dbmsTeardown (gdbmsPath c!"f" c!"sample_gdbms")).run demoOdd).1 = .ok () := by decide +kernel

example : ∃ fs', (clearTestGdbmss c!"f").run demoUsed = (.ok (), fs') ∧
    (∀ x, x ∈ fs'.dirs ↔ x ∈ [(c!"f", c!"sample_gdbms"), (c!"h", c!"b")]) ∧
    fs'.get ⟨c!"f", c!"b", c!"x.json"⟩ = none ∧ fs'.get ⟨c!"h", c!"b", c!"x.json"⟩ = some c!"2" := by
  obtain ⟨fs', h1, -, -, h2, h3, h4⟩ := C83_clear c!"f" demoUsed demoUsed_tidy
  refine ⟨fs', h1, fun x => ?_, h3 _ rfl (by decide), h4 _ (.inl (by decide))⟩
  rw [h2]
  constructor
  · rintro ⟨hx, hy⟩
    have : ∀ x ∈ demoUsed.dirs, (x.1 = c!"f" → x.2 = c!"sample_gdbms") →
      x ∈ [(c!"f", c!"sample_gdbms"), (c!"h", c!"b")] := by decide
    exact this x hx hy
  · have : ∀ x ∈ [(c!"f", c!"sample_gdbms"), (c!"h", c!"b")],
      x ∈ demoUsed.dirs ∧ (x.1 = c!"f" → x.2 = c!"sample_gdbms") := by decide
    exact this x

example : ∃ fs', (setupDatabases c!"f").run demoUsed = (.ok (), fs') ∧ (c!"f", c!"test") ∈ fs'.dirs := by
  obtain ⟨fs', h1, h2, -⟩ := C83_setup_databases c!"f" demoUsed demoUsed_tidy (by decide)
  exact ⟨fs', h1, (h2 _).2 (.inr rfl)⟩

end

end WG
