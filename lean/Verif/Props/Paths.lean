/-
C112: paths and name patterns.
-/
import Verif.Proofs.Paths
import Verif.Proofs.Wild
import Verif.Spec.DemoFS

namespace WG

/-- C112: the components of a text are what is between its slashes, without empty ones and dots. -/
theorem C112_components (s : Str) (l : List Str) : pathParts s = l ↔ Components s l :=
  ⟨fun h => h ▸ components_pathParts s.length s (Nat.le_refl _), pathParts_components⟩

/-- C112: a text that starts with a slash is a path of its own, any other continues the base. -/
theorem C112_join (base : List Str) (s : Str) : ∃ l, Components s l ∧ joinPath base s = if s.head? = some '/' then l else base ++ l := by
  refine ⟨pathParts s, (C112_components s _).1 rfl, ?_⟩
  unfold joinPath
  split
  · simp
  · next h =>
    rw [if_neg]
    intro e
    cases s with
    | nil => simp at e
    | cons c s => simp at e; exact h s (by rw [e])

/-- C112: a path leads to the place one reaches by going from directory to directory. -/
theorem C112_resolve (t : Tree) (p : List Str) (q : Place) : t.resolve p = .ok q ↔ NoNul p ∧ Leads t [] p q := by
  by_cases h : hasNul p = true
  · rw [resolve_nul h]
    refine ⟨fun h => by simp at h, fun ⟨hn, _⟩ => ?_⟩
    rw [(noNul_iff p).2 hn] at h; simp at h
  · have h : hasNul p = false := by simpa using h
    rw [resolve_eq h, walk_leads]
    exact ⟨fun hl => ⟨(noNul_iff p).1 h, hl⟩, And.right⟩

/-- C112: a path that leads nowhere has a NUL (ValueError), comes to something that is not there
(FileNotFoundError) or to a file (another OSError) before its last component. -/
theorem C112_resolve_error (t : Tree) (p : List Str) (e : PyErr) : t.resolve p = .error e ↔
    (¬ NoNul p ∧ e = .value) ∨ (NoNul p ∧ Stops t p none ∧ e = .fileNotFound) ∨
      (NoNul p ∧ (∃ s, Stops t p (some (.file s))) ∧ e = .osError) := by
  by_cases h : hasNul p = true
  · have hn : ¬ NoNul p := fun hn => by rw [(noNul_iff p).2 hn] at h; simp at h
    rw [resolve_nul h]
    simp only [hn, not_false_eq_true, true_and, false_and, or_false, Except.error.injEq]
    exact eq_comm
  · have h : hasNul p = false := by simpa using h
    have hn : NoNul p := (noNul_iff p).1 h
    rw [resolve_eq h, walk_stops]
    simp only [hn, not_true_eq_false, false_and, false_or, true_and, Stops, ← walk_leads]
    constructor
    · rintro ⟨front, c, back, q, h1, h2, ⟨h3, h4⟩ | ⟨s, h3, h4⟩⟩
      · exact .inl ⟨⟨front, c, back, q, h1, h2, h3, by simp⟩, h4⟩
      · exact .inr ⟨⟨s, front, c, back, q, h1, h2, h3, by simp⟩, h4⟩
    · rintro (⟨⟨front, c, back, q, h1, h2, h3, _⟩, h4⟩ | ⟨⟨s, front, c, back, q, h1, h2, h3, _⟩, h4⟩)
      · exact ⟨front, c, back, q, h1, h2, .inl ⟨h3, h4⟩⟩
      · exact ⟨front, c, back, q, h1, h2, .inr ⟨s, h3, h4⟩⟩

/-- C112: `is_dir()` and `is_file()`. -/
theorem C112_is (t : Tree) (p : List Str) :
    (t.isDir p = true ↔ ∃ q, NoNul p ∧ Leads t [] p q ∧ t.look q = some .dir) ∧
    (t.isFile p = true ↔ ∃ q s, NoNul p ∧ Leads t [] p q ∧ t.look q = some (.file s)) := by
  cases h : t.resolve p with
  | error e =>
    have hno : ∀ q, ¬ (NoNul p ∧ Leads t [] p q) := fun q hq => by rw [(C112_resolve t p q).2 hq] at h; simp at h
    simp only [Tree.isDir, Tree.isFile, h]
    exact ⟨⟨fun h => by simp at h, fun ⟨q, a, b, _⟩ => absurd ⟨a, b⟩ (hno q)⟩,
      ⟨fun h => by simp at h, fun ⟨q, _, a, b, _⟩ => absurd ⟨a, b⟩ (hno q)⟩⟩
  | ok q =>
    obtain ⟨hn, hl⟩ := (C112_resolve t p q).1 h
    have huniq : ∀ q', Leads t [] p q' → q' = q := fun q' h' => by
      have := (C112_resolve t p q').2 ⟨hn, h'⟩
      rw [h] at this; simpa using this.symm
    simp only [Tree.isDir, Tree.isFile, h, decide_eq_true_eq]
    constructor
    · exact ⟨fun hd => ⟨q, hn, hl, hd⟩, fun ⟨q', _, h', hd⟩ => huniq q' h' ▸ hd⟩
    · constructor
      · intro hf
        cases hq : t.look q with
        | none => simp [hq] at hf
        | some e => cases e with
          | dir => simp [hq] at hf
          | file s => exact ⟨q, s, hn, hl, hq⟩
      · rintro ⟨q', s, _, h', hq⟩
        rw [← huniq q' h', hq]

/-- C112: `mkdir(parents=True, exist_ok=True)` of a path that only goes down makes the directories that
are missing on the way and nothing else, or fails with an OSError and does nothing if something on the
way is a file. -/
theorem C112_mkdir (t : Tree) (p : List Str) (hc : t.Closed) (hn : NoNul p) (hs : Straight p) :
    ((∀ q s, q <+: p → t.look q ≠ some (.file s)) → ∃ u, t.mkdirs p = (.ok (), u) ∧ PavedTo t u p) ∧
    ((∃ q s, q <+: p ∧ t.look q = some (.file s)) → t.mkdirs p = (.error .osError, t)) := by
  have e : p = p.reverse.reverse := by simp
  constructor
  · intro hf
    have := mkdirRev_paves p.reverse t hc (e ▸ hn) (e ▸ hs) (e ▸ hf)
    rw [← e] at this
    exact this
  · rintro ⟨q, s, hq, hf⟩
    exact mkdirRev_file p.reverse t hc (e ▸ hn) (e ▸ hs) (q := q) (s := s) (e ▸ hq) hf

/-- C112: whenever `mkdir(parents=True, exist_ok=True)` succeeds, for paths with `..` and disks of any kind, the path
leads to a directory afterwards and nothing that was there is lost. -/
theorem C112_mkdir_any (t u : Tree) (p : List Str) (h : t.mkdirs p = (.ok (), u)) :
    (∃ q, Leads u [] p q ∧ u.look q = some .dir) ∧ ∀ q e, t.look q = some e → u.look q = some e := by
  obtain ⟨h1, h2⟩ := mkdirRev_there t p.reverse u h
  refine ⟨?_, h2⟩
  rw [List.reverse_reverse] at h1
  unfold Tree.isDir at h1
  split at h1
  · next q hq => exact ⟨q, ((C112_resolve u p q).1 hq).2, of_decide_eq_true h1⟩
  · simp at h1

/-- C112: `touch()` makes an empty file where nothing is and changes nothing else. -/
theorem C112_touch (t : Tree) (p : List Str) (q : Place) (hn : NoNul p) (hl : Leads t [] p q) :
    ∃ u, t.touch p = .ok u ∧ (t.look q ≠ none → u = t) ∧ (t.look q = none → PutAt t u q (.file [])) := by
  have h := (C112_resolve t p q).2 ⟨hn, hl⟩
  cases hq : t.look q with
  | some e => exact ⟨t, by simp only [Tree.touch, h, hq], fun _ => rfl, fun h => by simp at h⟩
  | none =>
    refine ⟨putEntry q (.file []) t, by simp only [Tree.touch, h, hq], fun h => absurd rfl h, fun _ => putAt_put ?_ _⟩
    rintro rfl
    simp [look_root] at hq

/-- C112: opening a path for writing and writing to it gives the file that text and changes nothing
else; a directory cannot be opened. -/
theorem C112_overwrite (t : Tree) (p : List Str) (q : Place) (s : Str) (hn : NoNul p) (hl : Leads t [] p q) :
    (t.look q = some .dir → t.overwrite p s = .error .osError) ∧
    (t.look q ≠ some .dir → ∃ u, t.overwrite p s = .ok u ∧ PutAt t u q (.file s)) := by
  have h := (C112_resolve t p q).2 ⟨hn, hl⟩
  constructor
  · intro hq; simp only [Tree.overwrite, h, hq]
  · intro hq
    refine ⟨putEntry q (.file s) t, ?_, putAt_put ?_ _⟩
    · simp only [Tree.overwrite, h]
    · rintro rfl
      exact hq (look_root t)

/-- C112: a path that leads nowhere can be neither touched nor written to, for the same reason. -/
theorem C112_nowhere (t : Tree) (p : List Str) (s : Str) (e : PyErr) (h : t.resolve p = .error e) :
    t.touch p = .error e ∧ t.overwrite p s = .error e := by
  simp only [Tree.touch, Tree.overwrite, h, and_self]

section
variable [PyRuntime]

/-- C112: `fnmatch` for patterns whose sets have only characters that stand for themselves. -/
theorem C112_fnmatch (pattern name : Str) (h : Readable pattern) : fnmatch pattern name = true ↔ Wild pattern name := by
  obtain ⟨ts, h1, h2⟩ := toks_wild h (pattern.length + 1) (Nat.lt_succ_self _)
  simp only [fnmatch, h1, h2]

/-- C112: all other patterns, e.g. those with ranges, are left to the runtime. -/
theorem C112_fnmatch_other (pattern name : Str) (h : ¬ Readable pattern) : fnmatch pattern name = PyRuntime.fnmatchOther pattern name := by
  unfold fnmatch
  cases ht : globToks (pattern.length + 1) pattern with
  | none => rfl
  | some ts => exact absurd (toks_readable _ _ _ ht) h

/-- C112: the directories whose files are deleted with a GDBMS. -/
theorem C112_glob (name d : Str) (h : Readable name) : globDirs name d = true ↔ LooksAt name d := globDirs_iff h d

end

/-- C112: the name `a[bc]*` matches `ab` and `acd`, but not itself. -/
example : Readable c!"a[bc]*" ∧ Wild c!"a[bc]*" c!"ab" ∧ Wild c!"a[bc]*" c!"acd" ∧ ¬ Wild c!"a[bc]*" c!"a[bc]*" := by
  have hc : Readable c!"a[bc]*" :=
    .char 'a' _ (by decide) (.set c!"bc" _ (by decide) (by unfold InSet; decide) (.char '*' _ (by decide) .nil))
  refine ⟨hc, ?_, ?_, ?_⟩ <;> rw [← @C112_fnmatch demoRuntime _ _ hc] <;> decide

/-- C112: `[!a]?[x` has a set that excludes and an open bracket. -/
example : Readable c!"[!a]?[x" ∧ Wild c!"[!a]?[x" c!"bc[x" ∧ ¬ Wild c!"[!a]?[x" c!"ac[x" := by
  have hc : Readable c!"[!a]?[x" :=
    .nset c!"a" _ (by decide) (by unfold InSet; decide) (.char '?' _ (by decide) (.alone _ (by decide) (.char 'x' _ (by decide) .nil)))
  refine ⟨hc, ?_, ?_⟩ <;> rw [← @C112_fnmatch demoRuntime _ _ hc] <;> decide

/-- C112: `[a-c]` is a range, not a set of three characters. -/
example : ¬ Readable c!"[a-c]" := by
  intro h
  generalize e : c!"[a-c]" = x at h
  cases h with
  | nil => simp at e
  | char c p hc _ => simp only [List.cons.injEq] at e; exact hc e.1.symm
  | alone p hp _ => simp only [List.cons.injEq, true_and] at e; subst e; simp at hp
  | set cs p hne hcs _ =>
    simp only [List.cons.injEq, true_and] at e
    have h1 : ']' ∉ cs := fun hm => by simpa [InSet] using hcs _ hm
    have h2 : splitSet c!"a-c]" = some (cs, p) := e ▸ splitSet_some h1
    simp only [splitSet] at h2
    simp at h2
    have := hcs '-' (by rw [← h2.1]; simp)
    simp [InSet] at this
  | nset cs p _ _ _ => simp at e

/-- The runtime of the examples answers `false` where the model would answer `true` for a set of three characters. -/
example : @fnmatch demoRuntime c!"[a-c]" c!"-" = false := by decide

/-- C112: the components of `a//./b/..`. -/
example : Components c!"a//./b/.." [c!"a", c!"b", c!".."] := (C112_components _ _).1 (by decide)

/-- C112: `dbms/../dbms/x` leads to the new place `x` in `dbms`, `f/x` stops at a file and `no/x` at nothing. -/
example : Leads [([c!"dbms"], .dir), ([c!"f"], .file c!"0")] [] [c!"dbms", c!"..", c!"dbms", c!"x"] [c!"dbms", c!"x"] ∧
    Tree.resolve [([c!"dbms"], .dir), ([c!"f"], .file c!"0")] [c!"f", c!"x"] = .error .osError ∧
    Tree.resolve [([c!"dbms"], .dir), ([c!"f"], .file c!"0")] [c!"no", c!"x"] = .error .fileNotFound :=
  ⟨((C112_resolve _ _ _).1 (by decide)).2, by decide, by decide⟩

/-- C112: touching and writing `dbms/x`; writing to the directory `dbms`; a file as directory. -/
example : Tree.touch [([c!"dbms"], .dir)] [c!"dbms", c!"x"] = .ok [([c!"dbms"], .dir), ([c!"dbms", c!"x"], .file [])] ∧
    Tree.overwrite [([c!"dbms"], .dir), ([c!"dbms", c!"x"], .file [])] [c!"dbms", c!"x"] c!"0" =
      .ok [([c!"dbms"], .dir), ([c!"dbms", c!"x"], .file c!"0")] ∧
    Tree.overwrite [([c!"dbms"], .dir)] [c!"dbms"] c!"0" = .error .osError ∧
    Tree.touch [([c!"f"], .file [])] [c!"f", c!"x"] = .error .osError :=
  ⟨rfl, rfl, rfl, rfl⟩

/-- C112: making `dbms/a/b` where only `dbms` is there, and below a file. -/
example : Tree.mkdirs [([c!"dbms"], .dir), ([c!"f"], .file c!"0")] [c!"dbms", c!"a", c!"b"] =
      (.ok (), [([c!"dbms"], .dir), ([c!"f"], .file c!"0"), ([c!"dbms", c!"a"], .dir), ([c!"dbms", c!"a", c!"b"], .dir)]) ∧
    Tree.mkdirs [([c!"dbms"], .dir), ([c!"f"], .file c!"0")] [c!"f", c!"a"] = (.error .osError, [([c!"dbms"], .dir), ([c!"f"], .file c!"0")]) := by
  decide

/-- C112: `a/../f` with a plain file `f` and without `a`: the directory `a` is made before the failure is found out.
With a directory `f` there is no failure. -/
example : Tree.mkdirs [([c!"f"], .file c!"0")] [c!"a", c!"..", c!"f"] = (.error .osError, [([c!"f"], .file c!"0"), ([c!"a"], .dir)]) ∧
    Tree.mkdirs [([c!"f"], .dir)] [c!"a", c!"..", c!"f"] = (.ok (), [([c!"f"], .dir), ([c!"a"], .dir)]) := by
  decide

end WG
