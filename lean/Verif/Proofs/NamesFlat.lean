/-
Making the three files in a tree, and the agreement of the tree with the flat disk for proper names.
-/
import Verif.Proofs.Names
import Verif.Proofs.Gdbms

set_option linter.unusedSectionVars false
set_option linter.unusedSimpArgs false

namespace WG

theorem file_plain {name : Str} (hs : '/' ∉ name) (hn : Char.ofNat 0 ∉ name) : ∀ f ∈ fileNames name, PlainName f := by
  intro f hf
  simp only [fileNames, List.mem_cons, List.not_mem_nil, or_false] at hf
  rcases hf with rfl | rfl | rfl
  · refine ⟨by simp, by simp, by simp, ?_, ?_⟩ <;> simp [hs, hn]
  · refine ⟨by simp, by simp, by simp, ?_, ?_⟩ <;> simp [hs, hn]
  · refine ⟨by simp, by simp, by simp, ?_, ?_⟩ <;> simp [hs, hn]

theorem folder_kept {t u : Tree} {base : Place} (hf : Folder t base) (h1 : u.look base = some .dir) (hc : u.Closed) : Folder u base := by
  obtain ⟨up, l, e, hu⟩ := hf.above
  refine ⟨hf.plain, ⟨up, l, e, hc up l (by rw [← e, h1]; simp)⟩, fun s h => ?_⟩
  rw [h1] at h; simp at h

/-- The tree after a GDBMS has been made under a name without a slash. -/
def newLook (t : Tree) (base : Place) (name : Str) (q : Place) : Option Entry :=
  if q = homeOf base name ++ [c!"database_" ++ name ++ c!".json"] then some (.file c!"{}")
  else if q = homeOf base name ++ [c!"indexes_" ++ name ++ c!".json"] then some (.file newIndexText)
  else if q = homeOf base name ++ [c!"wiggle_number_" ++ name ++ c!".txt"] then some (.file c!"0")
  else if q = base ∨ q = homeOf base name then some .dir
  else t.look q

theorem ite_three {α : Type} {a b c base h q : Place} {x y z d o : α} (hab : a ≠ b) (hac : a ≠ c) (hbc : b ≠ c) (ha : a ≠ base) (hb : b ≠ base)
    (ha' : a ≠ h) (hb' : b ≠ h) :
    (if q = c then z else if q = base ∨ q = h then d else if q = b then y else if q = base ∨ q = h then d
      else if q = a then x else if q = base ∨ q = h then d else o) =
    if q = a then x else if q = b then y else if q = c then z else if q = base ∨ q = h then d else o := by
  by_cases h1 : q = a
  · subst h1; simp [hab, hac, ha, ha']
  · by_cases h2 : q = b
    · subst h2; simp [h1, hbc, hb, hb']
    · by_cases h3 : q = c
      · simp [h1, h2, h3, Ne.symm hbc, Ne.symm hac]
      · by_cases h4 : q = base ∨ q = h
        · simp [h1, h2, h3, h4]
        · simp [h1, h2, h3, h4]

theorem getNewPathsT_home {t : Tree} (hc : t.Closed) {base : Place} (hf : Folder t base) {name : Str} (hs : '/' ∉ name)
    (hn : Char.ofNat 0 ∉ name) (hh : ∀ s, t.look (homeOf base name) ≠ some (.file s))
    (hfree : ∀ f ∈ fileNames name, t.look (homeOf base name ++ [f]) = none ∧ homeOf base name ++ [f] ≠ base) :
    ∃ t1, getNewPathsT base name t = (.ok ⟨joinPath base (name ++ c!"/" ++ (c!"database_" ++ name ++ c!".json")),
        joinPath base (name ++ c!"/" ++ (c!"indexes_" ++ name ++ c!".json")),
        joinPath base (name ++ c!"/" ++ (c!"wiggle_number_" ++ name ++ c!".txt"))⟩, t1) ∧
      t1.Closed ∧ ∀ q, t1.look q = newLook t base name q := by
  have hpl := file_plain hs hn
  obtain ⟨fd, nd⟩ := hfree (c!"database_" ++ name ++ c!".json") (by simp [fileNames])
  obtain ⟨fi, ni⟩ := hfree (c!"indexes_" ++ name ++ c!".json") (by simp [fileNames])
  obtain ⟨fw, nw⟩ := hfree (c!"wiggle_number_" ++ name ++ c!".txt") (by simp [fileNames])
  have pd := hpl (c!"database_" ++ name ++ c!".json") (by simp [fileNames])
  have pi := hpl (c!"indexes_" ++ name ++ c!".json") (by simp [fileNames])
  have pw := hpl (c!"wiggle_number_" ++ name ++ c!".txt") (by simp [fileNames])
  have hlen : ∀ f : Str, homeOf base name ≠ homeOf base name ++ [f] := fun f e => by have := congrArg List.length e; simp at this
  have dne : ∀ f g : Str, f ≠ g → homeOf base name ++ [f] ≠ homeOf base name ++ [g] := fun f g h e => h (by simpa using e)
  have hdi := dne (c!"database_" ++ name ++ c!".json") (c!"indexes_" ++ name ++ c!".json") (by simp)
  have hdw := dne (c!"database_" ++ name ++ c!".json") (c!"wiggle_number_" ++ name ++ c!".txt") (by simp)
  have hiw := dne (c!"indexes_" ++ name ++ c!".json") (c!"wiggle_number_" ++ name ++ c!".txt") (by simp)
  -- database
  obtain ⟨t1, c1, r1, m1⟩ := createFileT_home hc hf hs hn hh c!"{}" pd nd
  rw [fd] at m1
  obtain ⟨o1, l1⟩ := m1
  have hb1 : t1.look base = some .dir := by rw [l1, madeLook, if_neg (Ne.symm nd)]; simp
  have hh1 : t1.look (homeOf base name) = some .dir := by rw [l1, madeLook, if_neg (hlen _)]; simp
  have hf1 := folder_kept hf hb1 c1
  -- indexes
  obtain ⟨t2, c2, r2, m2⟩ := createFileT_home c1 hf1 hs hn (by rw [hh1]; simp) newIndexText pi ni
  have fi1 : t1.look (homeOf base name ++ [c!"indexes_" ++ name ++ c!".json"]) = none := by
    rw [l1, madeLook, if_neg (Ne.symm hdi), if_neg (by simp only [not_or]; exact ⟨ni, Ne.symm (hlen _)⟩)]; exact fi
  rw [fi1] at m2
  obtain ⟨o2, l2⟩ := m2
  have hb2 : t2.look base = some .dir := by rw [l2, madeLook, if_neg (Ne.symm ni)]; simp
  have hh2 : t2.look (homeOf base name) = some .dir := by rw [l2, madeLook, if_neg (hlen _)]; simp
  have hf2 := folder_kept hf1 hb2 c2
  -- counter
  obtain ⟨t3, c3, r3, m3⟩ := createFileT_home c2 hf2 hs hn (by rw [hh2]; simp) c!"0" pw nw
  have fw2 : t2.look (homeOf base name ++ [c!"wiggle_number_" ++ name ++ c!".txt"]) = none := by
    rw [l2, madeLook, if_neg (Ne.symm hiw), if_neg (by simp only [not_or]; exact ⟨nw, Ne.symm (hlen _)⟩),
      l1, madeLook, if_neg (Ne.symm hdw), if_neg (by simp only [not_or]; exact ⟨nw, Ne.symm (hlen _)⟩)]; exact fw
  rw [fw2] at m3
  obtain ⟨o3, l3⟩ := m3
  have k1 : createDatabaseT base name t = (.ok (joinPath base (name ++ c!"/" ++ (c!"database_" ++ name ++ c!".json"))), t1) := Prod.ext o1 r1
  have k2 : createIndexesT base name t1 = (.ok (joinPath base (name ++ c!"/" ++ (c!"indexes_" ++ name ++ c!".json"))), t2) := Prod.ext o2 r2
  have k3 : createWiggleNumberT base name t2 = (.ok (joinPath base (name ++ c!"/" ++ (c!"wiggle_number_" ++ name ++ c!".txt"))), t3) := Prod.ext o3 r3
  refine ⟨t3, ?_, c3, fun q => ?_⟩
  · unfold getNewPathsT
    rw [k1]; simp only
    rw [k2]; simp only
    rw [k3]
  · rw [l3, madeLook, l2, madeLook, l1, madeLook, newLook]
    exact ite_three hdi hdw hiw nd ni (hlen _).symm (hlen _).symm

/-! ### The flat disk -/

theorem shows_canMkdir {t : Tree} {base : Place} {fs : FS} {folder d : Str} (h : Shows t base fs folder) (hd : PlainName d) :
    CanMkdir fs folder d ↔ ∀ s, t.look (base ++ [d]) ≠ some (.file s) := by
  unfold CanMkdir
  rw [h.dirs d hd, h.plain d hd]
  constructor
  · rintro (h1 | h1) s hs
    · rw [h1] at hs; simp at hs
    · exact h1 ⟨s, hs⟩
  · intro h1
    right
    rintro ⟨s, hs⟩
    exact h1 s hs

theorem withDir_folders {fs : FS} {f d : Str} (h : CanMkdir fs f d) (x : Str) :
    x ∈ (withDir fs f d).folders ↔ x ∈ fs.folders ∨ (x = f ∧ (f, d) ∉ fs.dirs) := by
  rw [withDir_def]
  by_cases h1 : (f, d) ∈ fs.dirs
  · simp [h1]
  · rcases h with h | h
    · exact absurd h h1
    · simp only [h1, h, if_false]
      by_cases h2 : f ∈ fs.folders
      · simp only [h2, if_true]; constructor
        · exact Or.inl
        · rintro (h3 | ⟨h3, -⟩)
          · exact h3
          · rw [h3]; exact h2
      · simp [h2]

/-- A directory more, on both sides. -/
theorem shows_dir {t u : Tree} (hc : t.Closed) {base : Place} {fs : FS} {folder d : Str} (h : Shows t base fs folder) (hd : PlainName d)
    (hm : CanMkdir fs folder d) (hu : ∀ q, u.look q = if q = base ∨ q = base ++ [d] then some .dir else t.look q) :
    Shows u base (withDir fs folder d) folder := by
  have hlen : ∀ f : Str, base ++ [f] ≠ base := fun f e => by have := congrArg List.length e; simp at this
  have hlen2 : ∀ f g : Str, base ++ [f, g] ≠ base := fun f g e => by have := congrArg List.length e; simp at this
  have hlen3 : ∀ f g k : Str, base ++ [f, g] ≠ base ++ [k] := fun f g k e => by have := congrArg List.length e; simp at this
  have hu1 : ∀ x, u.look (base ++ [x]) = if x = d then some .dir else t.look (base ++ [x]) := by
    intro x
    rw [hu]
    by_cases hx : x = d
    · simp [hx]
    · rw [if_neg (by simp only [not_or]; exact ⟨hlen x, fun e => hx (by simpa using e)⟩), if_neg hx]
  have hu2 : ∀ x y, u.look (base ++ [x, y]) = t.look (base ++ [x, y]) := by
    intro x y
    rw [hu, if_neg (by simp only [not_or]; exact ⟨hlen2 x y, hlen3 x y d⟩)]
  refine ⟨?_, fun x hx => ?_, fun x hx => ?_, fun x y s hx hy => ?_, fun x y => ?_⟩
  · rw [withDir_folders hm, h.isThere, h.dirs d hd, hu]
    simp only [true_and, true_or, if_true, iff_true]
    by_cases h1 : t.look base = some .dir
    · exact Or.inl h1
    · right
      intro h2
      exact h1 (hc base d (by rw [h2]; simp))
  · rw [hu1]
    by_cases e : x = d
    · rw [if_pos e, e]
      simp only [iff_true]
      exact withDir_mem hm
    · rw [if_neg e, ← h.dirs x hx]
      constructor
      · intro h1
        rcases withDir_dirs h1 with h2 | h2
        · exact h2
        · simp at h2; exact absurd h2 e
      · exact withDir_dirs_mono
  · rw [withDir_plain, h.plain x hx, hu1]
    by_cases e : x = d
    · rw [if_pos e, e]
      have := (shows_canMkdir h hd).1 hm
      simp only [reduceCtorEq, Option.some.injEq, exists_false, iff_false, not_exists]
      exact this
    · rw [if_neg e]
  · rw [hu2, ← h.files x y s hx hy, withDir_get]
  · rw [hu2]; exact h.shallow x y

/-- A file more, on both sides. -/
theorem shows_file {t u : Tree} {base : Place} {fs : FS} {folder d f : Str} (h : Shows t base fs folder)
    (s : Str) (hu : ∀ q, u.look q = if q = base ++ [d, f] then some (.file s) else t.look q) :
    Shows u base (fs.set ⟨folder, d, f⟩ s) folder := by
  have hlen : ∀ x : Str, base ++ [x] ≠ base ++ [d, f] := fun x e => by have := congrArg List.length e; simp at this
  have hlen0 : base ≠ base ++ [d, f] := fun e => by have := congrArg List.length e; simp at this
  refine ⟨?_, fun x hx => ?_, fun x hx => ?_, fun x y s' hx hy => ?_, fun x y => ?_⟩
  · rw [hu, if_neg hlen0]; exact h.isThere
  · rw [hu, if_neg (hlen x)]; exact h.dirs x hx
  · rw [hu, if_neg (hlen x)]; exact h.plain x hx
  · rw [hu]
    by_cases e : x = d ∧ y = f
    · rw [e.1, e.2, if_pos rfl, FS.get_set_self]; simp
    · rw [if_neg (by simpa using e), FS.get_set_ne (by intro e'; apply e; simp at e'; exact ⟨e'.1.symm, e'.2.symm⟩), h.files x y s' hx hy]
  · rw [hu]
    split
    · simp
    · exact h.shallow x y

/-- Making one file: the tree and the flat disk agree, whatever happens. -/
theorem createFileT_shows {t : Tree} (hc : t.Closed) {base : Place} (hf : Folder t base) {fs : FS} {folder name : Str} (hp : PlainName name)
    (h : Shows t base fs folder) {pre ext : Str} (text : Str) (hpn : PlainName (pre ++ name ++ ext)) :
    (createFileT base name pre ext text t).2.Closed ∧ Folder (createFileT base name pre ext text t).2 base ∧
    Shows (createFileT base name pre ext text t).2 base ((createNewFile ⟨folder, name, pre ++ name ++ ext⟩ text).run fs).2 folder ∧
    (createFileT base name pre ext text t).1 =
      match ((createNewFile ⟨folder, name, pre ++ name ++ ext⟩ text).run fs).1 with
      | .ok p => .ok (base ++ [p.dir, p.file])
      | .error e => .error e := by
  have hho : homeOf base name = base ++ [name] := by simp only [homeOf, hp.nonempty, hp.notDot, hp.notDots, if_false]
  have happ : ∀ x : Str, base ++ [name] ++ [x] = base ++ [name, x] := fun x => by simp
  by_cases hm : CanMkdir fs folder name
  · have hh := (shows_canMkdir h hp).1 hm
    have hne : base ++ [name, pre ++ name ++ ext] ≠ base := fun e => by have := congrArg List.length e; simp at this
    obtain ⟨t1, c1, r1, m1⟩ := createFileT_home hc hf hp.slash hp.nul (by rw [hho]; exact hh) text hpn (by rw [hho, happ]; exact hne)
    rw [hho, happ] at m1
    rw [r1]
    have hfl := fun s => h.files name (pre ++ name ++ ext) s hp hpn
    cases hl : t.look (base ++ [name, pre ++ name ++ ext]) with
    | none =>
      rw [hl] at m1
      obtain ⟨o1, l1⟩ := m1
      have hg : fs.get ⟨folder, name, pre ++ name ++ ext⟩ = none := by
        cases hg : fs.get ⟨folder, name, pre ++ name ++ ext⟩ with
        | none => rfl
        | some s => rw [(hfl s).1 hg] at hl; simp at hl
      have hrun := createNewFile_new (p := ⟨folder, name, pre ++ name ++ ext⟩) (text := text) hm hg
      rw [hrun, o1]
      have hb1 : t1.look base = some .dir := by rw [l1, madeLook, if_neg (Ne.symm hne)]; simp
      refine ⟨c1, folder_kept hf hb1 c1, ?_, ?_⟩
      · -- first the directory, then the file
        obtain ⟨t0, -, c0, l0⟩ := mkdirs_home hc hf hp.slash hp.nul (by rw [hho]; exact hh)
        have hs0 := shows_dir hc h hp hm (by rw [hho] at l0; exact l0)
        refine shows_file hs0 text (fun q => ?_)
        rw [l1, madeLook, l0, hho]
      · rw [join_file hp.slash hpn]; simp [hp.nonempty, hp.notDot]
    | some e =>
      cases e with
      | dir => exact absurd hl (h.shallow _ _)
      | file s =>
        rw [hl] at m1
        obtain ⟨o1, l1⟩ := m1
        have hg := (hfl s).2 hl
        have hrun := createNewFile_taken (p := ⟨folder, name, pre ++ name ++ ext⟩) (text := text) hm (by rw [hg]; simp)
        rw [hrun, o1]
        have hb1 : t1.look base = some .dir := by rw [l1]; simp
        exact ⟨c1, folder_kept hf hb1 c1, shows_dir hc h hp hm l1, rfl⟩
  · have hrun := createNewFile_blocked (p := ⟨folder, name, pre ++ name ++ ext⟩) (text := text) hm
    rw [hrun]
    have : ∃ s, t.look (base ++ [name]) = some (.file s) := by
      rw [shows_canMkdir h hp] at hm
      simpa using hm
    obtain ⟨s, hs⟩ := this
    have hbd : t.look base = some .dir := hc _ _ (by rw [hs]; simp)
    have hpl : ∀ x ∈ base ++ [name], PlainName x := by
      intro x hx
      rcases List.mem_append.1 hx with hx | hx
      · exact hf.plain x hx
      · simp at hx; rw [hx]; exact hp
    have hmk := mkdirs_place hc hpl hbd
    rw [hs] at hmk
    have : createFileT base name pre ext text t = (.error .osError, t) := by
      unfold createFileT
      rw [join_dir hp.slash]
      simp only [hp.nonempty, hp.notDot, or_self, if_false, hmk]
    rw [this]
    exact ⟨hc, hf, h, rfl⟩

/-- Making a GDBMS under a proper name: the tree and the flat disk agree. -/
theorem getNewPathsT_shows {t : Tree} (hc : t.Closed) {base : Place} (hf : Folder t base) {fs : FS} {folder name : Str} (hp : PlainName name)
    (h : Shows t base fs folder) :
    (getNewPathsT base name t).2.Closed ∧ Folder (getNewPathsT base name t).2 base ∧
    Shows (getNewPathsT base name t).2 base ((getNewGdbmsFilePaths name folder).run fs).2 folder ∧
    (getNewPathsT base name t).1 =
      match ((getNewGdbmsFilePaths name folder).run fs).1 with
      | .ok g => .ok (treePaths base g)
      | .error e => .error e := by
  have hpl := file_plain hp.slash hp.nul
  obtain ⟨a1, a2, a3, a4⟩ := createFileT_shows hc hf hp h c!"{}" (hpl (c!"database_" ++ name ++ c!".json") (by simp [fileNames]))
  unfold getNewGdbmsFilePaths createNewDatabase createNewIndexesFile createNewWiggleNumberFile getNewPathsT createDatabaseT createIndexesT createWiggleNumberT
  rw [run_bind]
  rw [show (⟨folder, name, _⟩ : Path) = dbPath folder name from rfl] at a3 a4
  rcases e1 : createFileT base name c!"database_" c!".json" c!"{}" t with ⟨r1, t1⟩
  rcases f1 : (createNewFile (dbPath folder name) c!"{}").run fs with ⟨s1, fs1⟩
  rw [e1] at a1 a2 a3 a4
  rw [f1] at a3 a4
  simp only at a1 a2 a3 a4
  cases s1 with
  | error e => subst a4; exact ⟨a1, a2, a3, rfl⟩
  | ok p1 =>
    subst a4
    simp only
    obtain ⟨b1, b2, b3, b4⟩ := createFileT_shows a1 a2 hp a3 newIndexText (hpl (c!"indexes_" ++ name ++ c!".json") (by simp [fileNames]))
    rw [run_bind]
    rw [show (⟨folder, name, _⟩ : Path) = idxPath folder name from rfl] at b3 b4
    rcases e2 : createFileT base name c!"indexes_" c!".json" newIndexText t1 with ⟨r2, t2⟩
    rcases f2 : (createNewFile (idxPath folder name) newIndexText).run fs1 with ⟨s2, fs2⟩
    rw [e2] at b1 b2 b3 b4
    rw [f2] at b3 b4
    simp only at b1 b2 b3 b4
    cases s2 with
    | error e => subst b4; exact ⟨b1, b2, b3, rfl⟩
    | ok p2 =>
      subst b4
      simp only
      obtain ⟨d1, d2, d3, d4⟩ := createFileT_shows b1 b2 hp b3 c!"0" (hpl (c!"wiggle_number_" ++ name ++ c!".txt") (by simp [fileNames]))
      rw [run_bind]
      rw [show (⟨folder, name, _⟩ : Path) = wnPath folder name from rfl] at d3 d4
      rcases e3 : createFileT base name c!"wiggle_number_" c!".txt" c!"0" t2 with ⟨r3, t3⟩
      rcases f3 : (createNewFile (wnPath folder name) c!"0").run fs2 with ⟨s3, fs3⟩
      rw [e3] at d1 d2 d3 d4
      rw [f3] at d3 d4
      simp only at d1 d2 d3 d4
      cases s3 with
      | error e => subst d4; exact ⟨d1, d2, d3, rfl⟩
      | ok p3 => subst d4; exact ⟨d1, d2, d3, rfl⟩

end WG
