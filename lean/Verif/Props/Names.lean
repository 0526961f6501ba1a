/-
C81, C82: what typed names do.
-/
import Verif.Proofs.NamesFlat

set_option linter.unusedSectionVars false
set_option linter.unusedSimpArgs false

namespace WG

/-! ### Helpers -/

theorem find_mem {p : Place} {e : Entry} {t : Tree} (h : findEntry p t = some e) : ∃ x ∈ t, x.1 = p := by
  induction t with
  | nil => simp [findEntry] at h
  | cons x t ih =>
    obtain ⟨q, f⟩ := x
    simp only [findEntry] at h
    by_cases hq : q = p
    · exact ⟨(q, f), by simp, hq⟩
    · rw [if_neg hq] at h
      obtain ⟨x, hx, e⟩ := ih h
      exact ⟨x, by simp [hx], e⟩

theorem mem_subDirs (t : Tree) (base : Place) (x : Str) : x ∈ t.subDirs base ↔ t.look (base ++ [x]) = some .dir := by
  simp only [Tree.subDirs, List.mem_filterMap]
  constructor
  · rintro ⟨y, -, hy⟩
    split at hy
    · rename_i h
      have := List.dropLast_concat_getLast h.1
      rw [List.getLast?_eq_some_getLast h.1] at hy
      simp at hy
      rw [← h.2.1, ← hy, this]
      exact h.2.2
    · simp at hy
  · intro h
    have h' := h
    simp only [Tree.look] at h'
    rw [if_neg (by simp)] at h'
    obtain ⟨y, hy, e⟩ := find_mem h'
    refine ⟨y, hy, ?_⟩
    rw [e]
    simp [h]

theorem mem_insertSorted (x y : Str) (l : List Str) : x ∈ insertSorted y l ↔ x = y ∨ x ∈ l := by
  induction l with
  | nil => simp [insertSorted]
  | cons z l ih =>
    simp only [insertSorted]
    split
    · simp
    · simp [ih]; grind

theorem mem_sortStrs (x : Str) (l : List Str) : x ∈ sortStrs l ↔ x ∈ l := by
  induction l with
  | nil => simp [sortStrs]
  | cons y l ih => simp [sortStrs, mem_insertSorted, ih]

theorem closed_of_all {t : Tree} (h : ∀ x ∈ t, x.1 ≠ [] ∧ t.look x.1.dropLast = some .dir) : t.Closed := by
  intro p c hp
  simp only [Tree.look] at hp
  rw [if_neg (by simp)] at hp
  cases e : findEntry (p ++ [c]) t with
  | none => exact absurd e hp
  | some f =>
    obtain ⟨x, hx, e'⟩ := find_mem e
    have := (h x hx).2
    rw [e'] at this
    simpa using this

/-! ### C81 -/

/-- The place and text of the three files of a new GDBMS. -/
def newFiles (name : Str) : List (Str × Str) :=
  [(c!"database_" ++ name ++ c!".json", c!"{}"),
   (c!"indexes_" ++ name ++ c!".json", c!"{\"node_relationships\": {}, \"node_labels\": [], \"relationship_names\": []}"),
   (c!"wiggle_number_" ++ name ++ c!".txt", c!"0")]

/-- C81: where a GDBMS goes, for every name without a slash and NUL: the directory `homeOf base name` gets the three files; nothing else
on the disk changes, except that the DBMS folder and this directory exist afterwards.  The returned paths lead to the files. -/
theorem C81_where (t : Tree) (base : Place) (name : Str) (hc : t.Closed) (hf : Folder t base) (hs : '/' ∉ name) (hn : Char.ofNat 0 ∉ name)
    (hh : ∀ s, t.look (homeOf base name) ≠ some (.file s))
    (hfree : ∀ f ∈ fileNames name, t.look (homeOf base name ++ [f]) = none ∧ homeOf base name ++ [f] ≠ base) :
    ∃ g t1, getNewPathsT base name t = (.ok g, t1) ∧
      t1.look base = some .dir ∧ t1.look (homeOf base name) = some .dir ∧
      (∀ f text, (f, text) ∈ newFiles name → t1.look (homeOf base name ++ [f]) = some (.file text)) ∧
      [g.db, g.idx, g.wn].map t1.resolve = (fileNames name).map (fun f => .ok (homeOf base name ++ [f])) ∧
      ∀ q, q ≠ base → q ≠ homeOf base name → (∀ f ∈ fileNames name, q ≠ homeOf base name ++ [f]) → t1.look q = t.look q := by
  obtain ⟨t1, h1, h2, h3⟩ := getNewPathsT_home hc hf hs hn hh hfree
  obtain ⟨up, l, hb, hu⟩ := hf.above
  have hpl := file_plain hs hn
  have hlen : ∀ f : Str, homeOf base name ≠ homeOf base name ++ [f] := fun f e => by have := congrArg List.length e; simp at this
  have dne : ∀ f g : Str, f ≠ g → homeOf base name ++ [f] ≠ homeOf base name ++ [g] := fun f g h e => h (by simpa using e)
  have nd := (hfree (c!"database_" ++ name ++ c!".json") (by simp [fileNames])).2
  have ni := (hfree (c!"indexes_" ++ name ++ c!".json") (by simp [fileNames])).2
  have nw := (hfree (c!"wiggle_number_" ++ name ++ c!".txt") (by simp [fileNames])).2
  have hbd : t1.look base = some .dir := by
    rw [h3, newLook, if_neg (Ne.symm nd), if_neg (Ne.symm ni), if_neg (Ne.symm nw)]; simp
  have hhd : t1.look (homeOf base name) = some .dir := by
    rw [h3, newLook, if_neg (hlen _), if_neg (hlen _), if_neg (hlen _)]; simp
  refine ⟨_, t1, h1, hbd, hhd, ?_, ?_, ?_⟩
  · intro f text hm
    simp only [newFiles, List.mem_cons, List.not_mem_nil, or_false, Prod.mk.injEq] at hm
    rw [h3, newLook]
    rcases hm with ⟨rfl, rfl⟩ | ⟨rfl, rfl⟩ | ⟨rfl, rfl⟩
    · rw [if_pos rfl]
    · rw [if_neg (dne _ _ (by simp)), if_pos rfl]; rfl
    · rw [if_neg (dne _ _ (by simp)), if_neg (dne _ _ (by simp)), if_pos rfl]
  · simp only [List.map_cons, List.map_nil, fileNames]
    rw [resolve_home h2 hf.plain hb hbd hs hn hhd (hpl _ (by simp [fileNames])), resolve_home h2 hf.plain hb hbd hs hn hhd (hpl _ (by simp [fileNames])),
      resolve_home h2 hf.plain hb hbd hs hn hhd (hpl _ (by simp [fileNames]))]
  · intro q q1 q2 q3
    rw [h3, newLook, if_neg (q3 _ (by simp [fileNames])), if_neg (q3 _ (by simp [fileNames])), if_neg (q3 _ (by simp [fileNames])),
      if_neg (by simp only [not_or]; exact ⟨q1, q2⟩)]

/-- C81 (partial: for proper names only): the files are in the directory of that name in the DBMS folder, and nothing outside of it
changes. -/
theorem C81_inside_partial (t : Tree) (base : Place) (name : Str) (hc : t.Closed) (hf : Folder t base) (hp : PlainName name)
    (hh : ∀ s, t.look (base ++ [name]) ≠ some (.file s)) (hfree : ∀ f ∈ fileNames name, t.look (base ++ [name, f]) = none) :
    ∃ g t1, getNewPathsT base name t = (.ok g, t1) ∧
      (∀ f text, (f, text) ∈ newFiles name → t1.look (base ++ [name, f]) = some (.file text)) ∧
      ∀ q, q ≠ base → ¬ base ++ [name] <+: q → t1.look q = t.look q := by
  have hho : homeOf base name = base ++ [name] := by simp only [homeOf, hp.nonempty, hp.notDot, hp.notDots, if_false]
  have happ : ∀ x : Str, base ++ [name] ++ [x] = base ++ [name, x] := fun x => by simp
  obtain ⟨g, t1, h1, -, -, h2, -, h3⟩ := C81_where t base name hc hf hp.slash hp.nul (by rw [hho]; exact hh) (by
    intro f hm
    rw [hho, happ]
    exact ⟨hfree f hm, fun e => by have := congrArg List.length e; simp at this⟩)
  rw [hho] at h2 h3
  refine ⟨g, t1, h1, fun f text hm => by rw [← happ]; exact h2 f text hm, fun q q1 q2 => ?_⟩
  refine h3 q q1 (fun e => q2 (e ▸ List.prefix_rfl)) (fun f _ e => q2 ?_)
  rw [e, happ]
  exact ⟨[f], by simp⟩

/-- C81, violated: `""` puts the files into the root of the file system, `..` beside the DBMS folder. -/
theorem C81_outside (t : Tree) (base : Place) (name : Str) (hc : t.Closed) (hf : Folder t base) (hname : name = [] ∨ name = c!"..")
    (hfree : ∀ f ∈ fileNames name, t.look (homeOf base name ++ [f]) = none ∧ homeOf base name ++ [f] ≠ base) :
    ∃ g t1, getNewPathsT base name t = (.ok g, t1) ∧
      ∀ f ∈ fileNames name, ∃ p text, ¬ base <+: p ∧ p = (if name = [] then [f] else base.dropLast ++ [f]) ∧
        t.look p = none ∧ t1.look p = some (.file text) := by
  obtain ⟨up, l, hb, hu⟩ := hf.above
  have hho : homeOf base name = if name = [] then [] else base.dropLast := by
    rcases hname with h | h <;> simp [homeOf, h]
  have hs : '/' ∉ name := by rcases hname with h | h <;> rw [h] <;> decide
  have hn : Char.ofNat 0 ∉ name := by rcases hname with h | h <;> rw [h] <;> decide
  have hdir : t.look (homeOf base name) = some .dir := by
    rw [hho]
    split
    · rfl
    · rw [hb]; simp [hu]
  obtain ⟨g, t1, h1, -, -, h2, -, -⟩ := C81_where t base name hc hf hs hn (by rw [hdir]; simp) hfree
  refine ⟨g, t1, h1, fun f hm => ?_⟩
  obtain ⟨text, ht⟩ : ∃ text, (f, text) ∈ newFiles name := by
    simp only [fileNames, List.mem_cons, List.not_mem_nil, or_false] at hm
    rcases hm with rfl | rfl | rfl
    · exact ⟨_, .head _⟩
    · exact ⟨_, .tail _ (.head _)⟩
    · exact ⟨_, .tail _ (.tail _ (.head _))⟩
  refine ⟨homeOf base name ++ [f], text, ?_, ?_, (hfree f hm).1, h2 f text ht⟩
  · rintro ⟨r, hr⟩
    have hlen := congrArg List.length hr
    have : (homeOf base name).length ≤ up.length := by
      rw [hho]; split
      · simp
      · rw [hb]; simp
    have hr0 : r = [] := by
      have hbl : base.length = up.length + 1 := by rw [hb]; simp
      simp only [List.length_append, List.length_cons, List.length_nil] at hlen
      exact List.length_eq_zero_iff.1 (by omega)
    rw [hr0, List.append_nil] at hr
    exact (hfree f hm).2 hr.symm
  · rw [hho]; split <;> simp

/-- C81, violated: a name with a slash ends the program (the exception is no ValueError, which is all that is caught), after making
directories, and no file.  (On a disk without directories called `database_…`.) -/
theorem C81_slash (t : Tree) (base : Place) (name : Str) (rest : List Str) (hc : t.Closed) (hf : Folder t base) (hs : '/' ∈ name) (hn : Char.ofNat 0 ∉ name)
    (hd : ∀ p c, c!"database_" <+: c → t.look (p ++ [c]) ≠ some .dir) (hb : ∀ c ∈ base, ¬ c!"database_" <+: c)
    (hc2 : ∀ c ∈ pathParts name, ¬ c!"database_" <+: c) :
    ∃ e t1, createNewDbmsT base (name :: rest) t = (.error e, t1) ∧ (e = .fileNotFound ∨ e = .osError) ∧ SameFiles t t1 := by
  obtain ⟨e, t1, h1, h2, h3⟩ := createFileT_slash (pre := c!"database_") (ext := c!".json") (text := c!"{}") hc (plain_noNul hf.plain) hn hs
    (by decide) ⟨'d', by decide, by decide⟩ (by decide) ⟨'j', by decide, by decide⟩ hd (by
      intro c hm
      unfold joinPath at hm
      split at hm
      · exact hc2 c hm
      · rcases List.mem_append.1 hm with h | h
        · exact hb c h
        · exact hc2 c h)
  refine ⟨e, t1, ?_, h2, h3.files⟩
  have : getNewPathsT base name t = (.error e, t1) := by
    unfold getNewPathsT createDatabaseT
    rw [h1]
  unfold createNewDbmsT
  rw [this]
  rcases h2 with rfl | rfl <;> simp [PyErr.isValueError]

/-- C81: a name with a NUL changes nothing; another one is asked for. -/
theorem C81_nul (t : Tree) (base : Place) (name : Str) (rest : List Str) (hn : Char.ofNat 0 ∈ name) :
    createNewDbmsT base (name :: rest) t = createNewDbmsT base rest t := by
  have hnul : hasNul (joinPath base name).reverse = true := by
    have : hasNul (pathParts name) = true := by
      obtain ⟨w, hw, hm⟩ := splitChar_mem (sep := '/') hn (by decide)
      simp only [hasNul, List.any_eq_true, List.contains_iff_mem]
      refine ⟨w, ?_, hm⟩
      simp only [pathParts, List.mem_filter, decide_eq_true_eq]
      refine ⟨hw, fun e => ?_, fun e => ?_⟩
      · rw [e] at hm; simp at hm
      · rw [e] at hm; revert hm; decide
    have h2 : hasNul (joinPath base name) = true := by
      unfold joinPath
      split
      · exact this
      · rw [hasNul_append, this]; simp
    simp only [hasNul, List.any_reverse] at h2 ⊢
    exact h2
  have : getNewPathsT base name t = (.error .value, t) := by
    unfold getNewPathsT createDatabaseT createFileT Tree.mkdirs
    rw [mkdirRev_nul hnul]
  conv => lhs; unfold createNewDbmsT
  rw [this]
  simp [PyErr.isValueError]

/-- C81: the menu of later runs has the new name if and only if it is a proper name (and not one of the hidden ones): what is stored
under `""`, `.` and `..` cannot be selected again. -/
theorem C81_offered (t : Tree) (base : Place) (name : Str) (hc : t.Closed) (hf : Folder t base) (hs : '/' ∉ name) (hn : Char.ofNat 0 ∉ name)
    (hh : ∀ s, t.look (homeOf base name) ≠ some (.file s))
    (hfree : ∀ f ∈ fileNames name, t.look (homeOf base name ++ [f]) = none ∧ homeOf base name ++ [f] ≠ base) (x : Str) :
    x ∈ listExistingT menuSkips base (getNewPathsT base name t).2 ↔
      x ∉ menuSkips ∧ (x ∈ t.subDirs base ∨ (PlainName name ∧ x = name)) := by
  obtain ⟨t1, h1, h2, h3⟩ := getNewPathsT_home hc hf hs hn hh hfree
  obtain ⟨up, l, hb, hu⟩ := hf.above
  rw [h1]
  simp only [listExistingT, mem_sortStrs, List.mem_filter, Bool.not_eq_true', List.contains_eq_mem, decide_eq_false_iff_not, mem_subDirs]
  rw [and_comm]
  refine and_congr_right fun _ => ?_
  have hbase : base ++ [x] ≠ base := fun e => by have := congrArg List.length e; simp at this
  have hlen2 : (base ++ [x]).length = up.length + 2 := by rw [hb]; simp
  have hcases : (homeOf base name = base ++ [name] ∧ PlainName name) ∨ (homeOf base name).length ≤ up.length + 1 ∧ ¬ PlainName name := by
    by_cases h1 : name = []
    · right; simp only [homeOf, h1, if_true]; exact ⟨(by simp), fun h => h.nonempty rfl⟩
    · by_cases h2 : name = c!"."
      · right; simp only [homeOf, h2]; exact ⟨(by rw [hb]; simp), fun h => h.notDot rfl⟩
      · by_cases h3 : name = c!".."
        · right; simp only [homeOf, h3]; exact ⟨(by rw [hb]; simp), fun h => h.notDots rfl⟩
        · left; exact ⟨(by simp only [homeOf, h1, h2, h3, if_false]), ⟨h1, h2, h3, hs, hn⟩⟩
  have hfile : ∀ f ∈ fileNames name, base ++ [x] = homeOf base name ++ [f] → (t.look (base ++ [x]) = none ∧ ¬ (PlainName name ∧ x = name)) := by
    intro f hm e
    refine ⟨by rw [e]; exact (hfree f hm).1, fun hp => ?_⟩
    rcases hcases with ⟨h, -⟩ | ⟨-, h⟩
    · rw [h] at e; have := congrArg List.length e; simp at this
    · exact h hp.1
  rw [h3, newLook]
  split
  · rename_i e; have := hfile _ (by simp [fileNames]) e; simp [this.1]; exact fun a b => this.2 ⟨a, b⟩
  · split
    · rename_i e; have := hfile _ (by simp [fileNames]) e; simp [this.1]; exact fun a b => this.2 ⟨a, b⟩
    · split
      · rename_i e; have := hfile _ (by simp [fileNames]) e; simp [this.1]; exact fun a b => this.2 ⟨a, b⟩
      · simp only [hbase, false_or]
        rcases hcases with ⟨h, hp⟩ | ⟨h, hp⟩
        · rw [h]
          by_cases hx : x = name
          · simp [hx, hp]
          · rw [if_neg (fun e => hx (by simpa using e))]; simp [hx]
        · rw [if_neg (fun e => ?_)]
          · simp [hp]
          · have := congrArg List.length e
            rw [hlen2] at this; omega

/-! ### C82 -/

/-- C82: for proper names the directory tree does exactly what the flat disk of the other properties does: same answers, same
exceptions, and the same content of the DBMS folder afterwards. -/
theorem C82_flat (base : Place) (folder : Str) (names : List Str) (hp : ∀ n ∈ names, PlainName n) : ∀ (t : Tree) (fs : FS), t.Closed → Folder t base →
    Shows t base fs folder →
    Shows (createNewDbmsT base names t).2 base ((createNewDbms folder names).run fs).2 folder ∧
    (createNewDbmsT base names t).1 = match ((createNewDbms folder names).run fs).1 with
      | .ok none => .ok none
      | .ok (some (g, rest)) => .ok (some (treePaths base g, rest))
      | .error e => .error e := by
  induction names with
  | nil => intro t fs _ _ h; exact ⟨h, rfl⟩
  | cons name rest ih =>
    intro t fs hc hf h
    obtain ⟨h1, h2, h3, h4⟩ := getNewPathsT_shows hc hf (hp name (by simp)) h
    unfold createNewDbmsT createNewDbms
    rw [run_tryCatch, run_bind]
    rcases e1 : getNewPathsT base name t with ⟨r, t1⟩
    rcases e2 : (getNewGdbmsFilePaths name folder).run fs with ⟨r', fs1⟩
    rw [e1] at h1 h2 h3 h4
    rw [e2] at h3 h4
    simp only at h1 h2 h3 h4
    cases r' with
    | ok g => subst h4; exact ⟨h3, rfl⟩
    | error e =>
      subst h4
      simp only
      by_cases hv : e.isValueError = true
      · rw [if_pos hv]
        simp only [hv, if_true]
        exact ih (fun n hn => hp n (by simp [hn])) t1 fs1 h1 h2 h3
      · rw [if_neg hv]
        simp only [hv]
        exact ⟨h3, rfl⟩

/-! ### Examples -/

/-- A disk with a project in `/w`, its DBMS folder and one GDBMS in it. -/
def demoTree : Tree :=
  [([c!"w"], .dir), ([c!"w", c!"dbms"], .dir), ([c!"w", c!"dbms", c!"old"], .dir), ([c!"w", c!"dbms", c!"old", c!"database_old.json"], .file c!"{}"),
   ([c!"w", c!"README.md"], .file c!"hello")]

/-- Its DBMS folder. -/
def demoBase : Place := [c!"w", c!"dbms"]

theorem demoTree_closed : demoTree.Closed := closed_of_all (by decide)

theorem demoTree_folder : Folder demoTree demoBase :=
  ⟨by decide, ⟨[c!"w"], c!"dbms", rfl, rfl⟩, by simp [show demoTree.look demoBase = some .dir from rfl]⟩

/-- The project without a DBMS folder. -/
def bareTree : Tree := [([c!"w"], .dir)]

theorem bareTree_closed : bareTree.Closed := closed_of_all (by decide)

theorem bareTree_folder : Folder bareTree demoBase :=
  ⟨by decide, ⟨[c!"w"], c!"dbms", rfl, rfl⟩, by simp [show bareTree.look demoBase = none from rfl]⟩

-- a proper name, with and without a DBMS folder
example := C81_where demoTree demoBase c!"new" demoTree_closed demoTree_folder (by decide) (by decide)
  (by simp [show demoTree.look (homeOf demoBase c!"new") = none from rfl]) (by decide)
example := C81_inside_partial bareTree demoBase c!"new" bareTree_closed bareTree_folder (by decide)
  (by simp [show bareTree.look (demoBase ++ [c!"new"]) = none from rfl]) (by decide)
-- pressing Enter, and `..`
example := C81_outside demoTree demoBase [] demoTree_closed demoTree_folder (Or.inl rfl) (by decide)
example := C81_outside bareTree demoBase c!".." bareTree_closed bareTree_folder (Or.inr rfl) (by decide)
example : ((getNewPathsT demoBase c!"" demoTree).2.look [c!"database_.json"]) = some (.file c!"{}") := by decide
example : ((getNewPathsT demoBase c!".." demoTree).2.look [c!"w", c!"database_...json"]) = some (.file c!"{}") := by decide
example : ((getNewPathsT demoBase c!"." demoTree).2.look [c!"w", c!"dbms", c!"database_..json"]) = some (.file c!"{}") := by decide

/-- No place of a tree ends in such a name. -/
theorem demoTree_noDir (p : Place) (c : Str) (h : c!"database_" <+: c) : demoTree.look (p ++ [c]) ≠ some .dir := by
  intro hl
  have hl' := hl
  simp only [Tree.look] at hl'
  rw [if_neg (by simp)] at hl'
  obtain ⟨x, hx, e⟩ := find_mem hl'
  have key : ∀ x ∈ demoTree, ∀ c, x.1.getLast? = some c → c!"database_" <+: c → demoTree.look x.1 ≠ some .dir := by
    intro x hx
    simp only [demoTree, List.mem_cons, List.not_mem_nil, or_false] at hx
    rcases hx with rfl | rfl | rfl | rfl | rfl <;> intro c hc <;> simp at hc <;> subst hc <;> decide
  exact key x hx c (by rw [e]; simp) h (by rw [e]; exact hl)

-- a name with a slash: directories are left, and the menu then offers the first one, which has no files
example := C81_slash demoTree demoBase c!"a/b" [c!"c"] demoTree_closed demoTree_folder (by decide) (by decide) demoTree_noDir (by decide) (by decide)
example := C81_slash demoTree demoBase c!"/tmp/x" [] demoTree_closed demoTree_folder (by decide) (by decide) demoTree_noDir (by decide) (by decide)
example : (createNewDbmsT demoBase [c!"a/b", c!"c"] demoTree).1 = .error .fileNotFound ∧
    listExistingT menuSkips demoBase (createNewDbmsT demoBase [c!"a/b", c!"c"] demoTree).2 = [c!"a", c!"old"] := by decide
example : (createNewDbmsT demoBase [c!"/tmp/x"] demoTree).2.look [c!"tmp", c!"x"] = some .dir := by decide
example := C81_nul demoTree demoBase [Char.ofNat 0, 'a'] [c!"new"] (by decide)
example := C81_offered demoTree demoBase c!".." demoTree_closed demoTree_folder (by decide) (by decide)
  (by simp [show demoTree.look (homeOf demoBase c!"..") = some .dir from rfl]) (by decide)
example : listExistingT menuSkips demoBase (getNewPathsT demoBase c!"new" demoTree).2 = [c!"new", c!"old"] ∧
    listExistingT menuSkips demoBase (getNewPathsT demoBase c!"" demoTree).2 = [c!"old"] := by decide

/-- The flat disk for a bare project. -/
theorem bareTree_shows : Shows bareTree demoBase ⟨[], [], [], []⟩ c!"dbms" := by
  have hno : ∀ p : Place, p ≠ [] → p ≠ [c!"w"] → bareTree.look p = none := by
    intro p h1 h2
    simp only [Tree.look, if_neg h1, bareTree, findEntry]
    rw [if_neg (Ne.symm h2)]
  have h1 : ∀ d : Str, bareTree.look (demoBase ++ [d]) = none := fun d => hno _ (by simp) (by simp [demoBase])
  have h2 : ∀ d f : Str, bareTree.look (demoBase ++ [d, f]) = none := fun d f => hno _ (by simp) (by simp [demoBase])
  refine ⟨by decide, fun d _ => ?_, fun d _ => ?_, fun d f s _ _ => ?_, fun d f => ?_⟩
  · rw [h1]; simp
  · rw [h1]; simp
  · rw [h2]; simp [FS.get, lookupFile]
  · rw [h2]; simp

-- the same name twice (taken), then another one
example := C82_flat demoBase c!"dbms" [c!"x", c!"y"] (by decide) bareTree ⟨[], [], [], []⟩ bareTree_closed bareTree_folder bareTree_shows

end WG
