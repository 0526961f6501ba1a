/-
Names of GDBMSs, and where in a directory tree their files belong.
-/
import Verif.Model.Names

namespace WG

/-- One component of a path: what a name should be. -/
structure PlainName (name : Str) : Prop where
  nonempty : name ≠ []
  notDot : name ≠ c!"."
  notDots : name ≠ c!".."
  slash : '/' ∉ name
  nul : Char.ofNat 0 ∉ name

instance (name : Str) : Decidable (PlainName name) :=
  decidable_of_iff (name ≠ [] ∧ name ≠ c!"." ∧ name ≠ c!".." ∧ '/' ∉ name ∧ Char.ofNat 0 ∉ name)
    ⟨fun ⟨a, b, c, d, e⟩ => ⟨a, b, c, d, e⟩, fun ⟨a, b, c, d, e⟩ => ⟨a, b, c, d, e⟩⟩

/-- Whatever exists, exists in a directory. -/
def Tree.Closed (t : Tree) : Prop := ∀ p c, t.look (p ++ [c]) ≠ none → t.look p = some .dir

/-- The DBMS folder is a proper path, is no file, and may be missing only itself. -/
structure Folder (t : Tree) (base : Place) : Prop where
  plain : ∀ c ∈ base, PlainName c
  above : ∃ up last, base = up ++ [last] ∧ t.look up = some .dir
  notFile : ∀ s, t.look base ≠ some (.file s)

/-- The directory that gets the files for a name without a slash: only for proper names it is the
directory of that name. -/
def homeOf (base : Place) (name : Str) : Place :=
  if name = [] then []
  else if name = c!"." then base
  else if name = c!".." then base.dropLast
  else base ++ [name]

/-- The names of the three files. -/
def fileNames (name : Str) : List Str :=
  [c!"database_" ++ name ++ c!".json", c!"indexes_" ++ name ++ c!".json", c!"wiggle_number_" ++ name ++ c!".txt"]

/-- The two trees have the same files. -/
def SameFiles (t u : Tree) : Prop := ∀ p s, t.look p = some (.file s) ↔ u.look p = some (.file s)

/-- The flat disk shows what lies in the folder `base` of the tree. -/
structure Shows (t : Tree) (base : Place) (fs : FS) (folder : Str) : Prop where
  isThere : folder ∈ fs.folders ↔ t.look base = some .dir
  dirs : ∀ d, PlainName d → ((folder, d) ∈ fs.dirs ↔ t.look (base ++ [d]) = some .dir)
  plain : ∀ d, PlainName d → ((folder, d) ∈ fs.plain ↔ ∃ s, t.look (base ++ [d]) = some (.file s))
  files : ∀ d f s, PlainName d → PlainName f → (fs.get ⟨folder, d, f⟩ = some s ↔ t.look (base ++ [d, f]) = some (.file s))
  shallow : ∀ d f, t.look (base ++ [d, f]) ≠ some .dir

/-- The paths of the tree that belong to the paths of the flat disk. -/
def treePaths (base : Place) (g : GPath) : TreePaths :=
  ⟨base ++ [g.db.dir, g.db.file], base ++ [g.idx.dir, g.idx.file], base ++ [g.wn.dir, g.wn.file]⟩

end WG
