/-
A GDBMS and a copy of it.
-/
import Verif.Model.Screen
import Verif.Spec.Make

namespace WG

/-- The three files of the GDBMS are three files. -/
structure GPath.Apart (g : GPath) : Prop where
  db_idx : g.db ≠ g.idx
  db_wn : g.db ≠ g.wn
  idx_wn : g.idx ≠ g.wn

/-- The GDBMS at `g'` on the disk `b` is a copy of the one at `g` on the disk `a`: the same texts (or no file on both sides), and the
directories exist on both sides or on none. -/
structure Copied (g g' : GPath) (a b : FS) : Prop where
  db : a.get g.db = b.get g'.db
  idx : a.get g.idx = b.get g'.idx
  wn : a.get g.wn = b.get g'.wn
  dirDb : (g.db.folder, g.db.dir) ∈ a.dirs ↔ (g'.db.folder, g'.db.dir) ∈ b.dirs
  dirIdx : (g.idx.folder, g.idx.dir) ∈ a.dirs ↔ (g'.idx.folder, g'.idx.dir) ∈ b.dirs
  dirWn : (g.wn.folder, g.wn.dir) ∈ a.dirs ↔ (g'.wn.folder, g'.wn.dir) ∈ b.dirs

end WG
