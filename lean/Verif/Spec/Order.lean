/-
Disks that differ only in the order in which sets were written to an index file.
-/
import Verif.Model.Make

namespace WG
variable [PyRuntime]

/-- Dicts with the same keys in the same order and related values. -/
def SameKeys (R : V → V → Prop) : Dict V → Dict V → Prop
  | [], [] => True
  | (k, v) :: d, (k', v') :: d' => k = k' ∧ R v v' ∧ SameKeys R d d'
  | _, _ => False

/-- Equal up to the order of the lists inside, at most `n` dicts deep. -/
def Reordered : Nat → V → V → Prop
  | 0, v, w => v = w ∨ ∃ l l', v = .list l ∧ w = .list l' ∧ l.Perm l'
  | n + 1, v, w => Reordered n v w ∨ ∃ d d', v = .dict d ∧ w = .dict d' ∧ SameKeys (Reordered n) d d'

/-- Index files: both absent, both not JSON, or equal up to the order of the lists (an index is a dict of lists and of a
dict of lists). -/
def SameIndexFile : Option Str → Option Str → Prop
  | none, none => True
  | some t, some t' => (jsonLoad t = none ∧ jsonLoad t' = none) ∨
      ∃ v w, jsonLoad t = some v ∧ jsonLoad t' = some w ∧ Reordered 2 v w
  | _, _ => False

/-- Disks that are the same except for the order of the lists in the index file of `g`. -/
structure SameUpToOrder (g : GPath) (fs fs' : FS) : Prop where
  folders : fs.folders = fs'.folders
  dirs : fs.dirs = fs'.dirs
  plain : fs.plain = fs'.plain
  files : ∀ p, p ≠ g.idx → fs.get p = fs'.get p
  idx : SameIndexFile (fs.get g.idx) (fs'.get g.idx)

end WG
