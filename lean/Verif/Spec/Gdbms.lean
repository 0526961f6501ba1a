/-
GDBMSs in a folder, and what the shell does not take as a query.
-/
import Verif.Model.Gdbms

namespace WG

/-- The three files of a GDBMS exist. -/
def Complete (fs : FS) (folder name : Str) : Prop :=
  fs.get (dbPath folder name) ≠ none ∧ fs.get (idxPath folder name) ≠ none ∧ fs.get (wnPath folder name) ≠ none

/-- None of the three files exists, and nothing that is no directory has the name. -/
structure NameFree (fs : FS) (folder name : Str) : Prop where
  mkdir : (folder, name) ∈ fs.dirs ∨ (folder, name) ∉ fs.plain
  db : fs.get (dbPath folder name) = none
  idx : fs.get (idxPath folder name) = none
  wn : fs.get (wnPath folder name) = none

/-- The names in a folder that are no GDBMS. -/
def notGdbms : List Str := [c!"tests", c!"__pycache__"]

/-- The disk has a GDBMS of this name, offered under this letter: the letters are given out in
ascending order of names. -/
def Offered (fs : FS) (folder letter name : Str) : Prop :=
  ∃ (names : List Str) (i : Nat), names.Pairwise (· ≤ ·) ∧ names.Nodup ∧
    (∀ x, x ∈ names ↔ (folder, x) ∈ fs.dirs ∧ x ∉ notGdbms) ∧
    names[i]? = some name ∧ i < 26 ∧ letter = [Char.ofNat (65 + i)]

/-- The input mentions "help", in any case. -/
def AsksHelp [PyRuntime] (q : Str) : Prop := c!"help" <:+: lower q

end WG
