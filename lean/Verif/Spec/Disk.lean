/-
Specification for C109: what a disk is and what the calls do to it, said with sets and maps instead of the lists of `Py/Files`.
-/
import Verif.Py.Files

namespace WG

/-- A disk: which folders, directories and plain files there are, and the texts of the files. -/
@[ext] structure Disk where
  folder : Str → Prop
  dir : Str → Str → Prop
  plain : Str → Str → Prop
  text : Path → Option Str

/-- The disk that the lists stand for. -/
def FS.disk (fs : FS) : Disk :=
  ⟨(· ∈ fs.folders), fun f d => (f, d) ∈ fs.dirs, fun f d => (f, d) ∈ fs.plain, fs.get⟩

/-- The disk with another text in (or without) one file. -/
def Disk.put (d : Disk) (p : Path) (s : Option Str) : Disk := { d with text := fun q => if q = p then s else d.text q }

/-- `new` is `old` after writing `s` at `pos`: the characters of `s` from `pos` on, around them those of `old`, and NULs where there were none. -/
def WrittenAt (old : Str) (pos : Nat) (s new : Str) : Prop :=
  new.length = max old.length (pos + s.length) ∧
  (∀ i, i < s.length → new[pos + i]? = s[i]?) ∧
  (∀ i, i < pos ∨ pos + s.length ≤ i → i < old.length → new[i]? = old[i]?) ∧
  (∀ i, old.length ≤ i → i < pos → new[i]? = some (Char.ofNat 0))

/-- `new` is the first `len` characters of `old`, all of them if there are not as many. -/
def CutAt (old : Str) (len : Nat) (new : Str) : Prop := ∃ rest, old = new ++ rest ∧ (new.length = len ∨ (rest = [] ∧ new.length < len))

/-- A name with a dot in front. -/
def DotName (s : Str) : Prop := ∃ r, s = '.' :: r

/-- One call: the disk before, the answer, the disk after. -/
inductive Call : Op → Disk → Resp → Disk → Prop
  | read {d p s} : d.text p = some s → Call (.read p) d (.txt s) d
  | readFail {d p} : d.text p = none → Call (.read p) d .fail d
  | openW {d p} : d.dir p.folder p.dir → Call (.openW p) d .ok (d.put p (some []))
  | openWFail {d p} : ¬ d.dir p.folder p.dir → Call (.openW p) d .fail d
  | write {d p pos s old new} : d.text p = some old → WrittenAt old pos s new → Call (.write p pos s) d .ok (d.put p (some new))
  | writeFail {d p pos s} : d.text p = none → Call (.write p pos s) d .fail d
  | truncate {d p len old new} : d.text p = some old → CutAt old len new → Call (.truncate p len) d .ok (d.put p (some new))
  | truncateFail {d p len} : d.text p = none → Call (.truncate p len) d .fail d
  | isFile {d p b} : (b = true ↔ ∃ s, d.text p = some s) → Call (.isFile p) d (.flag b) d
  | isDir {d f n b} : (b = true ↔ d.dir f n) → Call (.isDir f n) d (.flag b) d
  | mkdirThere {d f n} : d.dir f n → Call (.mkdir f n) d .ok d
  | mkdirFail {d f n} : ¬ d.dir f n → d.plain f n → Call (.mkdir f n) d .fail d
  | mkdir {d f n} : ¬ d.dir f n → ¬ d.plain f n →
      Call (.mkdir f n) d .ok { d with folder := fun g => d.folder g ∨ g = f, dir := fun g m => d.dir g m ∨ (g = f ∧ m = n) }
  | touchThere {d p s} : d.dir p.folder p.dir → d.text p = some s → Call (.touch p) d .ok d
  | touch {d p} : d.dir p.folder p.dir → d.text p = none → Call (.touch p) d .ok (d.put p (some []))
  | touchFail {d p} : ¬ d.dir p.folder p.dir → Call (.touch p) d .fail d
  | listDirs {d f l} : d.folder f → (∀ n, n ∈ l ↔ d.dir f n) → Call (.listDirs f) d (.names l) d
  | listDirsFail {d f} : ¬ d.folder f → Call (.listDirs f) d .fail d
  | listFiles {d f sel l} : (∀ p, p ∈ l ↔ (∃ s, d.text p = some s) ∧ p.folder = f ∧ sel p.dir = true ∧ ¬ DotName p.file) →
      Call (.listFiles f sel) d (.paths l) d
  | remove {d p s} : d.text p = some s → Call (.remove p) d .ok (d.put p none)
  | removeFail {d p} : d.text p = none → Call (.remove p) d .fail d
  | rmdir {d f n} : d.dir f n → (∀ p, p.folder = f → p.dir = n → d.text p = none) →
      Call (.rmdir f n) d .ok { d with dir := fun g m => d.dir g m ∧ ¬ (g = f ∧ m = n) }
  | rmdirFail {d f n} : (d.dir f n → ∃ p, p.folder = f ∧ p.dir = n ∧ ∃ s, d.text p = some s) → Call (.rmdir f n) d .fail d

/-- Two answers that differ at most in the order of a list and in how often a name is in it. -/
inductive SameAnswer : Resp → Resp → Prop
  | same (r : Resp) : SameAnswer r r
  | names {l l' : List Str} : (∀ x, x ∈ l ↔ x ∈ l') → SameAnswer (.names l) (.names l')
  | paths {l l' : List Path} : (∀ x, x ∈ l ↔ x ∈ l') → SameAnswer (.paths l) (.paths l')

/-- A disk as it can be: what is in a directory has one, and nothing is both a directory and a plain file. -/
structure Possible (d : Disk) : Prop where
  dirs : ∀ f n, d.dir f n → d.folder f
  plains : ∀ f n, d.plain f n → d.folder f
  texts : ∀ p s, d.text p = some s → d.dir p.folder p.dir
  apart : ∀ f n, ¬ (d.dir f n ∧ d.plain f n)

/-- Nothing is in the lists twice. -/
structure Once (fs : FS) : Prop where
  folders : fs.folders.Nodup
  dirs : fs.dirs.Nodup
  plain : fs.plain.Nodup
  files : (fs.files.map Prod.fst).Nodup

/-- A whole program on a disk: how it ends and what it leaves. -/
inductive Does {α : Type} : Prog α → Disk → Except PyErr α → Disk → Prop
  | ret {a d} : Does (.ret a) d (.ok a) d
  | raise {e d} : Does (.raise e) d (.error e) d
  | act {op k d r d' x d''} : Call op d r d' → Does (k r) d' x d'' → Does (.act op k) d x d''

end WG
