/-
C109: the file system of the model is a disk: every call does what is documented, and the disk stays possible.
-/
import Verif.Proofs.Disk

namespace WG

/-- C109: every call answers and changes the disk as described. -/
theorem C109_call (op : Op) (fs : FS) : Call op fs.disk (exec op fs).1 (exec op fs).2.disk := exec_call op fs

/-- C109: the description leaves no choice but the order of listings. -/
theorem C109_one_effect (op : Op) (d d1 d2 : Disk) (r1 r2 : Resp) (h1 : Call op d r1 d1) (h2 : Call op d r2 d2) : SameAnswer r1 r2 ∧ d1 = d2 :=
  call_one h1 h2

/-- C109: the order in which the model keeps its lists makes no difference to a call but in listings. -/
theorem C109_order (op : Op) (fs fs' : FS) (h : fs.disk = fs'.disk) :
    SameAnswer (exec op fs).1 (exec op fs').1 ∧ (exec op fs).2.disk = (exec op fs').2.disk :=
  call_one (exec_call op fs) (h ▸ exec_call op fs')

/-- C109: a program ends and leaves the disk as its calls say. -/
theorem C109_program {α : Type} (p : Prog α) (fs : FS) : Does p fs.disk (p.run fs).1 (p.run fs).2.disk := by
  induction p generalizing fs with
  | ret a => exact .ret
  | raise e => exact .raise
  | act op k ih => exact .act (exec_call op fs) (ih _ _)

/-- C109: no program makes a disk impossible. -/
theorem C109_possible {α : Type} (p : Prog α) (fs : FS) (h : Possible fs.disk) : Possible (p.run fs).2.disk := by
  induction p generalizing fs with
  | ret a => exact h
  | raise e => exact h
  | act op k ih => exact ih _ _ (call_possible (exec_call op fs) h)

/-- C109: nor does stopping it anywhere, even in the middle of a write. -/
theorem C109_possible_crash {α : Type} (tear : Path → Prop) (p : Prog α) (fs fs' : FS) (hc : CrashAt tear p fs fs') (h : Possible fs.disk) :
    Possible fs'.disk := by
  induction hc with
  | here => exact h
  | torn => exact call_possible (exec_call _ _) h
  | step op k fs fs' _ ih => exact ih (call_possible (exec_call op fs) h)

/-- C109: nor do two programs at the same time. -/
theorem C109_possible_together {α β : Type} (bs : List Bool) (p : Prog α) (q : Prog β) (fs : FS) (h : Possible fs.disk) :
    Possible (runSched bs p q fs).2.2.disk := by
  have step : ∀ {γ : Type} (p : Prog γ) (fs : FS), Possible fs.disk → Possible (stepProg p fs).2.disk := by
    intro γ p fs h
    cases p with
    | act op k => exact call_possible (exec_call op fs) h
    | ret a => exact h
    | raise e => exact h
  induction bs generalizing p q fs with
  | nil => exact h
  | cons b bs ih => cases b <;> exact ih _ _ _ (step _ _ h)

/-- C109: no program puts anything into the lists twice. -/
theorem C109_once {α : Type} (p : Prog α) (fs : FS) (h : Once fs) : Once (p.run fs).2 := by
  induction p generalizing fs with
  | ret a => exact h
  | raise e => exact h
  | act op k ih => exact ih _ _ (exec_once op h)

/-- C109: then nothing is listed twice. -/
theorem C109_listed_once (fs : FS) (h : Once fs) :
    (∀ f l, (exec (.listDirs f) fs).1 = .names l → l.Nodup) ∧ (∀ f sel l, (exec (.listFiles f sel) fs).1 = .paths l → l.Nodup) := by
  constructor
  · intro f l hl
    simp only [exec] at hl
    split at hl
    · cases hl
      have : ((fs.dirs.filter fun x => x.1 = f).map Prod.snd).Nodup := by
        rw [List.Nodup, List.pairwise_map]
        refine List.Pairwise.imp_of_mem ?_ (h.dirs.filter _)
        rintro ⟨a1, a2⟩ ⟨b1, b2⟩ ha hb hab e
        simp only [List.mem_filter, decide_eq_true_eq] at ha hb
        exact hab (Prod.ext (ha.2.trans hb.2.symm) e)
      exact this
    · cases hl
  · intro f sel l hl
    cases hl
    exact h.files.filter _

/-! ### Examples -/

/-- A folder with a directory, a plain file and two files. -/
def diskDemo : FS :=
  ⟨[c!"F"], [(c!"F", c!"a")], [(c!"F", c!"x.txt")], [(⟨c!"F", c!"a", c!"one"⟩, c!"hello"), (⟨c!"F", c!"a", c!".two"⟩, [])]⟩

example : Possible diskDemo.disk ∧ Once diskDemo := by
  refine ⟨⟨?_, ?_, ?_, ?_⟩, ⟨by decide, by decide, by decide, by decide⟩⟩
  · intro f n h
    simp [FS.disk, diskDemo] at h ⊢
    exact h.1
  · intro f n h
    simp [FS.disk, diskDemo] at h ⊢
    exact h.1
  · intro p s h
    obtain ⟨x, hx, rfl⟩ := List.mem_map.1 (mem_files_iff.2 ⟨s, h⟩)
    simp [diskDemo] at hx
    rcases hx with rfl | rfl <;> simp [FS.disk, diskDemo]
  · rintro f n ⟨h, h'⟩
    simp [FS.disk, diskDemo] at h h'
    rw [h.2] at h'
    simp at h'

/-- Writing over the middle, behind the end, and an impossible directory; the name with a dot is not listed. -/
example : exec (.write ⟨c!"F", c!"a", c!"one"⟩ 1 c!"ipp") diskDemo = (.ok, diskDemo.set ⟨c!"F", c!"a", c!"one"⟩ c!"hippo") ∧
    exec (.write ⟨c!"F", c!"a", c!".two"⟩ 2 c!"b") diskDemo = (.ok, diskDemo.set ⟨c!"F", c!"a", c!".two"⟩ c!"\x00\x00b") ∧
    exec (.mkdir c!"F" c!"x.txt") diskDemo = (.fail, diskDemo) ∧
    (exec (.listFiles c!"F" fun _ => true) diskDemo).1 = .paths [⟨c!"F", c!"a", c!"one"⟩] ∧
    exec (.rmdir c!"F" c!"a") diskDemo = (.fail, diskDemo) := by
  refine ⟨by rfl, by rfl, by rfl, by rfl, by rfl⟩

/-- An impossible disk: a file without a directory. -/
example : ¬ Possible (FS.disk ⟨[c!"F"], [], [], [(⟨c!"F", c!"a", c!"one"⟩, [])]⟩) := by
  intro h
  have := h.texts ⟨c!"F", c!"a", c!"one"⟩ [] rfl
  simp [FS.disk] at this

end WG
