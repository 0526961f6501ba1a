/- Programs that work on given files only: independence of the rest of the disk, and interleavings of
two such programs. -/
import Verif.Proofs.Crash

set_option linter.unusedSectionVars false

namespace WG

/-- The operation looks at and changes no file but those in `ps`, and no directories. -/
def Op.within (ps : List Path) : Op → Prop
  | .read p | .openW p | .write p _ _ | .truncate p _ | .isFile p => p ∈ ps
  | _ => False

theorem Op.within_mono {ps qs : List Path} (h : ∀ q ∈ ps, q ∈ qs) {o : Op} (ho : o.within ps) : o.within qs := by
  cases o <;> simp only [Op.within] at ho ⊢ <;> exact h _ ho

theorem Op.within_only {ps : List Path} {o : Op} (h : o.within ps) : o.only ps := by
  cases o <;> simp [Op.within] at h <;> simp [Op.only, Op.noDirs, Op.target, h]

/-- Two disks agree on the files in `ps` and on the directories. -/
def Agree (ps : List Path) (fs fs' : FS) : Prop := fs.dirs = fs'.dirs ∧ ∀ p ∈ ps, fs.get p = fs'.get p

theorem Agree.refl (ps : List Path) (fs : FS) : Agree ps fs fs := ⟨rfl, fun _ _ => rfl⟩

theorem Agree.trans {ps : List Path} {a b c : FS} (h : Agree ps a b) (h' : Agree ps b c) : Agree ps a c :=
  ⟨h.1.trans h'.1, fun p hp => (h.2 p hp).trans (h'.2 p hp)⟩

theorem Agree.symm {ps : List Path} {a b : FS} (h : Agree ps a b) : Agree ps b a :=
  ⟨h.1.symm, fun p hp => (h.2 p hp).symm⟩

theorem Agree.set {ps : List Path} {a b : FS} (h : Agree ps a b) (p : Path) (s : Str) :
    Agree ps (a.set p s) (b.set p s) := by
  refine ⟨h.1, fun q hq => ?_⟩
  by_cases e : p = q
  · subst e; rw [FS.get_set_self, FS.get_set_self]
  · rw [FS.get_set_ne e, FS.get_set_ne e]; exact h.2 q hq

/-- A call within `ps` answers the same, and leaves agreeing disks, on disks that agree. -/
theorem exec_agree {ps : List Path} {o : Op} (ho : o.within ps) {a b : FS} (h : Agree ps a b) :
    (exec o a).1 = (exec o b).1 ∧ Agree ps (exec o a).2 (exec o b).2 := by
  cases o with
  | read p =>
    have := h.2 p ho
    simp only [exec, this]
    split <;> exact ⟨rfl, h⟩
  | openW p =>
    simp only [exec, h.1]
    split
    · exact ⟨rfl, h.set p _⟩
    · exact ⟨rfl, h⟩
  | write p pos s =>
    have := h.2 p ho
    simp only [exec, this]
    split
    · exact ⟨rfl, h.set p _⟩
    · exact ⟨rfl, h⟩
  | truncate p n =>
    have := h.2 p ho
    simp only [exec, this]
    split
    · exact ⟨rfl, h.set p _⟩
    · exact ⟨rfl, h⟩
  | isFile p =>
    have := h.2 p ho
    simp only [exec, this]
    exact ⟨trivial, h⟩
  | _ => exact absurd ho id

/-- A program within `ps` behaves the same on disks that agree on `ps`. -/
theorem run_agree {α : Type} {ps : List Path} {p : Prog α} (hp : p.AllOps (Op.within ps)) {a b : FS}
    (h : Agree ps a b) : (p.run a).1 = (p.run b).1 ∧ Agree ps (p.run a).2 (p.run b).2 := by
  induction hp generalizing a b with
  | ret x => exact ⟨rfl, h⟩
  | raise e => exact ⟨rfl, h⟩
  | act op k ho _ ih =>
    obtain ⟨h1, h2⟩ := exec_agree ho h
    simp only [Prog.run]
    rw [h1]
    exact ih _ h2

theorem exec_other {ps qs : List Path} {o : Op} (ho : o.only qs) (hd : ∀ p ∈ ps, p ∉ qs) (fs : FS) :
    Agree ps (exec o fs).2 fs :=
  ⟨exec_dirs ho.1 fs, fun p hp => exec_frame (fun e => hd p hp (ho.2 p e)) fs⟩

/-- A program that only works on other files leaves the disk in agreement. -/
theorem run_other {α : Type} {ps qs : List Path} {p : Prog α} (hp : p.AllOps (Op.only qs))
    (hd : ∀ p ∈ ps, p ∉ qs) (fs : FS) : Agree ps (p.run fs).2 fs :=
  ⟨run_only_dirs hp fs, fun q hq => run_only hp (hd q hq) fs⟩

/-- `n` calls of a program. -/
def stepsProg {α : Type} : Nat → Prog α → FS → Prog α × FS
  | 0, p, fs => (p, fs)
  | n + 1, p, fs => stepsProg n (stepProg p fs).1 (stepProg p fs).2

theorem AllOps.step {α : Type} {Q : Op → Prop} {p : Prog α} (h : p.AllOps Q) (fs : FS) :
    (stepProg p fs).1.AllOps Q := by
  cases h with
  | ret a => exact .ret a
  | raise e => exact .raise e
  | act op k _ h => exact h _

theorem stepProg_agree {α : Type} {ps : List Path} {p : Prog α} (hp : p.AllOps (Op.within ps)) {a b : FS}
    (h : Agree ps a b) : (stepProg p a).1 = (stepProg p b).1 ∧ Agree ps (stepProg p a).2 (stepProg p b).2 := by
  cases hp with
  | ret x => exact ⟨rfl, h⟩
  | raise e => exact ⟨rfl, h⟩
  | act op k ho _ =>
    obtain ⟨h1, h2⟩ := exec_agree ho h
    simp only [stepProg, h1]
    exact ⟨trivial, h2⟩

theorem stepProg_other {α : Type} {ps qs : List Path} {p : Prog α} (hp : p.AllOps (Op.only qs))
    (hd : ∀ p ∈ ps, p ∉ qs) (fs : FS) : Agree ps (stepProg p fs).2 fs := by
  cases hp with
  | ret x => exact Agree.refl _ _
  | raise e => exact Agree.refl _ _
  | act op k ho _ => exact exec_other ho hd fs

/-- In every interleaving of two programs on disjoint files each of them gets exactly as far as if
it had made its calls alone. -/
theorem sched_disjoint {α β : Type} {ps qs : List Path} (hd : ∀ p ∈ ps, p ∉ qs) (sched : List Bool)
    {p : Prog α} {q : Prog β} (hp : p.AllOps (Op.within ps)) (hq : q.AllOps (Op.within qs)) (fs : FS) :
    (runSched sched p q fs).1 = (stepsProg (sched.count false) p fs).1 ∧
    (runSched sched p q fs).2.1 = (stepsProg (sched.count true) q fs).1 ∧
    Agree ps (runSched sched p q fs).2.2 (stepsProg (sched.count false) p fs).2 ∧
    Agree qs (runSched sched p q fs).2.2 (stepsProg (sched.count true) q fs).2 := by
  have hd' : ∀ p ∈ qs, p ∉ ps := fun p h h' => hd p h' h
  have mono : ∀ {γ : Type} {rs : List Path} {r : Prog γ}, r.AllOps (Op.within rs) → r.AllOps (Op.only rs) :=
    fun h => h.mono fun _ => Op.within_only
  have key : ∀ (sched : List Bool) (p : Prog α) (q : Prog β) (fs a b : FS), p.AllOps (Op.within ps) →
      q.AllOps (Op.within qs) → Agree ps fs a → Agree qs fs b →
      (runSched sched p q fs).1 = (stepsProg (sched.count false) p a).1 ∧
      (runSched sched p q fs).2.1 = (stepsProg (sched.count true) q b).1 ∧
      Agree ps (runSched sched p q fs).2.2 (stepsProg (sched.count false) p a).2 ∧
      Agree qs (runSched sched p q fs).2.2 (stepsProg (sched.count true) q b).2 := by
    intro sched
    induction sched with
    | nil => intro p q fs a b _ _ h1 h2; exact ⟨rfl, rfl, h1, h2⟩
    | cons s sched ih =>
      intro p q fs a b hp hq h1 h2
      cases s with
      | false =>
        obtain ⟨e1, e2⟩ := stepProg_agree hp h1
        have := ih (stepProg p fs).1 q (stepProg p fs).2 (stepProg p a).2 b (AllOps.step hp fs) hq e2
          ((stepProg_other (mono hp) hd' fs).trans h2)
        simp only [runSched, List.count_cons_self, stepsProg]
        rw [e1] at this
        rw [e1]
        simpa using this
      | true =>
        obtain ⟨e1, e2⟩ := stepProg_agree hq h2
        have := ih p (stepProg q fs).1 (stepProg q fs).2 a (stepProg q b).2 hp (AllOps.step hq fs)
          ((stepProg_other (mono hq) hd fs).trans h1) e2
        simp only [runSched, List.count_cons_self, stepsProg]
        rw [e1] at this
        rw [e1]
        simpa using this
  exact key sched p q fs fs fs hp hq (Agree.refl _ _) (Agree.refl _ _)

/-- A program that has come to its end got there like the sequential run. -/
theorem steps_done {α : Type} (n : Nat) (p : Prog α) (fs : FS) :
    (stepsProg n p fs).1.run (stepsProg n p fs).2 = p.run fs := by
  induction n generalizing p fs with
  | zero => rfl
  | succ n ih =>
    rw [stepsProg, ih]
    cases p <;> rfl

/-! ### Which files the storage functions look at -/

section
variable [PyRuntime]

theorem within_read {ps : List Path} {p : Path} (h : p ∈ ps) : (readFile p).AllOps (Op.within ps) :=
  .readFile h

theorem within_dumpTo {ps : List Path} {p : Path} (h : p ∈ ps) (pos : Nat) (v : V) :
    (dumpTo p pos v).AllOps (Op.within ps) := by
  unfold dumpTo
  refine .bind (.unitOp h) fun _ => ?_
  split
  · exact .ret _
  · exact .raise _

theorem within_getCounter (p : Path) : (getCurrentWiggleNumber p).AllOps (Op.within [p]) := by
  unfold getCurrentWiggleNumber
  refine .bind (within_read (by simp)) fun s => ?_
  split
  · exact .raise _
  · split
    · exact .ret _
    · exact .raise _

theorem within_updateCounter (p : Path) (n : Int) : (updateWiggleNumber p n).AllOps (Op.within [p]) := by
  unfold updateWiggleNumber
  exact .bind (.unitOp (by simp [Op.within])) fun _ => .bind (.unitOp (by simp [Op.within])) fun _ => .ret _

theorem within_addItem (p : Path) (items : List (Str × V)) :
    (addItemToDatabase p items).AllOps (Op.within [p]) := by
  unfold addItemToDatabase
  exact .bind (within_read (by simp)) fun _ => .bind (.liftE _) fun _ => .bind (.liftE _) fun _ =>
    .bind (within_dumpTo (by simp) _ _) fun _ => .ret _

theorem within_wipeDatabase (p : Path) (b : Bool) : (wipeDatabase p b).AllOps (Op.within [p]) := by
  unfold wipeDatabase
  cases b
  · exact .ret _
  · exact .bind (.unitOp (by simp [Op.within])) fun _ => .bind (within_dumpTo (by simp) _ _) fun _ =>
      .bind (.unitOp (by simp [Op.within])) fun _ => .ret _

theorem within_addItemsSet (o : SetOrd) (p : Path) (items : List Str) (name : Str) :
    (addItemsSetToIndex o p items name).AllOps (Op.within [p]) := by
  unfold addItemsSetToIndex
  exact .bind (within_read (by simp)) fun _ => .bind (.liftE _) fun _ => .bind (.liftE _) fun _ =>
    .bind (.liftE _) fun _ => .bind (.liftE _) fun _ => .bind (within_dumpTo (by simp) _ _) fun _ =>
      .bind (.unitOp (by simp [Op.within])) fun _ => .ret _

theorem within_addRelIndex (o : SetOrd) (p : Path) (items : List (Str × List V)) :
    (addItemsToNodeRelationshipsIndex o p items).AllOps (Op.within [p]) := by
  unfold addItemsToNodeRelationshipsIndex
  exact .bind (within_read (by simp)) fun _ => .bind (.liftE _) fun _ => .bind (.liftE _) fun _ =>
    .bind (.liftE _) fun _ => .bind (.liftE _) fun _ => .bind (within_dumpTo (by simp) _ _) fun _ =>
      .bind (.unitOp (by simp [Op.within])) fun _ => .ret _

theorem within_wipeIndex (v : V) (p : Path) (name : Str) (b : Bool) :
    (wipeIndexWith v p name b).AllOps (Op.within [p]) := by
  unfold wipeIndexWith
  cases b
  · exact .ret _
  · exact .bind (within_read (by simp)) fun _ => .bind (.liftE _) fun _ => .bind (.liftE _) fun _ =>
      .bind (within_dumpTo (by simp) _ _) fun _ => .bind (.unitOp (by simp [Op.within])) fun _ => .ret _

theorem within_commitIndexes (env : Env) (n : Int) (pats : List ParsedPattern) (g : GPath) :
    (commitIndexes env n pats g).AllOps (Op.within [g.idx]) := by
  unfold commitIndexes
  exact .bind (within_addRelIndex ..) fun _ => .bind (within_addItemsSet ..) fun _ => within_addItemsSet ..

theorem within_commit (env : Env) (n : Int) (pats : List ParsedPattern) (g : GPath) :
    (commit env n pats g).AllOps (Op.within [g.db, g.idx, g.wn]) := by
  rw [commit_eq]
  exact .bind ((within_addItem ..).mono fun _ => Op.within_mono (by simp)) fun _ =>
    .bind ((within_commitIndexes ..).mono fun _ => Op.within_mono (by simp)) fun _ =>
    .bind ((within_updateCounter ..).mono fun _ => Op.within_mono (by simp)) fun _ => .ret _

theorem within_make (env : Env) (pml : List ParsedMake) (g : GPath) :
    (make env pml g).AllOps (Op.within [g.db, g.idx, g.wn]) := by
  rw [make_eq]
  refine .bind ((within_getCounter _).mono fun _ => Op.within_mono (by simp)) fun n => ?_
  by_cases h : MakeOK pml
  · rw [afterCounter_ok h]; exact within_commit ..
  · obtain ⟨e, he⟩ := afterCounter_bad (env := env) (g := g) (n := n) h
    rw [he]; exact .raise _

end

end WG
