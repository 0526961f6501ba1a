/- Crash states of programs, and which files the storage functions touch. -/
import Verif.Proofs.Make

set_option linter.unusedSectionVars false

namespace WG

/-- The operation changes at most the files in `ps`, and no directories. -/
def Op.only (ps : List Path) (o : Op) : Prop :=
  o.noDirs = true ∧ ∀ q, o.target = some q → q ∈ ps

theorem Op.only_readOnly {ps : List Path} {o : Op} (h : o.readOnly = true) : o.only ps := by
  cases o <;> simp [Op.readOnly] at h <;> simp [Op.only, Op.noDirs, Op.target]

theorem Op.only_mono {ps qs : List Path} (h : ∀ q ∈ ps, q ∈ qs) {o : Op} (ho : o.only ps) : o.only qs :=
  ⟨ho.1, fun q hq => h q (ho.2 q hq)⟩

theorem exec_dirs {o : Op} (h : o.noDirs = true) (fs : FS) : (exec o fs).2.dirs = fs.dirs := by
  cases o <;> simp [Op.noDirs] at h <;> simp only [exec] <;> repeat' (first | split | rfl)

theorem run_dirs {α : Type} {p : Prog α} (h : p.AllOps fun o => o.noDirs = true) (fs : FS) :
    (p.run fs).2.dirs = fs.dirs := by
  induction h generalizing fs with
  | ret a => rfl
  | raise e => rfl
  | act op k h _ ih =>
    simp only [Prog.run]
    rw [ih, exec_dirs h]

theorem run_only {α : Type} {p : Prog α} {ps : List Path} (h : p.AllOps (Op.only ps)) {q : Path}
    (hq : q ∉ ps) (fs : FS) : (p.run fs).2.get q = fs.get q :=
  run_frame (h.mono fun _ ho e => hq (ho.2 q e)) fs

theorem run_only_dirs {α : Type} {p : Prog α} {ps : List Path} (h : p.AllOps (Op.only ps)) (fs : FS) :
    (p.run fs).2.dirs = fs.dirs := run_dirs (h.mono fun _ ho => ho.1) fs

/-! ### Crash states -/

theorem crash_run {α : Type} (tear : Path → Prop) (p : Prog α) (fs : FS) : CrashAt tear p fs (p.run fs).2 := by
  induction p generalizing fs with
  | ret a => exact .here _ _
  | raise e => exact .here _ _
  | act op k ih => exact .step op k fs _ (ih _ _)

theorem crash_bind {α β : Type} {tear : Path → Prop} {p : Prog α} {f : α → Prog β} {fs fs' : FS}
    (h : CrashAt tear (p >>= f) fs fs') :
    CrashAt tear p fs fs' ∨ ∃ a fs1, p.run fs = (.ok a, fs1) ∧ CrashAt tear (f a) fs1 fs' := by
  induction p generalizing fs with
  | ret a => exact Or.inr ⟨a, fs, rfl, h⟩
  | raise e =>
    left
    change CrashAt tear (Prog.raise e) fs fs' at h
    cases h
    exact .here _ _
  | act op k ih =>
    change CrashAt tear (Prog.act op fun r => (k r).bind f) fs fs' at h
    cases h with
    | here => exact Or.inl (.here _ _)
    | torn p pos s n k' _ ht => exact Or.inl (.torn p pos s n k fs ht)
    | step _ _ _ _ h =>
      rcases ih _ h with h | ⟨a, fs1, h1, h2⟩
      · exact Or.inl (.step op k fs _ h)
      · exact Or.inr ⟨a, fs1, h1, h2⟩

theorem crash_tryCatch {α : Type} {tear : Path → Prop} {p : Prog α} {f : PyErr → Prog α} {fs fs' : FS}
    (h : CrashAt tear (p.tryCatch f) fs fs') :
    CrashAt tear p fs fs' ∨ ∃ e fs1, p.run fs = (.error e, fs1) ∧ CrashAt tear (f e) fs1 fs' := by
  induction p generalizing fs with
  | ret a =>
    left
    change CrashAt tear (Prog.ret a) fs fs' at h
    exact h
  | raise e => exact Or.inr ⟨e, fs, rfl, h⟩
  | act op k ih =>
    change CrashAt tear (Prog.act op fun r => (k r).tryCatch f) fs fs' at h
    cases h with
    | here => exact Or.inl (.here _ _)
    | torn p pos s n k' _ ht => exact Or.inl (.torn p pos s n k fs ht)
    | step _ _ _ _ h =>
      rcases ih _ h with h | ⟨a, fs1, h1, h2⟩
      · exact Or.inl (.step op k fs _ h)
      · exact Or.inr ⟨a, fs1, h1, h2⟩

theorem crash_raise {α : Type} {tear : Path → Prop} {e : PyErr} {fs fs' : FS}
    (h : CrashAt tear (Prog.raise e : Prog α) fs fs') : fs' = fs := by cases h; rfl

theorem crash_ret {α : Type} {tear : Path → Prop} {a : α} {fs fs' : FS}
    (h : CrashAt tear (Prog.ret a) fs fs') : fs' = fs := by cases h; rfl

theorem crash_pure {α : Type} {tear : Path → Prop} {a : α} {fs fs' : FS}
    (h : CrashAt tear (pure a : Prog α) fs fs') : fs' = fs := crash_ret h

theorem crash_liftE {α : Type} {tear : Path → Prop} {x : Except PyErr α} {fs fs' : FS}
    (h : CrashAt tear (liftE x) fs fs') : fs' = fs := by
  cases x
  · exact crash_raise h
  · exact crash_ret h

theorem crash_readOnly {α : Type} {tear : Path → Prop} {p : Prog α} {fs fs' : FS}
    (hp : p.AllOps fun o => o.readOnly = true) (h : CrashAt tear p fs fs') : fs' = fs := by
  induction h with
  | here => rfl
  | torn p pos s n k fs ht =>
    cases hp with
    | act _ _ h1 _ => simp [Op.readOnly] at h1
  | step op k fs fs' h ih =>
    cases hp with
    | act _ _ h1 h2 => rw [ih (h2 _), exec_readOnly h1]

theorem crash_readFile {tear : Path → Prop} {p : Path} {fs fs' : FS}
    (h : CrashAt tear (readFile p) fs fs') : fs' = fs :=
  crash_readOnly (.readFile rfl) h

theorem crash_frame {α : Type} {tear : Path → Prop} {p : Prog α} {ps : List Path} {fs fs' : FS} {q : Path}
    (hp : p.AllOps (Op.only ps)) (hq : q ∉ ps) (h : CrashAt tear p fs fs') : fs'.get q = fs.get q := by
  induction h with
  | here => rfl
  | torn p pos s n k fs ht =>
    cases hp with
    | act _ _ h1 _ => exact exec_frame (fun e => hq (h1.2 q (by simpa [Op.target] using e))) fs
  | step op k fs fs' h ih =>
    cases hp with
    | act _ _ h1 h2 => rw [ih (h2 _), exec_frame fun e => hq (h1.2 q e)]

theorem crash_dirs {α : Type} {tear : Path → Prop} {p : Prog α} {ps : List Path} {fs fs' : FS}
    (hp : p.AllOps (Op.only ps)) (h : CrashAt tear p fs fs') : fs'.dirs = fs.dirs := by
  induction h with
  | here => rfl
  | torn p pos s n k fs ht => exact exec_dirs rfl fs
  | step op k fs fs' h ih =>
    cases hp with
    | act _ _ h1 h2 => rw [ih (h2 _), exec_dirs h1.1]

/-- Crash states of a call that is not a write: before or after. -/
theorem crash_unitOp {tear : Path → Prop} {op : Op} {e : PyErr} {fs fs' : FS}
    (h : CrashAt tear (unitOp op e) fs fs') :
    fs' = fs ∨ fs' = (exec op fs).2 ∨
      ∃ p pos s n, op = .write p pos s ∧ tear p ∧ fs' = (exec (.write p pos (s.take n)) fs).2 := by
  unfold unitOp at h
  cases h with
  | here => exact Or.inl rfl
  | torn p pos s n _ _ ht => exact Or.inr (Or.inr ⟨p, pos, s, n, rfl, ht, rfl⟩)
  | step _ _ _ _ h =>
    right; left
    simp only at h
    split at h
    · exact crash_ret h
    · exact crash_raise h

variable [PyRuntime]

/-- Crash states of a dump. -/
theorem crash_dumpTo {tear : Path → Prop} {p : Path} {pos : Nat} {v : V} {fs fs' : FS}
    (h : CrashAt tear (dumpTo p pos v) fs fs') :
    fs' = fs ∨ fs' = (exec (.write p pos (jsonDump v).1) fs).2 ∨
      ∃ n, tear p ∧ fs' = (exec (.write p pos ((jsonDump v).1.take n)) fs).2 := by
  unfold dumpTo at h
  have run_unit : ∀ {op : Op} {e : PyErr} {a : Unit} {fs fs1 : FS}, (unitOp op e).run fs = (.ok a, fs1) →
      fs1 = (exec op fs).2 := by
    intro op e a fs fs1 hr
    unfold unitOp at hr
    simp only [Prog.run] at hr
    split at hr
    · simp [Prog.run] at hr; exact hr.symm
    · simp [Prog.run] at hr
  rcases crash_bind h with h | ⟨_, fs1, h1, h2⟩
  · rcases crash_unitOp h with h | h | ⟨p', pos', s', n, e, ht, h⟩
    · exact Or.inl h
    · exact Or.inr (Or.inl h)
    · injection e with e1 e2 e3
      subst e1 e2 e3
      exact Or.inr (Or.inr ⟨n, ht, h⟩)
  · right; left
    rw [← run_unit h1]
    split at h2
    · exact crash_pure h2
    · exact crash_raise h2

/-! ### Files touched -/

section
open Prog

theorem only_read {ps : List Path} {p : Path} : (readFile p).AllOps (Op.only ps) :=
  .readFile (Op.only_readOnly rfl)

theorem only_dumpTo {ps : List Path} {p : Path} (h : p ∈ ps) (pos : Nat) (v : V) :
    (dumpTo p pos v).AllOps (Op.only ps) := by
  unfold dumpTo
  refine .bind (.unitOp ⟨rfl, fun q e => ?_⟩) fun _ => ?_
  · simp only [Op.target, Option.some.injEq] at e; rw [← e]; exact h
  · split
    · exact .ret _
    · exact .raise _

theorem only_truncate {ps : List Path} {p : Path} (h : p ∈ ps) (pos : Nat) (e : PyErr) :
    (unitOp (.truncate p pos) e).AllOps (Op.only ps) :=
  .unitOp ⟨rfl, fun q e => by simp only [Op.target, Option.some.injEq] at e; rw [← e]; exact h⟩

theorem only_openW {ps : List Path} {p : Path} (h : p ∈ ps) (e : PyErr) :
    (unitOp (.openW p) e).AllOps (Op.only ps) :=
  .unitOp ⟨rfl, fun q e => by simp only [Op.target, Option.some.injEq] at e; rw [← e]; exact h⟩

theorem only_getCounter (ps : List Path) (p : Path) : (getCurrentWiggleNumber p).AllOps (Op.only ps) := by
  unfold getCurrentWiggleNumber
  refine .bind only_read fun s => ?_
  split
  · exact .raise _
  · split
    · exact .ret _
    · exact .raise _

theorem only_updateCounter (p : Path) (n : Int) : (updateWiggleNumber p n).AllOps (Op.only [p]) := by
  unfold updateWiggleNumber
  refine .bind (only_openW (by simp) _) fun _ => .bind (.unitOp ⟨rfl, ?_⟩) fun _ => .ret _
  intro q e
  simp only [Op.target, Option.some.injEq] at e
  simp [e]

theorem only_addItem (p : Path) (items : List (Str × V)) : (addItemToDatabase p items).AllOps (Op.only [p]) := by
  unfold addItemToDatabase
  exact .bind only_read fun _ => .bind (.liftE _) fun _ => .bind (.liftE _) fun _ =>
    .bind (only_dumpTo (by simp) _ _) fun _ => .ret _

theorem only_wipeDatabase (p : Path) (b : Bool) : (wipeDatabase p b).AllOps (Op.only [p]) := by
  unfold wipeDatabase
  cases b
  · exact .ret _
  · exact .bind (only_openW (by simp) _) fun _ => .bind (only_dumpTo (by simp) _ _) fun _ =>
      .bind (only_truncate (by simp) _ _) fun _ => .ret _

theorem only_addItemsSet (o : SetOrd) (p : Path) (items : List Str) (name : Str) :
    (addItemsSetToIndex o p items name).AllOps (Op.only [p]) := by
  unfold addItemsSetToIndex
  exact .bind only_read fun _ => .bind (.liftE _) fun _ => .bind (.liftE _) fun _ =>
    .bind (.liftE _) fun _ => .bind (.liftE _) fun _ => .bind (only_dumpTo (by simp) _ _) fun _ =>
      .bind (only_truncate (by simp) _ _) fun _ => .ret _

theorem only_addRelIndex (o : SetOrd) (p : Path) (items : List (Str × List V)) :
    (addItemsToNodeRelationshipsIndex o p items).AllOps (Op.only [p]) := by
  unfold addItemsToNodeRelationshipsIndex
  exact .bind only_read fun _ => .bind (.liftE _) fun _ => .bind (.liftE _) fun _ =>
    .bind (.liftE _) fun _ => .bind (.liftE _) fun _ => .bind (only_dumpTo (by simp) _ _) fun _ =>
      .bind (only_truncate (by simp) _ _) fun _ => .ret _

theorem only_wipeIndex (v : V) (p : Path) (name : Str) (b : Bool) :
    (wipeIndexWith v p name b).AllOps (Op.only [p]) := by
  unfold wipeIndexWith
  cases b
  · exact .ret _
  · exact .bind only_read fun _ => .bind (.liftE _) fun _ => .bind (.liftE _) fun _ =>
      .bind (only_dumpTo (by simp) _ _) fun _ => .bind (only_truncate (by simp) _ _) fun _ => .ret _

/-- The index phase of the commit. -/
def commitIndexes (env : Env) (n : Int) (pats : List ParsedPattern) (g : GPath) : Prog Bool := do
  let _ ← addItemsToNodeRelationshipsIndex env.ord g.idx ((relBatch n pats).map fun x => (x.1, x.2.map Val.int))
  let _ ← addItemsToNodeLabelsIndex env.ord g.idx (wantLabels pats)
  addItemsToRelationshipNamesIndex env.ord g.idx (wantNames pats)

theorem only_commitIndexes (env : Env) (n : Int) (pats : List ParsedPattern) (g : GPath) :
    (commitIndexes env n pats g).AllOps (Op.only [g.idx]) := by
  unfold commitIndexes
  exact .bind (only_addRelIndex ..) fun _ => .bind (only_addItemsSet ..) fun _ => only_addItemsSet ..

theorem commit_eq (env : Env) (n : Int) (pats : List ParsedPattern) (g : GPath) :
    commit env n pats g = addItemToDatabase g.db (dbBatch env n pats) >>= fun _ =>
      commitIndexes env n pats g >>= fun _ =>
      updateWiggleNumber g.wn (n + totalSize pats) >>= fun _ => pure true := by
  unfold commit commitIndexes
  simp only [bind_assoc']

theorem only_commit (env : Env) (n : Int) (pats : List ParsedPattern) (g : GPath) :
    (commit env n pats g).AllOps (Op.only [g.db, g.idx, g.wn]) := by
  rw [commit_eq]
  exact .bind ((only_addItem ..).mono fun _ => Op.only_mono (by simp)) fun _ =>
    .bind ((only_commitIndexes ..).mono fun _ => Op.only_mono (by simp)) fun _ =>
    .bind ((only_updateCounter ..).mono fun _ => Op.only_mono (by simp)) fun _ => .ret _

theorem only_make (env : Env) (pml : List ParsedMake) (g : GPath) :
    (make env pml g).AllOps (Op.only [g.db, g.idx, g.wn]) := by
  rw [make_eq]
  refine .bind (only_getCounter _ _) fun n => ?_
  by_cases h : MakeOK pml
  · rw [afterCounter_ok h]; exact only_commit ..
  · obtain ⟨e, he⟩ := afterCounter_bad (env := env) (g := g) (n := n) h
    rw [he]; exact .raise _

end

theorem run_ok_bind {α β : Type} {p : Prog α} {f : α → Prog β} {fs fs' : FS} {b : β}
    (h : (p >>= f).run fs = (.ok b, fs')) :
    ∃ a fs1, p.run fs = (.ok a, fs1) ∧ (f a).run fs1 = (.ok b, fs') := by
  rw [run_bind] at h
  cases hp : p.run fs with
  | mk r fs1 =>
    rw [hp] at h
    cases r with
    | ok a => exact ⟨a, fs1, rfl, h⟩
    | error e => simp at h

theorem run_ok_update {p : Path} {n m : Int} {fs fs' : FS}
    (h : (updateWiggleNumber p n).run fs = (.ok m, fs')) : fs' = fs.set p (intStr n) := by
  by_cases hd : DirOK fs p
  · rw [run_updateWiggleNumber hd] at h; simp at h; exact h.2.symm
  · rw [run_updateWiggleNumber_fail hd] at h; simp at h

/-- Crash states of writing the counter when the write itself is atomic. -/
theorem crash_updateCounter {tear : Path → Prop} {p : Path} {n : Int} {fs fs' : FS} (ht : ¬ tear p)
    (h : CrashAt tear (updateWiggleNumber p n) fs fs') :
    fs' = fs ∨ fs' = fs.set p [] ∨ fs' = fs.set p (intStr n) := by
  unfold updateWiggleNumber at h
  rcases crash_bind h with h | ⟨_, fs1, h1, h2⟩
  · rcases crash_unitOp h with h | h | ⟨_, _, _, _, e, _⟩
    · exact Or.inl h
    · by_cases hd : (p.folder, p.dir) ∈ fs.dirs
      · simp [exec, hd] at h; exact Or.inr (Or.inl h)
      · simp [exec, hd] at h; exact Or.inl h
    · cases e
  · have hfs1 : fs1 = fs.set p [] := by
      by_cases hd : (p.folder, p.dir) ∈ fs.dirs
      · rw [run_openW hd] at h1; simp at h1; exact h1.symm
      · rw [run_openW_fail hd] at h1; simp at h1
    subst hfs1
    right
    have full : (exec (.write p 0 (intStr n)) (fs.set p [])).2 = fs.set p (intStr n) := by
      simp [exec, FS.get_set_self, overlay, FS.set_set]
    rcases crash_bind h2 with h | ⟨_, fs2, h1, h2⟩
    · rcases crash_unitOp h with h | h | ⟨_, _, _, _, e, ht', _⟩
      · exact Or.inl h
      · rw [full] at h; exact Or.inr h
      · injection e with e1; subst e1; exact absurd ht' ht
    · right
      have := crash_pure h2
      subst this
      rw [run_write (FS.get_set_self _ _ _)] at h1
      simp [overlay, FS.set_set] at h1
      exact h1.symm

end WG
