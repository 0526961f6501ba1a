/- Lemmas about the file system and programs. -/
import Verif.Py.Files

namespace WG

theorem lookup_insert_self (p : Path) (s : Str) (l : List (Path × Str)) :
    lookupFile p (insertFile p s l) = some s := by
  induction l with
  | nil => simp [insertFile, lookupFile]
  | cons x l ih =>
    obtain ⟨q, t⟩ := x
    simp only [insertFile]
    split
    · simp [lookupFile, *]
    · simp [lookupFile, *]

theorem lookup_insert_ne {p q : Path} (h : p ≠ q) (s : Str) (l : List (Path × Str)) :
    lookupFile q (insertFile p s l) = lookupFile q l := by
  induction l with
  | nil => simp [insertFile, lookupFile, h]
  | cons x l ih =>
    obtain ⟨r, t⟩ := x
    simp only [insertFile]
    split
    · next e => subst e; simp [lookupFile, h]
    · simp [lookupFile, ih]

theorem insertFile_same {p : Path} {s : Str} {l : List (Path × Str)}
    (h : lookupFile p l = some s) : insertFile p s l = l := by
  induction l with
  | nil => simp [lookupFile] at h
  | cons x l ih =>
    obtain ⟨q, t⟩ := x
    simp only [lookupFile] at h
    simp only [insertFile]
    split at h
    · next e => simp at h; subst h; simp [e]
    · next e => simp [e, ih h]

theorem insertFile_insertFile (p : Path) (s t : Str) (l : List (Path × Str)) :
    insertFile p t (insertFile p s l) = insertFile p t l := by
  induction l with
  | nil => simp [insertFile]
  | cons x l ih =>
    obtain ⟨q, u⟩ := x
    simp only [insertFile]
    by_cases e : q = p <;> simp [e, insertFile, ih]

@[simp] theorem FS.get_set_self (fs : FS) (p : Path) (s : Str) : (fs.set p s).get p = some s :=
  lookup_insert_self ..

theorem FS.get_set_ne {p q : Path} (h : p ≠ q) (fs : FS) (s : Str) :
    (fs.set p s).get q = fs.get q := lookup_insert_ne h ..

theorem FS.set_same {fs : FS} {p : Path} {s : Str} (h : fs.get p = some s) : fs.set p s = fs := by
  simp only [FS.set, insertFile_same h]

@[simp] theorem FS.set_set (fs : FS) (p : Path) (s t : Str) : (fs.set p s).set p t = fs.set p t := by
  simp [FS.set, insertFile_insertFile]

@[simp] theorem FS.set_dirs (fs : FS) (p : Path) (s : Str) : (fs.set p s).dirs = fs.dirs := rfl

@[simp] theorem overlay_zero (old s : Str) : overlay old 0 s = s ++ old.drop s.length := by
  simp [overlay]

theorem overlay_nil (s : Str) : overlay [] 0 s = s := by simp

theorem overlay_end (old s : Str) : overlay old old.length s = old ++ s := by
  simp [overlay]

/-! ### Running programs -/

@[simp] theorem run_pure {α : Type} (a : α) (fs : FS) : (pure a : Prog α).run fs = (.ok a, fs) := rfl

@[simp] theorem run_ret {α : Type} (a : α) (fs : FS) : (Prog.ret a).run fs = (.ok a, fs) := rfl

@[simp] theorem run_raise {α : Type} (e : PyErr) (fs : FS) :
    (Prog.raise e : Prog α).run fs = (.error e, fs) := rfl

theorem run_bind' {α β : Type} (p : Prog α) (f : α → Prog β) (fs : FS) :
    (p.bind f).run fs = match p.run fs with
      | (.ok a, fs') => (f a).run fs'
      | (.error e, fs') => (.error e, fs') := by
  induction p generalizing fs with
  | ret a => rfl
  | raise e => rfl
  | act op k ih => exact ih _ _

theorem run_bind {α β : Type} (p : Prog α) (f : α → Prog β) (fs : FS) :
    (p >>= f).run fs = match p.run fs with
      | (.ok a, fs') => (f a).run fs'
      | (.error e, fs') => (.error e, fs') := run_bind' p f fs

theorem run_bind_ok {α β : Type} {p : Prog α} {f : α → Prog β} {fs fs' : FS} {a : α}
    (h : p.run fs = (.ok a, fs')) : (p >>= f).run fs = (f a).run fs' := by
  rw [run_bind, h]

theorem run_bind_err {α β : Type} {p : Prog α} {f : α → Prog β} {fs fs' : FS} {e : PyErr}
    (h : p.run fs = (.error e, fs')) : (p >>= f).run fs = (.error e, fs') := by
  rw [run_bind, h]

theorem run_tryCatch {α : Type} (p : Prog α) (h : PyErr → Prog α) (fs : FS) :
    (p.tryCatch h).run fs = match p.run fs with
      | (.ok a, fs') => (.ok a, fs')
      | (.error e, fs') => (h e).run fs' := by
  induction p generalizing fs with
  | ret a => rfl
  | raise e => rfl
  | act op k ih => exact ih _ _

@[simp] theorem run_liftE_ok {α : Type} (a : α) (fs : FS) :
    (liftE (.ok a)).run fs = (.ok a, fs) := rfl

@[simp] theorem run_liftE_error {α : Type} (e : PyErr) (fs : FS) :
    (liftE (.error e) : Prog α).run fs = (.error e, fs) := rfl

theorem run_liftE {α : Type} (x : Except PyErr α) (fs : FS) : (liftE x).run fs = (x, fs) := by
  cases x <;> rfl

theorem run_readFile_some {p : Path} {s : Str} {fs : FS} (h : fs.get p = some s) :
    (readFile p).run fs = (.ok s, fs) := by
  simp [readFile, Prog.run, exec, h]

theorem run_readFile_none {p : Path} {fs : FS} (h : fs.get p = none) :
    (readFile p).run fs = (.error .fileNotFound, fs) := by
  simp [readFile, Prog.run, exec, h]

theorem run_write {p : Path} {pos : Nat} {s old : Str} {e : PyErr} {fs : FS} (h : fs.get p = some old) :
    (unitOp (.write p pos s) e).run fs = (.ok (), fs.set p (overlay old pos s)) := by
  simp [unitOp, Prog.run, exec, h]

theorem run_truncate {p : Path} {n : Nat} {old : Str} {e : PyErr} {fs : FS} (h : fs.get p = some old) :
    (unitOp (.truncate p n) e).run fs = (.ok (), fs.set p (old.take n)) := by
  simp [unitOp, Prog.run, exec, h]

theorem run_openW {p : Path} {e : PyErr} {fs : FS} (h : (p.folder, p.dir) ∈ fs.dirs) :
    (unitOp (.openW p) e).run fs = (.ok (), fs.set p []) := by
  simp [unitOp, Prog.run, exec, h]

theorem run_openW_fail {p : Path} {e : PyErr} {fs : FS} (h : (p.folder, p.dir) ∉ fs.dirs) :
    (unitOp (.openW p) e).run fs = (.error e, fs) := by
  simp [unitOp, Prog.run, exec, h]

theorem bind_ret_eq {α β : Type} (a : α) (f : α → Prog β) : ((Prog.ret a) >>= f) = f a := rfl

theorem bind_raise_eq {α β : Type} (e : PyErr) (f : α → Prog β) :
    ((Prog.raise e : Prog α) >>= f) = .raise e := rfl

theorem bind_act_eq {α β : Type} (op : Op) (k : Resp → Prog α) (f : α → Prog β) :
    ((Prog.act op k) >>= f) = .act op fun r => k r >>= f := rfl

/-! ### Frames: which files a program may change -/

/-- The file an operation may change. -/
def Op.target : Op → Option Path
  | .openW p | .write p _ _ | .truncate p _ | .touch p | .remove p => some p
  | _ => none

/-- The operation leaves the directory structure alone. -/
def Op.noDirs : Op → Bool
  | .mkdir .. | .rmdir .. => false
  | _ => true

/-- Every operation in the program satisfies `P`. -/
inductive Prog.AllOps {α : Type} (P : Op → Prop) : Prog α → Prop where
  | ret (a : α) : AllOps P (.ret a)
  | raise (e : PyErr) : AllOps P (.raise e)
  | act (op : Op) (k : Resp → Prog α) : P op → (∀ r, AllOps P (k r)) → AllOps P (.act op k)

theorem Prog.AllOps.bind {α β : Type} {P : Op → Prop} {p : Prog α} {f : α → Prog β}
    (hp : p.AllOps P) (hf : ∀ a, (f a).AllOps P) : (p >>= f).AllOps P := by
  induction hp with
  | ret a => exact hf a
  | raise e => exact .raise e
  | act op k h _ ih => exact .act op _ h ih

theorem Prog.AllOps.tryCatch {α : Type} {P : Op → Prop} {p : Prog α} {h : PyErr → Prog α}
    (hp : p.AllOps P) (hf : ∀ a, (h a).AllOps P) : (p.tryCatch h).AllOps P := by
  induction hp with
  | ret a => exact .ret a
  | raise e => exact hf e
  | act op k h _ ih => exact .act op _ h ih

theorem Prog.AllOps.mono {α : Type} {P Q : Op → Prop} {p : Prog α} (hp : p.AllOps P)
    (h : ∀ o, P o → Q o) : p.AllOps Q := by
  induction hp with
  | ret a => exact .ret a
  | raise e => exact .raise e
  | act op k h' _ ih => exact .act op _ (h _ h') ih

theorem Prog.AllOps.liftE {α : Type} {P : Op → Prop} (x : Except PyErr α) :
    (liftE x).AllOps P := by
  cases x <;> constructor

theorem Prog.AllOps.readFile {P : Op → Prop} {p : Path} (h : P (.read p)) :
    (readFile p).AllOps P := by
  refine .act _ _ h ?_
  intro r; cases r <;> constructor

theorem Prog.AllOps.unitOp {P : Op → Prop} {op : Op} {e : PyErr} (h : P op) :
    (unitOp op e).AllOps P := by
  refine .act _ _ h ?_
  intro r; cases r <;> constructor

theorem Prog.AllOps.flagOp {P : Op → Prop} {op : Op} (h : P op) :
    (flagOp op).AllOps P := by
  refine .act _ _ h ?_
  intro r; cases r <;> constructor

/-- Read-only operations. -/
def Op.readOnly : Op → Bool
  | .read _ | .isFile _ | .isDir .. | .listDirs _ | .listFiles .. => true
  | _ => false

theorem exec_readOnly {op : Op} (h : op.readOnly = true) (fs : FS) : (exec op fs).2 = fs := by
  cases op <;> simp [Op.readOnly] at h <;> simp only [exec] <;> (try split) <;> rfl

theorem run_readOnly {α : Type} {p : Prog α} (h : p.AllOps fun o => o.readOnly = true) (fs : FS) :
    (p.run fs).2 = fs := by
  induction h generalizing fs with
  | ret a => rfl
  | raise e => rfl
  | act op k h _ ih =>
    simp only [Prog.run]
    rw [ih, exec_readOnly h]

theorem lookup_filter_ne {p q : Path} (h : p ≠ q) (l : List (Path × Str)) :
    lookupFile q (l.filter fun x => x.1 ≠ p) = lookupFile q l := by
  induction l with
  | nil => rfl
  | cons x l ih =>
    obtain ⟨r, t⟩ := x
    by_cases e : r = p
    · subst e
      simp [lookupFile, h] at ih ⊢
      exact ih
    · simp [e, lookupFile] at ih ⊢
      rw [ih]

/-- An operation whose target is not `q` leaves `q` alone. -/
theorem exec_frame {op : Op} {q : Path} (h : op.target ≠ some q) (fs : FS) :
    (exec op fs).2.get q = fs.get q := by
  have aux : ∀ (p : Path) (s : Str), p ≠ q → (fs.set p s).get q = fs.get q :=
    fun p s hp => FS.get_set_ne hp fs s
  cases op <;> simp only [Op.target, ne_eq, Option.some.injEq, not_false_eq_true, reduceCtorEq] at h <;>
    simp only [exec] <;> repeat' (first | split | rfl | exact aux _ _ h)
  · exact lookup_filter_ne h _

theorem run_frame {α : Type} {p : Prog α} {q : Path} (h : p.AllOps fun o => o.target ≠ some q)
    (fs : FS) : (p.run fs).2.get q = fs.get q := by
  induction h generalizing fs with
  | ret a => rfl
  | raise e => rfl
  | act op k h _ ih =>
    simp only [Prog.run]
    rw [ih, exec_frame h]

end WG
