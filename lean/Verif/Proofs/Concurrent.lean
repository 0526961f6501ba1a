/- Interleavings of many programs, of which one works in a directory that the others leave alone. -/
import Verif.Spec.Concurrent
import Verif.Proofs.Isolation
import Verif.Proofs.Durable

set_option linter.unusedSectionVars false
set_option linter.unusedSimpArgs false

namespace WG

theorem SameDir.refl (folder name : Str) (fs : FS) : SameDir folder name fs fs := ⟨Iff.rfl, fun _ _ _ => rfl⟩

theorem SameDir.trans {folder name : Str} {a b c : FS} (h : SameDir folder name a b) (h' : SameDir folder name b c) :
    SameDir folder name a c :=
  ⟨h.1.trans h'.1, fun p h1 h2 => (h.2 p h1 h2).trans (h'.2 p h1 h2)⟩

theorem SameDir.set {folder name : Str} {a b : FS} (h : SameDir folder name a b) (p : Path) (s : Str) :
    SameDir folder name (a.set p s) (b.set p s) := by
  refine ⟨h.1, fun q h1 h2 => ?_⟩
  by_cases e : p = q
  · subst e; rw [FS.get_set_self, FS.get_set_self]
  · rw [FS.get_set_ne e, FS.get_set_ne e]; exact h.2 q h1 h2

/-- The call looks at and changes only files of the directory. -/
def Op.inDir (folder name : Str) : Op → Prop
  | .read p | .openW p | .write p _ _ | .truncate p _ | .isFile p => p.folder = folder ∧ p.dir = name
  | _ => False

theorem exec_sameDir {folder name : Str} {o : Op} (ho : o.inDir folder name) {a b : FS} (h : SameDir folder name a b) :
    (exec o a).1 = (exec o b).1 ∧ SameDir folder name (exec o a).2 (exec o b).2 := by
  cases o with
  | read p =>
    have := h.2 p ho.1 ho.2
    simp only [exec, this]
    split <;> exact ⟨rfl, h⟩
  | openW p =>
    have : (p.folder, p.dir) ∈ a.dirs ↔ (p.folder, p.dir) ∈ b.dirs := by rw [ho.1, ho.2]; exact h.1
    simp only [exec, this]
    split
    · exact ⟨rfl, h.set p _⟩
    · exact ⟨rfl, h⟩
  | write p pos s =>
    have := h.2 p ho.1 ho.2
    simp only [exec, this]
    split
    · exact ⟨rfl, h.set p _⟩
    · exact ⟨rfl, h⟩
  | truncate p n =>
    have := h.2 p ho.1 ho.2
    simp only [exec, this]
    split
    · exact ⟨rfl, h.set p _⟩
    · exact ⟨rfl, h⟩
  | isFile p =>
    have := h.2 p ho.1 ho.2
    simp only [exec, this]
    exact ⟨trivial, h⟩
  | _ => exact absurd ho id

theorem stepProg_sameDir {α : Type} {folder name : Str} {p : Prog α} (hp : p.AllOps (Op.inDir folder name)) {a b : FS}
    (h : SameDir folder name a b) :
    (stepProg p a).1 = (stepProg p b).1 ∧ SameDir folder name (stepProg p a).2 (stepProg p b).2 := by
  cases hp with
  | ret x => exact ⟨rfl, h⟩
  | raise e => exact ⟨rfl, h⟩
  | act op k ho _ =>
    obtain ⟨h1, h2⟩ := exec_sameDir ho h
    simp only [stepProg, h1]
    exact ⟨trivial, h2⟩

/-- Whatever the disk answers, the program changes nothing in the directory. -/
inductive Prog.Spares {α : Type} (folder name : Str) : Prog α → Prop where
  | ret (a : α) : Spares folder name (.ret a)
  | raise (e : PyErr) : Spares folder name (.raise e)
  | act (op : Op) (k : Resp → Prog α) (h : ∀ fs, SameDir folder name (exec op fs).2 fs)
      (hk : ∀ fs, Spares folder name (k (exec op fs).1)) : Spares folder name (.act op k)

theorem Prog.Spares.step {α : Type} {folder name : Str} {p : Prog α} (h : p.Spares folder name) (fs : FS) :
    (stepProg p fs).1.Spares folder name ∧ SameDir folder name (stepProg p fs).2 fs := by
  cases h with
  | ret a => exact ⟨.ret a, .refl ..⟩
  | raise e => exact ⟨.raise e, .refl ..⟩
  | act op k h hk => exact ⟨hk fs, h fs⟩

theorem Prog.Spares.bind {α β : Type} {folder name : Str} {p : Prog α} {f : α → Prog β} (hp : p.Spares folder name)
    (hf : ∀ a, (f a).Spares folder name) : (p >>= f).Spares folder name := by
  induction hp with
  | ret a => exact hf a
  | raise e => exact .raise e
  | act op k h _ ih => exact .act op _ h ih

theorem Prog.Spares.tryCatch {α : Type} {folder name : Str} {p : Prog α} {f : PyErr → Prog α} (hp : p.Spares folder name)
    (hf : ∀ a, (f a).Spares folder name) : (p.tryCatch f).Spares folder name := by
  induction hp with
  | ret a => exact .ret a
  | raise e => exact hf e
  | act op k h _ ih => exact .act op _ h ih

theorem Prog.Spares.of_allOps {α : Type} {folder name : Str} {p : Prog α} {P : Op → Prop} (hp : p.AllOps P)
    (h : ∀ o, P o → ∀ fs, SameDir folder name (exec o fs).2 fs) : p.Spares folder name := by
  induction hp with
  | ret a => exact .ret a
  | raise e => exact .raise e
  | act op k ho _ ih => exact .act op k (h op ho) fun _ => ih _

/-- A call without a target in the directory that does not make or remove it. -/
theorem sameDir_exec {folder name : Str} {o : Op} (ht : ∀ p, o.target = some p → (p.folder, p.dir) ≠ (folder, name))
    (hm : ∀ f n, o = .mkdir f n → (f, n) ≠ (folder, name)) (hr : ∀ f n, o = .rmdir f n → (f, n) ≠ (folder, name)) (fs : FS) :
    SameDir folder name (exec o fs).2 fs := by
  refine ⟨?_, fun p h1 h2 => exec_frame (fun e => ht p e (by rw [h1, h2])) fs⟩
  by_cases hd : o.noDirs = true
  · rw [exec_dirs hd]
  · cases o with
    | mkdir f n =>
      have := hm f n rfl
      simp only [exec]
      split
      · exact Iff.rfl
      · split
        · exact Iff.rfl
        · simp only [List.mem_append, List.mem_singleton]
          constructor
          · rintro (h | h)
            · exact h
            · exact absurd h.symm this
          · exact .inl
    | rmdir f n =>
      have := hr f n rfl
      simp only [exec]
      split
      · simp only [List.mem_filter, decide_eq_true_eq]
        exact ⟨fun h => h.1, fun h => ⟨h, fun e => this e.symm⟩⟩
      · exact Iff.rfl
    | _ => simp [Op.noDirs] at hd

theorem spares_readOnly {α : Type} {folder name : Str} {p : Prog α} (h : p.AllOps fun o => o.readOnly = true) :
    p.Spares folder name :=
  .of_allOps h fun o ho fs => by rw [exec_readOnly ho]; exact .refl ..

theorem spares_only {α : Type} {folder name : Str} {ps : List Path} {p : Prog α} (h : p.AllOps (Op.only ps))
    (hd : ∀ q ∈ ps, (q.folder, q.dir) ≠ (folder, name)) : p.Spares folder name :=
  .of_allOps h fun o ho fs => sameDir_exec (fun q e => hd q (ho.2 q e))
    (by rintro f n rfl; simp [Op.only, Op.noDirs] at ho) (by rintro f n rfl; simp [Op.only, Op.noDirs] at ho) fs

/-- The program whose directory the others leave alone gets exactly as far as alone. -/
theorem many_undisturbed {α : Type} {folder name : Str} (sched : List Nat) (l : List (Prog α)) (i : Nat) (p : Prog α) (fs a : FS)
    (hi : l[i]? = some p) (hp : p.AllOps (Op.inDir folder name))
    (ho : ∀ j q, j ≠ i → l[j]? = some q → q.Spares folder name) (h : SameDir folder name fs a) :
    (runMany sched l fs).1[i]? = some (stepsProg (sched.count i) p a).1 ∧
      SameDir folder name (runMany sched l fs).2 (stepsProg (sched.count i) p a).2 := by
  induction sched generalizing l p fs a with
  | nil => exact ⟨hi, h⟩
  | cons j sched ih =>
    rw [runMany]
    by_cases e : j = i
    · subst e
      rw [hi]
      simp only [List.count_cons_self, stepsProg]
      obtain ⟨h1, h2⟩ := stepProg_sameDir hp h
      have hlt : j < l.length := by
        rcases Nat.lt_or_ge j l.length with h' | h'
        · exact h'
        · rw [List.getElem?_eq_none h'] at hi; simp at hi
      refine h1 ▸ ih _ _ _ _ ?_ (AllOps.step hp fs) ?_ h2
      · rw [List.getElem?_set_self hlt]
      · intro k q hk hq
        rw [List.getElem?_set_ne (Ne.symm hk)] at hq
        exact ho k q hk hq
    · rw [List.count_cons_of_ne (by simpa using e)]
      split
      · exact ih _ _ _ _ hi hp ho h
      · next q hq =>
        obtain ⟨h1, h2⟩ := (ho j q e hq).step fs
        refine ih _ _ _ _ ?_ hp ?_ (h2.trans h)
        · rw [List.getElem?_set_ne e]; exact hi
        · intro k r hk hr
          by_cases e' : j = k
          · subst e'
            have hlt : j < l.length := by
              rcases Nat.lt_or_ge j l.length with h' | h'
              · exact h'
              · rw [List.getElem?_eq_none h'] at hq; simp at hq
            rw [List.getElem?_set_self hlt] at hr
            simp at hr
            rw [← hr]; exact h1
          · rw [List.getElem?_set_ne e'] at hr
            exact ho k r hk hr

/-- After enough turns a program has ended. -/
theorem steps_end {α : Type} (p : Prog α) (fs : FS) : ∃ n, ∀ m, n ≤ m → stepsProg m p fs = (liftE (p.run fs).1, (p.run fs).2) := by
  have stay : ∀ (r : Except PyErr α) (m : Nat) (fs : FS), stepsProg m (liftE r) fs = (liftE r, fs) := by
    intro r m
    induction m with
    | zero => intro fs; rfl
    | succ m ih => intro fs; cases r <;> exact ih fs
  induction p generalizing fs with
  | ret a => exact ⟨0, fun m _ => stay (.ok a) m fs⟩
  | raise e => exact ⟨0, fun m _ => stay (.error e) m fs⟩
  | act op k ih =>
    obtain ⟨n, hn⟩ := ih (exec op fs).1 (exec op fs).2
    refine ⟨n + 1, fun m hm => ?_⟩
    obtain ⟨m, rfl⟩ : ∃ m', m = m' + 1 := ⟨m - 1, by omega⟩
    exact hn m (by omega)

/-! ### The jobs -/

section
variable [PyRuntime]

theorem inDir_of_within {α : Type} {folder name : Str} {ps : List Path} {p : Prog α} (h : p.AllOps (Op.within ps))
    (hd : ∀ q ∈ ps, q.folder = folder ∧ q.dir = name) : p.AllOps (Op.inDir folder name) :=
  h.mono fun o ho => by cases o <;> simp only [Op.within] at ho <;> first | exact hd _ ho | exact absurd ho id

theorem within_loadSet (p : Path) (name : Str) : (loadIndexSet p name).AllOps (Op.within [p]) := by
  refine .tryCatch (.bind (within_read (by simp)) fun _ => .bind (.liftE _) fun _ => .bind (.liftE _) fun _ => .liftE _)
    fun e => ?_
  split
  · exact .ret _
  · exact .raise _

theorem within_find (pf : ParsedFind) (g : GPath) (c : Option Criteria) : (find pf g c).AllOps (Op.within [g.idx]) := by
  unfold find findShortCircuit
  refine .bind (.liftE _) fun f => .bind ?_ fun b => ?_
  · refine .bind (within_loadSet _ _) fun labels => .bind (within_loadSet _ _) fun names => ?_
    repeat' (first | split | exact .ret _)
  · split <;> exact .ret _

theorem within_query (env : Env) (q : Str) (g : GPath) : (query env q g).AllOps (Op.within [g.db, g.idx, g.wn]) := by
  unfold query
  simp only [Bool.and_false, Bool.false_eq_true, if_false]
  refine .bind (.liftE _) fun _ => .bind ?_ fun _ => .ret _
  unfold executeQuery
  refine .bind ?_ fun _ => ?_
  · unfold executeMakes
    split
    · exact within_make env _ g
    · exact .ret _
  · split
    · exact .raise _
    · refine .bind ((within_find _ _ _).mono fun _ => Op.within_mono (by simp)) fun _ => .bind ?_ fun _ => .ret _
      unfold executeReport
      split <;> exact .ret _

theorem within_shellLoop (env : Env) (g : GPath) (inputs : List Str) :
    (shellLoop env g inputs).AllOps (Op.within [g.db, g.idx, g.wn]) := by
  induction inputs with
  | nil => exact .ret _
  | cons q rest ih =>
    unfold shellLoop
    split
    · exact .ret _
    · split
      · exact .bind ih fun _ => .ret _
      · exact .bind (.tryCatch (.bind (within_query _ _ _) fun _ => .ret _) fun _ => .ret _) fun _ =>
          .bind ih fun _ => .ret _

theorem gdbms_files (folder name : Str) : ∀ q ∈ [(gdbmsPath folder name).db, (gdbmsPath folder name).idx, (gdbmsPath folder name).wn],
    q.folder = folder ∧ q.dir = name := by
  intro q hq
  simp only [gdbmsPath, List.mem_cons, List.not_mem_nil, or_false] at hq
  rcases hq with rfl | rfl | rfl <;> exact ⟨rfl, rfl⟩

theorem inDir_session (env : Env) (folder name : Str) (inputs : List Str) :
    (Job.session env folder name inputs).prog.AllOps (Op.inDir folder name) :=
  inDir_of_within (.bind (within_shellLoop env _ inputs) fun _ => .ret _) (gdbms_files folder name)

theorem spares_session {folder name f n : Str} (env : Env) (inputs : List Str) (h : (f, n) ≠ (folder, name)) :
    (shellLoop env (gdbmsPath f n) inputs).Spares folder name :=
  spares_only (only_shellLoop env _ inputs) fun q hq => by
    obtain ⟨h1, h2⟩ := gdbms_files f n q hq
    rw [h1, h2]; exact h

/-- A query without MAKE statements only reads. -/
theorem readOnly_query {env : Env} {q : Str} {g : GPath} (h : ∀ ms, ¬ Makes q ms) : (query env q g).AllOps fun o => o.readOnly = true := by
  unfold query
  simp only [Bool.and_false, Bool.false_eq_true, if_false]
  cases hp : parseQueryString q with
  | error e => exact .raise _
  | ok p =>
    show Prog.AllOps _ (executeQuery env p g >>= fun _ => pure true)
    refine .bind ?_ fun _ => .ret _
    unfold executeQuery
    refine .bind ?_ fun _ => ?_
    · unfold executeMakes
      split
      · next m ms e => exact absurd ⟨by simp, p, hp, e⟩ (h (m :: ms))
      · exact .ret _
    · split
      · exact .raise _
      · refine .bind (readOnly_find _ _ _) fun _ => .bind ?_ fun _ => .ret _
        unfold executeReport
        split <;> exact .ret _

theorem readOnly_session {env : Env} {g : GPath} {inputs : List Str} (h : ∀ q ∈ inputs, ∀ ms, ¬ Makes q ms) :
    (shellLoop env g inputs).AllOps fun o => o.readOnly = true := by
  induction inputs with
  | nil => exact .ret _
  | cons q rest ih =>
    have ih := ih fun x hx => h x (by simp [hx])
    unfold shellLoop
    split
    · exact .ret _
    · split
      · exact .bind ih fun _ => .ret _
      · exact .bind (.tryCatch (.bind (readOnly_query (h q (by simp))) fun _ => .ret _) fun _ => .ret _) fun _ =>
          .bind ih fun _ => .ret _

theorem spares_createFile {folder name : Str} (p : Path) (text : Str) (h : (p.folder, p.dir) ≠ (folder, name)) :
    (createNewFile p text).Spares folder name := by
  have op : ∀ (o : Op) (e : PyErr), (o = .mkdir p.folder p.dir ∨ o = .touch p ∨ o = .openW p ∨ ∃ t, o = .write p 0 t) →
      (unitOp o e).Spares folder name := by
    intro o e ho
    refine .of_allOps (P := fun x => x = o) (.unitOp rfl) ?_
    rintro o' rfl fs
    refine sameDir_exec ?_ ?_ ?_ fs
    · intro q hq
      rcases ho with rfl | rfl | rfl | ⟨t, rfl⟩ <;> simp [Op.target] at hq <;> (subst hq; exact h)
    · rintro f n rfl
      rcases ho with ho | ho | ho | ⟨t, ho⟩ <;> simp at ho
      rw [ho.1, ho.2]; exact h
    · rintro f n rfl
      rcases ho with ho | ho | ho | ⟨t, ho⟩ <;> simp at ho
  unfold createNewFile
  refine .bind (op _ _ (by simp)) fun _ => .bind (spares_readOnly (.flagOp rfl)) fun b => ?_
  split
  · exact .raise _
  · exact .bind (op _ _ (by simp)) fun _ => .bind (op _ _ (by simp)) fun _ => .bind (op _ _ (by simp)) fun _ => .ret _

theorem Prog.Spares.bindP {α β : Type} {folder name : Str} {P : α → Prop} {p : Prog α} {f : α → Prog β} (hp : p.Spares folder name)
    (hr : Returns P p) (hf : ∀ a, P a → (f a).Spares folder name) : (p >>= f).Spares folder name := by
  induction hp with
  | ret a =>
    cases hr with
    | ret _ h => exact hf a h
  | raise e => exact .raise e
  | act op k h _ ih =>
    cases hr with
    | act _ _ hr => exact .act op _ h fun fs => ih fs (hr _)

theorem spares_new {folder name f n : Str} (h : (f, n) ≠ (folder, name)) : (getNewGdbmsFilePaths n f).Spares folder name := by
  unfold getNewGdbmsFilePaths createNewDatabase createNewIndexesFile createNewWiggleNumberFile
  exact .bind (spares_createFile _ _ h) fun _ => .bind (spares_createFile _ _ h) fun _ => .bind (spares_createFile _ _ h) fun _ => .ret _

theorem spares_createNewDbms {folder name f : Str} (inputs : List Str) (h : ∀ n ∈ inputs, (f, n) ≠ (folder, name)) :
    (createNewDbms f inputs).Spares folder name := by
  induction inputs with
  | nil => exact .ret _
  | cons x inputs ih =>
    rw [createNewDbms]
    refine .tryCatch (.bind (spares_new (h x (by simp))) fun _ => .ret _) fun e => ?_
    split
    · exact ih fun n hn => h n (by simp [hn])
    · exact .raise _

/-- The names a shell that makes a new GDBMS may end up with are among the texts typed. -/
theorem returns_new_name (inputs : List Str) : Returns (fun r => ∀ g rest, r = some (g, rest) →
    ∃ n ∈ inputs, g = gdbmsPath DBMS_FOLDER n) (createNewDbms DBMS_FOLDER inputs) := by
  induction inputs with
  | nil => exact .ret _ (by intro _ _ e; cases e)
  | cons x inputs ih =>
    rw [createNewDbms]
    refine .tryCatch (.bind (P := (· = gdbmsPath DBMS_FOLDER x)) ?_ fun g hg => .ret _ ?_) fun e => ?_
    · refine .bind (returns_file _ _) fun a ha => .bind (returns_file _ _) fun b hb => .bind (returns_file _ _) fun c hc => .ret _ ?_
      rw [ha, hb, hc]; rfl
    · intro g' rest e
      cases e
      exact ⟨x, by simp, hg⟩
    · split
      · refine ih.mono fun r h g rest e => ?_
        obtain ⟨n, hn, e⟩ := h g rest e
        exact ⟨n, by simp [hn], e⟩
      · exact .raise _

theorem spares_removeAll {folder name : Str} (ps : List Path) (h : ∀ p ∈ ps, (p.folder, p.dir) ≠ (folder, name)) :
    (removeAll ps).Spares folder name := by
  induction ps with
  | nil => exact .ret _
  | cons p ps ih =>
    refine .bind (.of_allOps (P := (· = .remove p)) (.unitOp rfl) ?_) fun _ => ih fun q hq => h q (by simp [hq])
    rintro o rfl fs
    refine sameDir_exec ?_ (by simp) (by simp) fs
    intro q hq
    simp [Op.target] at hq
    subst hq
    exact h _ (by simp)

theorem spares_delete {folder name f n : Str} (hm : hasMagic n = false) (h : (f, n) ≠ (folder, name)) :
    (deleteGdbms n f).Spares folder name := by
  unfold deleteGdbms
  refine .bind (spares_readOnly (.flagOp rfl)) fun b => ?_
  split
  · exact .raise _
  · show Prog.Spares folder name (.act _ _)
    refine .act _ _ (fun fs => by rw [exec_readOnly rfl]; exact .refl ..) fun fs => ?_
    show Prog.Spares folder name (removeAll _ >>= fun _ => unitOp (.rmdir f n) .osError >>= fun _ => pure 0)
    refine .bind (spares_removeAll _ ?_) fun _ => .bind (.of_allOps (P := (· = .rmdir f n)) (.unitOp rfl) ?_) fun _ => .ret _
    · intro p hp
      simp only [List.mem_filter, globDirs_plain hm] at hp
      obtain ⟨_, hp⟩ := hp
      simp at hp
      rw [hp.1.1, hp.1.2]; exact h
    · rintro o rfl fs
      refine sameDir_exec (by simp [Op.target]) (by simp) ?_ fs
      rintro f' n' e
      cases e
      exact h

/-- A job that spares a GDBMS leaves its directory alone, whatever the others do. -/
theorem job_spares {folder name : Str} {j : Job} (h : j.Spares folder name) : j.prog.Spares folder name := by
  cases h with
  | elsewhere env f n inputs h => exact .bind (spares_session env inputs h) fun _ => .ret _
  | reader env f n inputs h => exact .bind (spares_readOnly (readOnly_session h)) fun _ => .ret _
  | makesNew env choice inputs h1 h2 h =>
    have hn : ∀ n ∈ inputs, (DBMS_FOLDER, n) ≠ (folder, name) := by
      rintro n hn e
      cases e
      exact h rfl hn
    show (startWiggleShell env (choice :: inputs)).Spares folder name
    unfold startWiggleShell
    rw [selectGdbms, if_neg (by simp [h1, h2])]
    refine .bindP (spares_createNewDbms _ hn) (returns_new_name _) fun r hr => ?_
    split
    · exact .ret _
    · next g rest =>
      obtain ⟨n, hn', rfl⟩ := hr _ _ rfl
      exact .bind (spares_session env rest (hn n hn')) fun _ => .ret _
  | delete f n hm h => exact .bind (spares_delete hm h) fun _ => .ret _

end

end WG
