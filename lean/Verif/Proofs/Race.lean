/- Schedules in which one of two programs is overtaken by the other after it has read. -/
import Verif.Proofs.Concurrent

set_option linter.unusedSectionVars false
set_option linter.unusedSimpArgs false

namespace WG

/-- From `p` on the disk `fs` to `p'` on `fs'` by file-system calls. -/
inductive Moves {α : Type} : FS → Prog α → FS → Prog α → Prop where
  | here (fs : FS) (p : Prog α) : Moves fs p fs p
  | step (op : Op) (k : Resp → Prog α) (fs fs' : FS) (p' : Prog α) (hk : Moves (exec op fs).2 (k (exec op fs).1) fs' p') :
      Moves fs (.act op k) fs' p'

theorem Moves.bind {α β : Type} {fs fs' : FS} {p p' : Prog α} (h : Moves fs p fs' p') (f : α → Prog β) :
    Moves fs (p >>= f) fs' (p' >>= f) := by
  induction h with
  | here fs p => exact .here _ _
  | step op k fs fs' p' _ ih => exact .step op _ _ _ _ ih

theorem Moves.tryCatch {α : Type} {fs fs' : FS} {p p' : Prog α} (h : Moves fs p fs' p') (f : PyErr → Prog α) :
    Moves fs (p.tryCatch f) fs' (p'.tryCatch f) := by
  induction h with
  | here fs p => exact .here _ _
  | step op k fs fs' p' _ ih => exact .step op _ _ _ _ ih

theorem Moves.trans {α : Type} {fs fs' fs'' : FS} {p p' p'' : Prog α} (h : Moves fs p fs' p') (h' : Moves fs' p' fs'' p'') :
    Moves fs p fs'' p'' := by
  induction h with
  | here fs p => exact h'
  | step op k fs fs' p' _ ih => exact .step op _ _ _ _ (ih h')

theorem Moves.steps {α : Type} {fs fs' : FS} {p p' : Prog α} (h : Moves fs p fs' p') : ∃ n, stepsProg n p fs = (p', fs') := by
  induction h with
  | here fs p => exact ⟨0, rfl⟩
  | step op k fs fs' p' _ ih =>
    obtain ⟨n, hn⟩ := ih
    exact ⟨n + 1, hn⟩

theorem moves_file {fs : FS} {p : Path} {text : Str} (h : fs.get p = some text) : Moves fs (readFile p) fs (.ret text) := by
  refine .step _ _ _ _ _ ?_
  simp only [exec, h]
  exact .here _ _

/-- Turns of the first of two programs. -/
theorem many_first {α : Type} (n : Nat) (sched : List Nat) (p q : Prog α) (fs : FS) :
    runMany (List.replicate n 0 ++ sched) [p, q] fs = runMany sched [(stepsProg n p fs).1, q] (stepsProg n p fs).2 := by
  induction n generalizing p fs with
  | zero => rfl
  | succ n ih =>
    rw [List.replicate_succ, List.cons_append, runMany, stepsProg, ← ih]
    rfl

/-- Turns of the second of two programs. -/
theorem many_second {α : Type} (n : Nat) (sched : List Nat) (p q : Prog α) (fs : FS) :
    runMany (List.replicate n 1 ++ sched) [p, q] fs = runMany sched [p, (stepsProg n q fs).1] (stepsProg n q fs).2 := by
  induction n generalizing q fs with
  | zero => rfl
  | succ n ih =>
    rw [List.replicate_succ, List.cons_append, runMany, stepsProg, ← ih]
    rfl

/-- The second program makes some calls, the first one runs from start to end, the second one goes on. -/
theorem overtake {α : Type} {p q q' : Prog α} {fs fs0 : FS} (h : Moves fs q fs0 q') :
    ∃ sched, runMany sched [p, q] fs = ([liftE (p.run fs0).1, liftE (q'.run (p.run fs0).2).1], (q'.run (p.run fs0).2).2) := by
  obtain ⟨n, h⟩ := h.steps
  obtain ⟨m, hm⟩ := steps_end p fs0
  obtain ⟨l, hl⟩ := steps_end q' (p.run fs0).2
  refine ⟨List.replicate n 1 ++ (List.replicate m 0 ++ (List.replicate l 1 ++ [])), ?_⟩
  rw [many_second, h, many_first, hm m (Nat.le_refl _), many_second, hl l (Nat.le_refl _)]
  rfl

/-! ### A session that has read counter and database -/

section
variable [PyRuntime]

theorem moves_counter {fs : FS} {p : Path} {n : Int} (h : ∃ t, fs.get p = some t ∧ t ≠ [] ∧ pyInt t = some n) :
    Moves fs (getCurrentWiggleNumber p) fs (.ret n) := by
  obtain ⟨t, h1, h2, h3⟩ := h
  have := (moves_file h1).bind fun s => if s.isEmpty = true then Prog.raise .exception
    else match pyInt s with
      | some n => pure n
      | none => .raise .value
  have e : (Prog.ret t >>= fun s => if s.isEmpty = true then Prog.raise .exception
    else match pyInt s with
      | some n => pure n
      | none => .raise .value) = Prog.ret n := by
    show (if t.isEmpty = true then Prog.raise .exception
      else match pyInt t with
        | some n => pure n
        | none => .raise .value) = Prog.ret n
    rw [if_neg (by simpa using h2), h3]
    rfl
  rw [e] at this
  exact this

/-- What is left of adding items to a database after the file has been read. -/
def addRest (p : Path) (d : Dict V) : Prog Bool := dumpTo p 0 (.dict d) >>= fun _ => pure true

theorem moves_addItem {fs : FS} {p : Path} {d items : Dict V} (h : Holds fs p d) (hf : Fresh d items) :
    Moves fs (addItemToDatabase p items) fs (addRest p (d ++ items)) := by
  obtain ⟨t, h1, h2⟩ := h
  have := (moves_file h1).bind fun text => liftE (loads text) >>= fun db => liftE (addLoop db items) >>= fun db' =>
    dumpTo p 0 db' >>= fun _ => (pure true : Prog Bool)
  have e : (Prog.ret t >>= fun text => liftE (loads text) >>= fun db => liftE (addLoop db items) >>= fun db' =>
    dumpTo p 0 db' >>= fun _ => (pure true : Prog Bool)) = addRest p (d ++ items) := by
    show (liftE (loads t) >>= fun db => liftE (addLoop db items) >>= fun db' =>
      dumpTo p 0 db' >>= fun _ => (pure true : Prog Bool)) = _
    rw [loads_some h2]
    show (liftE (addLoop (.dict d) items) >>= fun db' => dumpTo p 0 db' >>= fun _ => (pure true : Prog Bool)) = _
    rw [addLoop_fresh hf]
    rfl
  rw [e] at this
  exact this

/-- A session that starts with a storing query, after it has read counter and database: what it will do to the database file is to
write the text it has already computed over whatever is there. -/
theorem session_read {env : Env} {folder name : Str} {q : Str} {fs : FS} {d : Dict V} {labels names : List Str}
    {rels : Dict (List Int)} {n : Int} {ms : List ParsedMake} (h : Healthy fs (gdbmsPath folder name) d labels names rels n)
    (hb : BelowCounter d n) (hm : Makes q ms) (hok : MakeOK ms) (h1 : q ≠ c!"q") (h2 : ¬ isSubstr c!"help" (lower q) = true) :
    ∃ p', Moves fs (Job.session env folder name [q]).prog fs p' ∧
      ∀ (fs1 : FS) (t : Str), fs1.get (dbPath folder name) = some t →
        (p'.run fs1).2.get (dbPath folder name) =
          some (overlay t 0 (jsonDump (.dict (d ++ dbBatch env n (patsOf ms)))).1) := by
  obtain ⟨hne, pq, hp, hmk⟩ := hm
  obtain ⟨m, ms', rfl⟩ : ∃ m ms', ms = m :: ms' := by
    cases ms with
    | nil => exact absurd rfl hne
    | cons m ms' => exact ⟨m, ms', rfl⟩
  have hf := fresh_batch (env := env) (pats := patsOf (m :: ms')) fun w h1 _ => hb w h1
  -- MAKE
  have r1 : Moves fs (make env (m :: ms') (gdbmsPath folder name)) fs
      (addRest (dbPath folder name) (d ++ dbBatch env n (patsOf (m :: ms'))) >>= fun _ =>
        commitIndexes env n (patsOf (m :: ms')) (gdbmsPath folder name) >>= fun _ =>
        updateWiggleNumber (gdbmsPath folder name).wn (n + totalSize (patsOf (m :: ms'))) >>= fun _ => pure true) := by
    rw [make_eq]
    refine ((moves_counter h.wn).bind _).trans ?_
    show Moves fs (afterCounter env (m :: ms') (gdbmsPath folder name) n) fs _
    rw [afterCounter_ok hok, commit_eq]
    exact (moves_addItem h.db hf).bind _
  generalize hM : (addRest (dbPath folder name) (d ++ dbBatch env n (patsOf (m :: ms'))) >>= fun _ =>
        commitIndexes env n (patsOf (m :: ms')) (gdbmsPath folder name) >>= fun _ =>
        updateWiggleNumber (gdbmsPath folder name).wn (n + totalSize (patsOf (m :: ms'))) >>= fun _ => (pure true : Prog Bool)) = M at r1
  have w1 : ∀ (fs1 : FS) (t : Str), fs1.get (dbPath folder name) = some t → (M.run fs1).2.get (dbPath folder name) =
      some (overlay t 0 (jsonDump (.dict (d ++ dbBatch env n (patsOf (m :: ms'))))).1) := by
    intro fs1 t ht
    subst hM
    refine (run_bind_frame (ps := [(gdbmsPath folder name).idx, (gdbmsPath folder name).wn]) (fun _ =>
      .bind ((only_commitIndexes ..).mono fun _ => Op.only_mono (by simp)) fun _ =>
        .bind ((only_updateCounter ..).mono fun _ => Op.only_mono (by simp)) fun _ => .ret _)
      (by have := dbPath_apart folder name; simp [gdbmsPath, this]) fs1).trans ?_
    unfold addRest
    refine (run_bind_frame (ps := []) (fun _ => .ret _) (by simp) fs1).trans ?_
    rw [run_dumpTo ht, FS.get_set_self]
  -- the query
  let F : Bool → Prog Bool := fun _ => match pq.find with
    | none => .raise .exception
    | some f => do
      let found ← find f (gdbmsPath folder name) none
      let _ ← executeReport found (gdbmsPath folder name) pq.report
      pure true
  have hF : ∀ b, (F b).AllOps (Op.only []) := by
    intro b
    show Prog.AllOps _ (match pq.find with
      | none => .raise .exception
      | some f => do
        let found ← find f (gdbmsPath folder name) none
        let _ ← executeReport found (gdbmsPath folder name) pq.report
        pure true)
    split
    · exact .raise _
    · refine .bind ((readOnly_find _ _ _).mono fun _ h => Op.only_readOnly h) fun _ => .bind ?_ fun _ => .ret _
      unfold executeReport
      split <;> exact .ret _
  have r2 : Moves fs (query env q (gdbmsPath folder name)) fs ((M >>= F) >>= fun _ => pure true) := by
    unfold query
    simp only [Bool.and_false, Bool.false_eq_true, if_false]
    rw [hp]
    show Moves fs (executeQuery env pq (gdbmsPath folder name) >>= fun _ => pure true) fs _
    refine Moves.bind ?_ _
    unfold executeQuery
    rw [hmk]
    exact r1.bind _
  have hsl : shellLoop env (gdbmsPath folder name) [q] =
      (Prog.tryCatch (do let _ ← query env q (gdbmsPath folder name); pure Event.done) fun e => pure (.failed e)) >>= fun ev =>
        pure [ev] := by
    rw [shellLoop, if_neg h1, if_neg h2]
    rfl
  refine ⟨((Prog.tryCatch (((M >>= F) >>= fun _ => pure true) >>= fun _ => pure Event.done) fun e => pure (.failed e)) >>= fun ev =>
        pure [ev]) >>= fun l => pure (some l), ?_, ?_⟩
  · show Moves fs (shellLoop env (gdbmsPath folder name) [q] >>= fun l => pure (some l)) fs _
    rw [hsl]
    exact (((r2.bind _).tryCatch _).bind _).bind _
  · intro fs1 t ht
    refine (run_bind_frame (ps := []) (fun _ => .ret _) (by simp) fs1).trans ?_
    refine (run_bind_frame (ps := []) (fun _ => .ret _) (by simp) fs1).trans ?_
    have e1 : ((((M >>= F) >>= fun _ => (pure true : Prog Bool)) >>= fun _ => pure Event.done).run fs1).2.get (dbPath folder name) =
        some (overlay t 0 (jsonDump (.dict (d ++ dbBatch env n (patsOf (m :: ms'))))).1) :=
      (run_bind_frame (ps := []) (fun _ => .ret _) (by simp) fs1).trans
        ((run_bind_frame (ps := []) (fun _ => .ret _) (by simp) fs1).trans
          ((run_bind_frame hF (by simp) fs1).trans (w1 fs1 t ht)))
    rw [run_tryCatch]
    generalize ((((M >>= F) >>= fun _ => (pure true : Prog Bool)) >>= fun _ => pure Event.done).run fs1) = r at e1 ⊢
    obtain ⟨r, fs2⟩ := r
    cases r <;> exact e1

/-! ### A shell that has made sure that a name is free -/

/-- What is left of `createNewFile` after the directory was made and the file found missing. -/
def createRest (p : Path) (text : Str) : Prog Path := do
  unitOp (.touch p) .osError
  unitOp (.openW p) .osError
  unitOp (.write p 0 text) .osError
  pure p

theorem moves_createFile {fs fs0 : FS} {p : Path} {text : Str} (hm : exec (.mkdir p.folder p.dir) fs = (.ok, fs0)) (hf : fs0.get p = none) :
    Moves fs (createNewFile p text) fs0 (createRest p text) := by
  refine .step _ _ _ _ _ ?_
  rw [hm]
  refine .step _ _ _ _ _ ?_
  simp only [exec, hf]
  exact .here _ _

theorem run_createRest {fs : FS} {p : Path} {text t : Str} (hd : (p.folder, p.dir) ∈ fs.dirs) (ht : fs.get p = some t) :
    (createRest p text).run fs = (.ok p, (fs.set p []).set p text) := by
  unfold createRest
  rw [run_bind_ok (show (unitOp (.touch p) .osError).run fs = (.ok (), fs) by simp [unitOp, Prog.run, exec, hd, ht]),
    run_bind_ok (show (unitOp (.openW p) .osError).run fs = (.ok (), fs.set p []) by simp [unitOp, Prog.run, exec, hd]),
    run_bind_ok (show (unitOp (.write p 0 text) .osError).run (fs.set p []) = (.ok (), (fs.set p []).set p text) by
      simp [unitOp, Prog.run, exec, FS.get_set_self, overlay])]
  rfl

/-- A shell that is about to make a GDBMS, after it has found the database file missing: it will empty the database file, whoever
made it in the meantime. -/
theorem start_checked {env : Env} {choice name : Str} {fs fs0 : FS} (h1 : choice ≠ c!"y") (h2 : choice ≠ c!"yes")
    (hm : exec (.mkdir DBMS_FOLDER name) fs = (.ok, fs0)) (hf : fs0.get (dbPath DBMS_FOLDER name) = none) :
    ∃ p', Moves fs (Job.start env [choice, name]).prog fs0 p' ∧
      ∀ (fs1 : FS) (t t' : Str), (DBMS_FOLDER, name) ∈ fs1.dirs → fs1.get (dbPath DBMS_FOLDER name) = some t →
        fs1.get (idxPath DBMS_FOLDER name) = some t' →
        p'.run fs1 = (.ok none, (fs1.set (dbPath DBMS_FOLDER name) []).set (dbPath DBMS_FOLDER name) c!"{}") := by
  have r := moves_createFile (p := dbPath DBMS_FOLDER name) (text := c!"{}") hm hf
  let K1 : Path → Prog GPath := fun db => do
    let idx ← createNewIndexesFile name DBMS_FOLDER
    let wn ← createNewWiggleNumberFile name DBMS_FOLDER
    pure ⟨db, idx, wn⟩
  let K2 : PyErr → Prog (Option (GPath × List Str)) := fun e => if e.isValueError then createNewDbms DBMS_FOLDER [] else .raise e
  let K3 : Option (GPath × List Str) → Prog (Option (List Event)) := fun sel =>
    match sel with
    | none => pure none
    | some (g, rest) => do
      let l ← shellLoop env g rest
      pure (some l)
  have e : (Job.start env [choice, name]).prog =
      (Prog.tryCatch ((createNewFile (dbPath DBMS_FOLDER name) c!"{}" >>= K1) >>= fun g => pure (some (g, []))) K2) >>= K3 := by
    show startWiggleShell env [choice, name] = _
    unfold startWiggleShell
    rw [selectGdbms, if_neg (by simp [h1, h2]), createNewDbms]
    rfl
  refine ⟨(Prog.tryCatch ((createRest (dbPath DBMS_FOLDER name) c!"{}" >>= K1) >>= fun g => pure (some (g, []))) K2) >>= K3, ?_, ?_⟩
  · rw [e]
    exact (((r.bind _).bind _).tryCatch _).bind _
  · intro fs1 t t' hd ht ht'
    have hne := (dbPath_apart DBMS_FOLDER name).1
    have q1 := run_createRest (p := dbPath DBMS_FOLDER name) (text := c!"{}") hd ht
    generalize hF : (fs1.set (dbPath DBMS_FOLDER name) []).set (dbPath DBMS_FOLDER name) c!"{}" = fs2 at q1 ⊢
    have hi : fs2.get (idxPath DBMS_FOLDER name) = some t' := by
      subst hF
      rw [FS.get_set_ne hne, FS.get_set_ne hne, ht']
    have hd2 : (DBMS_FOLDER, name) ∈ fs2.dirs := by subst hF; exact hd
    have q2 : (createNewIndexesFile name DBMS_FOLDER).run fs2 = (.error .value, fs2) := by
      unfold createNewIndexesFile createNewFile
      rw [run_bind_ok (show (unitOp (.mkdir (idxPath DBMS_FOLDER name).folder (idxPath DBMS_FOLDER name).dir) .osError).run fs2 = (.ok (), fs2) by
          simp [unitOp, Prog.run, exec, idxPath, hd2]),
        run_bind_ok (show (flagOp (.isFile (idxPath DBMS_FOLDER name))).run fs2 = (.ok true, fs2) by
          simp [flagOp, Prog.run, exec, hi])]
      rfl
    have q3 : ((createRest (dbPath DBMS_FOLDER name) c!"{}" >>= K1) >>= fun g => (pure (some (g, [])) : Prog (Option (GPath × List Str)))).run fs1 =
        (.error .value, fs2) := by
      refine run_bind_err ?_
      rw [run_bind_ok q1]
      exact run_bind_err q2
    have q4 : ((Prog.tryCatch ((createRest (dbPath DBMS_FOLDER name) c!"{}" >>= K1) >>= fun g => pure (some (g, []))) K2)).run fs1 = (.ok none, fs2) := by
      rw [run_tryCatch, q3]
      rfl
    rw [run_bind_ok q4]
    rfl

/-- Where a program is after some of its calls is a crash point. -/
theorem crash_steps {α : Type} (n : Nat) (p : Prog α) (fs : FS) : CrashAt (fun _ => False) p fs (stepsProg n p fs).2 := by
  induction n generalizing p fs with
  | zero => exact .here _ _
  | succ n ih =>
    cases p with
    | ret a => exact ih (.ret a) fs
    | raise e => exact ih (.raise e) fs
    | act op k => exact .step _ _ _ _ (ih _ _)

theorem crash_of_bind_ret {α β : Type} {tear : Path → Prop} {p : Prog α} {f : α → β} {fs fs' : FS}
    (h : CrashAt tear (p >>= fun a => .ret (f a)) fs fs') : CrashAt tear p fs fs' := by
  induction p generalizing fs with
  | ret a =>
    cases h with
    | here => exact .here _ _
  | raise e =>
    cases h with
    | here => exact .here _ _
  | act op k ih =>
    cases h with
    | here => exact .here _ _
    | torn p pos s n k' _ ht => exact .torn p pos s n k fs ht
    | step _ _ _ _ h => exact .step _ _ _ _ (ih _ h)

/-- A session never removes a file. -/
theorem run_keeps_file {α : Type} {folder name : Str} {p : Prog α} (hp : p.AllOps (Op.inDir folder name)) {q : Path} {fs : FS}
    (h : ∃ t, fs.get q = some t) : ∃ t, (p.run fs).2.get q = some t := by
  induction hp generalizing fs with
  | ret a => exact h
  | raise e => exact h
  | act op k ho _ ih =>
    refine ih _ ?_
    have hs : ∀ (r : Path) (s : Str), ∃ t, (fs.set r s).get q = some t := by
      intro r s
      by_cases e : r = q
      · subst e; exact ⟨s, FS.get_set_self _ _ _⟩
      · rw [FS.get_set_ne e]; exact h
    cases op <;> simp only [Op.inDir] at ho <;> simp only [exec] <;> (repeat' split) <;> first | exact h | exact hs _ _

end

end WG
