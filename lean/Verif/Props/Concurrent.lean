/-
C79, C80: several shells at the same time.
-/
import Verif.Proofs.Race
import Verif.Props.Durable
import Verif.Props.Gdbms

set_option linter.unusedSectionVars false
set_option linter.unusedSimpArgs false

namespace WG

section
variable [PyRuntime]

theorem jobs_others {jobs : List Job} {i : Nat} {folder name : Str} (ho : ∀ j job, j ≠ i → jobs[j]? = some job → job.Spares folder name) :
    ∀ j q, j ≠ i → (jobs.map Job.prog)[j]? = some q → q.Spares folder name := by
  intro j q hj hq
  rw [List.getElem?_map] at hq
  cases e : jobs[j]? with
  | none => rw [e] at hq; simp at hq
  | some job =>
    rw [e] at hq
    simp only [Option.map_some, Option.some.injEq] at hq
    subst hq
    exact job_spares (ho j job hj e)

/-- C79: any number of jobs, any schedule.  If all others spare the GDBMS of a session, then the session has, whenever it has ended, shown what it
shows alone, and left in its directory what it leaves alone. -/
theorem C79_undisturbed (jobs : List Job) (i : Nat) (env : Env) (folder name : Str) (inputs : List Str)
    (hi : jobs[i]? = some (.session env folder name inputs)) (ho : ∀ j job, j ≠ i → jobs[j]? = some job → job.Spares folder name)
    (sched : List Nat) (fs : FS) (r : Except PyErr (Option (List Event)))
    (hend : (runMany sched (jobs.map Job.prog) fs).1[i]? = some (liftE r)) :
    r = ((Job.session env folder name inputs).prog.run fs).1 ∧
      SameDir folder name (runMany sched (jobs.map Job.prog) fs).2 ((Job.session env folder name inputs).prog.run fs).2 := by
  obtain ⟨h1, h2⟩ := many_undisturbed sched (jobs.map Job.prog) i _ fs fs (by rw [List.getElem?_map, hi]; rfl)
    (inDir_session env folder name inputs) (jobs_others ho) (.refl ..)
  have h3 := steps_done (sched.count i) (Job.session env folder name inputs).prog fs
  rw [hend] at h1
  simp only [Option.some.injEq] at h1
  rw [← h1] at h3
  rw [← h3]
  cases r <;> exact ⟨rfl, h2⟩

/-- C79: nobody can keep it from getting there. -/
theorem C79_gets_there (jobs : List Job) (i : Nat) (env : Env) (folder name : Str) (inputs : List Str)
    (hi : jobs[i]? = some (.session env folder name inputs)) (ho : ∀ j job, j ≠ i → jobs[j]? = some job → job.Spares folder name) (fs : FS) :
    ∃ n, ∀ sched, n ≤ sched.count i →
      (runMany sched (jobs.map Job.prog) fs).1[i]? = some (liftE ((Job.session env folder name inputs).prog.run fs).1) := by
  obtain ⟨n, hn⟩ := steps_end (Job.session env folder name inputs).prog fs
  refine ⟨n, fun sched hs => ?_⟩
  obtain ⟨h1, -⟩ := many_undisturbed sched (jobs.map Job.prog) i _ fs fs (by rw [List.getElem?_map, hi]; rfl)
    (inDir_session env folder name inputs) (jobs_others ho) (.refl ..)
  rw [h1, hn _ hs]

/-- C79: at every moment the directory is as it is at some moment of the session alone.  (So all that holds for stopped sessions, C77
and C78, holds among other shells.) -/
theorem C79_any_moment (jobs : List Job) (i : Nat) (env : Env) (folder name : Str) (inputs : List Str)
    (hi : jobs[i]? = some (.session env folder name inputs)) (ho : ∀ j job, j ≠ i → jobs[j]? = some job → job.Spares folder name)
    (sched : List Nat) (fs : FS) :
    ∃ fs1, CrashAt (fun _ => False) (shellLoop env (gdbmsPath folder name) inputs) fs fs1 ∧
      SameDir folder name (runMany sched (jobs.map Job.prog) fs).2 fs1 := by
  obtain ⟨-, h2⟩ := many_undisturbed sched (jobs.map Job.prog) i _ fs fs (by rw [List.getElem?_map, hi]; rfl)
    (inDir_session env folder name inputs) (jobs_others ho) (.refl ..)
  refine ⟨_, crash_of_bind_ret (crash_steps (sched.count i) _ fs), h2⟩

/-- C79 for a whole group of shells on different GDBMSs: every single one works as alone. -/
theorem C79_all_sessions (l : List (Env × Str × Str × List Str)) (hn : (l.map fun s => (s.2.1, s.2.2.1)).Nodup) (sched : List Nat) (fs : FS)
    (i : Nat) (env : Env) (folder name : Str) (inputs : List Str) (hi : l[i]? = some (env, folder, name, inputs))
    (r : Except PyErr (Option (List Event)))
    (hend : (runMany sched (l.map fun s => (Job.session s.1 s.2.1 s.2.2.1 s.2.2.2).prog) fs).1[i]? = some (liftE r)) :
    r = ((Job.session env folder name inputs).prog.run fs).1 ∧
      SameDir folder name (runMany sched (l.map fun s => (Job.session s.1 s.2.1 s.2.2.1 s.2.2.2).prog) fs).2
        ((Job.session env folder name inputs).prog.run fs).2 := by
  have e : (l.map fun s => (Job.session s.1 s.2.1 s.2.2.1 s.2.2.2).prog) =
      (l.map fun s => Job.session s.1 s.2.1 s.2.2.1 s.2.2.2).map Job.prog := by rw [List.map_map]; rfl
  rw [e] at hend ⊢
  refine C79_undisturbed _ i env folder name inputs (by rw [List.getElem?_map, hi]; rfl) ?_ sched fs r hend
  intro j job hj hjob
  rw [List.getElem?_map] at hjob
  cases e2 : l[j]? with
  | none => rw [e2] at hjob; simp at hjob
  | some s =>
    rw [e2] at hjob
    simp only [Option.map_some, Option.some.injEq] at hjob
    subst hjob
    refine .elsewhere _ _ _ _ fun e3 => ?_
    have hj2 : j < (l.map fun s => (s.2.1, s.2.2.1)).length := by
      rw [List.length_map]; exact (List.getElem?_eq_some_iff.1 e2).1
    refine hj ((List.getElem?_inj hj2 hn).1 ?_)
    rw [List.getElem?_map, List.getElem?_map, e2, hi]
    simpa using e3

/-- C80, partial: shells on the same GDBMS of which only one makes anything.  It works as alone.  That two may make something is what is missing,
and there it fails (`C80_lost`). -/
theorem C80_one_writer_partial (l : List (Env × List Str)) (i : Nat) (env : Env) (folder name : Str) (inputs : List Str)
    (hi : l[i]? = some (env, inputs)) (ho : ∀ j s, j ≠ i → l[j]? = some s → ∀ q ∈ s.2, ∀ ms, ¬ Makes q ms)
    (sched : List Nat) (fs : FS) (r : Except PyErr (Option (List Event)))
    (hend : (runMany sched (l.map fun s => (Job.session s.1 folder name s.2).prog) fs).1[i]? = some (liftE r)) :
    r = ((Job.session env folder name inputs).prog.run fs).1 ∧
      SameDir folder name (runMany sched (l.map fun s => (Job.session s.1 folder name s.2).prog) fs).2
        ((Job.session env folder name inputs).prog.run fs).2 := by
  have e : (l.map fun s => (Job.session s.1 folder name s.2).prog) = (l.map fun s => Job.session s.1 folder name s.2).map Job.prog := by
    rw [List.map_map]; rfl
  rw [e] at hend ⊢
  refine C79_undisturbed _ i env folder name inputs (by rw [List.getElem?_map, hi]; rfl) ?_ sched fs r hend
  intro j job hj hjob
  rw [List.getElem?_map] at hjob
  cases e2 : l[j]? with
  | none => rw [e2] at hjob; simp at hjob
  | some s =>
    rw [e2] at hjob
    simp only [Option.map_some, Option.some.injEq] at hjob
    subst hjob
    exact .reader _ _ _ _ (ho j s hj e2)

/-- C80 fails: a usable GDBMS, a first shell that types anything, a second one with a query that stores something.  There is a schedule in which the
first shell shows all it shows alone, and afterwards the database is as if it had not been there, or no longer readable. -/
theorem C80_lost (env env' : Env) (folder name : Str) (inputs : List Str) (q : Str) (fs : FS) (h : Usable fs (gdbmsPath folder name))
    (ms : List ParsedMake) (hm : Makes q ms) (hok : MakeOK ms) (hj : JsonOnly q) (h1 : q ≠ c!"q") (h2 : ¬ AsksHelp q) :
    ∃ sched fs' r, runMany sched [(Job.session env folder name inputs).prog, (Job.session env' folder name [q]).prog] fs =
        ([liftE ((Job.session env folder name inputs).prog.run fs).1, liftE r], fs') ∧
      ∃ d, Holds ((Job.session env' folder name [q]).prog.run fs).2 (dbPath folder name) d ∧
        (Holds fs' (dbPath folder name) d ∨ Unreadable fs' (dbPath folder name)) := by
  obtain ⟨d, labels, names, rels, n, hh, hb⟩ := id h
  obtain ⟨p', hp, hr⟩ := session_read (env := env') hh hb hm hok h1 fun e => h2 ((isSubstr_iff _ _).1 e)
  obtain ⟨sched, hs⟩ := overtake (p := (Job.session env folder name inputs).prog) hp
  have hser := (dbBatch_ser (env := env') (b := n) hok.props hok.shape).2 (hj ms hm hok)
  have hf := fresh_batch (env := env') (pats := patsOf ms) fun w h1 _ => hb w h1
  have hload := jsonLoad_dump _ (ser_append hh.ser hf hser)
  have step : ∀ (fs1 : FS) (t : Str), fs1.get (dbPath folder name) = some t →
      Holds (p'.run fs1).2 (dbPath folder name) (d ++ dbBatch env' n (patsOf ms)) ∨ Unreadable (p'.run fs1).2 (dbPath folder name) := by
    intro fs1 t ht
    have := hr fs1 t ht
    rw [show overlay t 0 (jsonDump (.dict (d ++ dbBatch env' n (patsOf ms)))).1 =
      (jsonDump (.dict (d ++ dbBatch env' n (patsOf ms)))).1 ++ t.drop (jsonDump (.dict (d ++ dbBatch env' n (patsOf ms)))).1.length by
        simp [overlay]] at this
    have hl := jsonLoad_object_append (t := t.drop (jsonDump (.dict (d ++ dbBatch env' n (patsOf ms)))).1.length) hload
    split at hl
    · exact .inl ⟨_, this, hl⟩
    · exact .inr ⟨_, this, hl⟩
  obtain ⟨t, ht⟩ : ∃ t, ((Job.session env folder name inputs).prog.run fs).2.get (dbPath folder name) = some t :=
    run_keeps_file (inDir_session env folder name inputs) ⟨_, hh.dbText⟩
  refine ⟨sched, _, _, hs, d ++ dbBatch env' n (patsOf ms), ?_, step _ t ht⟩
  have halone : (p'.run fs) = (Job.session env' folder name [q]).prog.run fs := by
    obtain ⟨k, hk⟩ := hp.steps
    have := steps_done k (Job.session env' folder name [q]).prog fs
    rw [hk] at this
    exact this
  rw [← halone]
  have r := hr fs _ hh.dbText
  have hlt := dump_append_length (e := dbBatch env' n (patsOf ms)) (serDict_of_ser hh.ser)
  refine ⟨_, r, ?_⟩
  show jsonLoad (overlay (dumpText (.dict d)) 0 _) = _
  rw [show overlay (dumpText (.dict d)) 0 (jsonDump (.dict (d ++ dbBatch env' n (patsOf ms)))).1 =
    (jsonDump (.dict (d ++ dbBatch env' n (patsOf ms)))).1 ++ (dumpText (.dict d)).drop (jsonDump (.dict (d ++ dbBatch env' n (patsOf ms)))).1.length by
      simp [overlay], List.drop_of_length_le hlt, List.append_nil]
  exact hload

/-- The same for well-formed queries. -/
theorem C80_typed_lost {t : TypedText} (ht : t.Good) (hr : ∃ c ∈ t.chains, c.rels ≠ []) (h2 : ¬ AsksHelp t.render) (env env' : Env)
    (folder name : Str) (inputs : List Str) (fs : FS) (h : Usable fs (gdbmsPath folder name)) :
    ∃ sched fs' r, runMany sched [(Job.session env folder name inputs).prog, (Job.session env' folder name [t.render]).prog] fs =
        ([liftE ((Job.session env folder name inputs).prog.run fs).1, liftE r], fs') ∧
      ∃ d, Holds ((Job.session env' folder name [t.render]).prog.run fs).2 (dbPath folder name) d ∧
        (Holds fs' (dbPath folder name) d ∨ Unreadable fs' (dbPath folder name)) := by
  obtain ⟨ms, h3, h4, h5⟩ := makes_text (typed_parse ht) (makeOf_text _) (fun c hc => by
    obtain ⟨m, hm, hc⟩ := List.mem_flatMap.1 hc
    exact ((ht.make m (by simpa using hm)).chains c hc).1) hr
  exact C80_lost env env' folder name inputs t.render fs h ms h3 h4 (C77_json_only_typed (.query t) ht) (typed_not_q ht) h2

/-- A shell that makes a new GDBMS: creation, then the session there. -/
theorem run_start_new {env : Env} {choice name : Str} {inputs : List Str} {fs : FS} (h1 : choice ≠ c!"y") (h2 : choice ≠ c!"yes")
    (h : NameFree fs DBMS_FOLDER name) :
    (Job.start env (choice :: name :: inputs)).prog.run fs = (Job.session env DBMS_FOLDER name inputs).prog.run
      ((((withDir fs DBMS_FOLDER name).set (dbPath DBMS_FOLDER name) c!"{}").set (idxPath DBMS_FOLDER name) newIndexText).set
        (wnPath DBMS_FOLDER name) c!"0") := by
  show (startWiggleShell env (choice :: name :: inputs)).run fs = _
  unfold startWiggleShell
  rw [selectGdbms, if_neg (by simp [h1, h2]), createNewDbms]
  refine run_bind_ok (a := some (gdbmsPath DBMS_FOLDER name, inputs)) ?_
  rw [run_tryCatch, run_bind_ok (create_new h.mkdir h.db h.idx h.wn)]
  rfl

/-- C80 fails also for two shells that make a GDBMS of the same name: the name is free; the second shell makes the GDBMS and works there, with any
texts.  There is a schedule in which it shows all it shows alone, while the other one is told the name is taken; afterwards the database
is empty. -/
theorem C80_creation_race (env env' : Env) (choice choice' name : Str) (inputs : List Str) (fs : FS) (h1 : choice ≠ c!"y")
    (h2 : choice ≠ c!"yes") (h1' : choice' ≠ c!"y") (h2' : choice' ≠ c!"yes") (h : NameFree fs DBMS_FOLDER name) :
    ∃ sched fs', runMany sched [(Job.start env (choice :: name :: inputs)).prog, (Job.start env' [choice', name]).prog] fs =
        ([liftE ((Job.start env (choice :: name :: inputs)).prog.run fs).1, .ret none], fs') ∧
      Holds fs' (dbPath DBMS_FOLDER name) [] := by
  have hm : exec (.mkdir DBMS_FOLDER name) fs = (.ok, withDir fs DBMS_FOLDER name) := by
    unfold withDir
    rcases h.mkdir with hd | hd
    · simp [exec, hd]
    · by_cases hd2 : (DBMS_FOLDER, name) ∈ fs.dirs <;> simp [exec, hd, hd2]
  have hd0 := withDir_mem h.mkdir
  have h0 : NameFree (withDir fs DBMS_FOLDER name) DBMS_FOLDER name :=
    ⟨.inl hd0, by rw [withDir_get, h.db], by rw [withDir_get, h.idx], by rw [withDir_get, h.wn]⟩
  obtain ⟨p', hp, hr⟩ := start_checked (env := env') h1' h2' hm h0.db
  obtain ⟨sched, hs⟩ := overtake (p := (Job.start env (choice :: name :: inputs)).prog) hp
  have e : (Job.start env (choice :: name :: inputs)).prog.run (withDir fs DBMS_FOLDER name) =
      (Job.start env (choice :: name :: inputs)).prog.run fs := by
    rw [run_start_new h1 h2 h0, run_start_new h1 h2 h, withDir_of_mem hd0]
  rw [e] at hs
  obtain ⟨n1, n2, n3⟩ := gdbms_ne DBMS_FOLDER name
  have hin := inDir_session env DBMS_FOLDER name inputs
  generalize hF : ((((withDir fs DBMS_FOLDER name).set (dbPath DBMS_FOLDER name) c!"{}").set (idxPath DBMS_FOLDER name) newIndexText).set
    (wnPath DBMS_FOLDER name) c!"0") = fs3
  have hrun := run_start_new (env := env) (inputs := inputs) h1 h2 h
  rw [hF] at hrun
  obtain ⟨t, ht⟩ := run_keeps_file hin (q := dbPath DBMS_FOLDER name) (fs := fs3) ⟨c!"{}", by
    subst hF
    rw [FS.get_set_ne n2.symm, FS.get_set_ne n1.symm, FS.get_set_self]⟩
  obtain ⟨t', ht'⟩ := run_keeps_file hin (q := idxPath DBMS_FOLDER name) (fs := fs3) ⟨newIndexText, by
    subst hF
    rw [FS.get_set_ne n3.symm, FS.get_set_self]⟩
  have hd3 : (DBMS_FOLDER, name) ∈ ((Job.session env DBMS_FOLDER name inputs).prog.run fs3).2.dirs := by
    have := run_only_dirs (p := (Job.session env DBMS_FOLDER name inputs).prog) (.bind (only_shellLoop env _ inputs) fun _ => .ret _) fs3
    rw [this]
    subst hF
    exact hd0
  rw [← hrun] at ht ht' hd3
  have := hr _ t t' hd3 ht ht'
  rw [this] at hs
  exact ⟨sched, _, hs, _, FS.get_set_self _ _ _, rfl⟩

end

section
attribute [local instance] demoRuntime

/-- A disk with the new GDBMS "g". -/
def diskG : FS := ((getNewGdbmsFilePaths c!"g" DBMS_FOLDER).run bareDisk).2

theorem diskG_usable : Usable diskG (gdbmsPath DBMS_FOLDER c!"g") := by
  obtain ⟨fs', h1, -, h2, -⟩ := C55_created_is_empty bareDisk DBMS_FOLDER c!"g" ⟨.inr (by simp [bareDisk]), rfl, rfl, rfl⟩
  have e : diskG = fs' := by unfold diskG; rw [h1]
  rw [e]
  exact ⟨_, _, _, _, _, h2, below_nil 0⟩

/-- C79: a shell stores a pattern twice; at the same time a second one does so elsewhere, a third one only looks, a fourth one makes the new
GDBMS "ark" and works there, and somebody deletes "old".  In all schedules in which it ends, the first one has shown what it shows alone. -/
example (sched : List Nat) (fs : FS) (r : Except PyErr (Option (List Event)))
    (h : (runMany sched ([Job.session demoEnv DBMS_FOLDER c!"zoo" [eTyped.render, eTyped.render, c!"q"],
      .session demoEnv DBMS_FOLDER c!"zoo2" [eTyped.render, c!"q"], .session demoEnv DBMS_FOLDER c!"zoo" [c!"hello", c!"q"],
      .start demoEnv [c!"n", c!"ark", eTyped.render], .delete c!"old" DBMS_FOLDER].map Job.prog) fs).1[0]? = some (liftE r)) :
    r = ((Job.session demoEnv DBMS_FOLDER c!"zoo" [eTyped.render, eTyped.render, c!"q"]).prog.run fs).1 := by
  have hz : ∀ q ∈ [c!"hello", c!"q"], ∀ ms, ¬ Makes q ms := by
    simp only [List.mem_cons, List.not_mem_nil, or_false, forall_eq_or_imp, forall_eq]
    exact ⟨not_makes (by decide +kernel), not_makes (by decide +kernel)⟩
  refine (C79_undisturbed _ 0 demoEnv DBMS_FOLDER c!"zoo" _ rfl ?_ sched fs r h).1
  intro j job hj hjob
  match j with
  | 0 => exact absurd rfl hj
  | 1 => cases hjob; exact .elsewhere _ _ _ _ (by decide)
  | 2 => cases hjob; exact .reader _ _ _ _ hz
  | 3 => cases hjob; exact .makesNew _ _ _ (by decide) (by decide) fun _ => by decide +kernel
  | 4 => cases hjob; exact .delete _ _ (by decide) (by decide)
  | j + 5 => simp at hjob

/-- C79: two shells on two GDBMSs get to their end, whatever the schedule, if their turn comes often enough. -/
example (fs : FS) : ∃ n, ∀ sched : List Nat, n ≤ sched.count 1 →
    (runMany sched ([Job.session demoEnv DBMS_FOLDER c!"zoo" [eTyped.render], .session demoEnv DBMS_FOLDER c!"ark" [eTyped.render]].map Job.prog) fs).1[1]? =
      some (liftE ((Job.session demoEnv DBMS_FOLDER c!"ark" [eTyped.render]).prog.run fs).1) := by
  refine C79_gets_there _ 1 demoEnv DBMS_FOLDER c!"ark" _ rfl ?_ fs
  intro j job hj hjob
  match j with
  | 0 => cases hjob; exact .elsewhere _ _ _ _ (by decide)
  | 1 => exact absurd rfl hj
  | j + 2 => simp at hjob

/-- C79 with C78: among other shells, and at every moment, the GDBMS of a session is usable or dead. -/
example (sched : List Nat) (fs : FS) (h : Usable fs (gdbmsPath DBMS_FOLDER c!"zoo")) :
    ∃ fs1, (Usable fs1 (gdbmsPath DBMS_FOLDER c!"zoo") ∨ Dead fs1 (gdbmsPath DBMS_FOLDER c!"zoo")) ∧
      SameDir DBMS_FOLDER c!"zoo" (runMany sched ([Job.session demoEnv DBMS_FOLDER c!"zoo" [c!"hello"],
        .session demoEnv DBMS_FOLDER c!"ark" [eTyped.render]].map Job.prog) fs).2 fs1 := by
  obtain ⟨fs1, h1, h2⟩ := C79_any_moment [Job.session demoEnv DBMS_FOLDER c!"zoo" [c!"hello"],
        .session demoEnv DBMS_FOLDER c!"ark" [eTyped.render]] 0 demoEnv DBMS_FOLDER c!"zoo" _ rfl (by
    intro j job hj hjob
    match j with
    | 0 => exact absurd rfl hj
    | 1 => cases hjob; exact .elsewhere _ _ _ _ (by decide)
    | j + 2 => simp at hjob) sched fs
  refine ⟨fs1, C78_usable_or_dead_partial _ _ _ _ _ h ?_ h1, h2⟩
  intro q hq ms hm
  simp only [List.mem_singleton] at hq
  subst hq
  exact absurd hm (not_makes (by decide +kernel) ms)

/-- C79: three shells on three GDBMSs. -/
example (sched : List Nat) (fs : FS) (r : Except PyErr (Option (List Event)))
    (h : (runMany sched ([(demoEnv, DBMS_FOLDER, c!"a", [eTyped.render]), (demoEnv, DBMS_FOLDER, c!"b", [eTyped.render]),
      (demoEnv, DBMS_FOLDER, c!"c", [eTyped.render, c!"q"])].map fun s : Env × Str × Str × List Str => (Job.session s.1 s.2.1 s.2.2.1 s.2.2.2).prog) fs).1[2]? =
        some (liftE r)) : r = ((Job.session demoEnv DBMS_FOLDER c!"c" [eTyped.render, c!"q"]).prog.run fs).1 :=
  (C79_all_sessions _ (by decide +kernel) sched fs 2 demoEnv DBMS_FOLDER c!"c" _ rfl r h).1

/-- C80: one shell makes something, another one on the same GDBMS does not. -/
example (sched : List Nat) (fs : FS) (r : Except PyErr (Option (List Event)))
    (h : (runMany sched ([(demoEnv, [eTyped.render, c!"q"]), (demoEnv, [c!"hello"])].map fun s : Env × List Str => (Job.session s.1 DBMS_FOLDER c!"c" s.2).prog) fs).1[0]? =
        some (liftE r)) : r = ((Job.session demoEnv DBMS_FOLDER c!"c" [eTyped.render, c!"q"]).prog.run fs).1 := by
  refine (C80_one_writer_partial _ 0 demoEnv DBMS_FOLDER c!"c" _ rfl ?_ sched fs r h).1
  intro j s hj hs
  match j with
  | 0 => exact absurd rfl hj
  | 1 =>
    cases hs
    intro q hq
    simp only [List.mem_singleton] at hq
    subst hq
    exact not_makes (by decide +kernel)
  | j + 2 => simp at hs

/-- C80: two shells on one new GDBMS, the first stores the patterns twice, the second once.  There is a schedule after which the database is
unreadable or holds what the second one stores. -/
example : ∃ sched fs' r, runMany sched [(Job.session demoEnv DBMS_FOLDER c!"g" [eTyped.render, eTyped.render]).prog,
      (Job.session demoEnv DBMS_FOLDER c!"g" [eTyped.render]).prog] diskG =
        ([liftE ((Job.session demoEnv DBMS_FOLDER c!"g" [eTyped.render, eTyped.render]).prog.run diskG).1, liftE r], fs') ∧
      ∃ d, Holds ((Job.session demoEnv DBMS_FOLDER c!"g" [eTyped.render]).prog.run diskG).2 (dbPath DBMS_FOLDER c!"g") d ∧
        (Holds fs' (dbPath DBMS_FOLDER c!"g") d ∨ Unreadable fs' (dbPath DBMS_FOLDER c!"g")) :=
  C80_typed_lost eTyped_runnable.good ⟨eMake.first, by simp [TypedText.chains, eTyped, StmtText.chains],
    by simp [eMake, ChainText.rels]⟩ eTyped_ok.2 demoEnv demoEnv DBMS_FOLDER c!"g" _ diskG diskG_usable

/-- C80: two shells make "zoo"; all that the first one stores there is lost. -/
example : ∃ sched fs', runMany sched [(Job.start demoEnv [c!"n", c!"zoo", eTyped.render, eTyped.render]).prog, (Job.start demoEnv [c!"no", c!"zoo"]).prog] bareDisk =
        ([liftE ((Job.start demoEnv [c!"n", c!"zoo", eTyped.render, eTyped.render]).prog.run bareDisk).1, .ret none], fs') ∧
      Holds fs' (dbPath DBMS_FOLDER c!"zoo") [] :=
  C80_creation_race demoEnv demoEnv c!"n" c!"no" c!"zoo" _ bareDisk (by decide) (by decide) (by decide) (by decide) ⟨.inr (by simp [bareDisk]), rfl, rfl, rfl⟩

end

end WG
