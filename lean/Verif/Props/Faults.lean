/-
C99: file-system calls may fail at any moment.  The shell answers every text, and what is stored stays stored; but the failure of one call
may leave the GDBMS accepting nothing more.
-/
import Verif.Proofs.Faults
import Verif.Props.Durable

set_option linter.unusedSectionVars false
set_option linter.unusedSimpArgs false

namespace WG

section
variable [PyRuntime]

/-- A query in which calls fail: it ends as if none had, or it raises the exception of a failing call and leaves the disk as if the program
had been stopped somewhere in the query. -/
theorem C99_query (tear : Path → Prop) (env : Env) (q : Str) (g : GPath) (fs fs' : FS) (r : Except PyErr Bool)
    (h : FaultRun tear (query env q g) fs (r, fs')) : (r, fs') = (query env q g).run fs ∨
      (r = .error .osError ∨ r = .error .fileNotFound) ∧ CrashAt tear (query env q g) fs fs' := by
  rcases (fragile_query env q g).run h with e | ⟨⟨e, he, h1⟩, h2⟩
  · exact .inl e
  · refine .inr ⟨?_, h2⟩
    rcases he with rfl | rfl
    · exact .inl h1
    · exact .inr h1

/-- The disks that failing calls can leave behind are exactly those that stopping the program can leave behind. -/
theorem C99_query_states (tear : Path → Prop) (env : Env) (q : Str) (g : GPath) (fs fs' : FS) :
    (∃ r, FaultRun tear (query env q g) fs (r, fs')) ↔ CrashAt tear (query env q g) fs fs' := by
  constructor
  · rintro ⟨r, h⟩
    exact (fragile_query env q g).crash (faultRun_at h)
  · intro h
    rcases (fragile_query env q g).fault h with ⟨e, -, h⟩ | rfl
    · exact ⟨_, h⟩
    · exact ⟨_, faultRun_run _ _⟩

/-- Whatever fails in a session, and whatever is typed, the shell answers every text, and goes on after it. -/
theorem C99_session (tear : Path → Prop) (env : Env) (g : GPath) (inputs : List Str) (fs fs' : FS) (r : Except PyErr (List Event))
    (h : FaultRun tear (shellLoop env g inputs) fs (r, fs')) : ∃ log, r = .ok log ∧ Served tear env g inputs fs log fs' :=
  served_of h

/-- C99: any number of processes, in which calls fail at any moment, each ended or stopped anywhere.  What a GDBMS held before it still
holds, in front of what was added. -/
theorem C99_kept (fs fs' : FS) (h : HardLife JsonOnly fs fs') (name : Str) (d : Dict V) (hd : Stored fs (dbPath DBMS_FOLDER name) d) :
    ∃ new, Stored fs' (dbPath DBMS_FOLDER name) (d ++ new) := hardLife_grows h name d hd

/-- The files of every other GDBMS, and all files that are not those of a GDBMS, are left alone by a session in which calls fail. -/
theorem C99_others_untouched (tear : Path → Prop) (env : Env) (g : GPath) (inputs : List Str) (fs fs' : FS) (p : Path)
    (hp : p ∉ [g.db, g.idx, g.wn]) (h : FaultAt tear (shellLoop env g inputs) fs fs') : fs'.get p = fs.get p :=
  fault_session_frame hp h

/-- No file that is there is touched by a selection in which calls fail. -/
theorem C99_selection_keeps (tear : Path → Prop) (inputs : List Str) (fs fs' : FS) (h : FaultAt tear (selectGdbms inputs) fs fs') :
    KeepsFiles fs fs' := crash_select ((fragile_select inputs).crash h)

/-- A query that failed without touching the database has touched nothing: when the calls work again, typing it again does what it would
have done. -/
theorem C99_retry (env : Env) (q : Str) (g : GPath) (fs fs' : FS) (r : Except PyErr Bool) (hu : Usable fs g)
    (hq : ∀ ms, Makes q ms → ¬ Poison ms) (h : FaultRun (fun _ => False) (query env q g) fs (r, fs'))
    (hd : fs'.get g.db = fs.get g.db) : fs' = fs :=
  crash_query_untouched hu hq ((fragile_query env q g).crash (faultRun_at h)) hd

/-- C99, partial: after a session in which calls failed the GDBMS is as usable as before or dead.  That it can be dead is the part of the
property that fails (`C99_violated_dies`). -/
theorem C99_usable_or_dead_partial (env : Env) (g : GPath) (inputs : List Str) (fs fs' : FS) (h : Usable fs g)
    (hq : ∀ q ∈ inputs, (∀ ms, Makes q ms → ¬ Poison ms) ∧ HasPatterns q)
    (hc : FaultAt (fun _ => False) (shellLoop env g inputs) fs fs') : Usable fs' g ∨ Dead fs' g := fault_session_usable (.inl h) hq hc

/-- Every query that stores something can die of one failing call: it raises, its records are in the database, and the GDBMS accepts nothing
more, although all calls work again. -/
theorem C99_violated_dies (env : Env) (q : Str) (g : GPath) (fs : FS) (h : Usable fs g) (ms : List ParsedMake) (hm : Makes q ms)
    (hok : MakeOK ms) (hp : ¬ Poison ms) :
    ∃ e fs', FaultRun (fun _ => False) (query env q g) fs (.error e, fs') ∧ Dead fs' g ∧ fs'.get g.db ≠ fs.get g.db := by
  obtain ⟨fs', h1, h2, h3⟩ := C78_query_dies env q g fs h ms hm hok hp
  rcases (fragile_query env q g).fault h1 with ⟨e, -, h4⟩ | rfl
  · exact ⟨e, fs', h4, h2, h3⟩
  · have hq : ∀ ms', Makes q ms' → ms' = ms := fun ms' h' => makes_unique h' hm
    have hu := C69_stays_usable_partial env q g fs h fun ms' h' => by rw [hq ms' h']; exact hp
    obtain ⟨fs2, h4, -, h6⟩ := C78_query_dies env q g _ hu ms hm hok hp
    have hne : HasPatterns q := by
      intro ms' h' e
      rw [hq ms' h'] at e
      exact hp ⟨hok, by rintro ⟨-, p, hp, -⟩; rw [e] at hp; simp at hp⟩
    rw [(h2 env q hne).1 fs2 (crash_tears h4)] at h6
    exact absurd rfl h6

/-- A dead GDBMS stays dead, whatever fails later. -/
theorem C99_dead_for_ever (env : Env) (g : GPath) (inputs : List Str) (fs fs' : FS) (h : Dead fs g) (hq : ∀ q ∈ inputs, HasPatterns q)
    (hc : FaultAt (fun _ => True) (shellLoop env g inputs) fs fs') : fs' = fs := by
  have key : Dead fs g → Dead fs' g ∧ fs' = fs :=
    (trail_of hc).of_forall (P := fun a b => Dead a g → Dead b g ∧ b = a) (fun _ h => ⟨h, rfl⟩)
      (fun _ _ _ h1 h2 h => ⟨(h2 (h1 h).1).1, (h2 (h1 h).1).2.trans (h1 h).2⟩)
      fun q hm a b hc h => by
        have := (h env q (hq q hm)).1 b hc
        exact ⟨by rw [this]; exact h, this⟩
  exact (key h).2

end

section
attribute [local instance] demoRuntime

theorem demo_makes : ∃ ms, Makes eTyped.render ms ∧ MakeOK ms ∧ ¬ Poison ms := by
  obtain ⟨ms, h3, h4, h5⟩ := makes_text (typed_parse eTyped_runnable.good) (makeOf_text _) (fun c hc => by
    obtain ⟨m, hm, hc⟩ := List.mem_flatMap.1 hc
    exact ((TypedText.Good.make eTyped_runnable.good m (by simpa using hm)).chains c hc).1)
    ⟨eMake.first, by simp [TypedText.chains, eTyped, StmtText.chains], by simp [eMake, ChainText.rels]⟩
  exact ⟨ms, h3, h4, h5⟩

/-- A query dies of a failing call, its text is typed again: the shell answers, and the records of the first are there. -/
example : ∃ e fs', FaultRun (fun _ => False) (query demoEnv eTyped.render demoG) demoFresh (.error e, fs') ∧ Dead fs' demoG ∧
    ∃ new, new ≠ [] ∧ Stored fs' demoG.db new := by
  obtain ⟨ms, h1, h2, h3⟩ := demo_makes
  have hu : Usable demoFresh demoG := ⟨_, _, _, _, _, demoFresh_healthy, below_nil 0⟩
  obtain ⟨e, fs', h4, h5, h6⟩ := C99_violated_dies demoEnv eTyped.render demoG demoFresh hu ms h1 h2 h3
  have hs : Stored demoFresh demoG.db [] := ⟨demoFresh_healthy.dbText, demoFresh_healthy.db⟩
  have hj : JsonOnly eTyped.render := C77_json_only_typed (.query eTyped) eTyped_runnable.good
  obtain ⟨new, h7⟩ := crash_query_grows (tear := fun _ => False) (g := demoG) id demoFresh_healthy.db_idx demoFresh_healthy.db_wn hj
    ((C99_query_states _ _ _ _ _ _).1 ⟨_, h4⟩) [] hs
  refine ⟨e, fs', h4, h5, new, ?_, h7⟩
  rintro rfl
  exact h6 (h7.text.trans hs.text.symm)

/-- The write of the database fails in the first query; the second one works, and stores what it would have stored. -/
example (r : Except PyErr Bool) (fs' : FS) (h : FaultRun (fun _ => False) (query demoEnv eTyped.render demoG) demoFresh (r, fs'))
    (hd : fs'.get demoG.db = demoFresh.get demoG.db) :
    (query demoEnv eTyped.render demoG).run fs' = (query demoEnv eTyped.render demoG).run demoFresh := by
  obtain ⟨ms, h1, h2, h3⟩ := demo_makes
  rw [C99_retry demoEnv eTyped.render demoG demoFresh fs' r ⟨_, _, _, _, _, demoFresh_healthy, below_nil 0⟩
    (fun ms' h' => by rw [makes_unique h' h1]; exact h3) h hd]

/-- There is such a run: the very first call fails. -/
example : ∃ e, FaultRun (fun _ => False) (query demoEnv eTyped.render demoG) demoFresh (.error e, demoFresh) := by
  obtain ⟨ms, h1, h2, h3⟩ := demo_makes
  rcases (fragile_query demoEnv eTyped.render demoG).fault (tear := fun _ => False) (.here _ demoFresh) with ⟨e, -, h⟩ | h
  · exact ⟨e, h⟩
  · exfalso
    have hu : Usable demoFresh demoG := ⟨_, _, _, _, _, demoFresh_healthy, below_nil 0⟩
    have h4 := C78_query_dies demoEnv eTyped.render demoG demoFresh hu ms h1 h2 h3
    obtain ⟨fs', h5, -, h6⟩ := h4
    rcases crash_query_db (tear := fun _ => False) (g := demoG) id demoFresh_healthy.db_idx demoFresh_healthy.db_wn h5 with e | e
    · exact h6 e
    · exact h6 (e.trans (congrArg (·.get demoG.db) h.symm))

/-- Two processes on a disk where calls fail: what "zoo" held is still there. -/
example (fs1 fs2 fs3 : FS) (d : Dict V) (hd : Stored fs1 (dbPath DBMS_FOLDER c!"zoo") d)
    (h2 : FaultAt NotDatabase (startWiggleShell demoEnv [c!"n", c!"ark", eTyped.render]) fs1 fs2)
    (h3 : FaultAt NotDatabase (startWiggleShell demoEnv [c!"y", c!"A", eTyped.render, eTyped.render]) fs2 fs3) :
    ∃ new, Stored fs3 (dbPath DBMS_FOLDER c!"zoo") (d ++ new) := by
  have hj := demo_json
  simp only [List.mem_cons, List.not_mem_nil, or_false, forall_eq_or_imp, forall_eq] at hj
  refine C99_kept fs1 fs3 (.process (.process (.none _) _ _ ?_ h2) _ _ ?_ h3) _ _ hd
  · simp [hj]
  · simp [hj]

end

end WG
