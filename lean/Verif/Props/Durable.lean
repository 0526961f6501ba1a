/-
C77, C78: what is stored stays stored, whenever the program is stopped; but the GDBMS may then accept nothing more.
-/
import Verif.Proofs.Durable
import Verif.Props.Actual

set_option linter.unusedSectionVars false
set_option linter.unusedSimpArgs false

namespace WG

section
variable [PyRuntime]

/-- A query is stopped anywhere, perhaps in the middle of a write to another file than the database: the database file is the one before the
query or the one after it.  Nothing is assumed about the query or the disk. -/
theorem C77_query_all_or_nothing (tear : Path → Prop) (env : Env) (q : Str) (g : GPath) (fs fs' : FS) (ht : ¬ tear g.db)
    (h1 : g.db ≠ g.idx) (h2 : g.db ≠ g.wn) (h : CrashAt tear (query env q g) fs fs') :
    fs'.get g.db = fs.get g.db ∨ fs'.get g.db = ((query env q g).run fs).2.get g.db := crash_query_db ht h1 h2 h

/-- A session is stopped anywhere: the database file is the one after some number of its texts. -/
theorem C77_session_prefix (tear : Path → Prop) (env : Env) (g : GPath) (inputs : List Str) (fs fs' : FS) (ht : ¬ tear g.db)
    (h1 : g.db ≠ g.idx) (h2 : g.db ≠ g.wn) (h : CrashAt tear (shellLoop env g inputs) fs fs') :
    ∃ k, k ≤ inputs.length ∧ fs'.get g.db = ((shellLoop env g (inputs.take k)).run fs).2.get g.db := crash_session_db ht h1 h2 h

/-- C77: any number of processes, each selecting some GDBMS and typing anything, each ended or stopped anywhere.  What a GDBMS held before it
still holds, in front of what was added. -/
theorem C77_kept (fs fs' : FS) (h : Life JsonOnly fs fs') (name : Str) (d : Dict V) (hd : Stored fs (dbPath DBMS_FOLDER name) d) :
    ∃ new, Stored fs' (dbPath DBMS_FOLDER name) (d ++ new) := life_grows h name d hd

/-- C77, after a session that is stopped anywhere: what was there when the shell asked for one of the texts is there for ever. -/
theorem C77_kept_from_session (env : Env) (name : Str) (rest : List Str) (fs fs1 fs' : FS) (hj : ∀ q ∈ rest, JsonOnly q)
    (hc : CrashAt NotDatabase (shellLoop env (gdbmsPath DBMS_FOLDER name) rest) fs fs1) (h : Life JsonOnly fs1 fs') (d : Dict V)
    (hd : Stored fs (dbPath DBMS_FOLDER name) d) : ∃ new, Stored fs' (dbPath DBMS_FOLDER name) (d ++ new) :=
  ((crash_session_grows (g := gdbmsPath DBMS_FOLDER name) (fun ht => ht name rfl) (dbPath_apart _ _).1 (dbPath_apart _ _).2 hj hc).trans
    (life_grows h name)) d hd

/-- The condition on the texts holds for all well-formed queries, and for everything that makes nothing. -/
theorem C77_json_only {l : List Line} {f : StmtText} (hq : QueryGood l f) : JsonOnly (queryText l) :=
  jsonOnly_text (parseQuery_text hq) (makeOf_text _) fun c hc => by
    obtain ⟨t, ht, hc⟩ := List.mem_flatMap.1 hc
    exact ((makesOf_good hq.lines t ht).chains c hc).1

theorem C77_json_only_typed (t : Typed) (h : match t with
    | .query t => t.Good
    | .other s => ∀ ms, ¬ Makes s ms) : JsonOnly t.text := by
  cases t with
  | query t =>
    refine jsonOnly_text (typed_parse h) (makeOf_text _) fun c hc => ?_
    obtain ⟨m, hm, hc⟩ := List.mem_flatMap.1 hc
    exact ((TypedText.Good.make h m (by simpa using hm)).chains c hc).1
  | other s => exact fun ms hm => absurd hm (h ms)

/-- C77 for worlds: whatever happens afterwards, every pattern that a GDBMS of the world holds stays there. -/
theorem C77_world {R : Int → ChainText → Dict V → Prop} (fs fs' : FS) (w : World) (h : Keeps R fs w) (hl : Life JsonOnly fs fs')
    (name : Str) (cs : List ChainText) (hm : (name, cs) ∈ w) :
    ∃ d new, Records R 0 cs d ∧ Stored fs' (dbPath DBMS_FOLDER name) (d ++ new) := by
  obtain ⟨d, labels, names, rels, hh, -, hr, -⟩ := h.stock _ hm
  obtain ⟨new, hn⟩ := life_grows hl name d ⟨hh.dbText, hh.db⟩
  exact ⟨d, new, hr, hn⟩

/-- C77: a session of well-formed queries is stopped anywhere.  The database holds the patterns of some of the first texts, each complete
and none twice, and no others. -/
theorem C77_typed_session (env : Env) (g : GPath) (ts : List Typed) (ht : ∀ t ∈ ts, t.Fair) (fs fs' : FS) (cs : List ChainText)
    (tear : Path → Prop) (htear : ¬ tear g.db) (h : Stock ActualRecords fs g cs)
    (hc : CrashAt tear (shellLoop env g (ts.map Typed.text ++ [c!"q"])) fs fs') :
    ∃ k d, k ≤ ts.length ∧ Stored fs' g.db d ∧ ActualAll 0 (cs ++ (ts.take k).flatMap Typed.chains) d := by
  obtain ⟨d0, _, _, _, hh, -⟩ := id h
  obtain ⟨k, -, e⟩ := crash_session_db htear hh.db_idx hh.db_wn hc
  have e' : fs'.get g.db = ((shellLoop env g ((ts.take (min k ts.length)).map Typed.text ++ [c!"q"])).run fs).2.get g.db := by
    rw [e]
    by_cases hk : k ≤ ts.length
    · rw [List.take_append_of_le_length (by simpa using hk), session_quit, Nat.min_eq_left hk, List.map_take]
    · rw [List.take_of_length_le (by simp; omega), Nat.min_eq_right (by omega), List.take_length]
  obtain ⟨log, fs1, hr, -, d, labels, names, rels, hh1, -, hrec, -⟩ := session_stock (env := env) (R := ActualRecords) (ts := ts.take (min k ts.length))
    (fun t hm => ⟨ht t (List.mem_of_mem_take hm), fun _ _ _ _ h => h⟩) h
  rw [hr] at e'
  refine ⟨min k ts.length, d, by omega, ⟨by rw [e', hh1.dbText], ?_⟩, hrec⟩
  obtain ⟨t, h1, h2⟩ := hh1.db
  exact ⟨t, by rw [e', h1], h2⟩

/-- C78, partial: after a session that was stopped between two file-system calls the GDBMS is as usable as before or dead.  That it
can be dead is the part of the property that fails (`C78_dies`). -/
theorem C78_usable_or_dead_partial (env : Env) (g : GPath) (inputs : List Str) (fs fs' : FS) (h : Usable fs g)
    (hq : ∀ q ∈ inputs, ∀ ms, Makes q ms → ¬ Poison ms) (hc : CrashAt (fun _ => False) (shellLoop env g inputs) fs fs') :
    Usable fs' g ∨ Dead fs' g := crash_session_usable h hq hc

/-- A dead GDBMS is dead for ever: no later session changes anything, whether it is stopped or not. -/
theorem C78_dead_for_ever (env : Env) (g : GPath) (inputs : List Str) (fs fs' : FS) (h : Dead fs g) (hq : ∀ q ∈ inputs, HasPatterns q)
    (hc : CrashAt (fun _ => True) (shellLoop env g inputs) fs fs') : fs' = fs := crash_dead_session h hq hc

/-- Every query that stores something has a moment at which stopping it leaves the GDBMS dead: after the database has been written. -/
theorem C78_query_dies (env : Env) (q : Str) (g : GPath) (fs : FS) (h : Usable fs g) (ms : List ParsedMake) (hm : Makes q ms)
    (hok : MakeOK ms) (hp : ¬ Poison ms) :
    ∃ fs', CrashAt (fun _ => False) (query env q g) fs fs' ∧ Dead fs' g ∧ fs'.get g.db ≠ fs.get g.db := by
  obtain ⟨d, labels, names, rels, n, hh, hb⟩ := id h
  have hgood : (∀ p ∈ patsOf ms, PatSer p) ∧ ∃ p ∈ patsOf ms, StoresRel p := Classical.byContradiction fun hn => hp ⟨hok, hn⟩
  have hser := (dbBatch_ser (env := env) (b := n) hok.props hok.shape).2 hgood.1
  have hne : patsOf ms ≠ [] := by
    obtain ⟨p, hp, -⟩ := hgood.2
    intro e
    rw [e] at hp
    simp at hp
  have hf := fresh_batch (env := env) (pats := patsOf ms) fun w h1 _ => hb w h1
  have r := run_add_ok (p := g.db) hh.dbText hh.ser hf hser
  have hlt : (dumpText (Val.dict d)).length < (dumpText (Val.dict (d ++ dbBatch env n (patsOf ms)))).length := by
    refine dump_append_length_lt (serDict_of_ser hh.ser) ?_
    intro e
    have := first_key (env := env) (n := n) hne
    rw [e] at this
    simp [keys] at this
  refine ⟨fs.set g.db (dumpText (.dict (d ++ dbBatch env n (patsOf ms)))), query_crash hm ?_, ?_, ?_⟩
  · rw [make_eq]
    refine crash_bind_right hh.counter ?_
    rw [afterCounter_ok hok, commit_eq]
    exact crash_bind_right r (.here _ _)
  · refine dead_stuck ⟨_, FS.get_set_self _ _ _, jsonLoad_dump _ (ser_append hh.ser hf hser)⟩
      (counter_congr (FS.get_set_ne hh.db_wn _ _).symm hh.counter) ?_
    rw [keys, List.map_append, List.mem_append]
    exact .inr (first_key hne)
  · rw [FS.get_set_self, hh.dbText]
    intro e
    simp only [Option.some.injEq] at e
    rw [e] at hlt
    exact absurd hlt (by unfold dumpText; omega)

/-- The same for a session that starts with the query. -/
theorem C78_dies (env : Env) (q : Str) (rest : List Str) (g : GPath) (fs : FS) (h : Usable fs g) (ms : List ParsedMake) (hm : Makes q ms)
    (hok : MakeOK ms) (hp : ¬ Poison ms) (h1 : q ≠ c!"q") (h2 : ¬ AsksHelp q) :
    ∃ fs', CrashAt (fun _ => False) (shellLoop env g (q :: rest)) fs fs' ∧ Dead fs' g ∧ fs'.get g.db ≠ fs.get g.db := by
  obtain ⟨fs', h3, h4⟩ := C78_query_dies env q g fs h ms hm hok hp
  exact ⟨fs', session_crash h1 h2 h3, h4⟩

/-- The same for well-formed queries with a relationship in their MAKE. -/
theorem C78_typed_dies {t : TypedText} (ht : t.Good) (hr : ∃ c ∈ t.chains, c.rels ≠ []) (h2 : ¬ AsksHelp t.render) (env : Env)
    (rest : List Str) (g : GPath) (fs : FS) (h : Usable fs g) :
    ∃ fs', CrashAt (fun _ => False) (shellLoop env g (t.render :: rest)) fs fs' ∧ Dead fs' g ∧ fs'.get g.db ≠ fs.get g.db := by
  obtain ⟨ms, h3, h4, h5⟩ := makes_text (typed_parse ht) (makeOf_text _) (fun c hc => by
    obtain ⟨m, hm, hc⟩ := List.mem_flatMap.1 hc
    exact ((ht.make m (by simpa using hm)).chains c hc).1) hr
  exact C78_dies env t.render rest g fs h ms h3 h4 h5 (typed_not_q ht) h2

end

section
attribute [local instance] demoRuntime

theorem eTyped_fair : (Typed.query eTyped).Fair := (ok_fair eTyped_ok).1

theorem demoFresh_stock : Stock ActualRecords demoFresh demoG [] :=
  ⟨[], [], [], [], demoFresh_healthy, below_nil 0, rfl, ⟨by simp, by simp, by simp⟩⟩

/-- C77: a session of two queries is stopped in the first one.  The GDBMS is dead, but its database is in order. -/
example : ∃ fs', CrashAt (fun _ => False) (shellLoop demoEnv demoG ([Typed.query eTyped, .query eTyped].map Typed.text ++ [c!"q"])) demoFresh fs' ∧
    Dead fs' demoG ∧ ∃ k d, k ≤ 2 ∧ Stored fs' demoG.db d ∧ ActualAll 0 (([Typed.query eTyped, .query eTyped].take k).flatMap Typed.chains) d := by
  obtain ⟨fs', h1, h2, -⟩ := C78_typed_dies eTyped_runnable.good ⟨eMake.first, by simp [TypedText.chains, eTyped, StmtText.chains],
    by simp [eMake, ChainText.rels]⟩ eTyped_ok.2 demoEnv [eTyped.render, c!"q"] demoG demoFresh ⟨_, _, _, _, _, demoFresh_healthy, below_nil 0⟩
  have h3 := C77_typed_session demoEnv demoG [.query eTyped, .query eTyped] (by simpa using eTyped_fair) demoFresh fs' []
    (fun _ => False) id demoFresh_stock h1
  exact ⟨fs', h1, h2, by simpa using h3⟩

theorem demo_json : ∀ q ∈ [c!"n", c!"y", c!"A", c!"zoo", c!"ark", c!"hello", c!"q", eTyped.render], JsonOnly q := by
  simp only [List.mem_cons, List.not_mem_nil, or_false, forall_eq_or_imp, forall_eq]
  refine ⟨?_, ?_, ?_, ?_, ?_, ?_, ?_, C77_json_only_typed (.query eTyped) eTyped_runnable.good⟩ <;>
    exact C77_json_only_typed (.other _) (not_makes (by decide +kernel))

/-- C77: a first run creates "zoo" and makes patterns there, twice; a second run creates "ark" and is stopped anywhere; a
third one chooses "ark" or "zoo" and is stopped anywhere.  Those patterns are still there. -/
example (fs2 fs3 : FS)
    (h2 : CrashAt NotDatabase (startWiggleShell demoEnv [c!"n", c!"ark", eTyped.render]) ((startWiggleShell demoEnv (newRun [] c!"zoo").inputs).run bareDisk).2 fs2)
    (h3 : CrashAt NotDatabase (startWiggleShell demoEnv [c!"y", c!"A", eTyped.render, eTyped.render]) fs2 fs3) :
    ∃ d new, Records ChainRecords 0 (eTyped.chains ++ eTyped.chains) d ∧ Stored fs3 (dbPath DBMS_FOLDER c!"zoo") (d ++ new) := by
  have e : (newRun [] c!"zoo").chains = eTyped.chains ++ eTyped.chains := rfl
  obtain ⟨log, fs', h4, -, h5⟩ := C71_run_partial demoEnv (newRun [] c!"zoo") [] [(c!"zoo", eTyped.chains ++ eTyped.chains)] bareDisk (bareDisk_keeps _)
    (.new [] (newRun_ok _ _) (.inl (by decide)) (by simp [newRun]) (by decide) (by decide))
  rw [h4] at h2
  have hj := demo_json
  simp only [List.mem_cons, List.not_mem_nil, or_false, forall_eq_or_imp, forall_eq] at hj
  refine C77_world fs' fs3 _ h5 (.stopped (.stopped (.none _) _ _ ?_ h2) _ _ ?_ h3) _ _ (by simp)
  · simp [hj]
  · simp [hj]

end

end WG
