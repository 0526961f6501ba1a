/-
Properties of histories and crashes: C01, C02, C16, C25, C26, C27.
-/
import Verif.Proofs.History
import Verif.Props.Make

set_option linter.unusedSectionVars false

namespace WG

section
variable [PyRuntime]

/-! ### C01 -/

/-- Whatever sequence of MAKEs, failing MAKEs, wipes and crashes produced the files: if the database
loads, no two of its entities carry the same wiggle number, every entity has one, and every node is
stored under its own number.
Missing from the full property: crashes that tear the write of the counter itself
(`C01_violated`). -/
theorem C01_numbers_unique_partial (g : GPath) (fs : FS) (h : Reach g fs) (v : V) (text : Str)
    (ht : fs.get g.db = some text) (hv : jsonLoad text = some v) :
    ∃ d, v = .dict d ∧ NumbersUnique d ∧ KeysAreNumbers d := by
  rcases (reach_inv h).graph text ht with hn | ⟨d, rfl, hser, hg, _⟩
  · rw [hn] at hv; simp at hv
  · rw [jsonLoad_dump _ hser] at hv
    exact ⟨d, (Option.some.inj hv).symm, hg.unique, hg.keys⟩

/-! ### C02 -/

/-- No operation, completed or crashed, ever decreases the counter (the write of its few bytes being
atomic). -/
theorem C02_counter_never_decreases (g : GPath) (o : GOp) (fs fs' : FS) (n n' : Int)
    (hne : g.db ≠ g.wn) (hne' : g.idx ≠ g.wn)
    (h : CrashAt (fun p => p ≠ g.wn) (o.prog g) fs fs')
    (hn : (getCurrentWiggleNumber g.wn).run fs = (.ok n, fs))
    (hn' : (getCurrentWiggleNumber g.wn).run fs' = (.ok n', fs')) : n ≤ n' := by
  have same : fs'.get g.wn = fs.get g.wn → n ≤ n' := by
    intro e
    rw [counter_det hn (counter_congr e hn')]
    exact Int.le_refl _
  have idx : ∀ {p : Prog Bool}, p.AllOps (Op.only [g.idx]) → CrashAt (fun p => p ≠ g.wn) p fs fs' → n ≤ n' :=
    fun hp hc => same (crash_frame hp (by simpa using Ne.symm hne') hc)
  cases o with
  | make env pml =>
    rcases crash_make h with rfl | ⟨m, hm, _, hc⟩
    · exact same rfl
    obtain rfl := counter_det hn hm
    rcases crash_commit hc with hc | ⟨fs1, h1, hc⟩
    · exact same (crash_frame (only_addItem ..) (by simpa using Ne.symm hne) hc)
    have e1 := run_only (only_addItem g.db (dbBatch env n (patsOf pml))) (q := g.wn) (by simpa using Ne.symm hne) fs
    rw [h1] at e1
    rcases hc with hc | ⟨r, fs2, h2, hc⟩
    · exact same ((crash_frame (only_commitIndexes ..) (by simpa using Ne.symm hne') hc).trans e1)
    have e2 := run_only (only_commitIndexes env n (patsOf pml) g) (q := g.wn) (by simpa using Ne.symm hne') fs1
    rw [h2] at e2
    rcases crash_updateCounter (by simp) hc with rfl | rfl | rfl
    · exact same (e2.trans e1)
    · rw [run_getCurrentWiggleNumber (FS.get_set_self _ _ _)] at hn'; simp at hn'
    · rw [run_getCurrentWiggleNumber_int (FS.get_set_self _ _ _)] at hn'
      simp at hn'
      omega
  | wipeDatabase b => exact same (crash_frame (only_wipeDatabase ..) (by simpa using Ne.symm hne) h)
  | wipeLabels b => exact idx (only_wipeIndex ..) h
  | wipeNames b => exact idx (only_wipeIndex ..) h
  | wipeRels b => exact idx (only_wipeIndex ..) h

/-! ### C16 -/

/-- After any history, every relationship in a database that loads is stored under its source node
and leads to a different number. -/
theorem C16_relationships_at_source (g : GPath) (fs : FS) (h : Reach g fs) (d : Dict V)
    (hd : Holds fs g.db d) : RelsAtSource d := by
  obtain ⟨text, ht, hl⟩ := hd
  rcases (reach_inv h).graph text ht with hn | ⟨d', rfl, hser, hg, _⟩
  · rw [hn] at hl; simp at hl
  · rw [jsonLoad_dump _ hser] at hl
    have := Option.some.inj hl
    injection this with e
    exact e ▸ hg.rels

/-! ### C25 -/

/-- At every crash point of every MAKE, all writes possibly torn, either the counter file is still
the old one, or database and index files are exactly as after the whole MAKE. -/
theorem C25_counter_written_last (env : Env) (pml : List ParsedMake) (g : GPath) (fs fs' : FS)
    (h1 : g.db ≠ g.wn) (h2 : g.idx ≠ g.wn)
    (h : CrashAt (fun _ => True) (make env pml g) fs fs') :
    fs'.get g.wn = fs.get g.wn ∨
      (fs'.get g.db = ((make env pml g).run fs).2.get g.db ∧
        fs'.get g.idx = ((make env pml g).run fs).2.get g.idx) := by
  rcases crash_make h with rfl | ⟨n, hn, hok, hc⟩
  · exact Or.inl rfl
  rcases crash_commit hc with hc | ⟨fs1, r1, hc⟩
  · exact Or.inl (crash_frame (only_addItem ..) (by simpa using Ne.symm h1) hc)
  have e1 := run_only (only_addItem g.db (dbBatch env n (patsOf pml))) (q := g.wn) (by simpa using Ne.symm h1) fs
  rw [r1] at e1
  rcases hc with hc | ⟨r, fs2, r2, hc⟩
  · exact Or.inl ((crash_frame (only_commitIndexes ..) (by simpa using Ne.symm h2) hc).trans e1)
  right
  rw [run_make_counter hn, afterCounter_ok hok, commit_eq, run_bind_ok r1, run_bind_ok r2]
  have fin : ∀ q, q ≠ g.wn → (((updateWiggleNumber g.wn (n + totalSize (patsOf pml))) >>= fun _ =>
      (pure true : Prog Bool)).run fs2).2.get q = fs2.get q := by
    intro q hq
    refine run_only (ps := [g.wn]) (.bind (only_updateCounter ..) fun _ => .ret _) (by simpa using hq) fs2
  rw [fin _ h1, fin _ h2]
  exact ⟨crash_frame (only_updateCounter ..) (by simpa using h1) hc,
    crash_frame (only_updateCounter ..) (by simpa using h2) hc⟩

/-! ### C26 -/

/-- If the database holds a node under the number the counter is at (the state an interrupted MAKE
leaves), every MAKE with at least one pattern raises and changes no file; if its statements are
acceptable the error is NodeExistsError. -/
theorem C26_stuck (env : Env) (pml : List ParsedMake) (g : GPath) (fs : FS) (d : Dict V) (n : Int)
    (hd : Holds fs g.db d) (hn : (getCurrentWiggleNumber g.wn).run fs = (.ok n, fs))
    (hk : intStr n ∈ d.map Prod.fst) (hp : patsOf pml ≠ []) :
    ∃ e, (make env pml g).run fs = (.error e, fs) ∧ (MakeOK pml → e = .nodeExists) := by
  by_cases hok : MakeOK pml
  · refine ⟨.nodeExists, ?_, fun _ => rfl⟩
    obtain ⟨t, h1, h2⟩ := hd
    rw [run_make_counter hn, afterCounter_ok hok]
    exact commit_collision h1 h2 fun hf => hf.2 _ (first_key hp) hk
  · obtain ⟨e, he⟩ := C22_rejected_make_changes_nothing env pml g fs (Or.inr hok)
    exact ⟨e, he, fun h => absurd h hok⟩

/-- A MAKE with at least one pattern that stops anywhere after its database write and before its
counter write leaves that state: its graph is stored, the old records are untouched, and every later
MAKE with at least one pattern raises and changes nothing. -/
theorem C26_interrupted_make_is_stuck (env : Env) (pml : List ParsedMake) (g : GPath) (fs fs' : FS)
    (d : Dict V) (labels names : List Str) (rels : Dict (List Int)) (n : Int)
    (h : Healthy fs g d labels names rels n) (hp : patsOf pml ≠ [])
    (hc : CrashAt (fun _ => True) (make env pml g) fs fs')
    (hdb : fs'.get g.db ≠ fs.get g.db) (hwn : fs'.get g.wn = fs.get g.wn)
    (hl : ∃ d', Holds fs' g.db d') :
    (∃ d', Holds fs' g.db d' ∧ ∀ k v, dictGet k d = some v → dictGet k d' = some v) ∧
    ∀ env' pml', patsOf pml' ≠ [] →
      ∃ e, (make env' pml' g).run fs' = (.error e, fs') ∧ (MakeOK pml' → e = .nodeExists) := by
  have hn' : (getCurrentWiggleNumber g.wn).run fs' = (.ok n, fs') :=
    counter_congr hwn.symm h.counter
  have key : ∃ e, Holds fs' g.db (d ++ e) ∧ intStr n ∈ keys e := by
    rcases crash_make hc with rfl | ⟨m, hm, hok, hc⟩
    · exact absurd rfl hdb
    obtain rfl := counter_det h.counter hm
    have hload := jsonLoad_dump _ h.ser
    rcases crash_commit hc with hc | ⟨fs1, r1, hc⟩
    · rcases crash_addItem h.dbText hload hc with rfl | ⟨hf, m, rfl⟩
      · exact absurd rfl hdb
      · refine ⟨dbBatch env n (patsOf pml), ?_, first_key hp⟩
        have := torn_append (serDict_of_ser h.ser) (wf_append h.ser hf) m
        simp only at this
        rw [overlay_zero] at hdb hl ⊢
        rcases this with e | ⟨e, hs⟩ | e
        · rw [FS.get_set_self] at hdb
          exact absurd (h.dbText.trans (congrArg some e.symm)).symm hdb
        · refine ⟨_, FS.get_set_self _ _ _, ?_⟩
          rw [show (jsonDump (Val.dict d)).1 = dumpText (Val.dict d) from rfl, e]
          exact jsonLoad_dump _ ((jsonDump_complete (wf_append h.ser hf)).1 hs)
        · obtain ⟨d', t, h1, h2⟩ := hl
          rw [FS.get_set_self] at h1
          obtain rfl := Option.some.inj h1
          rw [show (jsonDump (Val.dict d)).1 = dumpText (Val.dict d) from rfl] at h2
          rw [e] at h2
          simp at h2
    · have hf : Fresh d (dbBatch env n (patsOf pml)) := by
        apply Classical.byContradiction
        intro hf
        rw [run_add_collision h.dbText hload hf] at r1
        simp at r1
      have hs : Val.SerDict (dbBatch env n (patsOf pml)) := by
        apply Classical.byContradiction
        intro hs
        obtain ⟨t, _, e⟩ := run_add_opq h.dbText h.ser hf (dbBatch_wf env n (patsOf pml)) hs
        rw [e] at r1
        simp at r1
      rw [run_add_ok h.dbText h.ser hf hs] at r1
      simp only [Prod.mk.injEq, true_and] at r1
      subst r1
      refine ⟨_, ⟨_, ?_, jsonLoad_dump _ (ser_append h.ser hf hs)⟩, first_key hp⟩
      rcases hc with hc | ⟨r, fs2, r2, hc⟩
      · rw [crash_frame (only_commitIndexes ..) (by simpa using h.db_idx) hc, FS.get_set_self]
      · rw [crash_frame (only_updateCounter ..) (by simpa using h.db_wn) hc]
        have := run_only (only_commitIndexes env n (patsOf pml) g) (q := g.db) (by simpa using h.db_idx)
          (fs.set g.db (dumpText (.dict (d ++ dbBatch env n (patsOf pml)))))
        rw [r2] at this
        rw [this, FS.get_set_self]
  obtain ⟨e, h1, h2⟩ := key
  refine ⟨⟨_, h1, fun k v hk => dictGet_append_left hk⟩, fun env' pml' hp' => ?_⟩
  exact C26_stuck env' pml' g fs' _ n h1 hn' (by rw [List.map_append, List.mem_append]; exact Or.inr h2) hp'

/-! ### C27 -/

/-- At every crash point of a MAKE at which no write was torn, the database file still loads and holds
every record stored before, provided the property values are JSON-representable.
Missing from the full property: torn writes (`C27_torn_write_loses_graph`) and values that are not
JSON-representable (`C08_unserialisable_make_destroys`). -/
theorem C27_crash_keeps_graph_partial (env : Env) (pml : List ParsedMake) (g : GPath) (fs fs' : FS)
    (d : Dict V) (labels names : List Str) (rels : Dict (List Int)) (n : Int)
    (h : Healthy fs g d labels names rels n) (hs : ∀ p ∈ patsOf pml, PatSer p)
    (hc : CrashAt (fun _ => False) (make env pml g) fs fs') :
    ∃ d', Holds fs' g.db d' ∧ ∀ k v, dictGet k d = some v → dictGet k d' = some v := by
  rcases crash_make hc with rfl | ⟨m, hm, hok, hc⟩
  · exact ⟨d, h.db, fun _ _ h => h⟩
  obtain rfl := counter_det h.counter hm
  have hser := (dbBatch_ser (env := env) (b := n) hok.props hok.shape).2 hs
  have key : fs'.get g.db = fs.get g.db ∨ (Fresh d (dbBatch env n (patsOf pml)) ∧
      fs'.get g.db = some (dumpText (.dict (d ++ dbBatch env n (patsOf pml))))) := by
    by_cases hf : Fresh d (dbBatch env n (patsOf pml))
    · have r := run_add_ok (p := g.db) h.dbText h.ser hf hser
      rcases crash_commit hc with hc | ⟨fs1, r1, hc⟩
      · rcases crash_addItem_atomic hc with rfl | rfl
        · exact Or.inl rfl
        · rw [r]; exact Or.inr ⟨hf, FS.get_set_self _ _ _⟩
      · rw [r] at r1
        simp only [Prod.mk.injEq, true_and] at r1
        subst r1
        refine Or.inr ⟨hf, ?_⟩
        rcases hc with hc | ⟨r', fs2, r2, hc⟩
        · rw [crash_frame (only_commitIndexes ..) (by simpa using h.db_idx) hc, FS.get_set_self]
        · rw [crash_frame (only_updateCounter ..) (by simpa using h.db_wn) hc]
          have := run_only (only_commitIndexes env n (patsOf pml) g) (q := g.db) (by simpa using h.db_idx)
            (fs.set g.db (dumpText (.dict (d ++ dbBatch env n (patsOf pml)))))
          rw [r2] at this
          rw [this, FS.get_set_self]
    · have r := run_add_collision (p := g.db) h.dbText (jsonLoad_dump _ h.ser) hf
      rcases crash_commit hc with hc | ⟨fs1, r1, _⟩
      · rcases crash_addItem_atomic hc with rfl | rfl
        · exact Or.inl rfl
        · rw [r]; exact Or.inl rfl
      · rw [r] at r1; simp at r1
  rcases key with e | ⟨hf, e⟩
  · obtain ⟨t, h1, h2⟩ := h.db
    exact ⟨d, ⟨t, e.trans h1, h2⟩, fun _ _ h => h⟩
  · exact ⟨_, ⟨_, e, jsonLoad_dump _ (ser_append h.ser hf hser)⟩, fun k v hk => dictGet_append_left hk⟩

/-- Every MAKE that gets as far as writing at least one node has a crash state (its database write
torn) after which nothing of the graph can be loaded. -/
theorem C27_torn_write_loses_graph (env : Env) (pml : List ParsedMake) (g : GPath) (fs : FS)
    (d : Dict V) (labels names : List Str) (rels : Dict (List Int)) (n : Int)
    (h : Healthy fs g d labels names rels n) (hb : BelowCounter d n) (hok : MakeOK pml)
    (hp : patsOf pml ≠ []) :
    ∃ fs', CrashAt (fun p => p = g.db) (make env pml g) fs fs' ∧ Unreadable fs' g.db := by
  have hf := fresh_batch (env := env) (pats := patsOf pml) fun w h1 _ => hb w h1
  have hne : dbBatch env n (patsOf pml) ≠ [] := by
    intro e
    have := first_key (env := env) (n := n) hp
    rw [e] at this
    simp [keys] at this
  have hlt := dump_append_length_lt (serDict_of_ser h.ser) hne
  refine ⟨_, crash_make_torn_db (tear := fun p => p = g.db) rfl h.counter hok h.dbText (jsonLoad_dump _ h.ser) hf
    ((jsonDump (.dict (d ++ dbBatch env n (patsOf pml)))).1.length - 1), _, FS.get_set_self _ _ _, ?_⟩
  rw [overlay_zero, List.drop_eq_nil_of_le (by
    have : (dumpText (Val.dict d)).length ≤ (jsonDump (.dict (d ++ dbBatch env n (patsOf pml)))).1.length - 1 := by omega
    simp only [List.length_take]
    have e : (jsonDump (Val.dict d)).1 = dumpText (Val.dict d) := rfl
    rw [e]; omega), List.append_nil]
  rcases jsonLoad_take (wf_append h.ser hf) ((jsonDump (.dict (d ++ dbBatch env n (patsOf pml)))).1.length - 1) with h | ⟨h, _⟩
  · exact h
  · have := congrArg List.length h
    simp only [List.length_take] at this
    omega

end

/-! ### Examples and counterexamples -/

section
attribute [local instance] demoRuntime

theorem demoFresh_new : IsNew demoFresh demoG :=
  ⟨rfl, rfl, rfl, by decide +kernel, by decide, by decide, by decide⟩

/-- The MAKE of the examples. -/
def demoStmt : List ParsedMake := demoMake [demoRight, demoLeft]

/-- C01: a history of a MAKE, a MAKE that fails (it destroys the index), a wipe of the database and a
further MAKE. -/
example (d : Dict V) (hd : Holds ((GOp.prog demoG (.make demoEnv demoStmt)).run
    ((GOp.prog demoG (.wipeDatabase true)).run
      ((GOp.prog demoG (.make demoEnv (demoMake [demoSingle]))).run
        ((GOp.prog demoG (.make demoEnv demoStmt)).run demoFresh).2).2).2).2 demoG.db d) : NumbersUnique d := by
  obtain ⟨t, h1, h2⟩ := hd
  obtain ⟨d', e, h, _⟩ := C01_numbers_unique_partial demoG _
    (.op _ _ (.op _ _ (.op _ _ (.op _ _ (.new _ demoFresh_new))))) _ _ h1 h2
  injection e with e
  exact e ▸ h

/-- C01, C16: after one MAKE the database loads and is not empty. -/
example : ∃ d, Holds ((GOp.prog demoG (.make demoEnv demoStmt)).run demoFresh).2 demoG.db d ∧ d ≠ [] ∧
    NumbersUnique d ∧ KeysAreNumbers d ∧ RelsAtSource d := by
  have hr : Reach demoG ((GOp.prog demoG (.make demoEnv demoStmt)).run demoFresh).2 :=
    .op _ _ (.new _ demoFresh_new)
  obtain ⟨d, hd, h2⟩ := C14_nodes_stored_partial _ _ _ _ _ _ _ _ _ _ _ demoFresh_healthy (run_of demo_two_ok)
  obtain ⟨t, h1, h3⟩ := id hd
  obtain ⟨d', e, hu, hk⟩ := C01_numbers_unique_partial _ _ hr _ _ h1 h3
  injection e with e
  subst e
  refine ⟨d, hd, ?_, hu, hk, C16_relationships_at_source _ _ hr _ hd⟩
  rintro rfl
  obtain ⟨v, _, _, hv, _⟩ := (h2.2 (0, demoRight) (by decide)).1
  simp [dictGet] at hv

/-- Seven patterns, twenty-one entities. -/
def demoSeven : List ParsedMake := demoMake (List.replicate 7 demoRight)

/-- The disk after the MAKE of the seven patterns, the write of the counter "21" torn after one
character. -/
def demoTorn : FS := ((make demoEnv demoSeven demoG).run demoFresh).2.set demoG.wn c!"2"

/-- `demoTorn` is a crash state. -/
theorem demoTorn_crash : CrashAt (fun _ => True) (make demoEnv demoSeven demoG) demoFresh demoTorn := by
  have ok : ((make demoEnv demoSeven demoG).run demoFresh).1 = .ok true := by decide +kernel
  have := crash_make_torn_counter (tear := fun _ => True) trivial demoFresh_healthy.counter (run_of ok) 1
  have e : (intStr (0 + (totalSize (patsOf demoSeven) : Int))).take 1 = c!"2" := by decide +kernel
  rw [e] at this
  exact this

/-- C01 violated when the write of the counter may be torn as well: after the crash the next MAKE
stores a node whose number a relationship already has. -/
theorem C01_violated : ∃ (fs fs' : FS) (pml pml' : List ParsedMake) (d : Dict V), IsNew fs demoG ∧
    CrashAt (fun _ => True) (make demoEnv pml demoG) fs fs' ∧
    Holds ((make demoEnv pml' demoG).run fs').2 demoG.db d ∧ ¬ NumbersUnique d := by
  have key : ∃ t d, ((make demoEnv (demoMake [demoSingle]) demoG).run demoTorn).2.get demoG.db = some t ∧
      jsonLoad t = some (.dict d) ∧ ¬ (allNumbers d).Nodup := by
    have : (match ((make demoEnv (demoMake [demoSingle]) demoG).run demoTorn).2.get demoG.db with
        | some t => (match jsonLoad t with
          | some (.dict d) => !decide (allNumbers d).Nodup
          | _ => false)
        | none => false) = true := by decide +kernel
    split at this
    · rename_i t ht
      split at this
      · rename_i d hd
        exact ⟨t, d, ht, hd, by simpa using this⟩
      · simp at this
    · simp at this
  obtain ⟨t, d, h1, h2, h3⟩ := key
  exact ⟨demoFresh, demoTorn, demoSeven, demoMake [demoSingle], d, demoFresh_new, demoTorn_crash, ⟨t, h1, h2⟩,
    fun h => h3 h.nodup⟩

/-- C02: a MAKE that crashed just before returning. -/
example : (0 : Int) ≤ 6 := by
  refine C02_counter_never_decreases demoG (.make demoEnv demoStmt) demoFresh
    ((make demoEnv demoStmt demoG).run demoFresh).2 0 6 (by decide) (by decide) (crash_run _ _ _)
    demoFresh_healthy.counter ?_
  obtain ⟨n, h1, h2⟩ := C02_counter_advances_exactly _ _ _ _ _ _ (run_of demo_two_ok)
  obtain rfl := counter_det demoFresh_healthy.counter h1
  rwa [show totalSize (patsOf (demoMake [demoRight, demoLeft])) = 6 by decide +kernel] at h2

/-- C25: the torn counter above. -/
example : demoTorn.get demoG.wn ≠ demoFresh.get demoG.wn ∧
    demoTorn.get demoG.db = ((make demoEnv demoSeven demoG).run demoFresh).2.get demoG.db := by
  have hne : demoTorn.get demoG.wn ≠ demoFresh.get demoG.wn := by
    rw [demoTorn, FS.get_set_self]; decide
  rcases C25_counter_written_last _ _ _ _ _ (by decide) (by decide) demoTorn_crash with h | h
  · exact absurd h hne
  · exact ⟨hne, h.1⟩

/-- A MAKE that crashed right after its database write. -/
def demoHalf : FS :=
  demoFresh.set demoG.db (overlay (jsonDump (.dict [])).1 0
    ((jsonDump (.dict ([] ++ dbBatch demoEnv 0 (patsOf demoStmt)))).1.take 100000))

theorem demoHalf_crash : CrashAt (fun _ => True) (make demoEnv demoStmt demoG) demoFresh demoHalf :=
  crash_make_torn_db trivial demoFresh_healthy.counter (demo_ok demo_two_ok).1 demoFresh_healthy.dbText
    (jsonLoad_dump _ demoFresh_healthy.ser) (fresh_batch fun w h1 _ => below_nil 0 w h1) 100000

/-- C26: from there on, MAKE is refused. -/
example : ∃ e, (make demoEnv (demoMake [demoThree]) demoG).run demoHalf = (.error e, demoHalf) ∧
    (MakeOK (demoMake [demoThree]) → e = .nodeExists) := by
  refine (C26_interrupted_make_is_stuck demoEnv demoStmt demoG demoFresh demoHalf [] [] [] [] 0
    demoFresh_healthy (by decide) demoHalf_crash (by decide +kernel) (by
      rw [demoHalf, FS.get_set_ne (by decide)]) ?_).2 _ _ (by decide)
  have : (match demoHalf.get demoG.db with
      | some t => (match jsonLoad t with
        | some (.dict _) => true
        | _ => false)
      | none => false) = true := by decide +kernel
  split at this
  · rename_i t ht
    split at this
    · rename_i d hd
      exact ⟨d, t, ht, hd⟩
    · simp at this
  · simp at this

/-- C27: the crash points of the example MAKE keep the old graph. -/
example (fs' : FS) (h : CrashAt (fun _ => False) (make demoEnv demoStmt demoG) demoFresh fs') :
    ∃ d', Holds fs' demoG.db d' := by
  obtain ⟨d', h1, _⟩ := C27_crash_keeps_graph_partial _ _ _ _ _ _ _ _ _ _ demoFresh_healthy
    (demo_ok demo_two_ok).2.1 h
  exact ⟨d', h1⟩

/-- C27 violated: a stored graph is lost by a crash in the middle of the next MAKE. -/
theorem C27_violated : ∃ (fs fs' : FS) (pml : List ParsedMake) (d : Dict V), Holds fs demoG.db d ∧ d ≠ [] ∧
    CrashAt (fun p => p = demoG.db) (make demoEnv pml demoG) fs fs' ∧ Unreadable fs' demoG.db := by
  obtain ⟨hok, hf, hs, hr, _, labels, names, rels, hh, _⟩ := make_success demoFresh_healthy (run_of demo_two_ok)
  have hb : BelowCounter ([] ++ dbBatch demoEnv 0 (patsOf demoStmt)) (0 + totalSize (patsOf demoStmt)) := by
    have := graphOK_append (env := demoEnv) (pats := patsOf demoStmt) graphOK_nil (n := 0) (fun w h => by simp [allNumbers] at h)
    exact numsBelow_below this.1 this.2
  obtain ⟨fs', h1, h2⟩ := C27_torn_write_loses_graph demoEnv demoStmt demoG _ _ _ _ _ _ hh hb hok (by decide)
  refine ⟨_, fs', demoStmt, _, hh.db, ?_, h1, h2⟩
  intro e
  have := first_key (env := demoEnv) (n := 0) (pats := patsOf demoStmt) (by decide)
  rw [List.nil_append] at e
  rw [show dbBatch demoEnv 0 (patsOf demoStmt) = [] from e] at this
  simp [keys] at this

end

end WG
