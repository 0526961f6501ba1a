/-
Consistency of the indexes with the graph (C18–C21) and concurrent MAKEs (C28).
-/
import Verif.Proofs.Consistent
import Verif.Proofs.Isolation
import Verif.Props.History

set_option linter.unusedSectionVars false

namespace WG

section
variable [PyRuntime]

/-- After any history of MAKE attempts: if database and index can be loaded, the index file has the
expected shape and is consistent with the graph. -/
theorem makeHist_holds {P : ParsedPattern → Prop} {g : GPath} {fs : FS} (h : MakeHist P g fs) {d D : Dict V}
    (hd : Holds fs g.db d) (hD : Holds fs g.idx D) :
    ∃ labels names rels, IndexShape D labels names rels ∧ LabelsCovered d labels ∧ NamesCovered d names ∧
      RelsExact d rels ∧ ((∀ p, P p → truthy p.right.text = false) → NoPhantoms d labels) := by
  rcases makeHist_inv h with ⟨d', labels, names, rels, n, hc, hph⟩ | ⟨t, h1, h2⟩ | ⟨t, h1, h2⟩
  · obtain rfl := Holds.unique hd hc.healthy.db
    obtain ⟨D', h1, h2⟩ := hc.healthy.idx
    obtain rfl := Holds.unique hD h1
    exact ⟨labels, names, rels, h2, hc.labels, hc.names, hc.rels, hph⟩
  · obtain ⟨t', h3, h4⟩ := hd
    rw [h1] at h3
    obtain rfl := Option.some.inj h3
    rw [h2] at h4; simp at h4
  · obtain ⟨t', h3, h4⟩ := hD
    rw [h1] at h3
    obtain rfl := Option.some.inj h3
    rw [h2] at h4; simp at h4

/-- A MAKE that returned at the end of a history leaves database and index loadable. -/
theorem C18_successful_make_loads (P : ParsedPattern → Prop) (env : Env) (pml : List ParsedMake) (g : GPath)
    (fs fs' : FS) (r : Bool) (h : MakeHist P g fs) (hr : (make env pml g).run fs = (.ok r, fs')) :
    ∃ d D, Holds fs' g.db d ∧ Holds fs' g.idx D := by
  rcases makeHist_inv h with ⟨d', labels, names, rels, n, hc, hph⟩ | ⟨t, h1, h2⟩ | ⟨t, h1, h2⟩
  · obtain ⟨_, _, _, hc', _⟩ := consistent_make hc hr
    obtain ⟨D, h1, _⟩ := hc'.healthy.idx
    exact ⟨_, _, hc'.healthy.db, h1⟩
  · exfalso
    obtain ⟨n, h3, _⟩ := C02_counter_advances_exactly _ _ _ _ _ _ hr
    by_cases hok : MakeOK pml
    · rw [run_make_counter h3, afterCounter_ok hok, commit_eq, run_bind_err (run_add_bad h1 h2)] at hr
      simp at hr
    · obtain ⟨e, he⟩ := C22_rejected_make_changes_nothing env pml g fs (Or.inr hok)
      rw [he] at hr; simp at hr
  · exfalso
    obtain ⟨n, h3, _⟩ := C02_counter_advances_exactly _ _ _ _ _ _ hr
    by_cases hok : MakeOK pml
    · rw [run_make_counter h3, afterCounter_ok hok] at hr
      unfold commit at hr
      obtain ⟨_, fs1, h4, hr⟩ := run_ok_bind hr
      have hne := (makeHist_ne h).1
      have e1 := run_only (only_addItem g.db (dbBatch env n (patsOf pml))) (q := g.idx)
        (by simpa using Ne.symm hne) fs
      rw [h4, h1] at e1
      rw [run_bind_err (run_addRelIndex_bad e1 h2)] at hr
      simp at hr
    · obtain ⟨e, he⟩ := C22_rejected_make_changes_nothing env pml g fs (Or.inr hok)
      rw [he] at hr; simp at hr

/-- C18: whatever MAKEs were attempted on a new GDBMS, when database and index load, the label of every
stored node is in the labels index. -/
theorem C18_labels_covered (P : ParsedPattern → Prop) (g : GPath) (fs : FS) (h : MakeHist P g fs) (d D : Dict V)
    (hd : Holds fs g.db d) (hD : Holds fs g.idx D) :
    ∃ labels names rels, IndexShape D labels names rels ∧
      ∀ x ∈ d, ∃ s, field c!"node_label" x.2 = some (.str s) ∧ s ∈ labels := by
  obtain ⟨labels, names, rels, h1, h2, _⟩ := makeHist_holds h hd hD
  exact ⟨labels, names, rels, h1, h2⟩

/-- C19: … and the name of every stored relationship that has one is in the names index. -/
theorem C19_names_covered (P : ParsedPattern → Prop) (g : GPath) (fs : FS) (h : MakeHist P g fs) (d D : Dict V)
    (hd : Holds fs g.db d) (hD : Holds fs g.idx D) :
    ∃ labels names rels, IndexShape D labels names rels ∧
      ∀ x ∈ d, ∀ r ∈ relationsOf x.2, ∀ s, field c!"relationship_name" r = some (.str s) → s ≠ [] → s ∈ names := by
  obtain ⟨labels, names, rels, h1, _, h2, _⟩ := makeHist_holds h hd hD
  exact ⟨labels, names, rels, h1, h2⟩

/-- C20: … and the relationship index maps exactly the nodes that own relationships to exactly the
numbers of those relationships. -/
theorem C20_relationship_index_exact (P : ParsedPattern → Prop) (g : GPath) (fs : FS) (h : MakeHist P g fs)
    (d D : Dict V) (hd : Holds fs g.db d) (hD : Holds fs g.idx D) :
    ∃ labels names rels, IndexShape D labels names rels ∧
      (∀ k m, m ∈ relsOf rels k ↔ ∃ v, dictGet k d = some v ∧ some m ∈ (relationsOf v).map relWn) ∧
      (∀ k, k ∈ rels.map Prod.fst ↔ ∃ v, dictGet k d = some v ∧ relationsOf v ≠ []) := by
  obtain ⟨labels, names, rels, h1, _, _, h2, _⟩ := makeHist_holds h hd hD
  exact ⟨labels, names, rels, h1, h2.nums, h2.keys⟩

/-- C21: every label in the index belongs to a stored node, when no pattern had a right node.
Missing from the full property: three-node patterns, whose right node is not stored although its
label is indexed (`C21_violated`). -/
theorem C21_no_phantom_labels_partial (g : GPath) (fs : FS)
    (h : MakeHist (fun p => truthy p.right.text = false) g fs) (d D : Dict V)
    (hd : Holds fs g.db d) (hD : Holds fs g.idx D) :
    ∃ labels names rels, IndexShape D labels names rels ∧
      ∀ s ∈ labels, ∃ x ∈ d, field c!"node_label" x.2 = some (.str s) := by
  obtain ⟨labels, names, rels, h1, _, _, _, h2⟩ := makeHist_holds h hd hD
  exact ⟨labels, names, rels, h1, h2 fun _ h => h⟩

/-! ### C28 -/

/-- C28, one writer: however the calls of a MAKE are interleaved with those of a program that only
reads, the MAKE does exactly what it does alone. -/
theorem C28_readers_do_not_disturb_partial {β : Type} (env : Env) (pml : List ParsedMake) (g : GPath)
    (q : Prog β) (hq : q.AllOps fun o => o.readOnly = true) (sched : List Bool) (fs : FS) (r : Except PyErr Bool)
    (fs' : FS) (hdone : (runSched sched (make env pml g) q fs).1 = (match r with
      | .ok b => .ret b
      | .error e => .raise e) ∧ (runSched sched (make env pml g) q fs).2.2 = fs') :
    (make env pml g).run fs = (r, fs') := by
  have key : ∀ (sched : List Bool) (p : Prog Bool) (q : Prog β) (fs : FS), q.AllOps (fun o => o.readOnly = true) →
      (runSched sched p q fs).1.run (runSched sched p q fs).2.2 = p.run fs := by
    intro sched
    induction sched with
    | nil => intro p q fs _; rfl
    | cons s sched ih =>
      intro p q fs hq
      cases s with
      | false =>
        rw [runSched, ih _ _ _ hq]
        cases p <;> rfl
      | true =>
        rw [runSched]
        have : (stepProg q fs).2 = fs := by
          cases hq with
          | ret a => rfl
          | raise e => rfl
          | act op k h _ => exact exec_readOnly h fs
        rw [this, ih _ _ _ (AllOps.step hq fs)]
  have := key sched (make env pml g) q fs hq
  rw [hdone.1, hdone.2] at this
  rw [← this]
  cases r <;> rfl

/-- C28, different GDBMSs: however the calls of two MAKEs on GDBMSs without common files are
interleaved, when both have ended each has the outcome and leaves the files it has alone. -/
theorem C28_different_gdbms_partial (env1 env2 : Env) (pml1 pml2 : List ParsedMake) (g1 g2 : GPath)
    (hd : ∀ p ∈ [g1.db, g1.idx, g1.wn], p ∉ [g2.db, g2.idx, g2.wn]) (sched : List Bool) (fs fs' : FS)
    (r1 r2 : Except PyErr Bool)
    (h : runSched sched (make env1 pml1 g1) (make env2 pml2 g2) fs = (liftE r1, liftE r2, fs')) :
    ((make env1 pml1 g1).run fs).1 = r1 ∧ ((make env2 pml2 g2).run fs).1 = r2 ∧
    (∀ p ∈ [g1.db, g1.idx, g1.wn], fs'.get p = ((make env1 pml1 g1).run fs).2.get p) ∧
    (∀ p ∈ [g2.db, g2.idx, g2.wn], fs'.get p = ((make env2 pml2 g2).run fs).2.get p) := by
  obtain ⟨h1, h2, h3, h4⟩ := sched_disjoint hd sched (within_make env1 pml1 g1) (within_make env2 pml2 g2) fs
  rw [h] at h1 h2 h3 h4
  have e1 := steps_done (sched.count false) (make env1 pml1 g1) fs
  have e2 := steps_done (sched.count true) (make env2 pml2 g2) fs
  rw [← h1, run_liftE] at e1
  rw [← h2, run_liftE] at e2
  rw [← e1, ← e2]
  exact ⟨rfl, rfl, h3.2, h4.2⟩

end

/-! ### Examples and counterexamples -/

section
attribute [local instance] demoRuntime

theorem demo_hist : MakeHist (fun p => truthy p.right.text = false) demoG
    ((make demoEnv demoStmt demoG).run demoFresh).2 :=
  .make _ _ _ (.new _ demoFresh_new) (by decide)

theorem demo_hist_loads : ∃ d D, Holds ((make demoEnv demoStmt demoG).run demoFresh).2 demoG.db d ∧
    Holds ((make demoEnv demoStmt demoG).run demoFresh).2 demoG.idx D :=
  C18_successful_make_loads _ _ _ _ _ _ _ (.new (P := fun _ => True) _ demoFresh_new) (run_of demo_two_ok)

/-- C18–C21: one MAKE with two patterns. -/
example : ∃ d D labels names rels, Holds ((make demoEnv demoStmt demoG).run demoFresh).2 demoG.db d ∧
    IndexShape D labels names rels ∧ LabelsCovered d labels := by
  obtain ⟨d, D, h1, h2⟩ := demo_hist_loads
  obtain ⟨labels, names, rels, h3, h4⟩ := C18_labels_covered _ _ _ demo_hist d D h1 h2
  exact ⟨d, D, labels, names, rels, h1, h3, h4⟩
example : ∃ d D labels names rels, Holds ((make demoEnv demoStmt demoG).run demoFresh).2 demoG.db d ∧
    IndexShape D labels names rels ∧ NamesCovered d names := by
  obtain ⟨d, D, h1, h2⟩ := demo_hist_loads
  obtain ⟨labels, names, rels, h3, h4⟩ := C19_names_covered _ _ _ demo_hist d D h1 h2
  exact ⟨d, D, labels, names, rels, h1, h3, h4⟩
example : ∃ d D labels names rels, Holds ((make demoEnv demoStmt demoG).run demoFresh).2 demoG.db d ∧
    IndexShape D labels names rels ∧ RelsExact d rels := by
  obtain ⟨d, D, h1, h2⟩ := demo_hist_loads
  obtain ⟨labels, names, rels, h3, h4, h5⟩ := C20_relationship_index_exact _ _ _ demo_hist d D h1 h2
  exact ⟨d, D, labels, names, rels, h1, h3, h4, h5⟩
example : ∃ d D labels names rels, Holds ((make demoEnv demoStmt demoG).run demoFresh).2 demoG.db d ∧
    IndexShape D labels names rels ∧ NoPhantoms d labels := by
  obtain ⟨d, D, h1, h2⟩ := demo_hist_loads
  obtain ⟨labels, names, rels, h3, h4⟩ := C21_no_phantom_labels_partial _ _ demo_hist d D h1 h2
  exact ⟨d, D, labels, names, rels, h1, h3, h4⟩

/-- What a file holds, for evaluation. -/
def dictIn (fs : FS) (p : Path) : Option (Dict V) :=
  match fs.get p with
  | some t => (match jsonLoad t with
    | some (.dict d) => some d
    | _ => none)
  | none => none

theorem holds_of_dictIn {fs : FS} {p : Path} {d : Dict V} (h : dictIn fs p = some d) : Holds fs p d := by
  unfold dictIn at h
  split at h
  · next t ht =>
    split at h
    · next d' hd => simp at h; subst h; exact ⟨t, ht, hd⟩
    · simp at h
  · simp at h

/-- The labels of the stored nodes, for evaluation. -/
def labelsIn (d : Dict V) : List Str :=
  d.filterMap fun x => match field c!"node_label" x.2 with
    | some (.str s) => some s
    | _ => none

/-- C21 violated: after `MAKE (:A)-[:R]->(:B)-[:S]->(:C);` the label C is indexed, but no stored node
has it. -/
theorem C21_violated : ∃ (fs : FS) (d D : Dict V), MakeHist (fun _ => True) demoG fs ∧ Holds fs demoG.db d ∧
    Holds fs demoG.idx D ∧ (∃ l, dictGet c!"node_labels" D = some (.list l) ∧ Val.str c!"C" ∈ l) ∧
    ∀ x ∈ d, field c!"node_label" x.2 ≠ some (.str c!"C") := by
  have h1 : (dictIn ((make demoEnv (demoMake [demoThree]) demoG).run demoFresh).2 demoG.db).map labelsIn =
      some [c!"A", c!"B"] := by decide +kernel
  have h2 : (dictIn ((make demoEnv (demoMake [demoThree]) demoG).run demoFresh).2 demoG.idx).bind
      (fun D => match dictGet c!"node_labels" D with
        | some (.list l) => some (l.any fun v => match v with
          | .str s => s == c!"C"
          | _ => false)
        | _ => none) = some true := by decide +kernel
  cases e1 : dictIn ((make demoEnv (demoMake [demoThree]) demoG).run demoFresh).2 demoG.db with
  | none => rw [e1] at h1; simp at h1
  | some d =>
    cases e2 : dictIn ((make demoEnv (demoMake [demoThree]) demoG).run demoFresh).2 demoG.idx with
    | none => rw [e2] at h2; simp at h2
    | some D =>
      refine ⟨_, d, D, .make _ demoEnv (demoMake [demoThree]) (.new _ demoFresh_new) (by simp),
        holds_of_dictIn e1, holds_of_dictIn e2, ?_, ?_⟩
      · rw [e2] at h2
        simp only [Option.bind_some] at h2
        split at h2
        · next l hl =>
          simp only [Option.some.injEq, List.any_eq_true] at h2
          obtain ⟨v, hv, h2⟩ := h2
          refine ⟨l, hl, ?_⟩
          split at h2
          · simp at h2; subst h2; exact hv
          · simp at h2
        · simp at h2
      · rw [e1] at h1
        simp only [Option.map_some, Option.some.injEq] at h1
        intro x hx e
        have : c!"C" ∈ labelsIn d := List.mem_filterMap.2 ⟨x, hx, by simp [e]⟩
        rw [h1] at this
        revert this
        decide

/-- `(:X)-[:R]->(:Y)` -/
def demoOther : ParsedPattern :=
  ⟨demoNode c!"X" none, demoRel c!"-[:R]->" c!"R" none, demoNode c!"Y" none, .absent, .absent⟩

/-- `(:A)-[:R]->(:B)` -/
def demoPlain : ParsedPattern :=
  ⟨demoNode c!"A" none, demoRel c!"-[:R]->" c!"R" none, demoNode c!"B" none, .absent, .absent⟩

/-- Two shells taking turns. -/
def turns : Nat → List Bool
  | 0 => []
  | n + 1 => false :: true :: turns n

/-- The program has returned `true`. -/
def returned : Prog Bool → Bool
  | .ret b => b
  | _ => false

theorem returned_eq {p : Prog Bool} (h : returned p = true) : p = .ret true := by
  cases p <;> simp [returned] at h
  rw [h]

/-- C28 violated: two shells each run a MAKE on the same GDBMS, their calls taking turns.  Both MAKEs
return, and the nodes of the first one are gone. -/
theorem C28_violated : ∃ (fs fs' : FS) (sched : List Bool) (pml1 pml2 : List ParsedMake) (d : Dict V),
    IsNew fs demoG ∧
    runSched sched (make demoEnv pml1 demoG) (make demoEnv pml2 demoG) fs = (.ret true, .ret true, fs') ∧
    Holds fs' demoG.db d ∧ (∃ p ∈ patsOf pml1, p.left.label = some c!"A") ∧
    ∀ x ∈ d, field c!"node_label" x.2 ≠ some (.str c!"A") := by
  have h1 : returned (runSched (turns 20) (make demoEnv (demoMake [demoPlain]) demoG)
      (make demoEnv (demoMake [demoOther]) demoG) demoFresh).1 = true := by decide +kernel
  have h2 : returned (runSched (turns 20) (make demoEnv (demoMake [demoPlain]) demoG)
      (make demoEnv (demoMake [demoOther]) demoG) demoFresh).2.1 = true := by decide +kernel
  have h3 : (dictIn (runSched (turns 20) (make demoEnv (demoMake [demoPlain]) demoG)
      (make demoEnv (demoMake [demoOther]) demoG) demoFresh).2.2 demoG.db).map labelsIn = some [c!"X", c!"Y"] := by
    decide +kernel
  generalize hs : runSched (turns 20) (make demoEnv (demoMake [demoPlain]) demoG)
      (make demoEnv (demoMake [demoOther]) demoG) demoFresh = res at h1 h2 h3
  obtain ⟨p, q, fs'⟩ := res
  obtain rfl := returned_eq h1
  obtain rfl := returned_eq h2
  cases e : dictIn fs' demoG.db with
  | none => simp [e] at h3
  | some d =>
    refine ⟨demoFresh, fs', turns 20, _, _, d, demoFresh_new, hs, holds_of_dictIn e, ⟨demoPlain, by decide, rfl⟩, ?_⟩
    intro x hx e'
    simp only [e, Option.map_some, Option.some.injEq] at h3
    have : c!"A" ∈ labelsIn d := List.mem_filterMap.2 ⟨x, hx, by simp [e']⟩
    rw [h3] at this
    revert this
    decide

/-- C28: a reader taking turns with the MAKE. -/
example : ((make demoEnv (demoMake [demoPlain]) demoG).run demoFresh).1 = .ok true := by
  have h1 : returned (runSched (turns 20) (make demoEnv (demoMake [demoPlain]) demoG)
      (readFile demoG.db) demoFresh).1 = true := by decide +kernel
  exact congrArg Prod.fst (C28_readers_do_not_disturb_partial demoEnv (demoMake [demoPlain]) demoG
    (readFile demoG.db) (.readFile rfl) (turns 20) demoFresh (.ok true) _ ⟨returned_eq h1, rfl⟩)

/-- A second GDBMS. -/
def demoG2 : GPath :=
  { db := ⟨c!"dbs", c!"h", c!"database_h.json"⟩, idx := ⟨c!"dbs", c!"h", c!"indexes_h.json"⟩,
    wn := ⟨c!"dbs", c!"h", c!"wn_h.txt"⟩ }

/-- A disk with both. -/
def demoBoth : FS :=
  { demoFresh with
    dirs := [(c!"dbs", c!"g"), (c!"dbs", c!"h")],
    files := demoFresh.files ++ [(demoG2.db, c!"{}"), (demoG2.idx, emptyIndexText), (demoG2.wn, c!"0")] }

/-- C28: MAKEs on two GDBMSs taking turns. -/
example : ((make demoEnv (demoMake [demoPlain]) demoG).run demoBoth).1 = .ok true ∧
    ((make demoEnv (demoMake [demoOther]) demoG2).run demoBoth).1 = .ok true := by
  have h1 : returned (runSched (turns 20) (make demoEnv (demoMake [demoPlain]) demoG)
      (make demoEnv (demoMake [demoOther]) demoG2) demoBoth).1 = true := by decide +kernel
  have h2 : returned (runSched (turns 20) (make demoEnv (demoMake [demoPlain]) demoG)
      (make demoEnv (demoMake [demoOther]) demoG2) demoBoth).2.1 = true := by decide +kernel
  generalize hs : runSched (turns 20) (make demoEnv (demoMake [demoPlain]) demoG)
      (make demoEnv (demoMake [demoOther]) demoG2) demoBoth = res at h1 h2
  obtain ⟨p, q, fs'⟩ := res
  obtain rfl := returned_eq h1
  obtain rfl := returned_eq h2
  obtain ⟨h3, h4, _⟩ := C28_different_gdbms_partial _ _ _ _ demoG demoG2 (by decide) _ _ fs' (.ok true) (.ok true) hs
  exact ⟨h3, h4⟩

end

end WG
