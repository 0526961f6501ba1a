/- Running MAKE. -/
import Verif.Proofs.MakeBatch
import Verif.Props.Storage

set_option linter.unusedSectionVars false

namespace WG
variable [PyRuntime]

/-! ### Property values are well formed -/

theorem litAtom_wf {s : Str} {x : V × Str} (h : litAtom s = some x) : x.1.WF := by
  unfold litAtom at h
  repeat' split at h
  all_goals (first
    | (simp at h; done)
    | (simp only [Option.some.injEq] at h; subst h; simp [Val.WF])
    | (simp only [Option.map_eq_some_iff] at h; obtain ⟨a, _, rfl⟩ := h; simp [Val.WF]))

theorem litElems_wf {n : Nat} {s : Str} {l : List V} (h : litElems n s = some l) : Val.WFList l := by
  induction n generalizing s l with
  | zero => simp [litElems] at h
  | succ n ih =>
    simp only [litElems] at h
    split at h
    · simp at h; subst h; trivial
    · split at h
      · simp at h
      · next v r e =>
        have hv := litAtom_wf e
        split at h
        · simp only [Option.map_eq_some_iff] at h
          obtain ⟨l', hl, rfl⟩ := h
          exact ⟨hv, ih hl⟩
        · simp at h; subst h; exact ⟨hv, trivial⟩
        · simp at h

theorem literalEval_wf {s : Str} {v : V} (h : literalEval s = .ok v) : v.WF := by
  unfold literalEval at h
  split at h
  · split at h
    · next l e => simp at h; subst h; rw [Val.WF]; exact litElems_wf e
    · exact PyRuntime.literalEvalOther_wf _ _ h
  · exact PyRuntime.literalEvalOther_wf _ _ h

theorem handleExtracted_wf {s : Str} {c : Caps} {v : V} (h : handleExtracted s c = .ok v) : v.WF := by
  unfold handleExtracted at h
  split at h
  · simp at h
  · split at h
    · unfold handleNull at h; split at h <;> simp at h; subst h; simp [Val.WF]
    · unfold handleBool at h
      split at h
      · simp at h; subst h; simp [Val.WF]
      · split at h <;> simp at h; subst h; simp [Val.WF]
    · unfold handleFloat at h
      split at h
      · simp at h
      · split at h <;> simp at h; subst h; simp [Val.WF]
    · unfold handleInt at h
      split at h
      · simp at h
      · split at h <;> simp at h; subst h; simp [Val.WF]
    · unfold handleList at h
      split at h <;> simp at h
      next e => subst h; exact literalEval_wf e
    · unfold handleString at h
      split at h
      · simp at h
      · split at h <;> simp at h; subst h; simp [Val.WF]

theorem parseOneProp_wf {c : Caps} {k : Str} {v : V} (h : parseOneProp c = .ok (k, v)) : v.WF := by
  unfold parseOneProp at h
  split at h
  · split at h
    · simp at h
    · split at h
      · next e => simp at h; obtain ⟨_, rfl⟩ := h; exact handleExtracted_wf e
      · simp at h
  · simp at h

theorem parsePropsLoop_wf {ms : List (Str × Caps)} {d d' : Dict V} (h : parsePropsLoop ms d = .ok d')
    (hd : (Val.dict d).WF) : (Val.dict d').WF := by
  induction ms generalizing d with
  | nil => simp [parsePropsLoop] at h; subst h; exact hd
  | cons m ms ih =>
    unfold parsePropsLoop at h
    split at h
    · next k v e =>
      apply ih h
      rw [Val.WF] at hd ⊢
      refine ⟨nodup_dictSet hd.1, wfDict_iff.2 ?_⟩
      intro x hx
      rcases mem_dictSet hx with rfl | hx
      · exact parseOneProp_wf e
      · exact wfDict_iff.1 hd.2 x hx
    · simp at h

theorem getPropertyDict_wf {t : Option Str} {d : Dict V} (h : getPropertyDict t = .ok (some d)) :
    (Val.dict d).WF := by
  unfold getPropertyDict at h
  split at h
  · simp at h
  · split at h
    · simp at h
    · split at h
      · next e => simp at h; subst h; exact parsePropsLoop_wf e (by simp [Val.WF, Val.WFDict])
      · simp at h

theorem propsD_wf (t : Option Str) : (optDictVal (propsD t)).WF := by
  unfold propsD
  split
  · next p h =>
    cases p with
    | none => simp [optDictVal, Val.WF]
    | some d => exact getPropertyDict_wf h
  · simp [optDictVal, Val.WF]

theorem metaVal_wf (env : Env) (n : Int) : (metaVal env n).WF := (metaVal_ser env n).wf

theorem relVal_wf (env : Env) (r : RelPre) : (relVal env (relData r)).WF := by
  unfold relVal
  rw [Val.WF]
  refine ⟨by simp, ?_⟩
  simp only [Val.WFDict, metaVal_wf, relData, propsD_wf, true_and, and_true]
  exact ⟨(optStrVal_ser _).wf, by simp [Val.WF], by simp [Val.WF]⟩

theorem nodeVal_wf (env : Env) (n : NodePre) : (nodeVal env (nodeData n)).WF := by
  unfold nodeVal
  rw [Val.WF]
  refine ⟨by simp, ?_⟩
  simp only [Val.WFDict, metaVal_wf, true_and, and_true]
  refine ⟨by simp [Val.WF], by simp only [nodeData]; exact propsD_wf _, ?_⟩
  unfold nodeData
  simp only
  split
  · simp [Val.WF]
  · next rs h =>
    split at h
    · simp at h
    · simp at h
      subst h
      rw [Val.WF, wfList_iff]
      intro x hx
      simp only [List.map_map, List.mem_map, Function.comp] at hx
      obtain ⟨r, _, rfl⟩ := hx
      exact relVal_wf env r

theorem allStored_pre {b : Int} {pats : List ParsedPattern} {n : NodeData} (h : n ∈ allStored b pats) :
    ∃ m, n = nodeData m := by
  unfold allStored at h
  rw [List.mem_flatMap] at h
  obtain ⟨q, _, h⟩ := h
  unfold storedNodes at h
  simp only [List.mem_cons] at h
  rcases h with rfl | h
  · exact ⟨_, rfl⟩
  · split at h
    · simp at h; exact ⟨_, h⟩
    · simp at h

/-- The batch for the database. -/
def dbBatch (env : Env) (b : Int) (pats : List ParsedPattern) : Dict V :=
  (allStored b pats).map (dbEntry env)

/-- The batch for the relationship index. -/
def relBatch (b : Int) (pats : List ParsedPattern) : Dict (List Int) :=
  (allStored b pats).filterMap relEntry

theorem dbBatch_wf (env : Env) (b : Int) (pats : List ParsedPattern) : Val.WFDict (dbBatch env b pats) := by
  rw [wfDict_iff]
  intro x hx
  unfold dbBatch at hx
  rw [List.mem_map] at hx
  obtain ⟨n, hn, rfl⟩ := hx
  obtain ⟨m, rfl⟩ := allStored_pre hn
  exact nodeVal_wf env m

/-- The labels written in patterns. -/
def wantLabels (pats : List ParsedPattern) : List Str := pats.flatMap fun p => (writtenNodes p).map labelD

/-- The relationship names written in patterns. -/
def wantNames (pats : List ParsedPattern) : List Str := pats.flatMap fun p => (writtenRels p).flatMap relNameOf

/-- The commit phase of MAKE. -/
def commit (env : Env) (n : Int) (pats : List ParsedPattern) (g : GPath) : Prog Bool := do
  let _ ← addItemToDatabase g.db (dbBatch env n pats)
  let _ ← addItemsToNodeRelationshipsIndex env.ord g.idx ((relBatch n pats).map fun x => (x.1, x.2.map Val.int))
  let _ ← addItemsToNodeLabelsIndex env.ord g.idx (wantLabels pats)
  let _ ← addItemsToRelationshipNamesIndex env.ord g.idx (wantNames pats)
  let _ ← updateWiggleNumber g.wn (n + totalSize pats)
  pure true

theorem flatMap_labels (b : Int) (pats : List ParsedPattern) :
    ((place b pats).map fun q => prePattern q.1 q.2).flatMap (·.labels) = wantLabels pats := by
  induction pats generalizing b with
  | nil => rfl
  | cons p ps ih =>
    simp only [place, List.map_cons, List.flatMap_cons, wantLabels] at ih ⊢
    rw [ih]; rfl

theorem flatMap_names (b : Int) (pats : List ParsedPattern) :
    ((place b pats).map fun q => prePattern q.1 q.2).flatMap (·.relNames) = wantNames pats := by
  induction pats generalizing b with
  | nil => rfl
  | cons p ps ih =>
    simp only [place, List.map_cons, List.flatMap_cons, wantNames] at ih ⊢
    rw [ih]; rfl

theorem bind_assoc' {α β γ : Type} (p : Prog α) (f : α → Prog β) (h : β → Prog γ) :
    (p >>= f) >>= h = p >>= fun a => f a >>= h := by
  show (p.bind f).bind h = p.bind fun a => (f a).bind h
  induction p with
  | ret a => rfl
  | raise e => rfl
  | act op k ih => simp only [Prog.bind]; congr 1; funext r; exact ih r

/-- MAKE after the counter was read: either it is rejected, or it commits. -/
def afterCounter (env : Env) (pml : List ParsedMake) (g : GPath) (n : Int) : Prog Bool := do
  let r ← liftE (processParsedMakeList n pml)
  let nodes ← liftE (makeAllNodes r.2)
  let _ ← addNodesToGraph env nodes g
  let _ ← addIndexes env nodes r.2 g
  let _ ← updateWiggleNumber g.wn r.1
  pure true

theorem make_eq (env : Env) (pml : List ParsedMake) (g : GPath) :
    make env pml g = getCurrentWiggleNumber g.wn >>= afterCounter env pml g := rfl

theorem afterCounter_ok {env : Env} {pml : List ParsedMake} {g : GPath} {n : Int} (h : MakeOK pml) :
    afterCounter env pml g n = commit env n (patsOf pml) g := by
  obtain ⟨h1, h2⟩ := plan_iff.2 ⟨h, rfl, rfl, rfl⟩
  unfold afterCounter
  rw [h1, show ∀ (x : Int × List MakePre) (f : _ → Prog Bool), (liftE (.ok x) >>= f) = f x from fun _ _ => rfl]
  simp only
  rw [h2, show ∀ (x : List NodeData) (f : _ → Prog Bool), (liftE (.ok x) >>= f) = f x from fun _ _ => rfl]
  unfold addNodesToGraph addIndexes commit dbBatch relBatch
  rw [nodesToAdd_eq, relIndexesToAdd_eq, flatMap_labels, flatMap_names]
  simp only [bind_assoc']
  rfl

theorem afterCounter_bad {env : Env} {pml : List ParsedMake} {g : GPath} {n : Int} (h : ¬ MakeOK pml) :
    ∃ e, afterCounter env pml g n = .raise e := by
  unfold afterCounter
  cases h1 : processParsedMakeList n pml with
  | error e => exact ⟨e, rfl⟩
  | ok r =>
    cases h2 : makeAllNodes r.2 with
    | error e =>
      refine ⟨e, ?_⟩
      show (liftE (makeAllNodes r.2) >>= _) = _
      rw [h2]; rfl
    | ok ns => exact absurd (plan_iff.1 ⟨h1, h2⟩).1 h

theorem run_make_counter {env : Env} {pml : List ParsedMake} {g : GPath} {fs : FS} {n : Int}
    (h : (getCurrentWiggleNumber g.wn).run fs = (.ok n, fs)) :
    (make env pml g).run fs = (afterCounter env pml g n).run fs := by
  rw [make_eq, run_bind_ok h]

theorem run_make_noCounter {env : Env} {pml : List ParsedMake} {g : GPath} {fs : FS} {e : PyErr}
    (h : (getCurrentWiggleNumber g.wn).run fs = (.error e, fs)) :
    (make env pml g).run fs = (.error e, fs) := by
  rw [make_eq, run_bind_err h]

theorem counter_cases (p : Path) (fs : FS) :
    (∃ n, (getCurrentWiggleNumber p).run fs = (.ok n, fs)) ∨
      ∃ e, (getCurrentWiggleNumber p).run fs = (.error e, fs) := by
  have := getCurrentWiggleNumber_fs p fs
  cases h : (getCurrentWiggleNumber p).run fs with
  | mk r fs' =>
    rw [h] at this
    simp only at this
    subst this
    cases r with
    | ok n => exact Or.inl ⟨n, rfl⟩
    | error e => exact Or.inr ⟨e, rfl⟩

/-! ### The index phase and the whole commit on a healthy GDBMS -/

theorem Healthy.counter {fs : FS} {g : GPath} {d : Dict V} {labels names : List Str}
    {rels : Dict (List Int)} {n : Int} (h : Healthy fs g d labels names rels n) :
    (getCurrentWiggleNumber g.wn).run fs = (.ok n, fs) := by
  obtain ⟨t, h1, h2, h3⟩ := h.wn
  rw [run_getCurrentWiggleNumber h1, h3]
  simp [h2]

theorem Healthy.ser {fs : FS} {g : GPath} {d : Dict V} {labels names : List Str}
    {rels : Dict (List Int)} {n : Int} (h : Healthy fs g d labels names rels n) : (Val.dict d).Ser := by
  obtain ⟨t, _, h2⟩ := h.db
  exact jsonLoad_ser h2

theorem fresh_batch {env : Env} {d : Dict V} {n : Int} {pats : List ParsedPattern}
    (h : ∀ w, n ≤ w → w < n + totalSize pats → intStr w ∉ keys d) : Fresh d (dbBatch env n pats) := by
  obtain ⟨h1, h2⟩ := keys_batch env n pats
  refine ⟨h1, fun k hk => ?_⟩
  obtain ⟨w, a, b, rfl⟩ := h2 k hk
  exact h w a b

theorem commit_ok {env : Env} {fs : FS} {g : GPath} {d : Dict V} {labels names : List Str}
    {rels : Dict (List Int)} {n : Int} {pats : List ParsedPattern}
    (h : Healthy fs g d labels names rels n) (hf : Fresh d (dbBatch env n pats))
    (hs : Val.SerDict (dbBatch env n pats)) (hr : relBatch n pats ≠ []) :
    ((commit env n pats g).run fs).1 = .ok true ∧
    (∀ q, q ≠ g.db → q ≠ g.idx → q ≠ g.wn → ((commit env n pats g).run fs).2.get q = fs.get q) ∧
    ∃ labels' names' rels',
      Healthy ((commit env n pats g).run fs).2 g (d ++ dbBatch env n pats) labels' names' rels'
        (n + totalSize pats) ∧
      (∀ x, x ∈ labels' ↔ x ∈ labels ∨ x ∈ wantLabels pats) ∧
      (∀ x, x ∈ names' ↔ x ∈ names ∨ x ∈ wantNames pats) ∧
      (∀ k m, m ∈ relsOf rels' k ↔ m ∈ relsOf rels k ∨ ∃ new, (k, new) ∈ relBatch n pats ∧ m ∈ new) ∧
      (∀ k, k ∈ rels'.map Prod.fst ↔ k ∈ rels.map Prod.fst ∨ k ∈ (relBatch n pats).map Prod.fst) := by
  obtain ⟨D, hD, hDs⟩ := h.idx
  have hser := ser_append h.ser hf hs
  have hdb := run_add_ok (p := g.db) h.dbText h.ser hf hs
  -- relationship index
  generalize hfs1 : fs.set g.db (dumpText (.dict (d ++ dbBatch env n pats))) = fs1 at hdb
  have hD1 : Holds fs1 g.idx D := by
    obtain ⟨t, a, b⟩ := hD
    exact ⟨t, by rw [← hfs1, FS.get_set_ne h.db_idx]; exact a, b⟩
  obtain ⟨r2, f2, D2, l2, n2, rl2, a2, b2, _, la2, na2, ra2, ex2⟩ :=
    C11_index_add_is_union g.idx (.rels env.ord (relBatch n pats)) fs1 D labels names rels hD1 hDs hr
  simp only at ex2
  obtain ⟨rfl, rfl, kx2, _, _⟩ := ex2
  simp only [IdxOp.prog] at r2 f2 a2
  generalize hfs2 : ((addItemsToNodeRelationshipsIndex env.ord g.idx
    ((relBatch n pats).map fun x => (x.1, x.2.map Val.int))).run fs1) = run2 at r2 f2 a2
  obtain ⟨res2, fs2⟩ := run2
  simp only at r2 f2 a2
  subst r2
  -- labels
  obtain ⟨r3, f3, D3, l3, n3, rl3, a3, b3, _, la3, na3, ra3, ex3⟩ :=
    C11_index_add_is_union g.idx (.labels env.ord (wantLabels pats)) fs2 D2 l2 n2 rl2 a2 b2 trivial
  obtain ⟨_, rfl, rfl⟩ := ex3
  simp only [IdxOp.prog] at r3 f3 a3
  generalize hfs3 : (addItemsToNodeLabelsIndex env.ord g.idx (wantLabels pats)).run fs2 = run3 at r3 f3 a3
  obtain ⟨res3, fs3⟩ := run3
  simp only at r3 f3 a3
  subst r3
  -- names
  obtain ⟨r4, f4, D4, l4, n4, rl4, a4, b4, _, la4, na4, ra4, ex4⟩ :=
    C11_index_add_is_union g.idx (.names env.ord (wantNames pats)) fs3 D3 l3 n3 rl3 a3 b3 trivial
  obtain ⟨_, rfl, rfl⟩ := ex4
  simp only [IdxOp.prog] at r4 f4 a4
  generalize hfs4 : (addItemsToRelationshipNamesIndex env.ord g.idx (wantNames pats)).run fs3 = run4 at r4 f4 a4
  obtain ⟨res4, fs4⟩ := run4
  simp only at r4 f4 a4
  subst r4
  have hdirs : fs4.dirs = fs.dirs := by
    have key : ∀ {o : SetOrd} {items name fs D labels names rels},
        Holds fs g.idx D → IndexShape D labels names rels →
        (name = NODE_LABELS_INDEX_NAME ∨ name = RELATIONSHIP_NAMES_INDEX_NAME) →
        ((addItemsSetToIndex o g.idx items name).run fs).2.dirs = fs.dirs := by
      rintro o items name fs D labels names rels ⟨t, a, b⟩ hs (rfl | rfl)
      · rw [run_addItemsSet a b (by exact hs.labels) (pySet_strs labels)]; rfl
      · rw [run_addItemsSet a b (by exact hs.names) (pySet_strs names)]; rfl
    have k4 := key (o := env.ord) (items := wantNames pats) a3 b3 (Or.inr rfl)
    have k3 := key (o := env.ord) (items := wantLabels pats) a2 b2 (Or.inl rfl)
    simp only [addItemsToRelationshipNamesIndex] at hfs4
    simp only [addItemsToNodeLabelsIndex] at hfs3
    rw [hfs4] at k4
    rw [hfs3] at k3
    simp only at k3 k4
    rw [k4, k3]
    obtain ⟨t, a, b⟩ := hD1
    have hrn : (keys rels).Nodup := by
      have := ser_of_dictGet (jsonLoad_ser b) hDs.rels
      rw [Val.Ser] at this
      have h' := this.1
      rw [List.map_map] at h'
      exact h'
    obtain ⟨rels', e, hn, _⟩ := relIndexLoop_ints (o := env.ord) (items := relBatch n pats) hrn
    rw [run_addRelIndex a b (R := relsVal rels) (by exact hDs.rels) e (relsVal_ser hn) (by simpa using hr)] at hfs2
    simp only [Prod.mk.injEq] at hfs2
    rw [← hfs2.2, ← hfs1]
    rfl
  have hdir4 : (g.wn.folder, g.wn.dir) ∈ fs4.dirs := by rw [hdirs]; exact h.dir
  have hrun : (commit env n pats g).run fs = (.ok true, fs4.set g.wn (intStr (n + totalSize pats))) := by
    unfold commit
    rw [run_bind_ok hdb, run_bind_ok hfs2, run_bind_ok hfs3, run_bind_ok hfs4,
      run_bind_ok (run_updateWiggleNumber hdir4)]
    rfl
  rw [hrun]
  refine ⟨rfl, ?_, l4, n4, rl4, ⟨?_, ?_, ?_, ?_, ?_, h.db_idx, h.db_wn, h.idx_wn⟩, ?_, ?_, ?_, ?_⟩
  · intro q q1 q2 q3
    rw [FS.get_set_ne (Ne.symm q3), f4 q q2, f3 q q2, f2 q q2, ← hfs1, FS.get_set_ne (Ne.symm q1)]
  · show (FS.set _ _ _).get g.db = _
    rw [FS.get_set_ne (Ne.symm h.db_wn), f4 _ h.db_idx, f3 _ h.db_idx, f2 _ h.db_idx, ← hfs1,
      FS.get_set_self]
    rfl
  · refine ⟨_, ?_, jsonLoad_dump _ hser⟩
    show (FS.set _ _ _).get g.db = _
    rw [FS.get_set_ne (Ne.symm h.db_wn), f4 _ h.db_idx, f3 _ h.db_idx, f2 _ h.db_idx, ← hfs1,
      FS.get_set_self]
  · obtain ⟨t, a, b⟩ := a4
    exact ⟨D4, ⟨t, by show (FS.set _ _ _).get _ = _; rw [FS.get_set_ne (Ne.symm h.idx_wn)]; exact a, b⟩, b4⟩
  · exact ⟨_, FS.get_set_self _ _ _, intStr_ne_nil _, pyInt_intStr _⟩
  · exact hdir4
  · intro x; rw [la4, la3, la2]; simp [IdxOp.addsLabel]
  · intro x; rw [na4, na3, na2]; simp [IdxOp.addsName]
  · intro k m; rw [ra4, ra3, ra2]; simp [IdxOp.addsRel]
  · exact kx2

/-- A value that cannot be serialised: TypeError, and the database file is destroyed. -/
theorem commit_opq {env : Env} {fs : FS} {g : GPath} {d : Dict V} {n : Int} {pats : List ParsedPattern}
    (h : fs.get g.db = some (dumpText (.dict d))) (hd : (Val.dict d).Ser)
    (hf : Fresh d (dbBatch env n pats)) (hs : ¬ Val.SerDict (dbBatch env n pats)) :
    ∃ text, jsonLoad text = none ∧ (commit env n pats g).run fs = (.error .type, fs.set g.db text) := by
  obtain ⟨text, a, b⟩ := run_add_opq h hd hf (dbBatch_wf env n pats) hs
  exact ⟨text, a, by unfold commit; rw [run_bind_err b]⟩

/-- A used key: NodeExistsError, nothing changes. -/
theorem commit_collision {env : Env} {fs : FS} {g : GPath} {d : Dict V} {n : Int}
    {pats : List ParsedPattern} {text : Str}
    (h : fs.get g.db = some text) (hl : jsonLoad text = some (.dict d))
    (hf : ¬ Fresh d (dbBatch env n pats)) : (commit env n pats g).run fs = (.error .nodeExists, fs) := by
  unfold commit
  rw [run_bind_err (run_add_collision h hl hf)]

theorem run_addItemsSet_bad {o : SetOrd} {p : Path} {items : List Str} {name text : Str} {fs : FS}
    (h : fs.get p = some text) (hl : jsonLoad text = none) :
    (addItemsSetToIndex o p items name).run fs = (.error .jsonDecode, fs) := by
  unfold addItemsSetToIndex
  rw [run_bind_ok (run_readFile_some h), loads_none hl]
  rfl

theorem run_addRelIndex_bad {o : SetOrd} {p : Path} {items : List (Str × List V)} {text : Str} {fs : FS}
    (h : fs.get p = some text) (hl : jsonLoad text = none) :
    (addItemsToNodeRelationshipsIndex o p items).run fs = (.error .jsonDecode, fs) := by
  unfold addItemsToNodeRelationshipsIndex
  rw [run_bind_ok (run_readFile_some h), loads_none hl]
  rfl

/-- No relationship to store: the nodes are written, the index file is destroyed, the counter is
not advanced, and JSONDecodeError is raised. -/
theorem commit_relationless {env : Env} {fs : FS} {g : GPath} {d : Dict V} {labels names : List Str}
    {rels : Dict (List Int)} {n : Int} {pats : List ParsedPattern}
    (h : Healthy fs g d labels names rels n) (hf : Fresh d (dbBatch env n pats))
    (hs : Val.SerDict (dbBatch env n pats)) (hr : relBatch n pats = []) :
    ∃ bad, jsonLoad bad = none ∧ (commit env n pats g).run fs = (.error .jsonDecode,
      (fs.set g.db (dumpText (.dict (d ++ dbBatch env n pats)))).set g.idx bad) := by
  obtain ⟨D, ⟨t, a, b⟩, hDs⟩ := h.idx
  have hdb := run_add_ok (p := g.db) h.dbText h.ser hf hs
  have a1 : (fs.set g.db (dumpText (.dict (d ++ dbBatch env n pats)))).get g.idx = some t := by
    rw [FS.get_set_ne h.db_idx]; exact a
  have h2 := run_addRelIndex_empty (o := env.ord) a1 b (by exact hDs.rels)
  obtain ⟨_, txt, e1, e2⟩ := C13_empty_add_destroys env.ord g.idx
    (fs.set g.db (dumpText (.dict (d ++ dbBatch env n pats)))) D labels names rels ⟨t, a1, b⟩ hDs
  rw [h2] at e1
  simp only [FS.get_set_self, Option.some.injEq] at e1
  refine ⟨txt, e2, ?_⟩
  rw [e1] at h2
  unfold commit
  rw [hr]
  simp only [List.map_nil]
  rw [run_bind_ok hdb, run_bind_ok h2]
  unfold addItemsToNodeLabelsIndex
  rw [run_bind_err (run_addItemsSet_bad (FS.get_set_self _ _ _) e2)]

/-! ### Serialisability and stored relationships of a batch -/

theorem serProps_iff {t : PartText} (h : PropsOK t) : SerProps (propsD t.props) ↔ PropsSer t := by
  have e := propsD_ok h
  have hw := propsD_wf t.props
  unfold PropsSer
  cases hp : propsD t.props with
  | none =>
    rw [hp] at e
    simp only [SerProps, true_iff]
    exact ⟨none, e, by simp⟩
  | some d =>
    rw [hp] at e hw
    simp only [optDictVal] at hw
    simp only [SerProps]
    rw [Val.WF] at hw
    constructor
    · intro hs
      refine ⟨some d, e, ?_⟩
      intro d' hd x hx
      obtain rfl := Option.some.inj hd
      rw [Val.Ser] at hs
      exact (jsonDump_complete (wfDict_iff.1 hw.2 x hx)).2 (serDict_iff.1 hs.2 x hx)
    · rintro ⟨props, e', hs⟩
      rw [e] at e'
      obtain rfl := Except.ok.inj e'
      rw [Val.Ser]
      exact ⟨hw.1, serDict_iff.2 fun x hx =>
        (jsonDump_complete (wfDict_iff.1 hw.2 x hx)).1 (hs d rfl x hx)⟩

theorem dbBatch_mem {env : Env} {b : Int} {pats : List ParsedPattern} {x : Str × V} :
    x ∈ dbBatch env b pats ↔ ∃ q ∈ place b pats, ∃ n ∈ storedNodes q.1 q.2, x = dbEntry env n := by
  unfold dbBatch allStored
  simp only [List.mem_map, List.mem_flatMap]
  constructor
  · rintro ⟨n, ⟨q, hq, hn⟩, rfl⟩; exact ⟨q, hq, n, hn, rfl⟩
  · rintro ⟨q, hq, n, hn, rfl⟩; exact ⟨n, ⟨q, hq, hn⟩, rfl⟩

theorem pattern_ser {env : Env} {b : Int} {p : ParsedPattern} (hp : PatProps p) (hs : PatShape p) :
    (∀ n ∈ storedNodes b p, (nodeVal env n).Ser) ↔ PatSer p := by
  have hrel : ∀ (n : NodePre), (nodeVal env (nodeData n)).Ser ↔
      SerProps (propsD n.props) ∧ ∀ r ∈ n.rels, SerProps (propsD r.props) := by
    intro n
    rw [nodeVal_ser, relsD_nodeData]
    simp [nodeData, relData]
  unfold storedNodes
  simp only [List.mem_cons, forall_eq_or_imp]
  rw [hrel (nodePre b p.left (leftRels b p)),
    show SerProps (propsD (nodePre b p.left (leftRels b p)).props) ↔ PropsSer p.left from
      serProps_iff hp.left]
  simp only [show (nodePre b p.left (leftRels b p)).rels = leftRels b p from rfl]
  constructor
  · rintro ⟨⟨h1, h2⟩, h3⟩
    refine ⟨h1, ?_, ?_, ?_⟩
    · intro hm
      have := h3 (nodeData (nodePre (b + 1) p.middle (middleRels b p))) (by simp [hm])
      rw [hrel] at this
      exact (serProps_iff (hp.middle hm)).1 this.1
    · intro hl
      have hm := (hs.lm hl).1
      cases hr : pointsRight p.leftMiddle with
      | true =>
        have := h2 (relLM b p) (by simp [leftRels, hl, hr])
        exact (serProps_iff (hp.lm hl)).1 this
      | false =>
        have := h3 (nodeData (nodePre (b + 1) p.middle (middleRels b p))) (by simp [hm])
        rw [hrel] at this
        exact (serProps_iff (hp.lm hl)).1 (this.2 (relLM b p) (by simp [nodePre, middleRels, hl, hr]))
    · intro hl hr
      have hm := (hs.mr hl).1
      have := h3 (nodeData (nodePre (b + 1) p.middle (middleRels b p))) (by simp [hm])
      rw [hrel] at this
      exact (serProps_iff (hp.mr hl hr)).1 (this.2 (relMR b p) (by simp [nodePre, middleRels, hl, hr]))
  · intro h
    refine ⟨⟨h.left, ?_⟩, ?_⟩
    · intro r hr
      have hl : truthy p.leftMiddle.text = true := by
        unfold leftRels at hr; split at hr
        · next e => simp at e; exact e.1
        · simp at hr
      obtain ⟨rfl, _⟩ := leftRels_wn r hr
      exact (serProps_iff (hp.lm hl)).2 (h.lm hl)
    · intro n hn
      split at hn
      · next hm =>
        simp only [List.mem_singleton] at hn
        subst hn
        rw [hrel]
        refine ⟨(serProps_iff (hp.middle hm)).2 (h.middle hm), ?_⟩
        intro r hr
        simp only [nodePre, middleRels, List.mem_append] at hr
        rcases hr with hr | hr
        · split at hr
          · next e =>
            simp at e hr; subst hr
            exact (serProps_iff (hp.lm e.1)).2 (h.lm e.1)
          · simp at hr
        · split at hr
          · next e =>
            simp at e hr; subst hr
            exact (serProps_iff (hp.mr e.1 e.2)).2 (h.mr e.1 e.2)
          · simp at hr
      · simp at hn

theorem dbBatch_ser {env : Env} {b : Int} {pats : List ParsedPattern}
    (hp : ∀ p ∈ pats, PatProps p) (hs : ∀ p ∈ pats, PatShape p) :
    Val.SerDict (dbBatch env b pats) ↔ ∀ p ∈ pats, PatSer p := by
  rw [serDict_iff]
  constructor
  · intro h p hpm
    obtain ⟨b', hq⟩ := mem_place (b := b) hpm
    refine (pattern_ser (env := env) (b := b') (hp p hpm) (hs p hpm)).1 ?_
    intro n hn
    exact h (dbEntry env n) (dbBatch_mem.2 ⟨_, hq, n, hn, rfl⟩)
  · intro h x hx
    obtain ⟨q, hq, n, hn, rfl⟩ := dbBatch_mem.1 hx
    have hm := place_mem hq
    exact (pattern_ser (env := env) (hp _ hm) (hs _ hm)).2 (h _ hm) n hn

theorem relEntry_none {n : NodePre} : relEntry (nodeData n) = none ↔ n.rels = [] := by
  unfold relEntry nodeData
  cases n.rels <;> simp

theorem relEntry_nodeData {n : NodePre} (h : n.rels ≠ []) :
    relEntry (nodeData n) = some (intStr n.wn, n.rels.map (·.wn)) := by
  unfold relEntry nodeData
  cases hr : n.rels with
  | nil => exact absurd hr h
  | cons r rs => simp [relData, Function.comp_def]

theorem pattern_rel {b : Int} {p : ParsedPattern} (hs : PatShape p) :
    (∃ n ∈ storedNodes b p, relEntry n ≠ none) ↔ StoresRel p := by
  unfold storedNodes StoresRel
  have hlm := hs.lm
  have hmr := hs.mr
  cases h1 : truthy p.middle.text <;>
    cases h3 : truthy p.leftMiddle.text <;> cases h4 : truthy p.middleRight.text <;>
    cases h5 : pointsRight p.leftMiddle <;> cases h6 : pointsRight p.middleRight <;>
    simp [relEntry_none, nodePre, leftRels, middleRels, *] <;> simp_all

theorem relBatch_ne {b : Int} {pats : List ParsedPattern} (hs : ∀ p ∈ pats, PatShape p) :
    relBatch b pats ≠ [] ↔ ∃ p ∈ pats, StoresRel p := by
  unfold relBatch allStored
  rw [Ne, List.filterMap_eq_nil_iff]
  simp only [List.mem_flatMap, forall_exists_index, and_imp]
  constructor
  · intro h
    simp only [Classical.not_forall] at h
    obtain ⟨n, q, hq, hn, h⟩ := h
    exact ⟨q.2, place_mem hq, (pattern_rel (hs _ (place_mem hq))).1 ⟨n, hn, h⟩⟩
  · rintro ⟨p, hp, h⟩ h'
    obtain ⟨b', hq⟩ := mem_place (b := b) hp
    obtain ⟨n, hn, hne⟩ := (pattern_rel (b := b') (hs p hp)).2 h
    exact hne (h' n _ hq hn)

/-! ### What a successful MAKE did -/

theorem relBatch_mem {b : Int} {pats : List ParsedPattern} {x : Str × List Int} :
    x ∈ relBatch b pats ↔ ∃ q ∈ place b pats, ∃ n ∈ storedNodes q.1 q.2, relEntry n = some x := by
  unfold relBatch allStored
  simp only [List.mem_filterMap, List.mem_flatMap]
  constructor
  · rintro ⟨n, ⟨q, hq, hn⟩, h⟩; exact ⟨q, hq, n, hn, h⟩
  · rintro ⟨q, hq, n, hn, h⟩; exact ⟨n, ⟨q, hq, hn⟩, h⟩

/-- MAKE on a healthy GDBMS: all outcomes. -/
theorem make_cases {env : Env} {fs : FS} {g : GPath} {d : Dict V} {labels names : List Str}
    {rels : Dict (List Int)} {n : Int} (pml : List ParsedMake)
    (h : Healthy fs g d labels names rels n) :
    (¬ MakeOK pml ∧ ∃ e, (make env pml g).run fs = (.error e, fs)) ∨
    (MakeOK pml ∧ ¬ Fresh d (dbBatch env n (patsOf pml)) ∧
      (make env pml g).run fs = (.error .nodeExists, fs)) ∨
    (MakeOK pml ∧ Fresh d (dbBatch env n (patsOf pml)) ∧ ¬ Val.SerDict (dbBatch env n (patsOf pml)) ∧
      ∃ text, jsonLoad text = none ∧ (make env pml g).run fs = (.error .type, fs.set g.db text)) ∨
    (MakeOK pml ∧ Fresh d (dbBatch env n (patsOf pml)) ∧ Val.SerDict (dbBatch env n (patsOf pml)) ∧
      relBatch n (patsOf pml) = [] ∧ ∃ bad, jsonLoad bad = none ∧
      (make env pml g).run fs = (.error .jsonDecode,
        (fs.set g.db (dumpText (.dict (d ++ dbBatch env n (patsOf pml))))).set g.idx bad)) ∨
    (MakeOK pml ∧ Fresh d (dbBatch env n (patsOf pml)) ∧ Val.SerDict (dbBatch env n (patsOf pml)) ∧
      relBatch n (patsOf pml) ≠ [] ∧ ((make env pml g).run fs).1 = .ok true) := by
  rw [run_make_counter h.counter]
  by_cases hok : MakeOK pml
  · right
    rw [afterCounter_ok hok]
    by_cases hf : Fresh d (dbBatch env n (patsOf pml))
    · right
      by_cases hs : Val.SerDict (dbBatch env n (patsOf pml))
      · right
        by_cases hr : relBatch n (patsOf pml) = []
        · left; exact ⟨hok, hf, hs, hr, commit_relationless h hf hs hr⟩
        · right; exact ⟨hok, hf, hs, hr, (commit_ok h hf hs hr).1⟩
      · left; exact ⟨hok, hf, hs, commit_opq h.dbText h.ser hf hs⟩
    · left
      obtain ⟨t, h1, h2⟩ := h.db
      exact ⟨hok, hf, commit_collision h1 h2 hf⟩
  · left
    obtain ⟨e, he⟩ := afterCounter_bad (env := env) (g := g) (n := n) hok
    rw [he]
    exact ⟨hok, e, rfl⟩

/-- A MAKE that returned. -/
theorem make_success {env : Env} {fs fs' : FS} {g : GPath} {d : Dict V} {labels names : List Str}
    {rels : Dict (List Int)} {n : Int} {pml : List ParsedMake} {r : Bool}
    (h : Healthy fs g d labels names rels n) (hr : (make env pml g).run fs = (.ok r, fs')) :
    MakeOK pml ∧ Fresh d (dbBatch env n (patsOf pml)) ∧ Val.SerDict (dbBatch env n (patsOf pml)) ∧
    relBatch n (patsOf pml) ≠ [] ∧
    (∀ q, q ≠ g.db → q ≠ g.idx → q ≠ g.wn → fs'.get q = fs.get q) ∧
    ∃ labels' names' rels',
      Healthy fs' g (d ++ dbBatch env n (patsOf pml)) labels' names' rels'
        (n + totalSize (patsOf pml)) ∧
      (∀ x, x ∈ labels' ↔ x ∈ labels ∨ x ∈ wantLabels (patsOf pml)) ∧
      (∀ x, x ∈ names' ↔ x ∈ names ∨ x ∈ wantNames (patsOf pml)) ∧
      (∀ k m, m ∈ relsOf rels' k ↔
        m ∈ relsOf rels k ∨ ∃ new, (k, new) ∈ relBatch n (patsOf pml) ∧ m ∈ new) ∧
      (∀ k, k ∈ rels'.map Prod.fst ↔
        k ∈ rels.map Prod.fst ∨ k ∈ (relBatch n (patsOf pml)).map Prod.fst) := by
  rcases make_cases (env := env) pml h with ⟨_, e, h'⟩ | ⟨_, _, h'⟩ | ⟨_, _, _, t, _, h'⟩ |
    ⟨_, _, _, _, t, _, h'⟩ | ⟨hok, hf, hs, hb, _⟩
  iterate 4 · rw [h'] at hr; simp at hr
  have hc := commit_ok h hf hs hb
  rw [run_make_counter h.counter, afterCounter_ok hok] at hr
  rw [hr] at hc
  exact ⟨hok, hf, hs, hb, hc.2⟩

end WG
