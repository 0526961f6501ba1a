/- Consistency of the indexes with the stored graph over histories of MAKEs. -/
import Verif.Proofs.History
import Verif.Proofs.MakeStored

set_option linter.unusedSectionVars false
set_option linter.unusedSimpArgs false

namespace WG
variable [PyRuntime]

/-- A healthy GDBMS whose indexes agree with its graph. -/
structure Consistent (fs : FS) (g : GPath) (d : Dict V) (labels names : List Str) (rels : Dict (List Int))
    (n : Int) : Prop where
  healthy : Healthy fs g d labels names rels n
  graph : GraphOK d
  below : NumsBelow d n
  labels : LabelsCovered d labels
  names : NamesCovered d names
  rels : RelsExact d rels

theorem stored_cases {b : Int} {p : ParsedPattern} {m : NodeData} (h : m ∈ storedNodes b p) :
    m = nodeData (nodePre b p.left (leftRels b p)) ∨
      (truthy p.middle.text = true ∧ m = nodeData (nodePre (b + 1) p.middle (middleRels b p))) := by
  unfold storedNodes at h
  simp only [List.mem_cons] at h
  rcases h with rfl | h
  · exact Or.inl rfl
  · split at h
    · next e => simp at h; exact Or.inr ⟨e, h⟩
    · simp at h

theorem label_nodeVal (env : Env) (m : NodeData) :
    field c!"node_label" (nodeVal env m) = some (.str m.label) := (isNode_nodeVal env m).label

theorem labels_batch {env : Env} {n : Int} {pats : List ParsedPattern} :
    LabelsCovered (dbBatch env n pats) (wantLabels pats) := by
  intro x hx
  obtain ⟨q, hq, m, hm, rfl⟩ := dbBatch_mem.1 hx
  refine ⟨m.label, label_nodeVal env m, ?_⟩
  unfold wantLabels
  rw [List.mem_flatMap]
  refine ⟨q.2, place_mem hq, ?_⟩
  rcases stored_cases hm with rfl | ⟨h, rfl⟩
  · simp [nodeData, nodePre, writtenNodes]
  · simp [nodeData, nodePre, writtenNodes, h]

theorem mem_relNameOf {t : PartText} {s : Str} (h : t.label = some s) (hs : s ≠ []) : s ∈ relNameOf t := by
  unfold relNameOf addRelName
  cases s with
  | nil => exact absurd rfl hs
  | cons c s => simp [h, truthy]

theorem names_batch {env : Env} {n : Int} {pats : List ParsedPattern} :
    NamesCovered (dbBatch env n pats) (wantNames pats) := by
  intro x hx r hr s hs hne
  obtain ⟨q, hq, m, hm, rfl⟩ := dbBatch_mem.1 hx
  simp only [dbEntry, relationsOf_nodeVal, List.mem_map] at hr
  obtain ⟨rd, hrd, rfl⟩ := hr
  have hname : rd.name = some s := by
    have := (isRel_relVal env rd).name
    rw [hs] at this
    cases h : rd.name with
    | none => rw [h] at this; simp at this
    | some s' => rw [h] at this; simp at this; rw [this]
  unfold wantNames
  rw [List.mem_flatMap]
  refine ⟨q.2, place_mem hq, List.mem_flatMap.2 ?_⟩
  have hlm : truthy q.2.leftMiddle.text = true → q.2.leftMiddle ∈ writtenRels q.2 := fun h => by
    simp [writtenRels, h]
  have hmr : truthy q.2.middleRight.text = true → q.2.middleRight ∈ writtenRels q.2 := fun h => by
    simp [writtenRels, h]
  rcases stored_cases hm with rfl | ⟨h, rfl⟩
  · rw [relsD_nodeData] at hrd
    obtain ⟨rp, hrp, rfl⟩ := List.mem_map.1 hrd
    simp only [nodePre, leftRels] at hrp
    split at hrp
    · next e =>
      simp at e hrp; subst hrp
      exact ⟨_, hlm e.1, mem_relNameOf (by simpa [relData, relLM] using hname) hne⟩
    · simp at hrp
  · rw [relsD_nodeData] at hrd
    obtain ⟨rp, hrp, rfl⟩ := List.mem_map.1 hrd
    simp only [nodePre, middleRels, List.mem_append] at hrp
    rcases hrp with hrp | hrp
    · split at hrp
      · next e =>
        simp at e hrp; subst hrp
        exact ⟨_, hlm e.1, mem_relNameOf (by simpa [relData, relLM] using hname) hne⟩
      · simp at hrp
    · split at hrp
      · next e =>
        simp at e hrp; subst hrp
        exact ⟨_, hmr e.1, mem_relNameOf (by simpa [relData, relMR] using hname) hne⟩
      · simp at hrp

theorem relEntry_iff {m : NodeData} {k : Str} {l : List Int} :
    relEntry m = some (k, l) ↔ k = intStr m.wn ∧ relsD m ≠ [] ∧ l = (relsD m).map (·.wn) := by
  unfold relEntry relsD
  split
  · next r rs h => simp [h]; grind
  · next h =>
    cases hr : m.relations with
    | none => simp
    | some l' =>
      cases l' with
      | nil => simp
      | cons r rs => exact absurd hr (h r rs)

theorem relBatch_iff {env : Env} {n : Int} {pats : List ParsedPattern} (hf : (keys (dbBatch env n pats)).Nodup)
    {k : Str} {l : List Int} :
    (k, l) ∈ relBatch n pats ↔ ∃ v, dictGet k (dbBatch env n pats) = some v ∧ relationsOf v ≠ [] ∧
      (relationsOf v).map relWn = l.map some := by
  rw [relBatch_mem]
  constructor
  · rintro ⟨q, hq, m, hm, h⟩
    obtain ⟨rfl, h2, rfl⟩ := relEntry_iff.1 h
    refine ⟨nodeVal env m, dictGet_of_mem hf (dbBatch_mem.2 ⟨q, hq, m, hm, rfl⟩), ?_, ?_⟩
    · rw [relationsOf_nodeVal]; simpa using h2
    · rw [relationsOf_nodeVal]; simp [relWn_relVal, Function.comp_def]
  · rintro ⟨v, h1, h2, h3⟩
    obtain ⟨q, hq, m, hm, e⟩ := dbBatch_mem.1 (dictGet_some_mem h1)
    simp only [dbEntry, Prod.mk.injEq] at e
    obtain ⟨rfl, rfl⟩ := e
    refine ⟨q, hq, m, hm, relEntry_iff.2 ⟨rfl, ?_, ?_⟩⟩
    · rw [relationsOf_nodeVal] at h2; simpa using h2
    · rw [relationsOf_nodeVal] at h3
      have : ((relsD m).map (·.wn)).map some = l.map some := by
        rw [← h3]; simp [relWn_relVal, Function.comp_def]
      exact ((List.map_inj_right (by simp)).1 this).symm

theorem rel_nums (env : Env) {n : Int} {pats : List ParsedPattern} {k : Str} {v : V}
    (h : dictGet k (dbBatch env n pats) = some v) : ∃ l : List Int, (relationsOf v).map relWn = l.map some := by
  obtain ⟨q, hq, m, hm, e⟩ := dbBatch_mem.1 (dictGet_some_mem h)
  simp only [dbEntry, Prod.mk.injEq] at e
  obtain ⟨rfl, rfl⟩ := e
  exact ⟨(relsD m).map (·.wn), by rw [relationsOf_nodeVal]; simp [relWn_relVal, Function.comp_def]⟩

theorem dictGet_append_fresh {d e : Dict V} (hf : Fresh d e) {k : Str} {v : V} :
    dictGet k (d ++ e) = some v ↔ dictGet k d = some v ∨ dictGet k e = some v := by
  constructor
  · intro h
    cases hd : dictGet k d with
    | some v' => rw [dictGet_append_left hd] at h; exact Or.inl h
    | none => rw [dictGet_append_right (dictGet_none_iff.1 hd)] at h; exact Or.inr h
  · rintro (h | h)
    · exact dictGet_append_left h
    · rw [dictGet_append_right (hf.2 k (mem_keys_of_dictGet h))]; exact h

theorem relsExact_append {env : Env} {d : Dict V} {n : Int} {pats : List ParsedPattern}
    {rels rels' : Dict (List Int)} (hf : Fresh d (dbBatch env n pats)) (h : RelsExact d rels)
    (h1 : ∀ k m, m ∈ relsOf rels' k ↔ m ∈ relsOf rels k ∨ ∃ new, (k, new) ∈ relBatch n pats ∧ m ∈ new)
    (h2 : ∀ k, k ∈ rels'.map Prod.fst ↔ k ∈ rels.map Prod.fst ∨ k ∈ (relBatch n pats).map Prod.fst) :
    RelsExact (d ++ dbBatch env n pats) rels' := by
  constructor
  · intro k m
    rw [h1, h.nums]
    constructor
    · rintro (⟨v, h3, h4⟩ | ⟨new, h3, h4⟩)
      · exact ⟨v, dictGet_append_left h3, h4⟩
      · obtain ⟨v, h5, h6, h7⟩ := (relBatch_iff hf.1).1 h3
        exact ⟨v, (dictGet_append_fresh hf).2 (Or.inr h5), by rw [h7]; simpa using h4⟩
    · rintro ⟨v, h3, h4⟩
      rcases (dictGet_append_fresh hf).1 h3 with h3 | h3
      · exact Or.inl ⟨v, h3, h4⟩
      · right
        obtain ⟨l, hl⟩ := rel_nums env h3
        refine ⟨l, (relBatch_iff hf.1).2 ⟨v, h3, ?_, hl⟩, ?_⟩
        · intro e; rw [e] at h4; simp at h4
        · rw [hl] at h4; simpa using h4
  · intro k
    rw [h2, h.keys]
    constructor
    · rintro (⟨v, h3, h4⟩ | h3)
      · exact ⟨v, dictGet_append_left h3, h4⟩
      · obtain ⟨⟨k', new⟩, h3', rfl⟩ := List.mem_map.1 h3
        obtain ⟨v, h5, h6, h7⟩ := (relBatch_iff hf.1).1 h3'
        exact ⟨v, (dictGet_append_fresh hf).2 (Or.inr h5), h6⟩
    · rintro ⟨v, h3, h4⟩
      rcases (dictGet_append_fresh hf).1 h3 with h3 | h3
      · exact Or.inl ⟨v, h3, h4⟩
      · right
        obtain ⟨l, hl⟩ := rel_nums env h3
        exact List.mem_map.2 ⟨(k, l), (relBatch_iff hf.1).2 ⟨v, h3, h4, hl⟩, rfl⟩

/-- A MAKE that returns keeps the indexes consistent. -/
theorem consistent_make {env : Env} {fs fs' : FS} {g : GPath} {d : Dict V} {labels names : List Str}
    {rels : Dict (List Int)} {n : Int} {pml : List ParsedMake} {r : Bool}
    (h : Consistent fs g d labels names rels n) (hr : (make env pml g).run fs = (.ok r, fs')) :
    ∃ labels' names' rels',
      Consistent fs' g (d ++ dbBatch env n (patsOf pml)) labels' names' rels' (n + totalSize (patsOf pml)) ∧
      ∀ x, x ∈ labels' ↔ x ∈ labels ∨ x ∈ wantLabels (patsOf pml) := by
  obtain ⟨_, hf, hs, _, _, labels', names', rels', hh, h1, h2, h3, h4⟩ := make_success h.healthy hr
  obtain ⟨hg, hb⟩ := graphOK_append (env := env) (pats := patsOf pml) h.graph h.below
  refine ⟨labels', names', rels', ⟨hh, hg, hb, ?_, ?_, relsExact_append hf h.rels h3 h4⟩, h1⟩
  · intro x hx
    rcases List.mem_append.1 hx with hx | hx
    · obtain ⟨s, e, hs⟩ := h.labels x hx
      exact ⟨s, e, (h1 s).2 (Or.inl hs)⟩
    · obtain ⟨s, e, hs⟩ := labels_batch x hx
      exact ⟨s, e, (h1 s).2 (Or.inr hs)⟩
  · intro x hx r hr s hs hne
    rcases List.mem_append.1 hx with hx | hx
    · exact (h2 s).2 (Or.inl (h.names x hx r hr s hs hne))
    · exact (h2 s).2 (Or.inr (names_batch x hx r hr s hs hne))

/-- A new GDBMS is consistent. -/
theorem consistent_new {g : GPath} {fs : FS} (h : IsNew fs g) : Consistent fs g [] [] [] [] 0 := by
  refine ⟨⟨h.db, ⟨_, h.db, ?_⟩, ⟨[(c!"node_relationships", .dict []), (c!"node_labels", .list []),
    (c!"relationship_names", .list [])], ⟨_, h.idx, ?_⟩, rfl, rfl, rfl⟩, ⟨_, h.wn, by decide, ?_⟩, h.dir, h.db_idx,
    h.db_wn, h.idx_wn⟩, graphOK_nil, ?_, ?_, ?_, ?_, ?_⟩
  · have := jsonLoad_dump (.dict [] : V) ser_nil
    rwa [dumpText_empty] at this
  · rfl
  · exact pyInt_intStr 0
  · simp [NumsBelow, allNumbers]
  · simp [LabelsCovered]
  · simp [NamesCovered]
  · simp [relsOf, dictGet]
  · simp [dictGet]

theorem makeHist_ne {P : ParsedPattern → Prop} {g : GPath} {fs : FS} (h : MakeHist P g fs) :
    g.db ≠ g.idx ∧ g.db ≠ g.wn ∧ g.idx ≠ g.wn := by
  induction h with
  | new fs h => exact ⟨h.db_idx, h.db_wn, h.idx_wn⟩
  | make _ _ _ _ _ ih => exact ih

/-- What a history of MAKE attempts leaves. -/
theorem makeHist_inv {P : ParsedPattern → Prop} {g : GPath} {fs : FS} (h : MakeHist P g fs) :
    (∃ d labels names rels n, Consistent fs g d labels names rels n ∧
      ((∀ p, P p → truthy p.right.text = false) → NoPhantoms d labels)) ∨
    Unreadable fs g.db ∨ Unreadable fs g.idx := by
  have hne := makeHist_ne h
  induction h with
  | new fs h => exact Or.inl ⟨_, _, _, _, _, consistent_new h, fun _ => by simp [NoPhantoms]⟩
  | make fs env pml h hP ih =>
    rcases ih with ⟨d, labels, names, rels, n, hc, hph⟩ | ⟨t, h1, h2⟩ | ⟨t, h1, h2⟩
    · rcases make_cases (env := env) pml hc.healthy with ⟨_, e, h'⟩ | ⟨_, _, h'⟩ | ⟨_, _, _, t, ht, h'⟩ |
        ⟨_, _, _, _, t, ht, h'⟩ | ⟨hok, hf, hs, hb, hr⟩
      · rw [h']; exact Or.inl ⟨_, _, _, _, _, hc, hph⟩
      · rw [h']; exact Or.inl ⟨_, _, _, _, _, hc, hph⟩
      · rw [h']; exact Or.inr (Or.inl ⟨t, FS.get_set_self _ _ _, ht⟩)
      · rw [h']; exact Or.inr (Or.inr ⟨t, FS.get_set_self _ _ _, ht⟩)
      · left
        obtain ⟨labels', names', rels', hc', hl⟩ := consistent_make
          (fs' := ((make env pml g).run fs).2) hc (Prod.ext hr rfl)
        refine ⟨_, _, _, _, _, hc', fun hP' s hs => ?_⟩
        rcases (hl s).1 hs with hs | hs
        · obtain ⟨x, hx, e⟩ := hph hP' s hs
          exact ⟨x, List.mem_append_left _ hx, e⟩
        · unfold wantLabels at hs
          obtain ⟨p, hp, hs⟩ := List.mem_flatMap.1 hs
          obtain ⟨w, hw⟩ := mem_place (b := n) hp
          have hright := hP' p (hP p hp)
          have : ∃ m ∈ storedNodes w p, m.label = s := by
            simp only [writtenNodes, hright, List.mem_map, List.mem_append, List.mem_singleton] at hs
            obtain ⟨t, ht, rfl⟩ := hs
            rcases ht with (rfl | ht) | ht
            · exact ⟨_, left_stored w p, rfl⟩
            · split at ht
              · next hm => simp at ht; subst ht; exact ⟨_, middle_stored hm, rfl⟩
              · simp at ht
            · simp at ht
          obtain ⟨m, hm, rfl⟩ := this
          exact ⟨dbEntry env m, List.mem_append_right _ (dbBatch_mem.2 ⟨_, hw, m, hm, rfl⟩),
            label_nodeVal env m⟩
    · right; left
      have : CrashAt (fun _ => True) (make env pml g) fs ((make env pml g).run fs).2 := crash_run _ _ _
      refine ⟨t, ?_, h2⟩
      rcases crash_make this with e | ⟨n, hn, hok, hcm⟩
      · rw [e]; exact h1
      · rw [run_make_counter hn, afterCounter_ok hok, commit_eq, run_bind_err (run_add_bad h1 h2)]
        exact h1
    · right; right
      have : CrashAt (fun _ => True) (make env pml g) fs ((make env pml g).run fs).2 := crash_run _ _ _
      refine ⟨t, ?_, h2⟩
      rcases crash_make this with e | ⟨n, hn, hok, hcm⟩
      · rw [e]; exact h1
      · rw [run_make_counter hn, afterCounter_ok hok]
        unfold commit
        have e1 := run_only (only_addItem g.db (dbBatch env n (patsOf pml))) (q := g.idx)
          (by simpa using Ne.symm hne.1) fs
        rw [h1] at e1
        cases hrun : (addItemToDatabase g.db (dbBatch env n (patsOf pml))).run fs with
        | mk res fs1 =>
          rw [hrun] at e1
          cases res with
          | error e => rw [run_bind_err hrun]; exact e1
          | ok b => rw [run_bind_ok hrun, run_bind_err (run_addRelIndex_bad e1 h2)]; exact e1

end WG
