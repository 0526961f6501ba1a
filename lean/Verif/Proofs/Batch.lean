/-
MAKE statements in one go and one after the other.
-/
import Verif.Proofs.Durable
import Verif.Spec.Batch
import Verif.Proofs.Usable
import Verif.Proofs.Crash
import Verif.Proofs.Order
set_option linter.unusedSectionVars false
set_option linter.unusedSimpArgs false

namespace WG
variable [PyRuntime]

theorem allStored_append (b : Int) (p1 p2 : List ParsedPattern) :
    allStored b (p1 ++ p2) = allStored b p1 ++ allStored (b + totalSize p1) p2 := by
  simp [allStored, place_append]

theorem dbBatch_time {env env' : Env} (h : SameBut env env') (b : Int) (ps : List ParsedPattern) :
    dbBatch env b ps = dbBatch env' b ps := by
  unfold dbBatch dbEntry
  simp only [sameBut_node h]

theorem dbBatch_append (env : Env) (b : Int) (p1 p2 : List ParsedPattern) :
    dbBatch env b (p1 ++ p2) = dbBatch env b p1 ++ dbBatch env (b + totalSize p1) p2 := by
  simp [dbBatch, allStored_append]

theorem relBatch_append (b : Int) (p1 p2 : List ParsedPattern) :
    relBatch b (p1 ++ p2) = relBatch b p1 ++ relBatch (b + totalSize p1) p2 := by
  simp [relBatch, allStored_append]

theorem wantLabels_append (p1 p2 : List ParsedPattern) : wantLabels (p1 ++ p2) = wantLabels p1 ++ wantLabels p2 := by simp [wantLabels]

theorem wantNames_append (p1 p2 : List ParsedPattern) : wantNames (p1 ++ p2) = wantNames p1 ++ wantNames p2 := by simp [wantNames]

theorem patsOf_append (m1 m2 : List ParsedMake) : patsOf (m1 ++ m2) = patsOf m1 ++ patsOf m2 := by simp [patsOf]

theorem MakeOK.append {m1 m2 : List ParsedMake} : MakeOK (m1 ++ m2) ↔ MakeOK m1 ∧ MakeOK m2 := by
  constructor
  · intro h
    have h1 := h.clause; have h2 := h.shape; have h3 := h.props
    simp only [patsOf_append, List.mem_append] at h1 h2 h3
    exact ⟨⟨fun x hx => h1 x (.inl hx), fun x hx => h2 x (.inl hx), fun x hx => h3 x (.inl hx)⟩,
      ⟨fun x hx => h1 x (.inr hx), fun x hx => h2 x (.inr hx), fun x hx => h3 x (.inr hx)⟩⟩
  · rintro ⟨h1, h2⟩
    constructor <;> simp only [patsOf_append, List.mem_append]
    · exact fun x hx => hx.elim (fun h => h1.clause x h) (fun h => h2.clause x h)
    · exact fun x hx => hx.elim (fun h => h1.shape x h) (fun h => h2.shape x h)
    · exact fun x hx => hx.elim (fun h => h1.props x h) (fun h => h2.props x h)

/-- The counter text after a commit that returned. -/
theorem commit_counter {env : Env} {n : Int} {pats : List ParsedPattern} {g : GPath} {fs : FS} {r : Bool}
    (h : ((commit env n pats g).run fs).1 = .ok r) :
    ((commit env n pats g).run fs).2.get g.wn = some (intStr (n + totalSize pats)) := by
  rw [commit_eq] at h ⊢
  cases h1 : (addItemToDatabase g.db (dbBatch env n pats)).run fs with
  | mk r1 fs1 =>
    cases r1 with
    | error e => rw [run_bind_err h1] at h; simp at h
    | ok v =>
      rw [run_bind_ok h1] at h ⊢
      cases h2 : (commitIndexes env n pats g).run fs1 with
      | mk r2 fs2 =>
        cases r2 with
        | error e => rw [run_bind_err h2] at h; simp at h
        | ok v =>
          rw [run_bind_ok h2] at h ⊢
          by_cases hd : (g.wn.folder, g.wn.dir) ∈ fs2.dirs
          · rw [run_bind_ok (run_updateWiggleNumber hd)]
            exact FS.get_set_self _ _ _
          · rw [run_bind_err (run_updateWiggleNumber_fail hd)] at h; simp at h

theorem make_dirs (env : Env) (ms : List ParsedMake) (g : GPath) (fs : FS) : ((make env ms g).run fs).2.dirs = fs.dirs :=
  run_only_dirs (only_make env ms g) fs

/-! ### The relation between disks -/

theorem SameKeys.symm {R : V → V → Prop} (h : ∀ v w, R v w → R w v) {d d' : Dict V} (hd : SameKeys R d d') : SameKeys R d' d := by
  induction d generalizing d' with
  | nil => cases d' <;> simp_all [SameKeys]
  | cons x d ih =>
    cases d' with
    | nil => simp [SameKeys] at hd
    | cons y d' => exact ⟨hd.1.symm, h _ _ hd.2.1, ih hd.2.2⟩

theorem SameKeys.trans {R : V → V → Prop} (h : ∀ u v w, R u v → R v w → R u w) {a b c : Dict V} (hab : SameKeys R a b)
    (hbc : SameKeys R b c) : SameKeys R a c := by
  induction a generalizing b c with
  | nil => cases b <;> cases c <;> simp_all [SameKeys]
  | cons x a ih =>
    cases b with
    | nil => simp [SameKeys] at hab
    | cons y b =>
      cases c with
      | nil => simp [SameKeys] at hbc
      | cons z c => exact ⟨hab.1.trans hbc.1, h _ _ _ hab.2.1 hbc.2.1, ih hab.2.2 hbc.2.2⟩

theorem reordered_symm {n : Nat} {v w : V} (h : Reordered n v w) : Reordered n w v := by
  induction n generalizing v w with
  | zero =>
    rcases h with h | ⟨l, l', h1, h2, h3⟩
    · exact .inl h.symm
    · exact .inr ⟨l', l, h2, h1, h3.symm⟩
  | succ n ih =>
    rcases h with h | ⟨d, d', h1, h2, h3⟩
    · exact .inl (ih h)
    · exact .inr ⟨d', d, h2, h1, h3.symm fun _ _ => ih⟩

theorem reordered_trans {n : Nat} {u v w : V} (h : Reordered n u v) (h' : Reordered n v w) : Reordered n u w := by
  induction n generalizing u v w with
  | zero =>
    rcases h with rfl | ⟨l, l', h1, h2, h3⟩
    · exact h'
    · rcases h' with rfl | ⟨m, m', k1, k2, k3⟩
      · exact .inr ⟨l, l', h1, h2, h3⟩
      · rw [h2] at k1
        cases k1
        exact .inr ⟨l, m', h1, k2, h3.trans k3⟩
  | succ n ih =>
    rcases reordered_cases h with rfl | ⟨l, l', h1, h2, h3⟩ | ⟨d, d', h1, h2, h3⟩
    · exact h'
    · rcases reordered_cases h' with rfl | ⟨m, m', k1, k2, k3⟩ | ⟨e, e', k1, k2, k3⟩
      · exact h
      · rw [h2] at k1
        cases k1
        rw [h1, k2]
        exact reordered_list (h3.trans k3)
      · rw [h2] at k1; cases k1
    · rcases reordered_cases h' with rfl | ⟨m, m', k1, k2, k3⟩ | ⟨e, e', k1, k2, k3⟩
      · exact h
      · rw [h2] at k1; cases k1
      · rw [h2] at k1
        cases k1
        exact .inr ⟨d, e', h1, k2, SameKeys.trans (R := Reordered n) (fun _ _ _ => ih) h3 k3⟩

theorem SameUpToOrder.symm {g : GPath} {a b : FS} (h : SameUpToOrder g a b) : SameUpToOrder g b a where
  folders := h.folders.symm
  dirs := h.dirs.symm
  plain := h.plain.symm
  files p hp := (h.files p hp).symm
  idx := by
    have := h.idx
    cases h1 : a.get g.idx <;> cases h2 : b.get g.idx <;> rw [h1, h2] at this
    · trivial
    · exact this.elim
    · exact this.elim
    · rcases this with ⟨h3, h4⟩ | ⟨v, w, h3, h4, h5⟩
      · exact .inl ⟨h4, h3⟩
      · exact .inr ⟨w, v, h4, h3, reordered_symm h5⟩

theorem SameUpToOrder.trans {g : GPath} {a b c : FS} (h : SameUpToOrder g a b) (h' : SameUpToOrder g b c) : SameUpToOrder g a c where
  folders := h.folders.trans h'.folders
  dirs := h.dirs.trans h'.dirs
  plain := h.plain.trans h'.plain
  files p hp := (h.files p hp).trans (h'.files p hp)
  idx := by
    have i1 := h.idx
    have i2 := h'.idx
    cases h1 : a.get g.idx <;> cases h2 : b.get g.idx <;> cases h3 : c.get g.idx <;> rw [h1, h2] at i1 <;> rw [h2, h3] at i2
    · trivial
    iterate 6 · first | exact i1.elim | exact i2.elim
    · rcases i1 with ⟨k1, k2⟩ | ⟨v, w, k1, k2, k3⟩ <;> rcases i2 with ⟨m1, m2⟩ | ⟨x, y, m1, m2, m3⟩
      · exact .inl ⟨k1, m2⟩
      · rw [k2] at m1; simp at m1
      · rw [k2] at m1; simp at m1
      · rw [k2] at m1
        cases m1
        exact .inr ⟨v, y, k1, m2, reordered_trans k3 m3⟩

/-! ### Dicts -/

theorem dictSet_twice {α : Type} (k : Str) (x y : α) (d : Dict α) : dictSet k x (dictSet k y d) = dictSet k x d := by
  induction d with
  | nil => simp [dictSet]
  | cons z d ih =>
    obtain ⟨k', v⟩ := z
    simp only [dictSet]
    split
    · next e => simp [dictSet, e]
    · next e => simp only [dictSet, if_neg e, ih]

theorem dictSet_comm {α : Type} {j k : Str} (h : j ≠ k) (x y : α) {d : Dict α} (hj : j ∈ keys d) :
    dictSet j x (dictSet k y d) = dictSet k y (dictSet j x d) := by
  induction d with
  | nil => simp [keys] at hj
  | cons z d ih =>
    obtain ⟨k', v⟩ := z
    simp only [keys, List.map_cons, List.mem_cons] at hj
    by_cases h1 : k' = k
    · subst h1
      simp only [dictSet, if_pos, if_neg (Ne.symm h)]
    · by_cases h2 : k' = j
      · subst h2
        simp only [dictSet, if_pos, if_neg h]
      · have hj' : j ∈ keys d := by
          rcases hj with hj | hj
          · exact absurd hj.symm h2
          · exact hj
        simp only [dictSet, if_neg h1, if_neg h2, ih hj']

theorem mem_keys_of_get {α : Type} {k : Str} {v : α} {d : Dict α} (h : dictGet k d = some v) : k ∈ keys d := by
  apply Classical.byContradiction
  intro hn
  rw [dictGet_none_iff.2 hn] at h
  simp at h

/-! ### The index after one commit, exactly -/

/-- The index with its three parts replaced. -/
def newIndex (D : Dict V) (rels : Dict V) (labels names : List V) : Dict V :=
  dictSet c!"relationship_names" (.list names) (dictSet c!"node_labels" (.list labels) (dictSet c!"node_relationships" (.dict rels) D))

theorem newIndex_twice {D : Dict V} {labels names : List Str} {rels : Dict (List Int)} (h : IndexShape D labels names rels)
    (r r' : Dict V) (l l' n n' : List V) : newIndex (newIndex D r l n) r' l' n' = newIndex D r' l' n' := by
  have h1 := mem_keys_of_get h.labels
  have h2 := mem_keys_of_get h.names
  have h3 := mem_keys_of_get h.rels
  have key : ∀ {j : Str} (k : Str) (x : V) {d : Dict V}, j ∈ keys d → j ∈ keys (dictSet k x d) := fun {j} k x {d} h => by
    rw [keys_dictSet]
    split
    · exact h
    · exact List.mem_append_left _ h
  unfold newIndex
  rw [dictSet_comm (j := c!"node_relationships") (k := c!"relationship_names") (by decide) _ _ (key _ _ (key _ _ h3)),
    dictSet_comm (j := c!"node_relationships") (k := c!"node_labels") (by decide) _ _ (key _ _ h3), dictSet_twice,
    dictSet_comm (j := c!"node_labels") (k := c!"relationship_names") (by decide) _ _ (key _ _ (key _ _ h1)), dictSet_twice,
    dictSet_twice]

/-- A list read as a set, with more in it, and written again. -/
def added (o : SetOrd) (old : List V) (new : List Str) : List V := o.ord (dedup (dedup old ++ new.map Val.str))

theorem mem_added {o : SetOrd} {old : List V} {new : List Str} {x : V} : x ∈ added o old new ↔ x ∈ old ∨ x ∈ new.map Val.str := by
  unfold added
  rw [(o.perm _).mem_iff, mem_dedup, List.mem_append, mem_dedup]

theorem added_strs (o : SetOrd) (old new : List Str) : ∃ m : List Str, added o (old.map Val.str) new = m.map Val.str :=
  strs_of_mem fun x hx => by
    rcases mem_added.1 hx with h | h <;> obtain ⟨s, _, rfl⟩ := List.mem_map.1 h <;> exact ⟨s, rfl⟩

theorem added_perm {o o' : SetOrd} {l l' : List V} {a a' : List Str} (h : ∀ x, (x ∈ l ∨ x ∈ a.map Val.str) ↔ (x ∈ l' ∨ x ∈ a'.map Val.str)) :
    (added o l a).Perm (added o' l' a') := by
  unfold added
  refine (o.perm _).trans (.trans (perm_dedup fun x => ?_) (o'.perm _).symm)
  simp only [List.mem_append, mem_dedup]
  exact h x

theorem addSetVal_shape {o : SetOrd} {items : List Str} {name : Str} {D : Dict V} {old : List Str}
    (h : dictGet name D = some (.list (old.map Val.str))) :
    addSetVal o items name (.dict D) = .ok (.dict (dictSet name (.list (added o (old.map Val.str) items)) D)) := by
  unfold addSetVal
  rw [getItem_dict h]
  simp only [Except.bind]
  rw [pySet_strs]
  simp only [Except.bind, setItem.eq_def, added]

theorem relIndexLoop_append (o : SetOrd) (v : V) (a b : List (Str × List V)) :
    relIndexLoop o v (a ++ b) = (relIndexLoop o v a).bind fun w => relIndexLoop o w b := by
  induction a generalizing v with
  | nil => rfl
  | cons x a ih =>
    obtain ⟨k, new⟩ := x
    simp only [List.cons_append, relIndexLoop]
    cases relIndexStep o v k new with
    | error e => rfl
    | ok w => exact ih w

/-- The entries for the relationship index as values. -/
def relItems (n : Int) (pats : List ParsedPattern) : List (Str × List V) := (relBatch n pats).map fun x => (x.1, x.2.map Val.int)

theorem rels_nodup {D : Dict V} {labels names : List Str} {rels : Dict (List Int)} (hD : (Val.dict D : V).Ser) (h : IndexShape D labels names rels) :
    (keys rels).Nodup := by
  have := ser_of_dictGet hD h.rels
  rw [Val.Ser] at this
  have h' := this.1
  rw [List.map_map] at h'
  exact h'

theorem run_commitIndexes {env : Env} {n : Int} {pats : List ParsedPattern} {g : GPath} {fs : FS} {t : Str} {D : Dict V}
    {labels names : List Str} {rels rels' : Dict (List Int)} (h : fs.get g.idx = some t) (hl : jsonLoad t = some (.dict D))
    (hs : IndexShape D labels names rels) (hr : relBatch n pats ≠ [])
    (hloop : relIndexLoop env.ord (.dict (relsVal rels)) (relItems n pats) = .ok (.dict (relsVal rels'))) :
    let D' := newIndex D (relsVal rels') (added env.ord (labels.map Val.str) (wantLabels pats)) (added env.ord (names.map Val.str) (wantNames pats))
    ∃ t1 t2, (commitIndexes env n pats g).run fs = (.ok true, ((fs.set g.idx t1).set g.idx t2).set g.idx (dumpText (.dict D'))) ∧
      (Val.dict D').Ser := by
  intro D'
  have hD := jsonLoad_ser hl
  obtain ⟨r'', e, hn, -⟩ := relIndexLoop_ints (o := env.ord) (items := relBatch n pats) (rels_nodup hD hs)
  have hrr : relsVal r'' = relsVal rels' := by
    have := e.symm.trans hloop
    simpa using this
  have hR : (Val.dict (relsVal rels') : V).Ser := by rw [← hrr]; exact relsVal_ser hn
  have s1 := ser_dictSet (k := NODE_RELATIONSHIPS_INDEX_NAME) hD hR
  have g2 : dictGet c!"node_labels" (dictSet NODE_RELATIONSHIPS_INDEX_NAME (.dict (relsVal rels')) D) = some (.list (labels.map Val.str)) := by
    rw [dictGet_dictSet_ne (by decide)]; exact hs.labels
  have r1 := run_addRelIndex (o := env.ord) h hl (R := relsVal rels) (by exact hs.rels) hloop hR (by simpa [relItems] using hr)
  unfold relItems at r1
  have r2 := run_updateIndex_start (pos := fun _ => 0) (f := addSetVal env.ord (wantLabels pats) NODE_LABELS_INDEX_NAME)
    (FS.get_set_self fs g.idx (dumpText (.dict (dictSet NODE_RELATIONSHIPS_INDEX_NAME (.dict (relsVal rels')) D)))) (jsonLoad_dump _ s1)
    (addSetVal_shape g2) (addSetVal_ser s1 (addSetVal_shape g2)) rfl
  have s2 := addSetVal_ser s1 (addSetVal_shape (o := env.ord) (items := wantLabels pats) g2)
  have g3 : dictGet c!"relationship_names" (dictSet c!"node_labels" (.list (added env.ord (labels.map Val.str) (wantLabels pats)))
      (dictSet NODE_RELATIONSHIPS_INDEX_NAME (.dict (relsVal rels')) D)) = some (.list (names.map Val.str)) := by
    rw [dictGet_dictSet_ne (by decide), dictGet_dictSet_ne (by decide)]; exact hs.names
  have r3 := run_updateIndex_start (pos := fun _ => 0) (f := addSetVal env.ord (wantNames pats) RELATIONSHIP_NAMES_INDEX_NAME)
    (FS.get_set_self ((fs.set g.idx (dumpText (.dict (dictSet NODE_RELATIONSHIPS_INDEX_NAME (.dict (relsVal rels')) D))))) g.idx
      (dumpText (.dict (dictSet c!"node_labels" (.list (added env.ord (labels.map Val.str) (wantLabels pats)))
      (dictSet NODE_RELATIONSHIPS_INDEX_NAME (.dict (relsVal rels')) D))))) (jsonLoad_dump _ s2)
    (addSetVal_shape g3) (addSetVal_ser s2 (addSetVal_shape g3)) rfl
  refine ⟨_, _, Eq.trans ?_ r3, addSetVal_ser s2 (addSetVal_shape g3)⟩
  unfold commitIndexes addItemsToNodeLabelsIndex addItemsToRelationshipNamesIndex
  rw [addItemsSet_eq, addItemsSet_eq]
  rw [run_bind_ok r1, run_bind_ok r2]
  rfl

/-- The disk after a MAKE that is stored, exactly. -/
theorem make_exact {env : Env} {fs : FS} {g : GPath} {d : Dict V} {labels names : List Str} {rels : Dict (List Int)} {n : Int}
    {ms : List ParsedMake} {t : Str} {D : Dict V} (hh : Healthy fs g d labels names rels n) (hb : BelowCounter d n) (hm : Storable ms)
    (h : fs.get g.idx = some t) (hl : jsonLoad t = some (.dict D)) (hs : IndexShape D labels names rels) :
    ∃ rels' fs', (make env ms g).run fs = (.ok true, fs') ∧
      relIndexLoop env.ord (.dict (relsVal rels)) (relItems n (patsOf ms)) = .ok (.dict (relsVal rels')) ∧
      fs'.folders = fs.folders ∧ fs'.dirs = fs.dirs ∧ fs'.plain = fs.plain ∧
      fs'.get g.db = some (dumpText (.dict (d ++ dbBatch env n (patsOf ms)))) ∧
      fs'.get g.wn = some (intStr (n + totalSize (patsOf ms))) ∧
      fs'.get g.idx = some (dumpText (.dict (newIndex D (relsVal rels') (added env.ord (labels.map Val.str) (wantLabels (patsOf ms)))
        (added env.ord (names.map Val.str) (wantNames (patsOf ms)))))) ∧
      (Val.dict (newIndex D (relsVal rels') (added env.ord (labels.map Val.str) (wantLabels (patsOf ms)))
        (added env.ord (names.map Val.str) (wantNames (patsOf ms))))).Ser ∧
      ∀ p, p ≠ g.db → p ≠ g.idx → p ≠ g.wn → fs'.get p = fs.get p := by
  have hf := fresh_batch (env := env) (pats := patsOf ms) fun w h1 _ => hb w h1
  have hser := (dbBatch_ser (env := env) (b := n) hm.ok.props hm.ok.shape).2 hm.values
  have hne := (relBatch_ne (b := n) hm.ok.shape).2 hm.rel
  obtain ⟨rels', hloop, -⟩ := relIndexLoop_ints (o := env.ord) (items := relBatch n (patsOf ms)) (rels_nodup (jsonLoad_ser hl) hs)
  have hdb := run_add_ok (p := g.db) hh.dbText hh.ser hf hser
  obtain ⟨t1, t2, h3, h4⟩ := run_commitIndexes (env := env) (g := g) (fs := fs.set g.db (dumpText (.dict (d ++ dbBatch env n (patsOf ms)))))
    (by rw [FS.get_set_ne hh.db_idx]; exact h) hl hs hne hloop
  obtain ⟨fs4, hfs4⟩ : ∃ x, x = (((fs.set g.db (dumpText (.dict (d ++ dbBatch env n (patsOf ms))))).set g.idx t1).set g.idx t2).set g.idx
    (dumpText (.dict (newIndex D (relsVal rels') (added env.ord (labels.map Val.str) (wantLabels (patsOf ms)))
        (added env.ord (names.map Val.str) (wantNames (patsOf ms)))))) := ⟨_, rfl⟩
  rw [← hfs4] at h3
  have hd := run_updateWiggleNumber (p := g.wn) (n := n + totalSize (patsOf ms)) (fs := fs4) (by rw [hfs4]; exact hh.dir)
  refine ⟨rels', fs4.set g.wn (intStr (n + totalSize (patsOf ms))), ?_, hloop, ?_⟩
  · rw [run_make_counter hh.counter, afterCounter_ok hm.ok, commit_eq, run_bind_ok hdb, run_bind_ok h3, run_bind_ok hd]
    rfl
  · subst hfs4
    refine ⟨rfl, rfl, rfl, ?_, FS.get_set_self _ _ _, ?_, h4, fun p h1 h2 h3 => ?_⟩
    · rw [FS.get_set_ne (Ne.symm hh.db_wn)]
      iterate 3 rw [FS.get_set_ne (Ne.symm hh.db_idx)]
      exact FS.get_set_self _ _ _
    · rw [FS.get_set_ne (Ne.symm hh.idx_wn)]
      exact FS.get_set_self _ _ _
    · rw [FS.get_set_ne (Ne.symm h3)]
      iterate 3 rw [FS.get_set_ne (Ne.symm h2)]
      exact FS.get_set_ne (Ne.symm h1) _ _

theorem shape_new {D : Dict V} {r : Dict (List Int)} {l n : List Str} :
    IndexShape (newIndex D (relsVal r) (l.map Val.str) (n.map Val.str)) l n r := by
  unfold newIndex
  refine ⟨?_, dictGet_dictSet_self, ?_⟩
  · rw [dictGet_dictSet_ne (by decide)]; exact dictGet_dictSet_self
  · rw [dictGet_dictSet_ne (by decide), dictGet_dictSet_ne (by decide)]; exact dictGet_dictSet_self

theorem Storable.append {m1 m2 : List ParsedMake} (h1 : Storable m1) (h2 : Storable m2) : Storable (m1 ++ m2) where
  ok := MakeOK.append.2 ⟨h1.ok, h2.ok⟩
  values p hp := by
    rw [patsOf_append, List.mem_append] at hp
    exact hp.elim (h1.values p) (h2.values p)
  rel := by
    obtain ⟨p, hp, h⟩ := h1.rel
    exact ⟨p, by rw [patsOf_append]; exact List.mem_append_left _ hp, h⟩

theorem reordered_newIndex {D : Dict V} {r : Dict V} {l l' n n' : List V} (hl : l.Perm l') (hn : n.Perm n') :
    Reordered 2 (.dict (newIndex D r l n)) (.dict (newIndex D r l' n')) :=
  .inr ⟨_, _, rfl, rfl, dictSet_like (dictSet_like (SameKeys.refl (reordered_refl 1) _) _ (reordered_list hl)) _ (reordered_list hn)⟩

/-- Statements stored one after the other, and in one go. -/
theorem make_twice {env : Env} {fs : FS} {g : GPath} (hu : Usable fs g) {m1 m2 : List ParsedMake} (h1 : Storable m1) (h2 : Storable m2) :
    SameUpToOrder g ((make env m2 g).run ((make env m1 g).run fs).2).2 ((make env (m1 ++ m2) g).run fs).2 := by
  obtain ⟨d, labels, names, rels, n, hh, hb⟩ := hu
  obtain ⟨D, ⟨t, ht, hl⟩, hs⟩ := hh.idx
  obtain ⟨r1, fs1, e1, p1, a1, b1, c1, d1, w1, i1, s1, o1⟩ := make_exact (env := env) hh hb h1 ht hl hs
  obtain ⟨_, _, _, _, _, _, _, _, hh1, _⟩ := make_success hh e1
  obtain ⟨l1, hl1⟩ := added_strs env.ord labels (wantLabels (patsOf m1))
  obtain ⟨n1, hn1⟩ := added_strs env.ord names (wantNames (patsOf m1))
  have hs1 : IndexShape (newIndex D (relsVal r1) (added env.ord (labels.map Val.str) (wantLabels (patsOf m1)))
      (added env.ord (names.map Val.str) (wantNames (patsOf m1)))) l1 n1 r1 := by
    rw [hl1, hn1]; exact shape_new
  have hh1' : Healthy fs1 g (d ++ dbBatch env n (patsOf m1)) l1 n1 r1 (n + totalSize (patsOf m1)) :=
    { dbText := hh1.dbText, db := hh1.db, idx := ⟨_, ⟨_, i1, jsonLoad_dump _ s1⟩, hs1⟩, wn := hh1.wn, dir := hh1.dir,
      db_idx := hh1.db_idx, db_wn := hh1.db_wn, idx_wn := hh1.idx_wn }
  obtain ⟨r2, fs2, e2, p2, a2, b2, c2, d2, w2, i2, s2, o2⟩ :=
    make_exact (env := env) hh1' (below_batch hb) h2 i1 (jsonLoad_dump _ s1) hs1
  obtain ⟨r3, fs3, e3, p3, a3, b3, c3, d3, w3, i3, s3, o3⟩ := make_exact (env := env) hh hb (h1.append h2) ht hl hs
  rw [e1]
  simp only
  rw [e2, e3]
  simp only
  have hr : relsVal r3 = relsVal r2 := by
    have hi : relItems n (patsOf (m1 ++ m2)) = relItems n (patsOf m1) ++ relItems (n + totalSize (patsOf m1)) (patsOf m2) := by
      simp [relItems, patsOf_append, relBatch_append]
    rw [hi, relIndexLoop_append, p1] at p3
    have := p2.symm.trans p3
    simpa using this.symm
  constructor
  · rw [a2, a1, a3]
  · rw [b2, b1, b3]
  · rw [c2, c1, c3]
  · intro p hp
    by_cases q1 : p = g.db
    · rw [q1, d2, d3, patsOf_append, dbBatch_append, List.append_assoc]
    · by_cases q2 : p = g.wn
      · rw [q2, w2, w3, patsOf_append, totalSize_append]
        simp [Int.add_assoc]
      · rw [o2 p q1 hp q2, o1 p q1 hp q2, o3 p q1 hp q2]
  · rw [i2, i3]
    refine .inr ⟨_, _, jsonLoad_dump _ s2, jsonLoad_dump _ s3, ?_⟩
    rw [newIndex_twice hs, hr]
    refine reordered_newIndex (added_perm fun x => ?_) (added_perm fun x => ?_)
    · rw [← hl1, mem_added, patsOf_append, wantLabels_append, List.map_append, List.mem_append, or_assoc]
    · rw [← hn1, mem_added, patsOf_append, wantNames_append, List.map_append, List.mem_append, or_assoc]

/-! ### Patterns that mean the same -/

theorem AlikePattern.nodes {p p' : ParsedPattern} (h : AlikePattern p p') : (writtenNodes p).length = (writtenNodes p').length := by
  unfold writtenNodes
  rw [h.middle.there, h.right.there]
  simp only [List.length_append, List.length_cons, List.length_nil]
  repeat' split
  all_goals rfl

theorem AlikePattern.size {p p' : ParsedPattern} (h : AlikePattern p p') : patSize p = patSize p' := by
  unfold patSize
  rw [h.nodes]
  unfold writtenRels
  rw [h.lm.there, h.mr.there]
  simp only [List.length_append]
  repeat' split
  all_goals rfl

theorem AlikePart.propsD {t t' : PartText} (h : AlikePart t t') : propsD t.props = WG.propsD t'.props := by
  unfold WG.propsD
  rw [h.props]

theorem AlikePart.labelD {t t' : PartText} (h : AlikePart t t') : labelD t = WG.labelD t' := by
  unfold WG.labelD
  rw [h.label]

theorem AlikePart.name {t t' : PartText} (h : AlikePart t t') : relNameOf t = relNameOf t' := by
  unfold relNameOf
  rw [h.label]

theorem AlikePattern.relLM {p p' : ParsedPattern} (h : AlikePattern p p') (b : Int) : relData (relLM b p) = relData (WG.relLM b p') := by
  unfold relData WG.relLM lmNum
  simp only [h.nodes, h.lm.label, h.lm.propsD, h.lmWay]

theorem AlikePattern.relMR {p p' : ParsedPattern} (h : AlikePattern p p') (b : Int) : relData (relMR b p) = relData (WG.relMR b p') := by
  unfold relData WG.relMR mrNum
  simp only [h.nodes, h.mr.label, h.mr.propsD, h.mrWay, h.lm.there]

theorem nodeData_congr {n n' : NodePre} (h1 : n.wn = n'.wn) (h2 : n.label = n'.label) (h3 : propsD n.props = propsD n'.props)
    (h4 : n.rels.map relData = n'.rels.map relData) : nodeData n = nodeData n' := by
  unfold nodeData
  have : n.rels.isEmpty = n'.rels.isEmpty := by
    have := congrArg List.isEmpty h4
    simpa using this
  rw [h1, h2, h3, h4, this]

theorem AlikePattern.stored {p p' : ParsedPattern} (h : AlikePattern p p') (b : Int) : storedNodes b p = storedNodes b p' := by
  have e1 : (leftRels b p).map relData = (leftRels b p').map relData := by
    unfold leftRels
    rw [h.lm.there, h.lmWay]
    split <;> simp [h.relLM]
  have e2 : (middleRels b p).map relData = (middleRels b p').map relData := by
    unfold middleRels
    rw [h.lm.there, h.lmWay, h.mr.there, h.mrWay]
    split <;> split <;> simp [h.relLM, h.relMR]
  unfold storedNodes
  rw [h.middle.there, nodeData_congr (n := nodePre b p.left (leftRels b p)) (n' := nodePre b p'.left (leftRels b p')) rfl h.left.labelD h.left.propsD e1,
    nodeData_congr (n := nodePre (b + 1) p.middle (middleRels b p)) (n' := nodePre (b + 1) p'.middle (middleRels b p')) rfl h.middle.labelD
      h.middle.propsD e2]

theorem AlikePattern.labels {p p' : ParsedPattern} (h : AlikePattern p p') : (writtenNodes p).map labelD = (writtenNodes p').map labelD := by
  unfold writtenNodes
  rw [h.middle.there, h.right.there]
  split <;> split <;> simp [h.left.labelD, h.middle.labelD, h.right.labelD]

theorem AlikePattern.names {p p' : ParsedPattern} (h : AlikePattern p p') : (writtenRels p).flatMap relNameOf = (writtenRels p').flatMap relNameOf := by
  unfold writtenRels
  rw [h.lm.there, h.mr.there]
  split <;> split <;> simp [h.lm.name, h.mr.name]

theorem alikeAll_stored {ps ps' : List ParsedPattern} (h : AlikeAll ps ps') (b : Int) :
    allStored b ps = allStored b ps' ∧ wantLabels ps = wantLabels ps' ∧ wantNames ps = wantNames ps' ∧ totalSize ps = totalSize ps' := by
  induction ps generalizing ps' b with
  | nil => cases ps' <;> simp_all [AlikeAll]
  | cons p ps ih =>
    cases ps' with
    | nil => simp [AlikeAll] at h
    | cons p' ps' =>
      obtain ⟨h1, h2⟩ := h
      obtain ⟨-, k2, k3, k4⟩ := ih h2 b
      have k1 := (ih h2 (b + patSize p)).1
      unfold allStored wantLabels wantNames totalSize at *
      refine ⟨?_, ?_, ?_, ?_⟩
      · simp only [place, List.flatMap_cons]
        rw [h1.stored b, ← h1.size]
        exact congrArg _ k1
      · simp only [List.flatMap_cons, h1.labels, k2]
      · simp only [List.flatMap_cons, h1.names, k3]
      · simp only [List.map_cons, List.sum_cons, h1.size, k4]

theorem AlikePattern.shape {p p' : ParsedPattern} (h : AlikePattern p p') (hp : PatShape p) : PatShape p' where
  left := h.left.label ▸ hp.left
  middle ht := h.middle.label ▸ hp.middle (h.middle.there.trans ht)
  right ht := h.right.label ▸ hp.right (h.right.there.trans ht)
  lm ht := by
    obtain ⟨a, b⟩ := hp.lm (h.lm.there.trans ht)
    exact ⟨h.middle.there.symm.trans a, fun x => b (h.lmHeads.2 x)⟩
  mr ht := by
    obtain ⟨a, b, c⟩ := hp.mr (h.mr.there.trans ht)
    exact ⟨h.middle.there.symm.trans a, h.right.there.symm.trans b, fun x => c (h.mrHeads.2 x)⟩

theorem AlikePart.propsOK {t t' : PartText} (h : AlikePart t t') (ht : PropsOK t) : PropsOK t' := by
  obtain ⟨x, hx⟩ := ht
  exact ⟨x, h.props ▸ hx⟩

theorem AlikePart.propsSer {t t' : PartText} (h : AlikePart t t') (ht : PropsSer t) : PropsSer t' := by
  obtain ⟨x, hx, hy⟩ := ht
  exact ⟨x, h.props ▸ hx, hy⟩

theorem AlikePattern.props {p p' : ParsedPattern} (h : AlikePattern p p') (hp : PatProps p) : PatProps p' where
  left := h.left.propsOK hp.left
  middle ht := h.middle.propsOK (hp.middle (h.middle.there.trans ht))
  lm ht := h.lm.propsOK (hp.lm (h.lm.there.trans ht))
  mr ht hr := h.mr.propsOK (hp.mr (h.mr.there.trans ht) (h.mrWay.trans hr))

theorem AlikePart.symm {t t' : PartText} (h : AlikePart t t') : AlikePart t' t := ⟨h.there.symm, h.label.symm, h.props.symm⟩

theorem AlikePattern.symm {p p' : ParsedPattern} (h : AlikePattern p p') : AlikePattern p' p :=
  ⟨h.left.symm, h.middle.symm, h.right.symm, h.lm.symm, h.mr.symm, h.lmWay.symm, h.mrWay.symm, h.lmHeads.symm, h.mrHeads.symm⟩

theorem AlikeAll.symm {ps ps' : List ParsedPattern} (h : AlikeAll ps ps') : AlikeAll ps' ps := by
  induction ps generalizing ps' with
  | nil => cases ps' <;> simp_all [AlikeAll]
  | cons p ps ih =>
    cases ps' with
    | nil => simp [AlikeAll] at h
    | cons p' ps' => exact ⟨h.1.symm, ih h.2⟩

theorem alikeAll_mem {ps ps' : List ParsedPattern} (h : AlikeAll ps ps') {p' : ParsedPattern} (hp : p' ∈ ps') :
    ∃ p ∈ ps, AlikePattern p p' := by
  induction ps generalizing ps' with
  | nil => cases ps' <;> simp_all [AlikeAll]
  | cons p ps ih =>
    cases ps' with
    | nil => simp at hp
    | cons q ps' =>
      rcases List.mem_cons.1 hp with rfl | hp
      · exact ⟨p, by simp, h.1⟩
      · obtain ⟨x, hx, hy⟩ := ih h.2 hp
        exact ⟨x, by simp [hx], hy⟩

theorem alike_makeOK {ms ms' : List ParsedMake} (h : AlikeAll (patsOf ms) (patsOf ms')) (hc : ∀ m ∈ ms', m.clause = .make) (hm : MakeOK ms) :
    MakeOK ms' where
  clause := hc
  shape p hp := by
    obtain ⟨x, hx, hy⟩ := alikeAll_mem h hp
    exact hy.shape (hm.shape x hx)
  props p hp := by
    obtain ⟨x, hx, hy⟩ := alikeAll_mem h hp
    exact hy.props (hm.props x hx)

/-- Statements that mean the same leave the same disk, byte for byte. -/
theorem make_alike {env : Env} {g : GPath} {ms ms' : List ParsedMake} (h : AlikeAll (patsOf ms) (patsOf ms'))
    (hc : ∀ m ∈ ms, m.clause = .make) (hc' : ∀ m ∈ ms', m.clause = .make) (fs : FS) :
    ((make env ms g).run fs).2 = ((make env ms' g).run fs).2 ∧
      (MakeOK ms → (make env ms g).run fs = (make env ms' g).run fs) := by
  rcases counter_cases g.wn fs with ⟨n, hn⟩ | ⟨e, he⟩
  · rw [run_make_counter hn, run_make_counter hn]
    by_cases hm : MakeOK ms
    · have hm' := alike_makeOK h hc' hm
      rw [afterCounter_ok hm, afterCounter_ok hm']
      obtain ⟨k1, k2, k3, k4⟩ := alikeAll_stored h n
      unfold commit dbBatch relBatch
      rw [k1, k2, k3, k4]
      exact ⟨rfl, fun _ => rfl⟩
    · have hm' : ¬ MakeOK ms' := fun hm' => hm (alike_makeOK h.symm hc hm')
      obtain ⟨e, he⟩ := afterCounter_bad (env := env) (g := g) (n := n) hm
      obtain ⟨e', he'⟩ := afterCounter_bad (env := env) (g := g) (n := n) hm'
      rw [he, he']
      exact ⟨rfl, fun h => absurd h hm⟩
  · rw [run_make_noCounter he, run_make_noCounter he]
    exact ⟨rfl, fun _ => rfl⟩

/-! ### Any number of queries -/

theorem usable_storable {env : Env} {fs : FS} {g : GPath} {ms : List ParsedMake} (hu : Usable fs g) (hm : Storable ms) :
    Usable ((make env ms g).run fs).2 g :=
  (make_usable ms hu).1 fun hp => hp.2 ⟨hm.values, hm.rel⟩

theorem afterQueries_same {env : Env} {g : GPath} {l : List (Env × Str)} {ms : List ParsedMake} {fs : FS} (hu : Usable fs g)
    (ht : ∀ x ∈ l, SameBut env x.1) (hl : AddAll l ms) :
    (ms = [] ∧ afterQueries g l fs = fs) ∨
      (Storable ms ∧ SameUpToOrder g ((make env ms g).run fs).2 (afterQueries g l fs)) := by
  induction l generalizing ms fs with
  | nil => exact .inl ⟨hl, rfl⟩
  | cons x l ih =>
    obtain ⟨env', q⟩ := x
    obtain ⟨m1, m2, rfl, hq, hl⟩ := hl
    have ht' := ht (env', q) (by simp)
    have ht2 : ∀ x ∈ l, SameBut env x.1 := fun x hx => ht x (by simp [hx])
    obtain ⟨_, _, _, _, _, hh, _⟩ := id hu
    have g1 := hh.db_idx
    have g2 := Ne.symm hh.idx_wn
    simp only [afterQueries]
    rcases hq with ⟨hmk, hst⟩ | ⟨rfl, hno⟩
    · have hd : ((query env' q g).run fs).2 = ((make env' m1 g).run fs).2 := by
        rcases query_cases env' q g fs with ⟨m, h1, h2, -⟩ | ⟨h1, -⟩
        · rw [makes_unique hmk h1, h2]
        · exact absurd hmk (h1 _)
      rw [hd]
      have s1 := (sim_make ht' g1 g2 m1 fs fs (sameUpToOrder_refl g fs)).2
      have u1 : Usable ((make env' m1 g).run fs).2 g := usable_storable hu hst
      rcases ih u1 ht2 hl with ⟨rfl, h2⟩ | ⟨h1, h2⟩
      · rw [h2, List.append_nil]
        exact .inr ⟨hst, s1⟩
      · refine .inr ⟨hst.append h1, ?_⟩
        have s2 := (sim_make (show SameBut env env from rfl) g1 g2 m2 _ _ s1).2
        exact (make_twice hu hst h1).symm.trans (s2.trans h2)
    · have hd : ((query env' q g).run fs).2 = fs := by
        rcases query_cases env' q g fs with ⟨m, h1, h2, -⟩ | ⟨h1, h2⟩
        · rw [h2]
          rcases counter_cases g.wn fs with ⟨n, hn⟩ | ⟨e, he⟩
          · obtain ⟨e, he⟩ := afterCounter_bad (env := env') (g := g) (n := n) (hno m h1)
            rw [run_make_counter hn, he]
            rfl
          · rw [run_make_noCounter he]
        · exact h2
      rw [hd]
      simpa using ih hu ht2 hl

/-! ### As written -/

theorem spaces_notWord {sp : Str} (h : sp.all isSpace = true) : sp.all (fun c => !isWord c) = true := by
  rw [List.all_eq_true] at h ⊢
  intro c hc
  have := h c hc
  cases hw : isWord c with
  | false => rfl
  | true => rw [word_not_space hw] at this; simp at this

theorem SameProps.dict {o o' : Option Str} (h : SameProps o o') : getPropertyDict o = getPropertyDict o' := by
  rcases h with ⟨rfl, rfl⟩ | ⟨l, l', sp, sp', rfl, rfl, h1, h2, h3, h4, h5⟩
  · rfl
  · have e := parse_renderProps h3 (spaces_notWord h1)
    have e' := parse_renderProps h4 (spaces_notWord h2)
    have k : ∀ (l : List (PropText × V)) tail, (renderProps (l.map Prod.fst) ++ tail).isEmpty = false := fun _ _ => rfl
    simp only [getPropertyDict, k, Bool.false_eq_true, if_false, e, e', h5]

theorem SameNode.alike {n n' : NodeText} (h : SameNode n n') : AlikePart n.part n'.part :=
  ⟨rfl, by simp [NodeText.part, h.1], h.2.dict⟩

theorem SameRel.alike {r r' : RelText} (h : SameRel r r') : AlikePart r.part r'.part where
  there := by rw [truthy_rel, truthy_rel]
  label := congrArg some h.1
  props := h.2.1.dict

theorem SameRel.way {r r' : RelText} (h : SameRel r r') (o : r.OK) (o' : r'.OK) : pointsRight r.part = pointsRight r'.part := by
  rw [points_seen o, points_seen o', RelText.seenRight, RelText.seenRight, h.2.2.1]
  have h1 := h.2.2.2
  cases h2 : r.sp3 <;> cases h3 : r'.sp3 <;> simp_all

theorem alike_absent : AlikePart .absent .absent := ⟨rfl, rfl, rfl⟩

theorem SameChain.alike {c c' : ChainText} (h : SameChain c c') (g : c.Good) (g' : c'.Good) : AlikePattern c.pattern c'.pattern := by
  have heads : ∀ {r r' : RelText}, r.Good → r'.Good → (bothHeads r.part ↔ bothHeads r'.part) := fun a b =>
    iff_of_false (rel_oneHead a.storable) (rel_oneHead b.storable)
  cases c <;> cases c' <;> simp only [SameChain] at h
  · exact ⟨h.alike, alike_absent, alike_absent, alike_absent, alike_absent, rfl, rfl, .rfl, .rfl⟩
  · exact ⟨h.1.alike, h.2.2.alike, alike_absent, h.2.1.alike, alike_absent, h.2.1.way g.2.1.1 g'.2.1.1, rfl, heads g.2.1 g'.2.1, .rfl⟩
  · exact ⟨h.1.alike, h.2.2.1.alike, h.2.2.2.2.alike, h.2.1.alike, h.2.2.2.1.alike, h.2.1.way g.2.1.1 g'.2.1.1,
      h.2.2.2.1.way g.2.2.2.1.1 g'.2.2.2.1.1, heads g.2.1 g'.2.1, heads g.2.2.2.1 g'.2.2.2.1⟩

theorem SameChains.alike {cs cs' : List ChainText} (h : SameChains cs cs') (g : ∀ c ∈ cs, c.Good) (g' : ∀ c ∈ cs', c.Good) :
    AlikeAll (cs.map ChainText.pattern) (cs'.map ChainText.pattern) := by
  induction cs generalizing cs' with
  | nil => cases cs' <;> simp_all [AlikeAll, SameChains]
  | cons c cs ih =>
    cases cs' with
    | nil => simp [SameChains] at h
    | cons c' cs' =>
      exact ⟨h.1.alike (g c (by simp)) (g' c' (by simp)), ih h.2 (fun c hc => g c (by simp [hc])) fun c hc => g' c (by simp [hc])⟩

theorem makeChains_good {l : List Line} {f : StmtText} (h : QueryGood l f) : ∀ c ∈ makeChains l, c.Good := fun c hc => by
  obtain ⟨t, ht, hc⟩ := List.mem_flatMap.1 hc
  exact ((makesOf_good h.lines t ht).chains c hc).1

/-- What a well-formed query adds. -/
theorem adds_text {b : Batch} (h : b.OK) :
    ∃ ms, Adds (queryText b.lines) ms ∧ (∀ m ∈ ms, m.clause = .make) ∧ patsOf ms = (makeChains b.lines).map ChainText.pattern := by
  have hq := parseQuery_text h.good
  have hg := makeChains_good h.good
  rcases makeOf_text (makesOf b.lines) with ⟨e, e'⟩ | ⟨p, ps, e, hcl, hp⟩
  · refine ⟨[], .inr ⟨rfl, ?_⟩, by simp, by simp [patsOf, makeChains, e']⟩
    rintro m ⟨-, x, h1, h2⟩
    rw [show queryText b.lines = joinLines (b.lines.map Line.render) from rfl, hq] at h1
    cases h1
    rw [e] at h2
    cases h2
  · refine ⟨p :: ps, .inl ⟨⟨by simp, _, hq, e⟩, makes_ok hcl hp hg, ?_, ?_⟩, hcl, hp⟩
    · intro x hx
      rw [hp] at hx
      obtain ⟨c, hc, rfl⟩ := List.mem_map.1 hx
      exact chain_patSer (hg c hc)
    · rcases h.rel with h0 | ⟨c, hc, hr⟩
      · rw [h0] at e
        cases e
      · exact ⟨c.pattern, by rw [hp]; exact List.mem_map_of_mem hc, chain_storesRel hr⟩

theorem addAll_text {bs : List Batch} (h : ∀ b ∈ bs, b.OK) :
    ∃ ms, AddAll (bs.map fun b => (b.env, queryText b.lines)) ms ∧ (∀ m ∈ ms, m.clause = .make) ∧
      patsOf ms = (bs.flatMap fun b => makeChains b.lines).map ChainText.pattern := by
  induction bs with
  | nil => exact ⟨[], rfl, by simp, rfl⟩
  | cons b bs ih =>
    obtain ⟨m1, h1, h2, h3⟩ := adds_text (h b (by simp))
    obtain ⟨m2, k1, k2, k3⟩ := ih fun b hb => h b (by simp [hb])
    refine ⟨m1 ++ m2, ⟨m1, m2, rfl, h1, k1⟩, ?_, ?_⟩
    · intro m hm
      rcases List.mem_append.1 hm with hm | hm
      · exact h2 m hm
      · exact k2 m hm
    · rw [List.flatMap_cons, List.map_append, ← h3, ← k3]
      simp [patsOf]

/-! ### Sessions -/

theorem afterQueries_append (g : GPath) (l l' : List (Env × Str)) (fs : FS) :
    afterQueries g (l ++ l') fs = afterQueries g l' (afterQueries g l fs) := by
  induction l generalizing fs with
  | nil => rfl
  | cons x l ih => exact ih _

theorem usable_afterQueries {g : GPath} {l : List (Env × Str)} {ms : List ParsedMake} {fs : FS} (hu : Usable fs g) (hl : AddAll l ms) :
    Usable (afterQueries g l fs) g := by
  induction l generalizing ms fs with
  | nil => exact hu
  | cons x l ih =>
    obtain ⟨env', q⟩ := x
    obtain ⟨m1, m2, rfl, hq, hl⟩ := hl
    refine ih ?_ hl
    rcases query_cases env' q g fs with ⟨m, h1, h2, -⟩ | ⟨h1, h2⟩
    · rw [h2]
      refine (make_usable m hu).1 fun hp => ?_
      rcases hq with ⟨hmk, hst⟩ | ⟨-, hno⟩
      · rw [← makes_unique hmk h1] at hp
        exact hp.2 ⟨hst.values, hst.rel⟩
      · exact hno m h1 hp.1
    · rw [h2]
      exact hu

theorem AlikePart.refl (t : PartText) : AlikePart t t := ⟨rfl, rfl, rfl⟩

theorem alikeAll_refl (ps : List ParsedPattern) : AlikeAll ps ps := by
  induction ps with
  | nil => trivial
  | cons p ps ih => exact ⟨⟨.refl _, .refl _, .refl _, .refl _, .refl _, rfl, rfl, .rfl, .rfl⟩, ih⟩

theorem session_afterQueries {env : Env} {g : GPath} {l : List Str} {fs : FS} (h : ∀ q ∈ l, q ≠ c!"q" ∧ ¬ AsksHelp q) :
    ((shellLoop env g l).run fs).2 = afterQueries g (l.map fun q => (env, q)) fs := by
  induction l generalizing fs with
  | nil => rfl
  | cons q l ih =>
    obtain ⟨h1, h2⟩ := h q (by simp)
    rw [session_cons h1, if_neg fun k => h2 ((isSubstr_iff _ _).1 k), ih fun q hq => h q (by simp [hq])]
    rfl

end WG
