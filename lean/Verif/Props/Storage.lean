/-
Properties of the storage layer: C03–C13.
-/
import Verif.Proofs.Storage
import Verif.Spec.Storage
import Verif.Spec.DemoFS

namespace WG

section
variable [PyRuntime]

/-! ### C03 -/

/-- Reading the counter after writing `n` returns `n`, whatever was in the file before. -/
theorem C03_counter_round_trip (p : Path) (n : Int) (fs : FS) (h : DirOK fs p) :
    ((updateWiggleNumber p n).run fs).1 = .ok n ∧
    (getCurrentWiggleNumber p).run ((updateWiggleNumber p n).run fs).2 =
      (.ok n, ((updateWiggleNumber p n).run fs).2) := by
  rw [run_updateWiggleNumber h]
  exact ⟨rfl, run_getCurrentWiggleNumber_int (FS.get_set_self _ _ _)⟩

/-- An empty counter file raises, and nothing changes. -/
theorem C03_empty_counter_raises (p : Path) (fs : FS) (h : fs.get p = some []) :
    (getCurrentWiggleNumber p).run fs = (.error .exception, fs) := by
  rw [run_getCurrentWiggleNumber h]; rfl

/-! ### C04 -/

/-- A batch with a used key, at any position, is refused and the disk stays as it is. -/
theorem C04_add_never_overwrites (p : Path) (items d : Dict V) (fs : FS) (h : Holds fs p d)
    (k : Str) (hk : k ∈ items.map Prod.fst) (hd : k ∈ d.map Prod.fst) :
    (addItemToDatabase p items).run fs = (.error .nodeExists, fs) := by
  obtain ⟨text, h1, h2⟩ := h
  exact run_add_collision h1 h2 fun hf => hf.2 k hk hd

/-- After an add that returned, on any file, no stored record has changed. -/
theorem C04_no_record_replaced (p : Path) (items d d' : Dict V) (fs fs' : FS) (h : Holds fs p d)
    (hw : ∀ x ∈ items, x.2.WF) (hr : (addItemToDatabase p items).run fs = (.ok true, fs'))
    (h' : Holds fs' p d') (k : Str) (v : V)
    (hk : dictGet k d = some v) : dictGet k d' = some v := by
  obtain ⟨text, h1, h2⟩ := h
  obtain ⟨text', h1', h2'⟩ := h'
  by_cases hf : Fresh d items
  · have hn := (jsonLoad_dict_nodup h2)
    rw [run_add_fresh h1 h2 hf] at hr
    have hc : (jsonDump (.dict (d ++ items))).2 = true := by
      cases hc : (jsonDump (.dict (d ++ items))).2 with
      | true => rfl
      | false => rw [hc] at hr; simp at hr
    simp only [Prod.mk.injEq] at hr
    rw [← hr.2] at h1'
    simp only [FS.get_set_self, Option.some.injEq, overlay_zero] at h1'
    have hget : dictGet k (d ++ items) = some v := by
      apply dictGet_of_mem (fresh_nodup hn.1 hf)
      simp [dictGet_some_mem hk]
    have hwf : (Val.dict (d ++ items)).WF := by
      rw [Val.WF]
      exact ⟨fresh_nodup hn.1 hf, wfDict_append.2 ⟨Val.SerDict.wf _ hn.2, wfDict_iff.2 hw⟩⟩
    have hs := (jsonDump_complete hwf).1 hc
    have := jsonLoad_object_append (t := text.drop (jsonDump (.dict (d ++ items))).1.length)
      (jsonLoad_dump _ hs)
    rw [dumpText, h1', h2'] at this
    split at this
    · simp at this; rw [this]; exact hget
    · simp at this
  · rw [run_add_collision h1 h2 hf] at hr
    simp at hr

/-! ### C05 -/

omit [PyRuntime] in
theorem fresh_iff {α : Type} {d items : Dict α} (hn : (items.map Prod.fst).Nodup) :
    Fresh d items ↔ ¬ ∃ k ∈ items.map Prod.fst, k ∈ d.map Prod.fst := by
  constructor
  · rintro ⟨_, h⟩ ⟨k, h1, h2⟩; exact h k h1 h2
  · intro h; exact ⟨hn, fun k h1 h2 => h ⟨k, h1, h2⟩⟩

theorem DbOp.OK.ser {items : Dict V} (h : (DbOp.add items).OK) : Val.SerDict items := by
  rw [serDict_iff]
  intro x hx
  obtain ⟨s, e, hw⟩ := h.2 x hx
  exact (jsonDump_complete hw).1 (by rw [e])

/-- After any history of adds and wipes on a database file the program wrote, the file holds
exactly what the history says: refused batches leave the records alone, accepted ones are
appended behind the old records, in order. -/
theorem C05_add_keeps_old_and_stores_new (p : Path) (ops : List DbOp) (d : Dict V) (fs : FS)
    (hdir : DirOK fs p) (hok : ∀ o ∈ ops, o.OK)
    (h : fs.get p = some (jsonDump (.dict d)).1) (hd : Holds fs p d) :
    Holds (runDbOps p ops fs) p (ops.foldl DbOp.spec d) := by
  have hser : (Val.dict d).Ser := by
    obtain ⟨t, _, h2⟩ := hd; exact jsonLoad_ser h2
  clear hd
  suffices ∀ d fs, DirOK fs p → fs.get p = some (dumpText (.dict d)) → (Val.dict d).Ser →
      (runDbOps p ops fs).get p = some (dumpText (.dict (ops.foldl DbOp.spec d))) ∧
        (Val.dict (ops.foldl DbOp.spec d)).Ser by
    have := this d fs hdir h hser
    exact ⟨_, this.1, jsonLoad_dump _ this.2⟩
  clear h hser hdir
  induction ops with
  | nil => intro d fs _ h hs; exact ⟨h, hs⟩
  | cons o ops ih =>
    intro d fs hdir h hs
    rw [runDbOps, List.foldl_cons]
    have hok' : ∀ o ∈ ops, o.OK := fun o h => hok o (by simp [h])
    have ho := hok o (by simp)
    cases o with
    | add items =>
      have hnd : (items.map Prod.fst).Nodup := ho.1
      by_cases hc : ∃ k ∈ items.map Prod.fst, k ∈ d.map Prod.fst
      · have e : (DbOp.add items).spec d = d := if_pos hc
        have := run_add_collision (p := p) (items := items) h (jsonLoad_dump _ hs)
          (fun hf => (fresh_iff hnd).1 hf hc)
        rw [DbOp.prog, this, e]
        exact ih hok' d fs hdir h hs
      · have e : (DbOp.add items).spec d = d ++ items := if_neg hc
        have hf := (fresh_iff hnd).2 hc
        rw [DbOp.prog, run_add_ok h hs hf ho.ser, e]
        exact ih hok' _ _ (by simpa [DirOK] using hdir) (FS.get_set_self _ _ _)
          (ser_append hs hf ho.ser)
    | wipe b =>
      cases b with
      | true =>
        rw [DbOp.prog, run_wipe_true hdir]
        exact ih hok' _ _ (by simpa [DirOK] using hdir) (FS.get_set_self _ _ _)
          (by rw [DbOp.spec, Val.Ser]; exact ⟨by simp, trivial⟩)
      | false =>
        rw [DbOp.prog, run_wipe_false]
        exact ih hok' _ _ hdir h hs

/-- The next load returns these records. -/
theorem C05_load_returns_records (p : Path) (d : Dict V) (fs : FS) (h : Holds fs p d) :
    (loadDatabase p).run fs = (.ok (.dict d), fs) := by
  obtain ⟨t, h1, h2⟩ := h
  exact run_loadDatabase_some h1 h2

/-! ### C06 -/

/-- Exactly when an add keeps a valid database file valid: the part of the old text behind the
new text must be white space (there is no `truncate`).  In particular the file stays valid
whenever the old text is not longer than the new one. -/
theorem C06_add_to_valid_file_partial (p : Path) (items d : Dict V) (fs : FS) (text : Str)
    (h : fs.get p = some text) (hl : jsonLoad text = some (.dict d))
    (hok : (DbOp.add items).OK) (hc : ∀ k ∈ items.map Prod.fst, k ∉ d.map Prod.fst) :
    (Holds ((addItemToDatabase p items).run fs).2 p (d ++ items) ↔
      (text.drop (jsonDump (.dict (d ++ items))).1.length).all isJsonWs = true) ∧
    ((text.drop (jsonDump (.dict (d ++ items))).1.length).all isJsonWs = false →
      ((addItemToDatabase p items).run fs).1 = .ok true ∧
      Unreadable ((addItemToDatabase p items).run fs).2 p) := by
  have hf : Fresh d items := ⟨hok.1, hc⟩
  have hs := ser_append (jsonLoad_ser hl) hf hok.ser
  rw [run_add_fresh h hl hf, jsonDump_ser _ hs]
  have key := jsonLoad_object_append (t := text.drop (dumpText (.dict (d ++ items))).length)
    (jsonLoad_dump _ hs)
  have e : (skipWs (text.drop (dumpText (.dict (d ++ items))).length)).isEmpty =
      (text.drop (dumpText (.dict (d ++ items))).length).all isJsonWs := by
    have := skipWs_eq_nil_iff (text.drop (dumpText (.dict (d ++ items))).length)
    rw [Bool.eq_iff_iff, List.isEmpty_iff]
    exact this
  rw [e] at key
  simp only [overlay_zero]
  constructor
  · constructor
    · rintro ⟨t, h1, h2⟩
      simp only [FS.get_set_self, Option.some.injEq] at h1
      subst h1
      rw [key] at h2
      cases ha : (text.drop (dumpText (.dict (d ++ items))).length).all isJsonWs with
      | true => rfl
      | false => rw [ha] at h2; simp at h2
    · intro ha
      refine ⟨_, FS.get_set_self _ _ _, ?_⟩
      rw [key, ha]; rfl
  · intro ha
    refine ⟨rfl, _, FS.get_set_self _ _ _, ?_⟩
    rw [key, ha]; rfl

/-! ### C07 -/

/-- A value stored in the database is read back unchanged: for every value on which `json.dump`
succeeds, of any depth and with any characters. -/
theorem C07_values_survive_disk (p : Path) (k : Str) (v : V) (d : Dict V) (fs : FS)
    (h : fs.get p = some (jsonDump (.dict d)).1) (hd : Holds fs p d) (hk : k ∉ d.map Prod.fst)
    (hw : v.WF) (hv : (jsonDump v).2 = true) :
    ((addItemToDatabase p [(k, v)]).run fs).1 = .ok true ∧
    ∃ d', (loadDatabase p).run ((addItemToDatabase p [(k, v)]).run fs).2 =
        (.ok (.dict d'), ((addItemToDatabase p [(k, v)]).run fs).2) ∧
      dictGet k d' = some v ∧ ∀ k' v', dictGet k' d = some v' → dictGet k' d' = some v' := by
  obtain ⟨t, h1, h2⟩ := hd
  have hs := jsonLoad_ser h2
  have hvs := (jsonDump_complete hw).1 hv
  have hf : Fresh d [(k, v)] := ⟨by simp [keys], by simpa [keys] using hk⟩
  have hi : Val.SerDict [(k, v)] := ⟨hvs, trivial⟩
  have hs' := ser_append hs hf hi
  rw [run_add_ok h hs hf hi]
  refine ⟨rfl, d ++ [(k, v)], run_loadDatabase_some (FS.get_set_self _ _ _) (jsonLoad_dump _ hs'),
    ?_, ?_⟩
  · rw [← dictSet_fresh (α := V) hk]; exact dictGet_dictSet_self
  · intro k' v' hg
    rw [Val.Ser] at hs'
    exact dictGet_of_mem hs'.1 (by simp [dictGet_some_mem hg])

/-- The values concerned: everything built from null, booleans, integers, floats (including
infinities and nan), strings of any characters, lists and dicts of such values. -/
theorem C07_which_values (v : V) (hw : v.WF) : (jsonDump v).2 = true ↔ v.Ser := jsonDump_complete hw

/-! ### C08 -/

/-- Adding a batch with a value `json` cannot serialise raises TypeError — and destroys the
database file, whatever it held. -/
theorem C08_unserialisable_add_destroys (p : Path) (items d : Dict V) (fs : FS)
    (h : fs.get p = some (jsonDump (.dict d)).1) (hd : Holds fs p d)
    (hn : (items.map Prod.fst).Nodup) (hc : ∀ k ∈ items.map Prod.fst, k ∉ d.map Prod.fst)
    (hw : ∀ x ∈ items, x.2.WF) (hv : ∃ x ∈ items, (jsonDump x.2).2 = false) :
    ((addItemToDatabase p items).run fs).1 = .error .type ∧
      Unreadable ((addItemToDatabase p items).run fs).2 p := by
  obtain ⟨t, h1, h2⟩ := hd
  have hi : ¬ Val.SerDict items := by
    intro hs
    obtain ⟨x, hx, hf⟩ := hv
    rw [jsonDump_ser _ (serDict_iff.1 hs x hx)] at hf
    simp at hf
  obtain ⟨text, ht, e⟩ := run_add_opq h (jsonLoad_ser h2) ⟨hn, hc⟩ (wfDict_iff.2 hw) hi
  rw [e]
  exact ⟨rfl, text, FS.get_set_self _ _ _, ht⟩

/-! ### C09 -/

/-- Loading a database that is not JSON returns an empty graph instead of raising. -/
theorem C09_unreadable_loads_as_empty (p : Path) (fs : FS) (h : Unreadable fs p) :
    (loadDatabase p).run fs = (.ok (.dict []), fs) := by
  obtain ⟨t, h1, h2⟩ := h
  exact run_loadDatabase_bad h1 h2

/-- Adding to it raises JSONDecodeError and changes nothing. -/
theorem C09_add_to_unreadable_partial (p : Path) (items : Dict V) (fs : FS) (h : Unreadable fs p) :
    (addItemToDatabase p items).run fs = (.error .jsonDecode, fs) := by
  obtain ⟨t, h1, h2⟩ := h
  exact run_add_bad h1 h2

/-- C09 for missing files: loading or adding raises FileNotFoundError and creates nothing. -/
theorem C09_missing_is_reported_partial (o : SetOrd) (p : Path) (fs : FS) (h : fs.get p = none) :
    (loadDatabase p).run fs = (.error .fileNotFound, fs) ∧
    (∀ items, (addItemToDatabase p items).run fs = (.error .fileNotFound, fs)) ∧
    (loadNodeLabelsIndex p).run fs = (.error .fileNotFound, fs) ∧
    (loadRelationshipNamesIndex p).run fs = (.error .fileNotFound, fs) ∧
    (loadNodeRelationshipsIndex p).run fs = (.error .fileNotFound, fs) ∧
    (∀ items, (addItemsToNodeLabelsIndex o p items).run fs = (.error .fileNotFound, fs)) ∧
    (∀ items, (addItemsToRelationshipNamesIndex o p items).run fs = (.error .fileNotFound, fs)) ∧
    (∀ items, (addItemsToNodeRelationshipsIndex o p items).run fs = (.error .fileNotFound, fs)) ∧
    (getCurrentWiggleNumber p).run fs = (.error .fileNotFound, fs) := by
  have hr : (readFile p).run fs = (.error .fileNotFound, fs) := by
    simp [readFile, Prog.run, exec, h]
  have hb : ∀ {α : Type} (k : Str → Prog α), ((readFile p).bind k).run fs = (.error .fileNotFound, fs) := by
    intro α k
    exact run_bind_err hr
  refine ⟨?_, fun items => hb _, ?_, ?_, ?_, fun items => hb _, fun items => hb _, fun items => hb _, hb _⟩
  all_goals
    try unfold loadDatabase
    try unfold loadNodeLabelsIndex
    try unfold loadRelationshipNamesIndex
    try unfold loadIndexSet
    try unfold loadNodeRelationshipsIndex
    rw [run_tryCatch]
    simp only [bind]
    rw [hb]
    simp

/-! ### C10 -/

/-- Without `im_sure` no wipe changes anything, and none says that it did. -/
theorem C10_wipe_needs_confirmation (p : Path) (fs : FS) :
    (wipeDatabase p false).run fs = (.ok false, fs) ∧ (wipeNodeLabelsIndex p false).run fs = (.ok false, fs) ∧
    (wipeRelationshipNamesIndex p false).run fs = (.ok false, fs) ∧
    (wipeNodeRelationshipsIndex p false).run fs = (.ok false, fs) := ⟨rfl, rfl, rfl, rfl⟩

/-- A confirmed wipe of the database, whatever it contained, leaves an empty database and all
other files. -/
theorem C10_wipe_database (p : Path) (fs : FS) (h : DirOK fs p) :
    ((wipeDatabase p true).run fs).1 = .ok true ∧ Holds ((wipeDatabase p true).run fs).2 p [] ∧
      ∀ q, q ≠ p → ((wipeDatabase p true).run fs).2.get q = fs.get q := by
  rw [run_wipe_true h]
  refine ⟨rfl, ⟨_, FS.get_set_self _ _ _, jsonLoad_dump _ ?_⟩, ?_⟩
  · rw [Val.Ser]; exact ⟨by simp, trivial⟩
  · intro q hq; exact FS.get_set_ne (Ne.symm hq) _ _

/-- A confirmed wipe of one index empties that index, keeps the other two and all other files. -/
theorem C10_wipe_index (p : Path) (fs : FS) (D : Dict V) (labels names : List Str)
    (rels : Dict (List Int)) (h : Holds fs p D) (hs : IndexShape D labels names rels) :
    (((wipeNodeLabelsIndex p true).run fs).1 = .ok true ∧ ((wipeRelationshipNamesIndex p true).run fs).1 = .ok true ∧
      ((wipeNodeRelationshipsIndex p true).run fs).1 = .ok true) ∧
    (∃ D', Holds ((wipeNodeLabelsIndex p true).run fs).2 p D' ∧ IndexShape D' [] names rels) ∧
    (∃ D', Holds ((wipeRelationshipNamesIndex p true).run fs).2 p D' ∧ IndexShape D' labels [] rels) ∧
    (∃ D', Holds ((wipeNodeRelationshipsIndex p true).run fs).2 p D' ∧ IndexShape D' labels names []) ∧
    ∀ q, q ≠ p → ((wipeNodeLabelsIndex p true).run fs).2.get q = fs.get q ∧
      ((wipeRelationshipNamesIndex p true).run fs).2.get q = fs.get q ∧
      ((wipeNodeRelationshipsIndex p true).run fs).2.get q = fs.get q := by
  obtain ⟨t, h1, h2⟩ := h
  have hD := jsonLoad_ser h2
  have le : (Val.list [] : V).Ser := by rw [Val.Ser]; trivial
  have de : (Val.dict [] : V).Ser := by rw [Val.Ser]; exact ⟨by simp, trivial⟩
  unfold wipeNodeLabelsIndex wipeRelationshipNamesIndex wipeNodeRelationshipsIndex wipeIndexSet
  rw [run_wipeIndexWith le h1 h2, run_wipeIndexWith le h1 h2, run_wipeIndexWith de h1 h2]
  obtain ⟨s1, s2, s3⟩ := hs
  refine ⟨⟨rfl, rfl, rfl⟩, ⟨_, ⟨_, FS.get_set_self _ _ _, jsonLoad_dump _ (ser_dictSet hD le)⟩, ?_⟩,
    ⟨_, ⟨_, FS.get_set_self _ _ _, jsonLoad_dump _ (ser_dictSet hD le)⟩, ?_⟩,
    ⟨_, ⟨_, FS.get_set_self _ _ _, jsonLoad_dump _ (ser_dictSet hD de)⟩, ?_⟩, ?_⟩
  · exact ⟨dictGet_dictSet_self, by rw [dictGet_dictSet_ne (by decide)]; exact s2,
      by rw [dictGet_dictSet_ne (by decide)]; exact s3⟩
  · exact ⟨by rw [dictGet_dictSet_ne (by decide)]; exact s1, dictGet_dictSet_self,
      by rw [dictGet_dictSet_ne (by decide)]; exact s3⟩
  · exact ⟨by rw [dictGet_dictSet_ne (by decide)]; exact s1,
      by rw [dictGet_dictSet_ne (by decide)]; exact s2, dictGet_dictSet_self⟩
  · intro q hq
    exact ⟨FS.get_set_ne (Ne.symm hq) _ _, FS.get_set_ne (Ne.symm hq) _ _,
      FS.get_set_ne (Ne.symm hq) _ _⟩

/-! ### C11, C12 -/

/-- One addition to an index file of the expected shape: it returns, the file keeps its shape, the
addressed index becomes the union of old and new, the others are unchanged, and so are all other
files. -/
theorem C11_index_add_is_union (p : Path) (op : IdxOp) (fs : FS) (D : Dict V)
    (labels names : List Str) (rels : Dict (List Int)) (h : Holds fs p D)
    (hs : IndexShape D labels names rels) (hne : op.NonEmpty) :
    ((op.prog p).run fs).1 = .ok true ∧
    (∀ q, q ≠ p → ((op.prog p).run fs).2.get q = fs.get q) ∧
    ∃ D' labels' names' rels', Holds ((op.prog p).run fs).2 p D' ∧
      IndexShape D' labels' names' rels' ∧ D'.map Prod.fst = D.map Prod.fst ∧
      (∀ x, x ∈ labels' ↔ x ∈ labels ∨ op.addsLabel x) ∧
      (∀ x, x ∈ names' ↔ x ∈ names ∨ op.addsName x) ∧
      (∀ k n, n ∈ relsOf rels' k ↔ n ∈ relsOf rels k ∨ op.addsRel k n) ∧
      (match op with
        | .labels _ _ => labels'.Nodup ∧ names' = names ∧ rels' = rels
        | .names _ _ => names'.Nodup ∧ labels' = labels ∧ rels' = rels
        | .rels _ items => labels' = labels ∧ names' = names ∧
            (∀ k, k ∈ rels'.map Prod.fst ↔ k ∈ rels.map Prod.fst ∨ k ∈ items.map Prod.fst) ∧
            (∀ k ∈ items.map Prod.fst, (relsOf rels' k).Nodup) ∧
            ∀ k, k ∉ items.map Prod.fst → dictGet k rels' = dictGet k rels) := by
  obtain ⟨text, h1, h2⟩ := h
  have hD := jsonLoad_ser h2
  obtain ⟨s1, s2, s3⟩ := hs
  have hrn : (keys rels).Nodup := by
    have := ser_of_dictGet hD s3
    rw [Val.Ser] at this
    have h' := this.1
    rw [List.map_map] at h'
    exact h'
  have kD : ∀ (k : Str) (v v' : V), dictGet k D = some v' →
      (dictSet k v D).map Prod.fst = D.map Prod.fst := by
    intro k v v' hg
    apply keys_dictSet_mem
    have := dictGet_some_mem hg
    simp only [keys, List.mem_map]
    exact ⟨_, this, rfl⟩
  cases op with
  | labels o items =>
    obtain ⟨new, e, hn, hm⟩ := union_strs o labels items
    have hser : (Val.list (new.map Val.str) : V).Ser := by
      rw [Val.Ser, serList_iff]; intro x hx; simp at hx; obtain ⟨a, _, rfl⟩ := hx; trivial
    simp only [IdxOp.prog, addItemsToNodeLabelsIndex]
    rw [run_addItemsSet h1 h2 (by exact s1) (pySet_strs labels), e]
    refine ⟨rfl, fun q hq => FS.get_set_ne (Ne.symm hq) _ _, _, new, names, rels,
      ⟨_, FS.get_set_self _ _ _, jsonLoad_dump _ (ser_dictSet hD hser)⟩, ⟨?_, ?_, ?_⟩,
      kD _ _ _ s1, ?_, ?_, ?_, hn, rfl, rfl⟩
    · exact dictGet_dictSet_self
    · rw [dictGet_dictSet_ne (by decide)]; exact s2
    · rw [dictGet_dictSet_ne (by decide)]; exact s3
    · exact hm
    · simp [IdxOp.addsName]
    · simp [IdxOp.addsRel]
  | names o items =>
    obtain ⟨new, e, hn, hm⟩ := union_strs o names items
    have hser : (Val.list (new.map Val.str) : V).Ser := by
      rw [Val.Ser, serList_iff]; intro x hx; simp at hx; obtain ⟨a, _, rfl⟩ := hx; trivial
    simp only [IdxOp.prog, addItemsToRelationshipNamesIndex]
    rw [run_addItemsSet h1 h2 (by exact s2) (pySet_strs names), e]
    refine ⟨rfl, fun q hq => FS.get_set_ne (Ne.symm hq) _ _, _, labels, new, rels,
      ⟨_, FS.get_set_self _ _ _, jsonLoad_dump _ (ser_dictSet hD hser)⟩, ⟨?_, ?_, ?_⟩,
      kD _ _ _ s2, ?_, ?_, ?_, hn, rfl, rfl⟩
    · rw [dictGet_dictSet_ne (by decide)]; exact s1
    · exact dictGet_dictSet_self
    · rw [dictGet_dictSet_ne (by decide)]; exact s3
    · simp [IdxOp.addsLabel]
    · exact hm
    · simp [IdxOp.addsRel]
  | rels o items =>
    obtain ⟨rels', e, hn, hK, hM, hG, hN⟩ := relIndexLoop_ints (o := o) (items := items) hrn
    have hser := relsVal_ser hn
    simp only [IdxOp.prog]
    rw [run_addRelIndex h1 h2 (R := relsVal rels) (by exact s3) e hser (by simpa using (show items ≠ [] from hne))]
    refine ⟨rfl, fun q hq => FS.get_set_ne (Ne.symm hq) _ _, _, labels, names, rels',
      ⟨_, FS.get_set_self _ _ _, jsonLoad_dump _ (ser_dictSet hD hser)⟩, ⟨?_, ?_, ?_⟩,
      kD _ _ _ s3, ?_, ?_, hM, rfl, rfl, hK, hN, hG⟩
    · rw [dictGet_dictSet_ne (by decide)]; exact s1
    · rw [dictGet_dictSet_ne (by decide)]; exact s2
    · exact dictGet_dictSet_self
    · simp [IdxOp.addsLabel]
    · simp [IdxOp.addsName]

/-- Any history of additions, in any order, with any set iteration orders: every index is the
union of what it held and what was added.  Hence adding is idempotent and order-independent. -/
theorem C12_index_history_is_union (p : Path) (ops : List IdxOp) (fs : FS) (D : Dict V)
    (labels names : List Str) (rels : Dict (List Int)) (h : Holds fs p D)
    (hs : IndexShape D labels names rels) (hne : ∀ o ∈ ops, o.NonEmpty) :
    ∃ D' labels' names' rels', Holds (runIdxOps p ops fs) p D' ∧
      IndexShape D' labels' names' rels' ∧ D'.map Prod.fst = D.map Prod.fst ∧
      (∀ x, x ∈ labels' ↔ x ∈ labels ∨ ∃ o ∈ ops, o.addsLabel x) ∧
      (∀ x, x ∈ names' ↔ x ∈ names ∨ ∃ o ∈ ops, o.addsName x) ∧
      (∀ k n, n ∈ relsOf rels' k ↔ n ∈ relsOf rels k ∨ ∃ o ∈ ops, o.addsRel k n) := by
  induction ops generalizing fs D labels names rels with
  | nil => exact ⟨D, labels, names, rels, h, hs, rfl, by simp, by simp, by simp⟩
  | cons o ops ih =>
    obtain ⟨_, _, D1, l1, n1, r1, a1, a2, a3, a4, a5, a6, _⟩ :=
      C11_index_add_is_union p o fs D labels names rels h hs (hne o (by simp))
    obtain ⟨D', l', n', r', b1, b2, b3, b4, b5, b6⟩ :=
      ih _ D1 l1 n1 r1 a1 a2 (fun o h => hne o (by simp [h]))
    refine ⟨D', l', n', r', b1, b2, b3.trans a3, ?_, ?_, ?_⟩
    · intro x; rw [b4, a4]; simp [or_assoc]
    · intro x; rw [b5, a5]; simp [or_assoc]
    · intro k n; rw [b6, a6]; simp [or_assoc]

/-- What the load functions return for an index file of the expected shape. -/
theorem C11_load_returns_index (p : Path) (fs : FS) (D : Dict V)
    (labels names : List Str) (rels : Dict (List Int)) (h : Holds fs p D)
    (hs : IndexShape D labels names rels) :
    (∃ l, (loadNodeLabelsIndex p).run fs = (.ok l, fs) ∧ ∀ x, x ∈ l ↔ ∃ s ∈ labels, x = .str s) ∧
    (∃ l, (loadRelationshipNamesIndex p).run fs = (.ok l, fs) ∧ ∀ x, x ∈ l ↔ ∃ s ∈ names, x = .str s) ∧
    (∃ S, (loadNodeRelationshipsIndex p).run fs = (.ok S, fs) ∧
      S.map Prod.fst = rels.map Prod.fst ∧
      ∀ k x, (∃ s, (k, s) ∈ S ∧ x ∈ s) ↔ ∃ n ∈ relsOf rels k, x = .int n) := by
  obtain ⟨text, h1, h2⟩ := h
  obtain ⟨s1, s2, s3⟩ := hs
  refine ⟨⟨_, run_loadIndexSet h1 h2 s1 (pySet_strs labels), ?_⟩,
    ⟨_, run_loadIndexSet h1 h2 s2 (pySet_strs names), ?_⟩, ?_⟩
  · intro x; rw [mem_dedup]; simp [eq_comm]
  · intro x; rw [mem_dedup]; simp [eq_comm]
  · have hrn : (keys rels).Nodup := by
      have := ser_of_dictGet (jsonLoad_ser h2) s3
      rw [Val.Ser] at this
      have h' := this.1
      rw [List.map_map] at h'
      exact h'
    obtain ⟨S, e, hS⟩ := jsonToDict_ok (R := relsVal rels) (by
      intro x hx
      simp only [relsVal, List.mem_map] at hx
      obtain ⟨q, _, rfl⟩ := hx
      exact ⟨_, rfl, hashable_ints _⟩)
    refine ⟨S, ?_, ?_, ?_⟩
    · unfold loadNodeRelationshipsIndex
      rw [run_tryCatch, run_bind_ok (run_readFile_some h1), loads_some h2,
        run_bind_ok (run_liftE_ok _ _),
        getItem_dict (name := NODE_RELATIONSHIPS_INDEX_NAME) s3, run_bind_ok (run_liftE_ok _ _)]
      simp only
      rw [show (rels.map fun q => (q.1, Val.list (q.2.map Val.int))) = relsVal rels from rfl, e]
      rfl
    · rw [hS]; simp [relsVal]
    · intro k x
      rw [hS]
      simp only [relsVal, List.map_map, List.mem_map, Function.comp]
      constructor
      · rintro ⟨s, ⟨q, hq, he⟩, hx⟩
        simp at he
        obtain ⟨rfl, rfl⟩ := he
        rw [mem_dedup] at hx
        simp at hx
        obtain ⟨n, hn, rfl⟩ := hx
        exact ⟨n, by rw [relsOf, dictGet_of_mem hrn hq]; exact hn, rfl⟩
      · rintro ⟨n, hn, rfl⟩
        cases hg : dictGet k rels with
        | none => rw [relsOf, hg] at hn; simp at hn
        | some l =>
          rw [relsOf, hg] at hn
          exact ⟨_, ⟨(k, l), dictGet_some_mem hg, rfl⟩, by rw [mem_dedup]; exact mem_map_int.2 hn⟩

/-! ### C13 -/

/-- Adding an empty batch to the relationship index always makes the index file unreadable,
although the call returns normally. -/
theorem C13_empty_add_destroys (o : SetOrd) (p : Path) (fs : FS) (D : Dict V)
    (labels names : List Str) (rels : Dict (List Int)) (h : Holds fs p D)
    (hs : IndexShape D labels names rels) :
    ((addItemsToNodeRelationshipsIndex o p []).run fs).1 = .ok true ∧
      Unreadable ((addItemsToNodeRelationshipsIndex o p []).run fs).2 p := by
  obtain ⟨text, h1, h2⟩ := h
  have hD := jsonLoad_ser h2
  rw [run_addRelIndex_empty h1 h2 (by exact hs.rels)]
  refine ⟨rfl, _, FS.get_set_self _ _ _, ?_⟩
  rw [jsonLoad_object_append h2]
  have hst := dumpText_startOK _ (ser_dictSet (k := NODE_RELATIONSHIPS_INDEX_NAME) hD
    (ser_of_dictGet hD hs.rels))
  rw [hst.skip]
  obtain ⟨c, r, e, _⟩ := hst
  rw [e]; rfl

end

/-! ### Concrete cases -/
section
attribute [local instance] demoRuntime

theorem demoTwo_holds : Holds demoTwo demoG.db demoRecords := ⟨_, rfl, by decide +kernel⟩
theorem demoIdx_holds : Holds demoIdx demoG.idx demoIndex := ⟨_, rfl, by decide +kernel⟩
theorem demoIdx_shape : IndexShape demoIndex [c!"A", c!"B"] [c!"R"] [(c!"1", [3]), (c!"2", [4, 5])] :=
  ⟨rfl, rfl, rfl⟩

/-- C03: a counter file with other content is replaced. -/
example : ((getCurrentWiggleNumber demoG.wn).run ((updateWiggleNumber demoG.wn 42).run demoTwo).2).1 =
    .ok 42 := by
  rw [(C03_counter_round_trip demoG.wn 42 demoTwo (by decide)).2]
/-- C03: an empty counter file. -/
example : (getCurrentWiggleNumber demoG.wn).run (demoFS [] [] []) = (.error .exception, demoFS [] [] []) :=
  C03_empty_counter_raises _ _ rfl
/-- C04: the second key of the batch collides. -/
example : (addItemToDatabase demoG.db [(c!"7", .none), (c!"2", .none)]).run demoTwo =
    (.error .nodeExists, demoTwo) :=
  C04_add_never_overwrites _ _ _ _ demoTwo_holds c!"2" (by decide) (by decide)
/-- C05: add, refused add, wipe, add. -/
example : Holds (runDbOps demoG.db [.add [(c!"3", .list [.bool true])], .add [(c!"1", .none)], .wipe false,
      .wipe true, .add [(c!"9", .int (-1))]] demoTwo) demoG.db [(c!"9", .int (-1))] := by
  have := C05_add_keeps_old_and_stores_new demoG.db [.add [(c!"3", .list [.bool true])],
    .add [(c!"1", .none)], .wipe false, .wipe true, .add [(c!"9", .int (-1))]] demoRecords demoTwo
    (by decide) (by
      intro o ho
      simp at ho
      rcases ho with rfl | rfl | rfl | rfl | rfl <;>
        simp [DbOp.OK, Val.WF, Val.WFList] <;> exact ⟨_, rfl⟩) rfl demoTwo_holds
  exact this
/-- C06 is violated: a valid database file with blanks in it is destroyed by a valid add. -/
theorem C06_violated : ∃ (fs : FS) (items : Dict V), Holds fs demoG.db [] ∧
    ((addItemToDatabase demoG.db items).run fs).1 = .ok true ∧
    Unreadable ((addItemToDatabase demoG.db items).run fs).2 demoG.db := by
  refine ⟨demoFS c!"{                              }" [] [], [(c!"1", .int 5)],
    ⟨_, rfl, by decide +kernel⟩, ?_⟩
  exact (C06_add_to_valid_file_partial demoG.db [(c!"1", .int 5)] [] _ _ rfl (by decide +kernel)
    (by simp [DbOp.OK, Val.WF]; exact ⟨_, rfl⟩) (by simp)).2 (by decide +kernel)
/-- C06: a compact file (`{"1":5}`) stays valid. -/
example : Holds ((addItemToDatabase demoG.db [(c!"2", .int 6)]).run (demoFS c!"{\"1\":5}" [] [])).2 demoG.db
    [(c!"1", .int 5), (c!"2", .int 6)] :=
  (C06_add_to_valid_file_partial demoG.db [(c!"2", .int 6)] [(c!"1", .int 5)] _ _ rfl (by decide +kernel)
    (by simp [DbOp.OK, Val.WF]; exact ⟨_, rfl⟩) (by simp)).1.2 (by decide +kernel)
/-- C07: a nested value with a quote, a newline, an accent and an astral character. -/
example : ((addItemToDatabase demoG.db
      [(c!"k", .list [.dict [(c!"a\"b", .str c!"é\n😀")], .none, .flt (.inf true)])]).run demoTwo).1 =
    .ok true :=
  (C07_values_survive_disk _ _ _ demoRecords demoTwo rfl demoTwo_holds (by decide)
    (by simp [Val.WF, Val.WFList, Val.WFDict]) (by decide +kernel)).1
/-- C08 is violated: storing `[1j]` raises and the two stored records are gone. -/
theorem C08_violated_add : ∃ (fs : FS) (items : Dict V), Holds fs demoG.db demoRecords ∧
    ((addItemToDatabase demoG.db items).run fs).1 = .error .type ∧
    Unreadable ((addItemToDatabase demoG.db items).run fs).2 demoG.db :=
  ⟨demoTwo, [(c!"3", .list [.opq 0])], demoTwo_holds,
    C08_unserialisable_add_destroys demoG.db _ demoRecords demoTwo rfl demoTwo_holds (by simp)
      (by decide) (by simp [Val.WF, Val.WFList]) ⟨_, List.mem_singleton.2 rfl, by decide +kernel⟩⟩
/-- C09: a disk without files. -/
example : (loadDatabase demoG.db).run ⟨[], [], [], []⟩ = (.error .fileNotFound, ⟨[], [], [], []⟩) :=
  (C09_missing_is_reported_partial demoOrd demoG.db _ rfl).1

/-- C09 is violated for loading: a truncated database file loads as the empty graph. -/
theorem C09_violated : ∃ fs : FS, Unreadable fs demoG.db ∧
    (loadDatabase demoG.db).run fs = (.ok (.dict []), fs) := by
  have h : Unreadable (demoFS c!"{\"1\": 5" [] []) demoG.db := ⟨_, rfl, by decide +kernel⟩
  exact ⟨_, h, C09_unreadable_loads_as_empty _ _ h⟩
/-- C09: adding to a truncated file. -/
example : (addItemToDatabase demoG.db [(c!"1", .none)]).run (demoFS c!"{\"1\": 5" [] []) =
    (.error .jsonDecode, demoFS c!"{\"1\": 5" [] []) :=
  C09_add_to_unreadable_partial _ _ _ ⟨_, rfl, by decide +kernel⟩
/-- C10: wiping an index file with content. -/
example : ∃ D', Holds ((wipeNodeLabelsIndex demoG.idx true).run demoIdx).2 demoG.idx D' ∧
    IndexShape D' [] [c!"R"] [(c!"1", [3]), (c!"2", [4, 5])] :=
  (C10_wipe_index _ _ _ _ _ _ demoIdx_holds demoIdx_shape).2.1
/-- C10: wiping a database with content. -/
example : Holds ((wipeDatabase demoG.db true).run demoTwo).2 demoG.db [] :=
  (C10_wipe_database _ _ (by decide)).2.1
/-- C11, C12: additions with overlap and a new node. -/
example : ∃ D' labels' names' rels', Holds (runIdxOps demoG.idx [.labels demoOrd [c!"B", c!"C"],
      .rels demoOrd [(c!"2", [5, 6]), (c!"7", [8])], .names demoOrd []] demoIdx) demoG.idx D' ∧
    IndexShape D' labels' names' rels' ∧ c!"C" ∈ labels' ∧ 4 ∈ relsOf rels' c!"2" ∧ 6 ∈ relsOf rels' c!"2" := by
  obtain ⟨D', l, n, r, h1, h2, _, h3, _, h5⟩ := C12_index_history_is_union demoG.idx
    [.labels demoOrd [c!"B", c!"C"], .rels demoOrd [(c!"2", [5, 6]), (c!"7", [8])], .names demoOrd []]
    demoIdx demoIndex _ _ _ demoIdx_holds demoIdx_shape (by simp [IdxOp.NonEmpty])
  refine ⟨D', l, n, r, h1, h2, ?_, ?_, ?_⟩
  · rw [h3]; simp [IdxOp.addsLabel]
  · rw [h5]; exact Or.inl (by decide)
  · rw [h5]; exact Or.inr ⟨_, List.mem_cons_of_mem _ (List.mem_cons_self), [5, 6], by simp, by simp⟩
/-- C13 is violated: the empty batch destroys an index file with content. -/
theorem C13_violated : ∃ fs D, Holds fs demoG.idx D ∧
    ((addItemsToNodeRelationshipsIndex demoOrd demoG.idx []).run fs).1 = .ok true ∧
    Unreadable ((addItemsToNodeRelationshipsIndex demoOrd demoG.idx []).run fs).2 demoG.idx :=
  ⟨demoIdx, demoIndex, demoIdx_holds,
    C13_empty_add_destroys demoOrd _ _ _ _ _ _ demoIdx_holds demoIdx_shape⟩

end
end WG
