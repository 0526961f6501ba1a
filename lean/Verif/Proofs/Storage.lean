/- What the storage functions do to the files. -/
import Verif.Proofs.JsonSer
import Verif.Proofs.Files
import Verif.Model.Database
import Verif.Model.Indexes
import Verif.Model.WiggleNumber

namespace WG
variable [PyRuntime]

theorem loads_some {s : Str} {v : V} (h : jsonLoad s = some v) : loads s = .ok v := by
  simp [loads, h]

theorem loads_none {s : Str} (h : jsonLoad s = none) : loads s = .error .jsonDecode := by
  simp [loads, h]

theorem run_dumpTo {p : Path} {pos : Nat} {v : V} {old : Str} {fs : FS} (h : fs.get p = some old) :
    (dumpTo p pos v).run fs =
      (if (jsonDump v).2 then .ok (pos + (jsonDump v).1.length) else .error .type,
        fs.set p (overlay old pos (jsonDump v).1)) := by
  unfold dumpTo
  rw [run_bind_ok (run_write h)]
  split <;> rfl

/-! ### Counter -/

theorem run_getCurrentWiggleNumber {p : Path} {s : Str} {fs : FS} (h : fs.get p = some s) :
    (getCurrentWiggleNumber p).run fs =
      (if s.isEmpty then .error .exception
        else match pyInt s with
          | some n => .ok n
          | none => .error .value, fs) := by
  unfold getCurrentWiggleNumber
  rw [run_bind_ok (run_readFile_some h)]
  split
  · rfl
  · cases pyInt s <;> rfl

theorem run_getCurrentWiggleNumber_int {p : Path} {n : Int} {fs : FS}
    (h : fs.get p = some (intStr n)) : (getCurrentWiggleNumber p).run fs = (.ok n, fs) := by
  rw [run_getCurrentWiggleNumber h, pyInt_intStr]
  simp [intStr_ne_nil]

theorem run_getCurrentWiggleNumber_none {p : Path} {fs : FS} (h : fs.get p = none) :
    (getCurrentWiggleNumber p).run fs = (.error .fileNotFound, fs) := by
  unfold getCurrentWiggleNumber
  rw [run_bind_err (run_readFile_none h)]

theorem getCurrentWiggleNumber_fs (p : Path) (fs : FS) :
    ((getCurrentWiggleNumber p).run fs).2 = fs := by
  cases h : fs.get p with
  | none => rw [run_getCurrentWiggleNumber_none h]
  | some s => rw [run_getCurrentWiggleNumber h]

omit [PyRuntime] in
theorem run_updateWiggleNumber {p : Path} {n : Int} {fs : FS} (h : (p.folder, p.dir) ∈ fs.dirs) :
    (updateWiggleNumber p n).run fs = (.ok n, fs.set p (intStr n)) := by
  unfold updateWiggleNumber
  rw [run_bind_ok (run_openW h), run_bind_ok (run_write (FS.get_set_self _ _ _))]
  simp

omit [PyRuntime] in
theorem run_updateWiggleNumber_fail {p : Path} {n : Int} {fs : FS} (h : (p.folder, p.dir) ∉ fs.dirs) :
    (updateWiggleNumber p n).run fs = (.error .fileNotFound, fs) := by
  unfold updateWiggleNumber
  rw [run_bind_err (run_openW_fail h)]

/-! ### Database -/

/-- The items can be added to `d`: their keys are new and pairwise different. -/
def Fresh {α : Type} (d items : Dict α) : Prop :=
  (keys items).Nodup ∧ ∀ k ∈ keys items, k ∉ keys d

theorem addLoop_fresh {d items : Dict V} (h : Fresh d items) :
    addLoop (.dict d) items = .ok (.dict (d ++ items)) := by
  induction items generalizing d with
  | nil => simp [addLoop]
  | cons p items ih =>
    obtain ⟨k, v⟩ := p
    obtain ⟨h1, h2⟩ := h
    rw [keys, List.map_cons, List.nodup_cons] at h1
    have hk : k ∉ keys d := h2 k (by simp [keys])
    have := ih (d := d ++ [(k, v)]) ⟨h1.2, by
      intro k' hk'
      simp only [keys, List.map_append, List.mem_append, not_or]
      refine ⟨h2 k' (by simp only [keys, List.map_cons, List.mem_cons]; exact Or.inr hk'), ?_⟩
      intro e
      simp at e
      subst e
      exact h1.1 hk'⟩
    simp only [addLoop, inVal, dictHas_false_iff.2 hk, setItem, dictSet_fresh hk, this,
      List.append_assoc, List.cons_append, List.nil_append]

theorem addLoop_collision {d items : Dict V} (h : ¬ Fresh d items) :
    addLoop (.dict d) items = .error .nodeExists := by
  induction items generalizing d with
  | nil => exact absurd ⟨by simp, by simp⟩ h
  | cons p items ih =>
    obtain ⟨k, v⟩ := p
    by_cases hk : k ∈ keys d
    · simp only [addLoop, inVal, dictHas_iff.2 hk]
    · have : ¬ Fresh (d ++ [(k, v)]) items := by
        rintro ⟨h1, h2⟩
        apply h
        have hk2 : k ∉ keys items := by
          intro hm
          exact h2 k hm (by simp [keys])
        refine ⟨by rw [keys, List.map_cons, List.nodup_cons]; exact ⟨hk2, h1⟩, ?_⟩
        intro k' hk'
        simp only [keys, List.map_cons, List.mem_cons] at hk'
        rcases hk' with rfl | hk'
        · exact hk
        · intro hm
          exact h2 k' hk' (by simp only [keys, List.map_append, List.mem_append]; exact Or.inl hm)
      simp only [addLoop, inVal, dictHas_false_iff.2 hk, setItem, dictSet_fresh hk, ih this]

theorem run_add_none {p : Path} {items : Dict V} {fs : FS} (h : fs.get p = none) :
    (addItemToDatabase p items).run fs = (.error .fileNotFound, fs) := by
  unfold addItemToDatabase
  rw [run_bind_err (run_readFile_none h)]

theorem run_add_bad {p : Path} {items : Dict V} {fs : FS} {text : Str} (h : fs.get p = some text)
    (hl : jsonLoad text = none) : (addItemToDatabase p items).run fs = (.error .jsonDecode, fs) := by
  unfold addItemToDatabase
  rw [run_bind_ok (run_readFile_some h), loads_none hl]
  rfl

theorem run_add_collision {p : Path} {items d : Dict V} {fs : FS} {text : Str}
    (h : fs.get p = some text) (hl : jsonLoad text = some (.dict d)) (hf : ¬ Fresh d items) :
    (addItemToDatabase p items).run fs = (.error .nodeExists, fs) := by
  unfold addItemToDatabase
  rw [run_bind_ok (run_readFile_some h), loads_some hl, run_bind_ok (run_liftE_ok _ _),
    addLoop_collision hf]
  rfl

theorem run_add_fresh {p : Path} {items d : Dict V} {fs : FS} {text : Str}
    (h : fs.get p = some text) (hl : jsonLoad text = some (.dict d)) (hf : Fresh d items) :
    (addItemToDatabase p items).run fs =
      (if (jsonDump (.dict (d ++ items))).2 then .ok true else .error .type,
        fs.set p (overlay text 0 (jsonDump (.dict (d ++ items))).1)) := by
  unfold addItemToDatabase
  rw [run_bind_ok (run_readFile_some h), loads_some hl, run_bind_ok (run_liftE_ok _ _),
    addLoop_fresh hf, run_bind_ok (run_liftE_ok _ _), run_bind, run_dumpTo h]
  cases (jsonDump (.dict (d ++ items))).2 <;> rfl

omit [PyRuntime] in
theorem fresh_nodup {α : Type} {d items : Dict α} (hd : (keys d).Nodup) (hf : Fresh d items) :
    (keys (d ++ items)).Nodup := by
  rw [keys, List.map_append, List.nodup_append]
  refine ⟨hd, hf.1, ?_⟩
  intro a ha b hb e
  subst e
  exact hf.2 a hb ha

omit [PyRuntime] in
theorem serDict_append {F : Type} {d e : List (Str × Val F)} :
    Val.SerDict (d ++ e) ↔ Val.SerDict d ∧ Val.SerDict e := by
  simp only [serDict_iff, List.mem_append]
  grind

omit [PyRuntime] in
theorem wfDict_append {F : Type} {d e : List (Str × Val F)} :
    Val.WFDict (d ++ e) ↔ Val.WFDict d ∧ Val.WFDict e := by
  simp only [wfDict_iff, List.mem_append]
  grind

theorem ser_append {d items : Dict V} (hd : (Val.dict d).Ser) (hf : Fresh d items)
    (hi : Val.SerDict items) : (Val.dict (d ++ items)).Ser := by
  rw [Val.Ser] at hd ⊢
  exact ⟨fresh_nodup hd.1 hf, serDict_append.2 ⟨hd.2, hi⟩⟩

/-- Successful add on a database file in the program's own format. -/
theorem run_add_ok {p : Path} {items d : Dict V} {fs : FS}
    (h : fs.get p = some (dumpText (.dict d))) (hd : (Val.dict d).Ser) (hf : Fresh d items)
    (hi : Val.SerDict items) :
    (addItemToDatabase p items).run fs = (.ok true, fs.set p (dumpText (.dict (d ++ items)))) := by
  have hs := ser_append hd hf hi
  rw [run_add_fresh h (jsonLoad_dump _ hd) hf, jsonDump_ser _ hs, overlay_zero]
  have := overlay_append (e := items) (by rw [Val.Ser] at hd; exact hd.2 : Val.SerDict d)
  rw [jsonDump_ser _ hs] at this
  simp [this]

/-- Add that meets an unserialisable value, on a database file in the program's own format: the
file does not load any more. -/
theorem run_add_opq {p : Path} {items d : Dict V} {fs : FS}
    (h : fs.get p = some (dumpText (.dict d))) (hd : (Val.dict d).Ser) (hf : Fresh d items)
    (hw : Val.WFDict items) (hi : ¬ Val.SerDict items) :
    ∃ text, jsonLoad text = none ∧
      (addItemToDatabase p items).run fs = (.error .type, fs.set p text) := by
  rw [Val.Ser] at hd
  have hwf : (Val.dict (d ++ items)).WF := by
    rw [Val.WF]
    exact ⟨fresh_nodup hd.1 hf, wfDict_append.2 ⟨Val.SerDict.wf d hd.2, hw⟩⟩
  have hinc : (jsonDump (.dict (d ++ items))).2 = false := by
    cases hc : (jsonDump (.dict (d ++ items))).2 with
    | false => rfl
    | true =>
      have := (jsonDump_complete hwf).1 hc
      rw [Val.Ser] at this
      exact absurd (serDict_append.1 this.2).2 hi
  refine ⟨(jsonDump (.dict (d ++ items))).1, jsonLoad_incomplete hwf hinc, ?_⟩
  rw [run_add_fresh h (jsonLoad_dump _ (by rw [Val.Ser]; exact hd)) hf, overlay_zero,
    overlay_append hd.2, hinc]
  rfl

theorem run_wipe_false {p : Path} {fs : FS} : (wipeDatabase p false).run fs = (.ok false, fs) := rfl

theorem run_wipe_true {p : Path} {fs : FS} (h : (p.folder, p.dir) ∈ fs.dirs) :
    (wipeDatabase p true).run fs = (.ok true, fs.set p (dumpText (.dict []))) := by
  unfold wipeDatabase
  rw [if_pos rfl, run_bind_ok (run_openW h)]
  have : (dumpTo p 0 (.dict [] : V)).run (fs.set p []) =
      (.ok 2, fs.set p (dumpText (.dict []))) := by
    rw [run_dumpTo (FS.get_set_self _ _ _)]
    simp [jsonDump, emit, emitText, dumpText]
  rw [run_bind_ok this, run_bind_ok (run_truncate (FS.get_set_self _ _ _))]
  simp [dumpText, jsonDump, emit, emitText]

theorem run_loadDatabase_some {p : Path} {fs : FS} {text : Str} {v : V} (h : fs.get p = some text)
    (hl : jsonLoad text = some v) : (loadDatabase p).run fs = (.ok v, fs) := by
  unfold loadDatabase
  rw [run_tryCatch, run_bind_ok (run_readFile_some h), loads_some hl]
  rfl

theorem run_loadDatabase_bad {p : Path} {fs : FS} {text : Str} (h : fs.get p = some text)
    (hl : jsonLoad text = none) : (loadDatabase p).run fs = (.ok (.dict []), fs) := by
  unfold loadDatabase
  rw [run_tryCatch, run_bind_ok (run_readFile_some h), loads_none hl]
  rfl

/-! ### Index files -/

/-- Writing JSON at the start and truncating replaces the file. -/
theorem run_dump_trunc {p : Path} {v : V} {old : Str} {fs : FS} {β : Type} {a : β}
    (h : fs.get p = some old) (hv : v.Ser) :
    (dumpTo p 0 v >>= fun pos => unitOp (.truncate p pos) .osError >>= fun _ => pure a).run fs =
      (.ok a, fs.set p (dumpText v)) := by
  rw [run_bind_ok (by rw [run_dumpTo h, jsonDump_ser v hv]; rfl),
    run_bind_ok (run_truncate (FS.get_set_self _ _ _))]
  simp

omit [PyRuntime] in
theorem mem_dedup {α : Type} [DecidableEq α] {l : List α} {x : α} : x ∈ dedup l ↔ x ∈ l := by
  have : ∀ (l acc : List α), x ∈ l.foldl (fun acc x => if x ∈ acc then acc else acc ++ [x]) acc ↔
      x ∈ acc ∨ x ∈ l := by
    intro l
    induction l with
    | nil => simp
    | cons y l ih =>
      intro acc
      rw [List.foldl_cons, ih]
      split
      · next h =>
        constructor
        · rintro (h1 | h1) <;> simp [h1]
        · rintro (h1 | h1)
          · exact Or.inl h1
          · simp at h1
            rcases h1 with rfl | h1
            · exact Or.inl h
            · exact Or.inr h1
      · simp [or_assoc]
  simpa [dedup] using this l []

omit [PyRuntime] in
theorem nodup_dedup {α : Type} [DecidableEq α] (l : List α) : (dedup l).Nodup := by
  have : ∀ (l acc : List α), acc.Nodup →
      (l.foldl (fun acc x => if x ∈ acc then acc else acc ++ [x]) acc).Nodup := by
    intro l
    induction l with
    | nil => simp
    | cons y l ih =>
      intro acc h
      rw [List.foldl_cons]
      apply ih
      split
      · exact h
      · next hy =>
        rw [List.nodup_append]
        refine ⟨h, by simp, ?_⟩
        intro a ha b hb e
        simp at hb
        subst hb; subst e
        exact hy ha
  exact this l [] (by simp)

theorem pySet_ser {v : V} {s : List V} (hv : v.Ser) (h : pySet v = .ok s) : ∀ x ∈ s, x.Ser := by
  intro x hx
  unfold pySet at h
  split at h
  · split at h
    · simp at h
      subst h
      rw [mem_dedup] at hx
      rw [Val.Ser] at hv
      exact serList_iff.1 hv x hx
    · simp at h
  · simp at h
    subst h
    simp at hx
    obtain ⟨a, _, rfl⟩ := hx
    trivial
  · simp at h
    subst h
    rw [mem_dedup] at hx
    simp at hx
    obtain ⟨a, _, rfl⟩ := hx
    trivial
  · simp at h

theorem ser_dictSet {k : Str} {v : V} {d : Dict V} (hd : (Val.dict d).Ser) (hv : v.Ser) :
    (Val.dict (dictSet k v d)).Ser := by
  rw [Val.Ser] at hd ⊢
  refine ⟨nodup_dictSet hd.1, serDict_iff.2 ?_⟩
  intro x hx
  rcases mem_dictSet hx with rfl | hx
  · exact hv
  · exact serDict_iff.1 hd.2 x hx

theorem ser_of_dictGet {k : Str} {v : V} {d : Dict V} (hd : (Val.dict d).Ser)
    (h : dictGet k d = some v) : v.Ser := by
  rw [Val.Ser] at hd
  exact serDict_iff.1 hd.2 _ (dictGet_some_mem h)

theorem ser_ord {o : SetOrd} {l : List V} (h : ∀ x ∈ l, x.Ser) : (Val.list (o.ord l)).Ser := by
  rw [Val.Ser, serList_iff]
  intro x hx
  exact h x ((o.perm l).mem_iff.1 hx)

theorem ser_union {old : V} {s : List V} {items : List Str} (ho : old.Ser) (hs : pySet old = .ok s) :
    ∀ x ∈ dedup (s ++ items.map Val.str), x.Ser := by
  intro x hx
  rw [mem_dedup, List.mem_append] at hx
  rcases hx with hx | hx
  · exact pySet_ser ho hs x hx
  · simp at hx
    obtain ⟨a, _, rfl⟩ := hx
    trivial

theorem getItem_dict {D : Dict V} {name : Str} {v : V} (h : dictGet name D = some v) :
    getItem (.dict D) name = .ok v := by
  simp [getItem, h]

theorem run_addItemsSet {o : SetOrd} {p : Path} {items : List Str} {name text : Str} {fs : FS}
    {D : Dict V} {old : V} {s : List V}
    (h : fs.get p = some text) (hl : jsonLoad text = some (.dict D))
    (hg : dictGet name D = some old) (hs : pySet old = .ok s) :
    (addItemsSetToIndex o p items name).run fs =
      (.ok true, fs.set p (dumpText (.dict (dictSet name
        (.list (o.ord (dedup (s ++ items.map Val.str)))) D)))) := by
  have hD := jsonLoad_ser hl
  unfold addItemsSetToIndex
  rw [run_bind_ok (run_readFile_some h), loads_some hl, run_bind_ok (run_liftE_ok _ _),
    getItem_dict hg, run_bind_ok (run_liftE_ok _ _), hs, run_bind_ok (run_liftE_ok _ _)]
  dsimp only
  rw [setItem.eq_def, run_bind_ok (run_liftE_ok _ _)]
  exact run_dump_trunc h (ser_dictSet hD (ser_ord (ser_union (ser_of_dictGet hD hg) hs)))

theorem run_loadIndexSet {p : Path} {name text : Str} {fs : FS} {D : Dict V} {old : V} {s : List V}
    (h : fs.get p = some text) (hl : jsonLoad text = some (.dict D))
    (hg : dictGet name D = some old) (hs : pySet old = .ok s) :
    (loadIndexSet p name).run fs = (.ok s, fs) := by
  unfold loadIndexSet
  rw [run_tryCatch, run_bind_ok (run_readFile_some h), loads_some hl, run_bind_ok (run_liftE_ok _ _),
    getItem_dict hg, run_bind_ok (run_liftE_ok _ _), hs]
  rfl

theorem run_wipeIndexWith {empty : V} {p : Path} {name text : Str} {fs : FS} {D : Dict V}
    (he : empty.Ser) (h : fs.get p = some text) (hl : jsonLoad text = some (.dict D)) :
    (wipeIndexWith empty p name true).run fs =
      (.ok true, fs.set p (dumpText (.dict (dictSet name empty D)))) := by
  unfold wipeIndexWith
  rw [if_pos rfl, run_bind_ok (run_readFile_some h), loads_some hl, run_bind_ok (run_liftE_ok _ _),
    setItem.eq_def, run_bind_ok (run_liftE_ok _ _)]
  exact run_dump_trunc h (ser_dictSet (jsonLoad_ser hl) he)

/-! ### Relationship index -/

/-- The numbers stored for a node. -/
def entries (R : Dict V) (k : Str) : List V :=
  match dictGet k R with
  | some (.list l) => l
  | _ => []

/-- Shape of the relationship index: every node maps to a list of hashable values. -/
def RelShape (R : Dict V) : Prop := ∀ k v, dictGet k R = some v → ∃ l, v = .list l ∧ l.all hashable = true

theorem relIndexStep_ok {o : SetOrd} {R : Dict V} {k : Str} {new : List V} (hR : RelShape R)
    (hn : new.all hashable = true) :
    ∃ l, relIndexStep o (.dict R) k new = .ok (.dict (dictSet k (.list l) R)) ∧
      l.all hashable = true ∧ l.Nodup ∧ (∀ x, x ∈ l ↔ x ∈ entries R k ∨ x ∈ new) := by
  cases hg : dictGet k R with
  | none =>
    refine ⟨o.ord (dedup new), by simp [relIndexStep, hg], ?_, ?_, ?_⟩
    · rw [List.all_eq_true] at hn ⊢
      intro x hx
      exact hn x (mem_dedup.1 ((o.perm _).mem_iff.1 hx))
    · exact (o.perm _).nodup_iff.2 (nodup_dedup _)
    · intro x
      rw [(o.perm _).mem_iff, mem_dedup]
      simp [entries, hg]
  | some v =>
    obtain ⟨l, rfl, hl⟩ := hR k v hg
    refine ⟨o.ord (dedup (dedup l ++ new)), by simp [relIndexStep, hg, pySet, hl], ?_, ?_, ?_⟩
    · rw [List.all_eq_true] at hn hl ⊢
      intro x hx
      have := mem_dedup.1 ((o.perm _).mem_iff.1 hx)
      rw [List.mem_append, mem_dedup] at this
      rcases this with h | h
      · exact hl x h
      · exact hn x h
    · exact (o.perm _).nodup_iff.2 (nodup_dedup _)
    · intro x
      rw [(o.perm _).mem_iff, mem_dedup, List.mem_append, mem_dedup]
      simp [entries, hg]

theorem RelShape.dictSet {R : Dict V} (h : RelShape R) {k : Str} {l : List V}
    (hl : l.all hashable = true) : RelShape (dictSet k (.list l) R) := by
  intro k' v hv
  rw [dictGet_dictSet] at hv
  split at hv
  · simp at hv; exact ⟨l, hv.symm, hl⟩
  · exact h k' v hv

theorem entries_dictSet {R : Dict V} {k k' : Str} {l : List V} :
    entries (dictSet k (.list l) R) k' = if k = k' then l else entries R k' := by
  unfold entries
  rw [dictGet_dictSet]
  split
  · rename_i h
    split at h
    · simp at h; simp_all
    · simp_all
  · rename_i h
    split at h
    · next e => exfalso; exact h l rfl
    · next e =>
      rw [if_neg e]
      split
      · next l h' => exact absurd h' (h l)
      · rfl

/-- What the update loop of the relationship index does. -/
theorem relIndexLoop_ok {o : SetOrd} {R : Dict V} {items : List (Str × List V)} (hR : RelShape R)
    (hn : ∀ it ∈ items, it.2.all hashable = true) :
    ∃ R', relIndexLoop o (.dict R) items = .ok (.dict R') ∧ RelShape R' ∧
      (∀ k x, x ∈ entries R' k ↔ x ∈ entries R k ∨ ∃ new, (k, new) ∈ items ∧ x ∈ new) ∧
      (∀ k, k ∈ keys R' ↔ k ∈ keys R ∨ k ∈ keys items) ∧
      (∀ k, k ∉ keys items → dictGet k R' = dictGet k R) ∧
      (∀ k, k ∈ keys items → (entries R' k).Nodup) ∧
      ((keys R).Nodup → (keys R').Nodup) ∧
      ((∀ it ∈ items, ∀ x ∈ it.2, x.Ser) → (Val.dict R).Ser → (Val.dict R').Ser) := by
  induction items generalizing R with
  | nil => exact ⟨R, rfl, hR, by simp, by simp, by simp, by simp, id, fun _ h => h⟩
  | cons it items ih =>
    obtain ⟨k, new⟩ := it
    obtain ⟨l, e, hh, hnd, hl⟩ := relIndexStep_ok (o := o) (k := k) (new := new) hR (hn (k, new) (by simp))
    obtain ⟨R', e', hS, hE, hK, hG, hN, hD, hSer⟩ := ih (hR.dictSet (k := k) hh) (fun it h => hn it (by simp [h]))
    refine ⟨R', by simp [relIndexLoop, e, e'], hS, ?_, ?_, ?_, ?_, ?_, ?_⟩
    · intro k' x
      rw [hE, entries_dictSet]
      split
      · next h =>
        subst h
        rw [hl]
        constructor
        · rintro ((h | h) | ⟨n, h1, h2⟩)
          · exact Or.inl h
          · exact Or.inr ⟨new, by simp, h⟩
          · exact Or.inr ⟨n, by simp [h1], h2⟩
        · rintro (h | ⟨n, h1, h2⟩)
          · exact Or.inl (Or.inl h)
          · simp at h1
            rcases h1 with rfl | h1
            · exact Or.inl (Or.inr h2)
            · exact Or.inr ⟨n, h1, h2⟩
      · next h =>
        have h' : ¬ k' = k := fun e => h e.symm
        simp [h']
    · intro k'
      rw [hK, keys_dictSet]
      have : k' ∈ keys ((k, new) :: items) ↔ k' = k ∨ k' ∈ keys items := by simp [keys]
      rw [this]
      by_cases hk : k ∈ keys R
      · rw [if_pos hk]; grind
      · rw [if_neg hk]; grind
    · intro k' hk'
      have : ¬ k' = k ∧ k' ∉ keys items := by simpa [keys] using hk'
      rw [hG k' this.2, dictGet_dictSet_ne (fun e => this.1 e.symm)]
    · intro k' hk'
      by_cases hin : k' ∈ keys items
      · exact hN k' hin
      · have : k' = k := by
          have : k' = k ∨ k' ∈ keys items := by simpa [keys] using hk'
          rcases this with h | h
          · exact h
          · exact absurd h hin
        subst this
        unfold entries
        rw [hG k' hin, dictGet_dictSet_self]
        exact hnd
    · intro h; exact hD (nodup_dictSet h)
    · intro h1 h2
      apply hSer (fun it h => h1 it (by simp [h]))
      apply ser_dictSet h2
      rw [Val.Ser, serList_iff]
      intro x hx
      rcases (hl x).1 hx with hx | hx
      · unfold entries at hx
        split at hx
        · next l' hg =>
          have := ser_of_dictGet h2 hg
          rw [Val.Ser, serList_iff] at this
          exact this x hx
        · simp at hx
      · exact h1 (k, new) (by simp) x hx

theorem run_addRelIndex {o : SetOrd} {p : Path} {items : List (Str × List V)} {text : Str} {fs : FS}
    {D R R' : Dict V}
    (h : fs.get p = some text) (hl : jsonLoad text = some (.dict D))
    (hg : dictGet NODE_RELATIONSHIPS_INDEX_NAME D = some (.dict R))
    (hR : relIndexLoop o (.dict R) items = .ok (.dict R')) (hs : (Val.dict R').Ser) (hne : items ≠ []) :
    (addItemsToNodeRelationshipsIndex o p items).run fs =
      (.ok true, fs.set p (dumpText (.dict (dictSet NODE_RELATIONSHIPS_INDEX_NAME (.dict R') D)))) := by
  unfold addItemsToNodeRelationshipsIndex
  rw [run_bind_ok (run_readFile_some h), loads_some hl, run_bind_ok (run_liftE_ok _ _),
    getItem_dict hg, run_bind_ok (run_liftE_ok _ _), hR, run_bind_ok (run_liftE_ok _ _),
    setItem.eq_def, run_bind_ok (run_liftE_ok _ _)]
  have : items.isEmpty = false := by simpa using hne
  rw [this]
  exact run_dump_trunc h (ser_dictSet (jsonLoad_ser hl) hs)

/-- With nothing to add the index is dumped behind the old text. -/
theorem run_addRelIndex_empty {o : SetOrd} {p : Path} {text : Str} {fs : FS} {D R : Dict V}
    (h : fs.get p = some text) (hl : jsonLoad text = some (.dict D))
    (hg : dictGet NODE_RELATIONSHIPS_INDEX_NAME D = some (.dict R)) :
    (addItemsToNodeRelationshipsIndex o p []).run fs =
      (.ok true, fs.set p (text ++ dumpText (.dict (dictSet NODE_RELATIONSHIPS_INDEX_NAME (.dict R) D)))) := by
  have hD := jsonLoad_ser hl
  have hs := ser_dictSet (k := NODE_RELATIONSHIPS_INDEX_NAME) hD (ser_of_dictGet hD hg)
  unfold addItemsToNodeRelationshipsIndex
  rw [run_bind_ok (run_readFile_some h), loads_some hl, run_bind_ok (run_liftE_ok _ _),
    getItem_dict hg, run_bind_ok (run_liftE_ok _ _), relIndexLoop, run_bind_ok (run_liftE_ok _ _),
    setItem.eq_def, run_bind_ok (run_liftE_ok _ _)]
  have e : ∀ (v : V), ([] : List (Str × List V)).isEmpty = true := fun _ => rfl
  rw [run_bind_ok (by rw [run_dumpTo h, jsonDump_ser _ hs]; rfl),
    run_bind_ok (run_truncate (FS.get_set_self _ _ _))]
  simp only [List.isEmpty_nil, if_true, run_pure, FS.set_set, overlay_end]
  rw [List.take_of_length_le (by simp)]

theorem jsonToDict_ok {R : Dict V} (hR : ∀ x ∈ R, ∃ l, x.2 = .list l ∧ l.all hashable = true) :
    ∃ S, jsonToDict R = .ok S ∧ S = R.map fun x => (x.1, dedup (match x.2 with | .list l => l | _ => [])) := by
  induction R with
  | nil => exact ⟨[], rfl, rfl⟩
  | cons x R ih =>
    obtain ⟨k, v⟩ := x
    obtain ⟨S, e, hS⟩ := ih (fun x hx => hR x (by simp [hx]))
    obtain ⟨l, rfl, hl⟩ := hR (k, v) (by simp)
    exact ⟨(k, dedup l) :: S, by simp [jsonToDict, pySet, hl, e], by simp [hS]⟩

omit [PyRuntime] in
theorem hashable_ints {F : Type} (l : List Int) : (l.map (Val.int (F := F))).all hashable = true := by
  simp [hashable]

theorem pySet_strs (l : List Str) :
    pySet (Val.list (l.map Val.str) : V) = .ok (dedup (l.map Val.str)) := by
  simp [pySet, hashable]

omit [PyRuntime] in
theorem strs_of_mem {F : Type} {l : List (Val F)} (h : ∀ x ∈ l, ∃ s, x = .str s) :
    ∃ m : List Str, l = m.map Val.str := by
  induction l with
  | nil => exact ⟨[], rfl⟩
  | cons a l ih =>
    obtain ⟨m, rfl⟩ := ih (fun x hx => h x (by simp [hx]))
    obtain ⟨s, rfl⟩ := h a (by simp)
    exact ⟨s :: m, rfl⟩

omit [PyRuntime] in
theorem ints_of_mem {F : Type} {l : List (Val F)} (h : ∀ x ∈ l, ∃ s, x = .int s) :
    ∃ m : List Int, l = m.map Val.int := by
  induction l with
  | nil => exact ⟨[], rfl⟩
  | cons a l ih =>
    obtain ⟨m, rfl⟩ := ih (fun x hx => h x (by simp [hx]))
    obtain ⟨s, rfl⟩ := h a (by simp)
    exact ⟨s :: m, rfl⟩

omit [PyRuntime] in
theorem mem_map_str {F : Type} {l : List Str} {s : Str} : (Val.str s : Val F) ∈ l.map Val.str ↔ s ∈ l := by
  simp

omit [PyRuntime] in
theorem mem_map_int {F : Type} {l : List Int} {s : Int} : (Val.int s : Val F) ∈ l.map Val.int ↔ s ∈ l := by
  simp

omit [PyRuntime] in
theorem map_int_inj {F : Type} : ∀ (a b : List Int), a.map (Val.int (F := F)) = b.map Val.int → a = b
  | [], [], _ => rfl
  | [], _ :: _, h => by simp at h
  | _ :: _, [], h => by simp at h
  | x :: a, y :: b, h => by
    simp only [List.map_cons, List.cons.injEq, Val.int.injEq] at h
    rw [h.1, map_int_inj a b h.2]

/-- The relationship index as a value. -/
def relsVal (rels : Dict (List Int)) : Dict V := rels.map fun p => (p.1, Val.list (p.2.map Val.int))

theorem dictGet_relsVal (rels : Dict (List Int)) (k : Str) :
    dictGet k (relsVal rels) = (dictGet k rels).map fun l => Val.list (l.map Val.int) := by
  induction rels with
  | nil => rfl
  | cons p rels ih =>
    simp only [relsVal, List.map_cons, dictGet] at ih ⊢
    split
    · rfl
    · exact ih

theorem keys_relsVal (rels : Dict (List Int)) : keys (relsVal rels) = keys rels := by
  simp [relsVal, keys]

theorem relShape_relsVal (rels : Dict (List Int)) : RelShape (relsVal rels) := by
  intro k v h
  rw [dictGet_relsVal] at h
  obtain ⟨l, _, rfl⟩ := Option.map_eq_some_iff.1 h
  exact ⟨_, rfl, hashable_ints l⟩

theorem entries_relsVal (rels : Dict (List Int)) (k : Str) :
    entries (relsVal rels) k = ((dictGet k rels).getD []).map Val.int := by
  unfold entries
  rw [dictGet_relsVal]
  cases dictGet k rels <;> rfl

theorem relsVal_of_entries {R : Dict V} (hR : RelShape R) (hn : (keys R).Nodup)
    (h : ∀ k, ∀ x ∈ entries R k, ∃ n, x = .int n) : ∃ rels, R = relsVal rels := by
  have : ∀ x ∈ R, ∃ l : List Int, x.2 = .list (l.map Val.int) := by
    intro x hx
    obtain ⟨k, v⟩ := x
    have hg := dictGet_of_mem hn hx
    obtain ⟨l, rfl, _⟩ := hR k v hg
    have := h k
    simp only [entries, hg] at this
    obtain ⟨m, rfl⟩ := ints_of_mem this
    exact ⟨m, rfl⟩
  clear hR hn h
  induction R with
  | nil => exact ⟨[], rfl⟩
  | cons x R ih =>
    obtain ⟨rels, rfl⟩ := ih (fun x hx => this x (by simp [hx]))
    obtain ⟨k, v⟩ := x
    obtain ⟨l, hl⟩ := this (k, v) (by simp)
    simp only at hl
    exact ⟨(k, l) :: rels, by simp [relsVal, hl]⟩

theorem relsVal_ser {rels : Dict (List Int)} (h : (keys rels).Nodup) : (Val.dict (relsVal rels)).Ser := by
  rw [Val.Ser]
  refine ⟨by rw [← keys_relsVal] at h; exact h, serDict_iff.2 ?_⟩
  intro x hx
  simp only [relsVal, List.mem_map] at hx
  obtain ⟨p, _, rfl⟩ := hx
  simp only
  rw [Val.Ser, serList_iff]
  intro x hx
  simp at hx
  obtain ⟨a, _, rfl⟩ := hx
  trivial

/-- The update loop on an index of numbers. -/
theorem relIndexLoop_ints {o : SetOrd} {rels items : Dict (List Int)} (hn : (keys rels).Nodup) :
    ∃ rels', relIndexLoop o (.dict (relsVal rels)) (items.map fun x => (x.1, x.2.map Val.int)) =
        .ok (.dict (relsVal rels')) ∧ (keys rels').Nodup ∧
      (∀ k, k ∈ keys rels' ↔ k ∈ keys rels ∨ k ∈ keys items) ∧
      (∀ k n, n ∈ (dictGet k rels').getD [] ↔
        n ∈ (dictGet k rels).getD [] ∨ ∃ new, (k, new) ∈ items ∧ n ∈ new) ∧
      (∀ k, k ∉ keys items → dictGet k rels' = dictGet k rels) ∧
      (∀ k, k ∈ keys items → ((dictGet k rels').getD []).Nodup) := by
  obtain ⟨R', e, hS, hE, hK, hG, hN, hD, _⟩ := relIndexLoop_ok (o := o)
    (items := items.map fun x => (x.1, x.2.map Val.int)) (relShape_relsVal rels) (by
      intro it hit
      simp only [List.mem_map] at hit
      obtain ⟨x, _, rfl⟩ := hit
      exact hashable_ints _)
  have hki : keys (items.map fun x => (x.1, x.2.map (Val.int (F := PyRuntime.F)))) = keys items := by
    simp [keys]
  rw [keys_relsVal] at hD
  obtain ⟨rels', rfl⟩ := relsVal_of_entries hS (hD hn) (by
    intro k x hx
    rw [hE, entries_relsVal] at hx
    rcases hx with hx | ⟨new, h1, h2⟩
    · simp at hx; obtain ⟨a, _, rfl⟩ := hx; exact ⟨a, rfl⟩
    · simp at h1
      obtain ⟨_, a, _, _, rfl⟩ := h1
      simp at h2
      obtain ⟨b, _, rfl⟩ := h2
      exact ⟨b, rfl⟩)
  rw [keys_relsVal] at hD
  refine ⟨rels', e, hD hn, ?_, ?_, ?_, ?_⟩
  · intro k
    have := hK k
    rwa [keys_relsVal, keys_relsVal, hki] at this
  · intro k n
    have := hE k (.int n)
    rw [entries_relsVal, entries_relsVal, mem_map_int, mem_map_int] at this
    rw [this]
    constructor
    · rintro (h | ⟨new, h1, h2⟩)
      · exact Or.inl h
      · simp at h1
        obtain ⟨_, a, h1, rfl, rfl⟩ := h1
        rw [mem_map_int] at h2
        exact Or.inr ⟨a, h1, h2⟩
    · rintro (h | ⟨new, h1, h2⟩)
      · exact Or.inl h
      · exact Or.inr ⟨new.map Val.int, List.mem_map.2 ⟨_, h1, rfl⟩, mem_map_int.2 h2⟩
  · intro k hk
    have := hG k (by rw [hki]; exact hk)
    rw [dictGet_relsVal, dictGet_relsVal] at this
    cases h1 : dictGet k rels' <;> cases h2 : dictGet k rels <;> rw [h1, h2] at this <;> simp at this
    · rw [map_int_inj _ _ this]
  · intro k hk
    have := hN k (by rw [hki]; exact hk)
    rw [entries_relsVal] at this
    have hnd : ∀ (l : List Int), (l.map (Val.int (F := PyRuntime.F))).Nodup → l.Nodup := by
      intro l
      induction l with
      | nil => simp
      | cons x l ih =>
        intro h
        rw [List.map_cons, List.nodup_cons] at h
        rw [List.nodup_cons]
        exact ⟨fun hm => h.1 (mem_map_int.2 hm), ih h.2⟩
    exact hnd _ this

omit [PyRuntime] in
theorem nodup_of_map_str {F : Type} : ∀ (l : List Str), (l.map (Val.str (F := F))).Nodup → l.Nodup := by
  intro l
  induction l with
  | nil => simp
  | cons x l ih =>
    intro h
    rw [List.map_cons, List.nodup_cons] at h
    rw [List.nodup_cons]
    exact ⟨fun hm => h.1 (mem_map_str.2 hm), ih h.2⟩

/-- The union computed by an index add. -/
theorem union_strs (o : SetOrd) (old items : List Str) :
    ∃ new : List Str, o.ord (dedup (dedup (old.map Val.str) ++ items.map Val.str)) = new.map Val.str ∧
      new.Nodup ∧ ∀ x, x ∈ new ↔ x ∈ old ∨ x ∈ items := by
  have hmem : ∀ x, x ∈ o.ord (dedup (dedup (old.map Val.str) ++ items.map Val.str)) ↔
      x ∈ old.map Val.str ∨ x ∈ items.map Val.str := by
    intro x
    rw [(o.perm _).mem_iff, mem_dedup, List.mem_append, mem_dedup]
  obtain ⟨new, hnew⟩ := strs_of_mem (l := o.ord (dedup (dedup (old.map Val.str) ++ items.map Val.str))) (by
    intro x hx
    rw [hmem] at hx
    simp at hx
    rcases hx with ⟨a, _, rfl⟩ | ⟨a, _, rfl⟩ <;> exact ⟨a, rfl⟩)
  refine ⟨new, hnew, ?_, ?_⟩
  · apply nodup_of_map_str (F := PyRuntime.F)
    rw [← hnew]
    exact (o.perm _).nodup_iff.2 (nodup_dedup _)
  · intro x
    rw [← mem_map_str (F := PyRuntime.F), ← hnew, hmem, mem_map_str, mem_map_str]

end WG
