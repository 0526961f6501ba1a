import Verif.Spec.Damage
import Verif.Proofs.Storage
import Verif.Proofs.Parse
import Verif.Model.Make
set_option linter.unusedSectionVars false
set_option linter.unusedSimpArgs false

namespace WG
variable [PyRuntime]

theorem hashable_iff {x : V} : hashable x = true ↔ (∀ m, x ≠ .list m) ∧ ∀ d, x ≠ .dict d := by
  cases x <;> simp [hashable]

theorem pySet_settable {v : V} (h : Settable v) :
    ∃ s, pySet v = .ok s ∧ (∀ x, x ∈ s ↔ Member x v) ∧ s.all hashable = true := by
  cases v with
  | list l =>
    have hl : l.all hashable = true := List.all_eq_true.2 fun x hx => hashable_iff.2 (h x hx)
    refine ⟨dedup l, by simp [pySet, hl], fun x => by rw [mem_dedup]; rfl, ?_⟩
    rw [List.all_eq_true] at hl ⊢
    exact fun x hx => hl x (mem_dedup.1 hx)
  | dict d =>
    refine ⟨_, rfl, fun x => ?_, by simp [hashable]⟩
    simp only [Member, List.mem_map]
    constructor
    · rintro ⟨y, hy, rfl⟩
      exact ⟨y.1, ⟨y, hy, rfl⟩, rfl⟩
    · rintro ⟨k, ⟨y, hy, rfl⟩, rfl⟩
      exact ⟨y, hy, rfl⟩
  | str t =>
    refine ⟨_, rfl, fun x => ?_, ?_⟩
    · rw [mem_dedup]
      simp only [Member, List.mem_map]
      constructor
      · rintro ⟨c, hc, rfl⟩
        exact ⟨c, hc, rfl⟩
      · rintro ⟨c, hc, rfl⟩
        exact ⟨c, hc, rfl⟩
    · rw [List.all_eq_true]
      intro x hx
      rw [mem_dedup, List.mem_map] at hx
      obtain ⟨c, -, rfl⟩ := hx
      rfl
  | _ => exact h.elim

theorem pySet_not {v : V} (h : ¬ Settable v) : pySet v = .error .type := by
  cases v with
  | list l =>
    simp only [pySet]
    rw [if_neg]
    intro hl
    exact h fun x hx => hashable_iff.1 (List.all_eq_true.1 hl x hx)
  | dict d => exact absurd trivial h
  | str s => exact absurd trivial h
  | _ => rfl

/-- What a file can be. -/
theorem file_cases (fs : FS) (p : Path) :
    fs.get p = none ∨ (∃ t, fs.get p = some t ∧ jsonLoad t = none) ∨
      (∃ t v, fs.get p = some t ∧ jsonLoad t = some v ∧ ∀ d, v ≠ .dict d) ∨ ∃ t d, fs.get p = some t ∧ jsonLoad t = some (.dict d) := by
  cases h : fs.get p with
  | none => exact .inl rfl
  | some t =>
    cases hl : jsonLoad t with
    | none => exact .inr (.inl ⟨t, rfl, hl⟩)
    | some v =>
      by_cases hd : ∃ d, v = .dict d
      · obtain ⟨d, rfl⟩ := hd
        exact .inr (.inr (.inr ⟨t, d, rfl, hl⟩))
      · exact .inr (.inr (.inl ⟨t, v, rfl, hl, fun d e => hd ⟨d, e⟩⟩))

theorem getItem_other {v : V} (h : ∀ d, v ≠ .dict d) (k : Str) : getItem v k = .error .type := by
  cases v <;> first | rfl | exact absurd rfl (h _)

theorem setItem_other {v : V} (h : ∀ d, v ≠ .dict d) (k : Str) (x : V) : setItem v k x = .error .type := by
  cases v <;> first | rfl | exact absurd rfl (h _)

/-- Reading an entry. -/
def readEntry {α : Type} (p : Path) (name : Str) (f : Str → V → V → Prog α) : Prog α := do
  let text ← readFile p
  let idx ← liftE (loads text)
  let old ← liftE (getItem idx name)
  f text idx old

theorem readEntry_run {α : Type} (p : Path) (name : Str) (f : Str → V → V → Prog α) (fs : FS) :
    (∃ e, NoEntry fs p name e ∧ (readEntry p name f).run fs = (.error e, fs)) ∨
      ∃ t d v, fs.get p = some t ∧ jsonLoad t = some (.dict d) ∧ dictGet name d = some v ∧
        (readEntry p name f).run fs = (f t (.dict d) v).run fs := by
  unfold readEntry
  rcases file_cases fs p with h | ⟨t, h, hl⟩ | ⟨t, v, h, hl, hd⟩ | ⟨t, d, h, hl⟩
  · exact .inl ⟨_, .file _ (.missing h), run_bind_err (run_readFile_none h)⟩
  · refine .inl ⟨_, .file _ (.broken ⟨t, h, hl⟩), ?_⟩
    rw [run_bind_ok (run_readFile_some h), loads_none hl, run_bind_err (run_liftE_error _ _)]
  · refine .inl ⟨_, .file _ (.other v ⟨t, h, hl⟩ hd), ?_⟩
    rw [run_bind_ok (run_readFile_some h), loads_some hl, run_bind_ok (run_liftE_ok _ _), getItem_other hd,
      run_bind_err (run_liftE_error _ _)]
  · cases hg : dictGet name d with
    | none =>
      refine .inl ⟨_, .key d ⟨t, h, hl⟩ ?_, ?_⟩
      · exact (dictGet_none_iff).1 hg
      · rw [run_bind_ok (run_readFile_some h), loads_some hl, run_bind_ok (run_liftE_ok _ _),
          show getItem (.dict d) name = .error .key by simp [getItem, hg], run_bind_err (run_liftE_error _ _)]
    | some v =>
      refine .inr ⟨t, d, v, h, hl, hg, ?_⟩
      rw [run_bind_ok (run_readFile_some h), loads_some hl, run_bind_ok (run_liftE_ok _ _), getItem_dict hg,
        run_bind_ok (run_liftE_ok _ _)]

theorem addSet_readEntry (o : SetOrd) (p : Path) (items : List Str) (name : Str) :
    addItemsSetToIndex o p items name = readEntry p name (fun _ idx old => do
      let oldSet ← liftE (pySet old)
      let idx' ← liftE (setItem idx name (.list (o.ord (dedup (oldSet ++ items.map Val.str)))))
      let pos ← dumpTo p 0 idx'
      unitOp (.truncate p pos) .osError
      pure true) := rfl

theorem addSet_outcome (o : SetOrd) (p : Path) (items : List Str) (name : Str) (fs : FS) :
    (∃ e, SetFault fs p name e ∧ (addItemsSetToIndex o p items name).run fs = (.error e, fs)) ∨
      ∃ d v l fs', Holds fs p d ∧ dictGet name d = some v ∧ Settable v ∧ (addItemsSetToIndex o p items name).run fs = (.ok true, fs') ∧
        Holds fs' p (dictSet name (.list l) d) ∧ (∀ x, x ∈ l ↔ Member x v ∨ ∃ s ∈ items, x = .str s) ∧ ∀ q, q ≠ p → fs'.get q = fs.get q := by
  rcases readEntry_run p name (fun _ idx old => do
      let oldSet ← liftE (pySet old)
      let idx' ← liftE (setItem idx name (.list (o.ord (dedup (oldSet ++ items.map Val.str)))))
      let pos ← dumpTo p 0 idx'
      unitOp (.truncate p pos) .osError
      pure true) fs with ⟨e, h1, h2⟩ | ⟨t, d, v, h1, h2, h3, h4⟩
  · exact .inl ⟨e, .entry e h1, h2⟩
  · by_cases hs : Settable v
    · obtain ⟨s, k1, k2, k3⟩ := pySet_settable hs
      refine .inr ⟨d, v, o.ord (dedup (s ++ items.map Val.str)), _, ⟨t, h1, h2⟩, h3, hs, run_addItemsSet h1 h2 h3 k1, ?_, fun x => ?_, fun q hq => FS.get_set_ne (Ne.symm hq) _ _⟩
      · have hD := jsonLoad_ser h2
        exact ⟨_, FS.get_set_self _ _ _, jsonLoad_dump _ (ser_dictSet hD (ser_ord (ser_union (ser_of_dictGet hD h3) k1)))⟩
      · rw [(o.perm _).mem_iff, mem_dedup, List.mem_append, k2]
        simp only [List.mem_map, eq_comm]
    · refine .inl ⟨.type, .notSet v ⟨d, ⟨t, h1, h2⟩, h3⟩ hs, ?_⟩
      rw [addSet_readEntry, h4, pySet_not hs, run_bind_err (run_liftE_error _ _)]

theorem loadSet_outcome (p : Path) (name : Str) (fs : FS) :
    (∃ e, SetFault fs p name e ∧ e ≠ .jsonDecode ∧ (loadIndexSet p name).run fs = (.error e, fs)) ∨
      (Unreadable fs p ∧ (loadIndexSet p name).run fs = (.ok [], fs)) ∨
      ∃ v s, HasEntry fs p name v ∧ Settable v ∧ (loadIndexSet p name).run fs = (.ok s, fs) ∧ ∀ x, x ∈ s ↔ Member x v := by
  have e0 : loadIndexSet p name = Prog.tryCatch (readEntry p name fun _ _ v => liftE (pySet v))
      fun e => if e = .jsonDecode then pure [] else .raise e := rfl
  rw [e0, run_tryCatch]
  have key : ∀ e, NoEntry fs p name e → e = .jsonDecode → Unreadable fs p := by
    rintro e (⟨_, h⟩ | ⟨d, h1, h2⟩) he
    · cases h <;> first | assumption | cases he
    · cases he
  rcases readEntry_run p name (fun _ _ v => liftE (pySet v)) fs with ⟨e, h1, h2⟩ | ⟨t, d, v, h1, h2, h3, h4⟩
  · rw [h2]
    by_cases he : e = .jsonDecode
    · refine .inr (.inl ⟨key e h1 he, ?_⟩)
      simp only [he, if_true]
      rfl
    · refine .inl ⟨e, .entry e h1, he, ?_⟩
      simp only [he, if_false]
      rfl
  · rw [h4]
    by_cases hs : Settable v
    · obtain ⟨s, k1, k2, -⟩ := pySet_settable hs
      rw [k1]
      exact .inr (.inr ⟨v, s, ⟨d, ⟨t, h1, h2⟩, h3⟩, hs, rfl, k2⟩)
    · rw [pySet_not hs]
      exact .inl ⟨.type, .notSet v ⟨d, ⟨t, h1, h2⟩, h3⟩ hs, by simp, rfl⟩

theorem wipeIndex_outcome {empty : V} (he : empty.Ser) (p : Path) (name : Str) (fs : FS) :
    (∃ e, NoDict fs p e ∧ (wipeIndexWith empty p name true).run fs = (.error e, fs)) ∨
      ∃ d fs', Holds fs p d ∧ (wipeIndexWith empty p name true).run fs = (.ok true, fs') ∧ Holds fs' p (dictSet name empty d) ∧
        ∀ q, q ≠ p → fs'.get q = fs.get q := by
  rcases file_cases fs p with h | ⟨t, h, hl⟩ | ⟨t, v, h, hl, hd⟩ | ⟨t, d, h, hl⟩
  · refine .inl ⟨_, .missing h, ?_⟩
    unfold wipeIndexWith
    rw [if_pos rfl, run_bind_err (run_readFile_none h)]
  · refine .inl ⟨_, .broken ⟨t, h, hl⟩, ?_⟩
    unfold wipeIndexWith
    rw [if_pos rfl, run_bind_ok (run_readFile_some h), loads_none hl, run_bind_err (run_liftE_error _ _)]
  · refine .inl ⟨_, .other v ⟨t, h, hl⟩ hd, ?_⟩
    unfold wipeIndexWith
    rw [if_pos rfl, run_bind_ok (run_readFile_some h), loads_some hl, run_bind_ok (run_liftE_ok _ _), setItem_other hd,
      run_bind_err (run_liftE_error _ _)]
  · exact .inr ⟨d, _, ⟨t, h, hl⟩, run_wipeIndexWith he h hl,
      ⟨_, FS.get_set_self _ _ _, jsonLoad_dump _ (ser_dictSet (jsonLoad_ser hl) he)⟩, fun q hq => FS.get_set_ne (Ne.symm hq) _ _⟩

/-! ### The index of relationships -/

theorem relStep_settable {o : SetOrd} {R : Dict V} {k : Str} {new : List Int} (h : ∀ v, dictGet k R = some v → Settable v)
    (hR : (Val.dict R).Ser) :
    ∃ l, relIndexStep o (.dict R) k (new.map Val.int) = .ok (.dict (dictSet k (.list l) R)) ∧ Settable (Val.list l : V) ∧
      (Val.dict (dictSet k (.list l) R)).Ser ∧
      ∀ x, x ∈ l ↔ (∃ v, dictGet k R = some v ∧ Member x v) ∨ ∃ n ∈ new, x = .int n := by
  cases hg : dictGet k R with
  | none =>
    refine ⟨o.ord (dedup (new.map Val.int)), by simp [relIndexStep, hg], ?_, ser_dictSet hR (ser_ord ?_), ?_⟩
    · intro x hx
      rw [(o.perm _).mem_iff, mem_dedup, List.mem_map] at hx
      obtain ⟨n, -, rfl⟩ := hx
      simp
    · intro x hx
      rw [mem_dedup, List.mem_map] at hx
      obtain ⟨n, -, rfl⟩ := hx
      trivial
    · intro x
      rw [(o.perm _).mem_iff, mem_dedup, List.mem_map]
      simp [eq_comm]
  | some v =>
    obtain ⟨s, k1, k2, k3⟩ := pySet_settable (h v hg)
    refine ⟨o.ord (dedup (s ++ new.map Val.int)), by simp [relIndexStep, hg, k1], ?_, ser_dictSet hR (ser_ord ?_), ?_⟩
    · intro x hx
      rw [(o.perm _).mem_iff, mem_dedup, List.mem_append, List.mem_map] at hx
      rcases hx with hx | ⟨n, -, rfl⟩
      · exact hashable_iff.1 (List.all_eq_true.1 k3 x hx)
      · simp
    · intro x hx
      rw [mem_dedup, List.mem_append, List.mem_map] at hx
      rcases hx with hx | ⟨n, -, rfl⟩
      · exact pySet_ser (ser_of_dictGet hR hg) k1 x hx
      · trivial
    · intro x
      rw [(o.perm _).mem_iff, mem_dedup, List.mem_append, List.mem_map, k2]
      simp [eq_comm]

theorem relLoop_settable {o : SetOrd} {R : Dict V} {items : List (Str × List Int)}
    (h : ∀ k ∈ items.map Prod.fst, ∀ v, dictGet k R = some v → Settable v) (hR : (Val.dict R).Ser) :
    ∃ R', relIndexLoop o (.dict R) (items.map fun x => (x.1, x.2.map Val.int)) = .ok (.dict R') ∧ (Val.dict R').Ser ∧
      RelAdded R items R' := by
  induction items generalizing R with
  | nil => exact ⟨R, rfl, hR, fun k => ⟨fun hk => by simp at hk, fun _ => rfl⟩⟩
  | cons it items ih =>
    obtain ⟨l, k1, k2, k3, k4⟩ := relStep_settable (o := o) (new := it.2) (h it.1 (by simp)) hR
    obtain ⟨R', j1, j2, j3⟩ := ih (R := dictSet it.1 (.list l) R) (fun k hk v hv => by
      rw [dictGet_dictSet] at hv
      split at hv
      · cases hv
        exact k2
      · exact h k (by simp at hk ⊢; exact .inr hk) v hv) k3
    refine ⟨R', by simp [relIndexLoop, k1, j1], j2, fun k => ⟨fun hk => ?_, fun hk => ?_⟩⟩
    · by_cases hm : k ∈ items.map Prod.fst
      · obtain ⟨v, a1, a2⟩ := (j3 k).1 hm
        refine ⟨v, a1, fun x => ?_⟩
        rw [a2 x, dictGet_dictSet]
        by_cases e : it.1 = k
        · subst e
          simp only [if_true, Option.some.injEq, exists_eq_left', Member, k4, List.mem_cons]
          constructor
          · rintro ((hx | ⟨n, hn, rfl⟩) | ⟨y, hy, e, n, hn, rfl⟩)
            · exact .inl hx
            · exact .inr ⟨it, .inl rfl, rfl, n, hn, rfl⟩
            · exact .inr ⟨y, .inr hy, e, n, hn, rfl⟩
          · rintro (hx | ⟨y, rfl | hy, e, n, hn, rfl⟩)
            · exact .inl (.inl hx)
            · exact .inl (.inr ⟨n, hn, rfl⟩)
            · exact .inr ⟨y, hy, e, n, hn, rfl⟩
        · simp only [e, if_false, List.mem_cons]
          constructor
          · rintro (hx | ⟨y, hy, e, n, hn, rfl⟩)
            · exact .inl hx
            · exact .inr ⟨y, .inr hy, e, n, hn, rfl⟩
          · rintro (hx | ⟨y, rfl | hy, e', n, hn, rfl⟩)
            · exact .inl hx
            · exact absurd e' e
            · exact .inr ⟨y, hy, e', n, hn, rfl⟩
      · have e : it.1 = k := by
          simp only [List.map_cons, List.mem_cons] at hk
          exact (hk.resolve_right hm).symm
        subst e
        refine ⟨.list l, by rw [(j3 it.1).2 hm, dictGet_dictSet_self], fun x => (k4 x).trans ?_⟩
        constructor
        · rintro (hx | ⟨n, hn, rfl⟩)
          · exact .inl hx
          · exact .inr ⟨it, by simp, rfl, n, hn, rfl⟩
        · rintro (hx | ⟨y, hy, e, n, hn, rfl⟩)
          · exact .inl hx
          · rcases List.mem_cons.1 hy with rfl | hy
            · exact .inr ⟨n, hn, rfl⟩
            · exact absurd (List.mem_map.2 ⟨y, hy, e⟩) hm
    · simp only [List.map_cons, List.mem_cons, not_or] at hk
      rw [(j3 k).2 hk.2, dictGet_dictSet_ne (Ne.symm hk.1)]

theorem relLoop_not {o : SetOrd} {R : Dict V} {items : List (Str × List Int)} (hR : (Val.dict R).Ser)
    (h : ∃ k ∈ items.map Prod.fst, ∃ v, dictGet k R = some v ∧ ¬ Settable v) :
    relIndexLoop o (.dict R) (items.map fun x => (x.1, x.2.map Val.int)) = .error .type := by
  induction items generalizing R with
  | nil => simp at h
  | cons it items ih =>
    by_cases hf : ∀ v, dictGet it.1 R = some v → Settable v
    · obtain ⟨l, k1, k2, k3, -⟩ := relStep_settable (o := o) (new := it.2) hf hR
      simp only [List.map_cons, relIndexLoop, k1]
      obtain ⟨k, hk, v, hv, hs⟩ := h
      have hne : it.1 ≠ k := fun e => hs (hf v (e ▸ hv))
      refine ih k3 ⟨k, ?_, v, ?_, hs⟩
      · simp only [List.map_cons, List.mem_cons] at hk
        exact hk.resolve_left fun e => hne e.symm
      · rw [dictGet_dictSet_ne hne]
        exact hv
    · obtain ⟨v, hv⟩ := Classical.not_forall.1 hf
      obtain ⟨hv, hs⟩ := Classical.not_imp.1 hv
      simp [relIndexLoop, relIndexStep, hv, pySet_not hs]

theorem relLoop_other {o : SetOrd} {v : V} (h : ∀ d, v ≠ .dict d) {items : List (Str × List V)} (hi : items ≠ []) :
    relIndexLoop o v items = .error .type := by
  cases items with
  | nil => exact absurd rfl hi
  | cons it items =>
    have : relIndexStep o v it.1 it.2 = .error .type := by cases v <;> first | rfl | exact absurd rfl (h _)
    simp [relIndexLoop, this]

theorem addRel_readEntry (o : SetOrd) (p : Path) (items : List (Str × List V)) :
    addItemsToNodeRelationshipsIndex o p items = readEntry p NODE_RELATIONSHIPS_INDEX_NAME (fun text idx rel => do
      let rel' ← liftE (relIndexLoop o rel items)
      let idx' ← liftE (setItem idx NODE_RELATIONSHIPS_INDEX_NAME rel')
      let pos ← dumpTo p (if items.isEmpty then text.length else 0) idx'
      unitOp (.truncate p pos) .osError
      pure true) := rfl

theorem run_addRel_nothing {o : SetOrd} {p : Path} {text : Str} {fs : FS} {D : Dict V} {v : V}
    (h : fs.get p = some text) (hl : jsonLoad text = some (.dict D)) (hg : dictGet NODE_RELATIONSHIPS_INDEX_NAME D = some v) :
    ∃ s, (addItemsToNodeRelationshipsIndex o p []).run fs = (.ok true, fs.set p s) := by
  have hD := jsonLoad_ser hl
  have hs := ser_dictSet (k := NODE_RELATIONSHIPS_INDEX_NAME) hD (ser_of_dictGet hD hg)
  refine ⟨text ++ dumpText (.dict (dictSet NODE_RELATIONSHIPS_INDEX_NAME v D)), ?_⟩
  unfold addItemsToNodeRelationshipsIndex
  rw [run_bind_ok (run_readFile_some h), loads_some hl, run_bind_ok (run_liftE_ok _ _),
    getItem_dict hg, run_bind_ok (run_liftE_ok _ _), relIndexLoop, run_bind_ok (run_liftE_ok _ _),
    setItem.eq_def, run_bind_ok (run_liftE_ok _ _)]
  rw [run_bind_ok (by rw [run_dumpTo h, jsonDump_ser _ hs]; rfl),
    run_bind_ok (run_truncate (FS.get_set_self _ _ _))]
  simp only [List.isEmpty_nil, if_true, run_pure, FS.set_set, overlay_end]
  rw [List.take_of_length_le (by simp)]

theorem addRel_outcome (o : SetOrd) (p : Path) (items : List (Str × List Int)) (fs : FS) :
    (∃ e, RelFault fs p (items.map Prod.fst) e ∧
        (addItemsToNodeRelationshipsIndex o p (items.map fun x => (x.1, x.2.map Val.int))).run fs = (.error e, fs)) ∨
      ∃ fs', (addItemsToNodeRelationshipsIndex o p (items.map fun x => (x.1, x.2.map Val.int))).run fs = (.ok true, fs') ∧
        (∃ D v, Holds fs p D ∧ dictGet c!"node_relationships" D = some v ∧
          (items ≠ [] → ∃ R R', v = .dict R ∧ (∀ k ∈ items.map Prod.fst, ∀ w, dictGet k R = some w → Settable w) ∧
            Holds fs' p (dictSet c!"node_relationships" (.dict R') D) ∧ RelAdded R items R')) ∧ ∀ q, q ≠ p → fs'.get q = fs.get q := by
  rw [addRel_readEntry]
  rcases readEntry_run p NODE_RELATIONSHIPS_INDEX_NAME (fun text idx rel => do
      let rel' ← liftE (relIndexLoop o rel (items.map fun x => (x.1, x.2.map Val.int)))
      let idx' ← liftE (setItem idx NODE_RELATIONSHIPS_INDEX_NAME rel')
      let pos ← dumpTo p (if (items.map fun x => (x.1, x.2.map Val.int)).isEmpty then text.length else 0) idx'
      unitOp (.truncate p pos) .osError
      pure true) fs with ⟨e, h1, h2⟩ | ⟨t, D, v, h1, h2, h3, h4⟩
  · exact .inl ⟨e, .entry e h1, h2⟩
  · by_cases hi : items = []
    · subst hi
      obtain ⟨s, hs⟩ := run_addRel_nothing (o := o) h1 h2 h3
      rw [addRel_readEntry] at hs
      exact .inr ⟨_, hs, ⟨D, v, ⟨t, h1, h2⟩, h3, fun hn => absurd rfl hn⟩, fun q hq => FS.get_set_ne (Ne.symm hq) _ _⟩
    · have hm : (items.map fun x => (x.1, x.2.map (Val.int (F := PyRuntime.F)))) ≠ [] := by simpa using hi
      by_cases hd : ∃ R, v = .dict R
      · obtain ⟨R, rfl⟩ := hd
        have hR : (Val.dict R).Ser := ser_of_dictGet (jsonLoad_ser h2) h3
        by_cases hs : ∀ k ∈ items.map Prod.fst, ∀ v, dictGet k R = some v → Settable v
        · obtain ⟨R', j1, j2, j3⟩ := relLoop_settable (o := o) hs hR
          have := run_addRelIndex (o := o) h1 h2 h3 j1 j2 hm
          rw [addRel_readEntry] at this
          exact .inr ⟨_, this, ⟨D, _, ⟨t, h1, h2⟩, h3, fun _ => ⟨R, R', rfl, hs,
            ⟨_, FS.get_set_self _ _ _, jsonLoad_dump _ (ser_dictSet (jsonLoad_ser h2) j2)⟩, j3⟩⟩, fun q hq => FS.get_set_ne (Ne.symm hq) _ _⟩
        · have hs' : ∃ k ∈ items.map Prod.fst, ∃ v, dictGet k R = some v ∧ ¬ Settable v := by
            apply Classical.byContradiction
            intro hn
            exact hs fun k hk v hv => Classical.byContradiction fun hb => hn ⟨k, hk, v, hv, hb⟩
          refine .inl ⟨.type, ?_, ?_⟩
          · obtain ⟨k, hk, v, hv, hb⟩ := hs'
            exact .notSet R k v ⟨D, ⟨t, h1, h2⟩, h3⟩ hk hv hb
          · rw [h4, relLoop_not hR hs', run_bind_err (run_liftE_error _ _)]
      · have hd' : ∀ d, v ≠ .dict d := fun d e => hd ⟨d, e⟩
        refine .inl ⟨.type, .notDict v ⟨D, ⟨t, h1, h2⟩, h3⟩ hd' (by simpa using hi), ?_⟩
        rw [h4, relLoop_other hd' hm, run_bind_err (run_liftE_error _ _)]

theorem jsonToDict_outcome (R : Dict V) :
    (∃ S, jsonToDict R = .ok S ∧ S.map Prod.fst = R.map Prod.fst ∧ (∀ x ∈ R, Settable x.2) ∧
        ∀ k s, (k, s) ∈ S → ∃ v, (k, v) ∈ R ∧ ∀ x, x ∈ s ↔ Member x v) ∨
      (jsonToDict R = .error .type ∧ ∃ x ∈ R, ¬ Settable x.2) := by
  induction R with
  | nil => exact .inl ⟨[], rfl, rfl, by simp, by simp⟩
  | cons y R ih =>
    by_cases hs : Settable y.2
    · obtain ⟨s, k1, k2, -⟩ := pySet_settable hs
      rcases ih with ⟨S, a, b, c, d⟩ | ⟨a, x, hx, b⟩
      · refine .inl ⟨(y.1, s) :: S, by simp [jsonToDict, k1, a], by simp [b], ?_, ?_⟩
        · intro x hx
          rcases List.mem_cons.1 hx with rfl | hx
          · exact hs
          · exact c x hx
        · intro k s' hk
          rcases List.mem_cons.1 hk with e | hk
          · cases e
            exact ⟨y.2, by simp, k2⟩
          · obtain ⟨v, hv, h⟩ := d k s' hk
            exact ⟨v, by simp [hv], h⟩
      · exact .inr ⟨by simp [jsonToDict, k1, a], x, by simp [hx], b⟩
    · exact .inr ⟨by simp [jsonToDict, pySet_not hs], y, by simp, hs⟩

theorem noEntry_jsonDecode {fs : FS} {p : Path} {name : Str} {e : PyErr} (h : NoEntry fs p name e) (he : e = .jsonDecode) :
    Unreadable fs p := by
  rcases h with ⟨_, h⟩ | ⟨d, h1, h2⟩
  · cases h <;> first | assumption | cases he
  · cases he

theorem loadRel_outcome (p : Path) (fs : FS) :
    (∃ e, RelLoadFault fs p e ∧ e ≠ .jsonDecode ∧ (loadNodeRelationshipsIndex p).run fs = (.error e, fs)) ∨
      (Unreadable fs p ∧ (loadNodeRelationshipsIndex p).run fs = (.ok [], fs)) ∨
      ∃ R S, HasEntry fs p c!"node_relationships" (.dict R) ∧ (∀ x ∈ R, Settable x.2) ∧ (loadNodeRelationshipsIndex p).run fs = (.ok S, fs) ∧
        S.map Prod.fst = R.map Prod.fst ∧ ∀ k s, (k, s) ∈ S → ∃ v, (k, v) ∈ R ∧ ∀ x, x ∈ s ↔ Member x v := by
  have e0 : loadNodeRelationshipsIndex p = Prog.tryCatch (readEntry p NODE_RELATIONSHIPS_INDEX_NAME fun _ _ v =>
      match v with
      | .dict d => liftE (jsonToDict d)
      | _ => .raise .attribute)
      fun e => if e = .jsonDecode then pure [] else .raise e := rfl
  rw [e0, run_tryCatch]
  rcases readEntry_run p NODE_RELATIONSHIPS_INDEX_NAME (fun _ _ v =>
      match v with
      | .dict d => liftE (jsonToDict d)
      | _ => .raise .attribute) fs with ⟨e, h1, h2⟩ | ⟨t, D, v, h1, h2, h3, h4⟩
  · rw [h2]
    by_cases he : e = .jsonDecode
    · refine .inr (.inl ⟨noEntry_jsonDecode h1 he, ?_⟩)
      simp only [he, if_true]
      rfl
    · refine .inl ⟨e, .entry e h1, he, ?_⟩
      simp only [he, if_false]
      rfl
  · rw [h4]
    by_cases hd : ∃ R, v = .dict R
    · obtain ⟨R, rfl⟩ := hd
      rcases jsonToDict_outcome R with ⟨S, a, b, c, d⟩ | ⟨a, x, hx, b⟩
      · simp only [a]
        exact .inr (.inr ⟨R, S, ⟨D, ⟨t, h1, h2⟩, h3⟩, c, rfl, b, d⟩)
      · simp only [a]
        exact .inl ⟨.type, .notSet R x ⟨D, ⟨t, h1, h2⟩, h3⟩ hx b, by simp, rfl⟩
    · have hd' : ∀ d, v ≠ .dict d := fun d e => hd ⟨d, e⟩
      refine .inl ⟨.attribute, .notDict v ⟨D, ⟨t, h1, h2⟩, h3⟩ hd', by simp, ?_⟩
      cases v <;> first | rfl | exact absurd rfl (hd' _)

/-! ### The database and the counter -/

theorem run_add_written {p : Path} {items : Dict V} {fs : FS} {text : Str} {v w : V} (h : fs.get p = some text)
    (hl : jsonLoad text = some v) (ha : addLoop v items = .ok w) (hw : w.Ser) :
    (addItemToDatabase p items).run fs = (.ok true, fs.set p (overlay text 0 (jsonDump w).1)) := by
  unfold addItemToDatabase
  rw [run_bind_ok (run_readFile_some h), loads_some hl, run_bind_ok (run_liftE_ok _ _), ha, run_bind_ok (run_liftE_ok _ _),
    run_bind, run_dumpTo h, jsonDump_ser _ hw]
  rfl

theorem run_add_refused {p : Path} {items : Dict V} {fs : FS} {text : Str} {v : V} {e : PyErr} (h : fs.get p = some text)
    (hl : jsonLoad text = some v) (ha : addLoop v items = .error e) : (addItemToDatabase p items).run fs = (.error e, fs) := by
  unfold addItemToDatabase
  rw [run_bind_ok (run_readFile_some h), loads_some hl, run_bind_ok (run_liftE_ok _ _), ha, run_bind_err (run_liftE_error _ _)]

theorem addDb_outcome (p : Path) (items : Dict V) (hn : (items.map Prod.fst).Nodup) (hi : Val.SerDict items) (fs : FS) :
    (∃ e, DbFault fs p (items.map Prod.fst) e ∧ (addItemToDatabase p items).run fs = (.error e, fs)) ∨
      ∃ fs', (addItemToDatabase p items).run fs = (.ok true, fs') ∧
        (items = [] ∨ ∃ d, Holds fs p d ∧ ∀ k ∈ items.map Prod.fst, k ∉ d.map Prod.fst) ∧ ∀ q, q ≠ p → fs'.get q = fs.get q := by
  rcases file_cases fs p with h | ⟨t, h, hl⟩ | ⟨t, v, h, hl, hd⟩ | ⟨t, d, h, hl⟩
  · exact .inl ⟨_, .missing _ h, run_add_none h⟩
  · exact .inl ⟨_, .broken _ ⟨t, h, hl⟩, run_add_bad h hl⟩
  · cases items with
    | nil => exact .inr ⟨_, run_add_written h hl rfl (jsonLoad_ser hl), .inl rfl, fun q hq => FS.get_set_ne (Ne.symm hq) _ _⟩
    | cons it items =>
      refine .inl ?_
      have hset := setItem_other hd it.1 it.2
      cases v with
      | dict d => exact absurd rfl (hd d)
      | list l =>
        by_cases hm : Val.str it.1 ∈ l
        · refine ⟨_, .inList l it.1 _ ⟨t, h, hl⟩ hm, run_add_refused h hl ?_⟩
          have : (l.any fun x => decide (x = .str it.1)) = true := List.any_eq_true.2 ⟨_, hm, by simp⟩
          simp only [addLoop, inVal, this]
        · refine ⟨_, .noList l it.1 _ ⟨t, h, hl⟩ hm, run_add_refused h hl ?_⟩
          have : (l.any fun x => decide (x = .str it.1)) = false := by
            rw [Bool.eq_false_iff]
            intro e
            obtain ⟨x, hx, e⟩ := List.any_eq_true.1 e
            exact hm (of_decide_eq_true e ▸ hx)
          simp only [addLoop, inVal, this, hset]
      | str s =>
        by_cases hm : it.1 <:+: s
        · refine ⟨_, .inText s it.1 _ ⟨t, h, hl⟩ hm, run_add_refused h hl ?_⟩
          simp only [addLoop, inVal, (isSubstr_iff _ _).2 hm]
        · have : isSubstr it.1 s = false := Bool.eq_false_iff.2 fun e => hm ((isSubstr_iff _ _).1 e)
          refine ⟨_, .noText s it.1 _ ⟨t, h, hl⟩ hm, run_add_refused h hl ?_⟩
          simp only [addLoop, inVal, this, hset]
      | _ => exact ⟨_, .other _ it.1 _ ⟨t, h, hl⟩ hd (by simp) (by simp), run_add_refused h hl rfl⟩
  · by_cases hf : Fresh d items
    · have hs : (Val.dict (d ++ items)).Ser := ser_append (jsonLoad_ser hl) hf hi
      exact .inr ⟨_, run_add_written h hl (addLoop_fresh hf) hs, .inr ⟨d, ⟨t, h, hl⟩, hf.2⟩, fun q hq => FS.get_set_ne (Ne.symm hq) _ _⟩
    · refine .inl ⟨.nodeExists, ?_, run_add_collision h hl hf⟩
      have : ∃ k ∈ items.map Prod.fst, k ∈ d.map Prod.fst := by
        apply Classical.byContradiction
        intro hb
        exact hf ⟨hn, fun k hk hk' => hb ⟨k, hk, hk'⟩⟩
      obtain ⟨k, h1, h2⟩ := this
      exact .used _ d k ⟨t, h, hl⟩ h1 h2

theorem getNumber_outcome (p : Path) (fs : FS) :
    (∃ e, CounterFault fs p e ∧ (getCurrentWiggleNumber p).run fs = (.error e, fs)) ∨
      ∃ s n, fs.get p = some s ∧ pyInt s = some n ∧ (getCurrentWiggleNumber p).run fs = (.ok n, fs) := by
  cases h : fs.get p with
  | none => exact .inl ⟨_, .missing h, run_getCurrentWiggleNumber_none h⟩
  | some s =>
    rw [run_getCurrentWiggleNumber h]
    cases s with
    | nil => exact .inl ⟨_, .empty h, rfl⟩
    | cons c s =>
      cases hp : pyInt (c :: s) with
      | none => exact .inl ⟨_, .noNumber _ h (by simp) hp, rfl⟩
      | some n => exact .inr ⟨_, n, rfl, hp, rfl⟩

/-! ### At most one thing is wrong -/

theorem isJson_unique {fs : FS} {p : Path} {v w : V} (h : IsJson fs p v) (h' : IsJson fs p w) : v = w := by
  obtain ⟨t, h1, h2⟩ := h
  obtain ⟨t', h1', h2'⟩ := h'
  rw [h1] at h1'
  cases h1'
  rw [h2] at h2'
  cases h2'
  rfl

theorem isJson_of_holds {fs : FS} {p : Path} {d : Dict V} (h : Holds fs p d) : IsJson fs p (.dict d) := h

theorem not_missing {fs : FS} {p : Path} {v : V} (h : IsJson fs p v) : fs.get p ≠ none := by
  obtain ⟨t, h1, h2⟩ := h
  simp [h1]

theorem not_unreadable {fs : FS} {p : Path} {v : V} (h : IsJson fs p v) : ¬ Unreadable fs p := by
  obtain ⟨t, h1, h2⟩ := h
  rintro ⟨t', h1', h2'⟩
  rw [h1] at h1'
  cases h1'
  simp [h2] at h2'

theorem unreadable_not_missing {fs : FS} {p : Path} (h : Unreadable fs p) : fs.get p ≠ none := by
  obtain ⟨t, h1, h2⟩ := h
  simp [h1]

theorem noDict_not_holds {fs : FS} {p : Path} {e : PyErr} {d : Dict V} (h : NoDict fs p e) : ¬ Holds fs p d := by
  intro hd
  cases h with
  | missing h => exact not_missing hd h
  | broken h => exact not_unreadable hd h
  | other v h hv => exact hv d (isJson_unique h hd)

theorem noDict_unique {fs : FS} {p : Path} {e e' : PyErr} (h : NoDict fs p e) (h' : NoDict fs p e') : e = e' := by
  cases h with
  | missing h =>
    cases h' with
    | missing _ => rfl
    | broken h' => exact absurd h (unreadable_not_missing h')
    | other v h' _ => exact absurd h (not_missing h')
  | broken h =>
    cases h' with
    | missing h' => exact absurd h' (unreadable_not_missing h)
    | broken _ => rfl
    | other v h' _ => exact absurd h (not_unreadable h')
  | other v h _ =>
    cases h' with
    | missing h' => exact absurd h' (not_missing h)
    | broken h' => exact absurd h' (not_unreadable h)
    | other _ _ _ => rfl

theorem holds_unique {fs : FS} {p : Path} {d d' : Dict V} (h : Holds fs p d) (h' : Holds fs p d') : d = d' := by
  cases isJson_unique h h'
  rfl

theorem noEntry_not {fs : FS} {p : Path} {name : Str} {e : PyErr} {v : V} (h : NoEntry fs p name e) : ¬ HasEntry fs p name v := by
  rintro ⟨d, h1, h2⟩
  cases h with
  | file e h => exact noDict_not_holds h h1
  | key d' h hk =>
    cases holds_unique h h1
    rw [dictGet_none_iff.2 hk] at h2
    cases h2

theorem noEntry_unique {fs : FS} {p : Path} {name : Str} {e e' : PyErr} (h : NoEntry fs p name e) (h' : NoEntry fs p name e') : e = e' := by
  cases h with
  | file e h =>
    cases h' with
    | file e' h' => exact noDict_unique h h'
    | key d h' _ => exact absurd h' (noDict_not_holds h)
  | key d h _ =>
    cases h' with
    | file e' h' => exact absurd h (noDict_not_holds h')
    | key _ _ _ => rfl

theorem hasEntry_unique {fs : FS} {p : Path} {name : Str} {v w : V} (h : HasEntry fs p name v) (h' : HasEntry fs p name w) : v = w := by
  obtain ⟨d, h1, h2⟩ := h
  obtain ⟨d', h1', h2'⟩ := h'
  cases holds_unique h1 h1'
  rw [h2] at h2'
  cases h2'
  rfl

theorem setFault_unique {fs : FS} {p : Path} {name : Str} {e e' : PyErr} (h : SetFault fs p name e) (h' : SetFault fs p name e') : e = e' := by
  cases h with
  | entry e h =>
    cases h' with
    | entry e' h' => exact noEntry_unique h h'
    | notSet v h' _ => exact absurd h' (noEntry_not h)
  | notSet v h _ =>
    cases h' with
    | entry e' h' => exact absurd h (noEntry_not h')
    | notSet _ _ _ => rfl

theorem setFault_not {fs : FS} {p : Path} {name : Str} {e : PyErr} {v : V} (h : SetFault fs p name e) (hv : HasEntry fs p name v)
    (hs : Settable v) : False := by
  cases h with
  | entry e h => exact noEntry_not h hv
  | notSet w h hn => exact hn (hasEntry_unique hv h ▸ hs)

theorem relFault_unique {fs : FS} {p : Path} {ks : List Str} {e e' : PyErr} (h : RelFault fs p ks e) (h' : RelFault fs p ks e') : e = e' := by
  cases h with
  | entry e h =>
    cases h' with
    | entry e' h' => exact noEntry_unique h h'
    | notDict v h' _ _ => exact absurd h' (noEntry_not h)
    | notSet R k v h' _ _ _ => exact absurd h' (noEntry_not h)
  | notDict v h _ _ =>
    cases h' with
    | entry e' h' => exact absurd h (noEntry_not h')
    | notDict _ _ _ _ => rfl
    | notSet _ _ _ _ _ _ _ => rfl
  | notSet R k v h _ _ _ =>
    cases h' with
    | entry e' h' => exact absurd h (noEntry_not h')
    | notDict _ _ _ _ => rfl
    | notSet _ _ _ _ _ _ _ => rfl

theorem relLoadFault_unique {fs : FS} {p : Path} {e e' : PyErr} (h : RelLoadFault fs p e) (h' : RelLoadFault fs p e') : e = e' := by
  cases h with
  | entry e h =>
    cases h' with
    | entry e' h' => exact noEntry_unique h h'
    | notDict v h' _ => exact absurd h' (noEntry_not h)
    | notSet R x h' _ _ => exact absurd h' (noEntry_not h)
  | notDict v h hd =>
    cases h' with
    | entry e' h' => exact absurd h (noEntry_not h')
    | notDict _ _ _ => rfl
    | notSet R x h' _ _ => exact absurd (hasEntry_unique h h') (hd R)
  | notSet R x h _ _ =>
    cases h' with
    | entry e' h' => exact absurd h (noEntry_not h')
    | notDict v h' hd => exact absurd (hasEntry_unique h' h) (hd R)
    | notSet _ _ _ _ _ => rfl

theorem dbFault_run {fs : FS} {p : Path} {items : Dict V} {e : PyErr} (h : DbFault fs p (items.map Prod.fst) e) :
    (addItemToDatabase p items).run fs = (.error e, fs) := by
  generalize hk : items.map Prod.fst = ks at h
  have key : ∀ k ks, items.map Prod.fst = k :: ks → ∃ v r, items = (k, v) :: r := by
    intro k ks hk
    cases items with
    | nil => cases hk
    | cons it r => exact ⟨it.2, r, by simp at hk; simp [← hk.1]⟩
  cases h with
  | missing _ h => exact run_add_none h
  | broken _ h =>
    obtain ⟨t, h, hl⟩ := h
    exact run_add_bad h hl
  | used _ d k h h1 h2 =>
    obtain ⟨t, h, hl⟩ := h
    exact run_add_collision h hl fun hf => hf.2 k (by rw [keys, hk]; exact h1) h2
  | inList l k ks h hm =>
    obtain ⟨t, h, hl⟩ := h
    obtain ⟨v, r, rfl⟩ := key _ _ hk
    have : (l.any fun x => decide (x = .str k)) = true := List.any_eq_true.2 ⟨_, hm, by simp⟩
    exact run_add_refused h hl (by simp only [addLoop, inVal, this])
  | inText s k ks h hm =>
    obtain ⟨t, h, hl⟩ := h
    obtain ⟨v, r, rfl⟩ := key _ _ hk
    exact run_add_refused h hl (by simp only [addLoop, inVal, (isSubstr_iff _ _).2 hm])
  | noList l k ks h hm =>
    obtain ⟨t, h, hl⟩ := h
    obtain ⟨v, r, rfl⟩ := key _ _ hk
    have : (l.any fun x => decide (x = .str k)) = false := by
      rw [Bool.eq_false_iff]
      intro e
      obtain ⟨x, hx, e⟩ := List.any_eq_true.1 e
      exact hm (of_decide_eq_true e ▸ hx)
    exact run_add_refused h hl (by simp only [addLoop, inVal, this, setItem])
  | noText s k ks h hm =>
    obtain ⟨t, h, hl⟩ := h
    obtain ⟨v, r, rfl⟩ := key _ _ hk
    have : isSubstr k s = false := Bool.eq_false_iff.2 fun e => hm ((isSubstr_iff _ _).1 e)
    exact run_add_refused h hl (by simp only [addLoop, inVal, this, setItem])
  | other w k ks h h1 h2 h3 =>
    obtain ⟨t, h, hl⟩ := h
    obtain ⟨v, r, rfl⟩ := key _ _ hk
    refine run_add_refused h hl ?_
    cases w <;> first | rfl | exact absurd rfl (h1 _) | exact absurd rfl (h2 _) | exact absurd rfl (h3 _)

theorem counterFault_run {fs : FS} {p : Path} {e : PyErr} (h : CounterFault fs p e) :
    (getCurrentWiggleNumber p).run fs = (.error e, fs) := by
  cases h with
  | missing h => exact run_getCurrentWiggleNumber_none h
  | empty h =>
    rw [run_getCurrentWiggleNumber h]
    rfl
  | noNumber s h h1 h2 =>
    rw [run_getCurrentWiggleNumber h, h2]
    cases s with
    | nil => exact absurd rfl h1
    | cons c s => rfl

theorem setFault_run {o : SetOrd} {p : Path} {items : List Str} {name : Str} {fs : FS} {e : PyErr} (h : SetFault fs p name e) :
    (addItemsSetToIndex o p items name).run fs = (.error e, fs) := by
  rcases addSet_outcome o p items name fs with ⟨e', h', hr⟩ | ⟨d, v, l, fs', h1, h2, h3, -⟩
  · rw [setFault_unique h h']
    exact hr
  · exact (setFault_not h ⟨d, h1, h2⟩ h3).elim

theorem relFault_run {o : SetOrd} {p : Path} {items : List (Str × List Int)} {fs : FS} {e : PyErr}
    (h : RelFault fs p (items.map Prod.fst) e) :
    (addItemsToNodeRelationshipsIndex o p (items.map fun x => (x.1, x.2.map Val.int))).run fs = (.error e, fs) := by
  rcases addRel_outcome o p items fs with ⟨e', h', hr⟩ | ⟨fs', -, ⟨D, v, h1, h2, h3⟩, -⟩
  · rw [relFault_unique h h']
    exact hr
  · exfalso
    cases h with
    | entry e h => exact noEntry_not h ⟨D, h1, h2⟩
    | notDict w h hd hne =>
      obtain ⟨R, -, e, -⟩ := h3 (by simpa using hne)
      exact hd R ((hasEntry_unique h ⟨D, h1, h2⟩).trans e)
    | notSet R k w h hk hw hs =>
      obtain ⟨R', -, e, h4, -⟩ := h3 fun e => by simp [e] at hk
      cases (hasEntry_unique h ⟨D, h1, h2⟩).trans e
      exact hs (h4 k hk w hw)

theorem loadSetFault_run {p : Path} {name : Str} {fs : FS} {e : PyErr} (h : SetFault fs p name e) (he : e ≠ .jsonDecode) :
    (loadIndexSet p name).run fs = (.error e, fs) := by
  rcases loadSet_outcome p name fs with ⟨e', h', -, hr⟩ | ⟨hu, -⟩ | ⟨v, s, h1, h2, -⟩
  · rw [setFault_unique h h']
    exact hr
  · exact absurd (setFault_unique h (.entry _ (.file _ (.broken hu)))) he
  · exact (setFault_not h h1 h2).elim

theorem loadRelFault_run {p : Path} {fs : FS} {e : PyErr} (h : RelLoadFault fs p e) (he : e ≠ .jsonDecode) :
    (loadNodeRelationshipsIndex p).run fs = (.error e, fs) := by
  rcases loadRel_outcome p fs with ⟨e', h', -, hr⟩ | ⟨hu, -⟩ | ⟨R, S, h1, h2, -⟩
  · rw [relLoadFault_unique h h']
    exact hr
  · exact absurd (relLoadFault_unique h (.entry _ (.file _ (.broken hu)))) he
  · exfalso
    cases h with
    | entry e h => exact noEntry_not h h1
    | notDict w h hd => exact hd R (hasEntry_unique h h1)
    | notSet R' x h hx hs =>
      cases hasEntry_unique h h1
      exact hs (h2 x hx)

theorem wipeFault_run {empty : V} (he : empty.Ser) {p : Path} {name : Str} {fs : FS} {e : PyErr} (h : NoDict fs p e) :
    (wipeIndexWith empty p name true).run fs = (.error e, fs) := by
  rcases wipeIndex_outcome he p name fs with ⟨e', h', hr⟩ | ⟨d, fs', h1, -⟩
  · rw [noDict_unique h h']
    exact hr
  · exact absurd h1 (noDict_not_holds h)

end WG
