/-
C97: each storage function fails exactly on the files it cannot work with, with the exception that says what is wrong, and leaves the
disk alone; on every other file it does its work and returns True.
-/
import Verif.Proofs.Damage
import Verif.Spec.DemoFS
import Verif.Props.Storage
set_option linter.unusedSectionVars false

namespace WG
section
variable [PyRuntime]

/-- C97: adding to the index of labels or of names (`add_items_set_to_index_by_name`). -/
theorem C97_add_set (o : SetOrd) (p : Path) (items : List Str) (name : Str) (fs : FS) :
    (∀ e fs', (addItemsSetToIndex o p items name).run fs = (.error e, fs') ↔ SetFault fs p name e ∧ fs' = fs) ∧
      ((∀ e, ¬ SetFault fs p name e) → ∃ d v l fs', Holds fs p d ∧ dictGet name d = some v ∧
        (addItemsSetToIndex o p items name).run fs = (.ok true, fs') ∧ Holds fs' p (dictSet name (.list l) d) ∧
        (∀ x, x ∈ l ↔ Member x v ∨ ∃ s ∈ items, x = .str s) ∧ ∀ q, q ≠ p → fs'.get q = fs.get q) := by
  refine ⟨fun e fs' => ⟨fun h => ?_, fun ⟨h, e⟩ => by rw [e]; exact setFault_run h⟩, fun h => ?_⟩
  · rcases addSet_outcome o p items name fs with ⟨e', h', hr⟩ | ⟨d, v, l, fs', -, -, -, hr, -⟩
    · rw [h] at hr
      cases hr
      exact ⟨h', rfl⟩
    · rw [h] at hr
      cases hr
  · rcases addSet_outcome o p items name fs with ⟨e', h', -⟩ | ⟨d, v, l, fs', h1, h2, -, h4⟩
    · exact absurd h' (h e')
    · exact ⟨d, v, l, fs', h1, h2, h4⟩

/-- C97: adding to the index of relationships.  Of a value that is no set the function complains only if it has something to add
there; with nothing to add it never complains. -/
theorem C97_add_relationships (o : SetOrd) (p : Path) (items : List (Str × List Int)) (fs : FS) :
    (∀ e fs', (addItemsToNodeRelationshipsIndex o p (items.map fun x => (x.1, x.2.map Val.int))).run fs = (.error e, fs') ↔
        RelFault fs p (items.map Prod.fst) e ∧ fs' = fs) ∧
      ((∀ e, ¬ RelFault fs p (items.map Prod.fst) e) → ∃ fs',
        (addItemsToNodeRelationshipsIndex o p (items.map fun x => (x.1, x.2.map Val.int))).run fs = (.ok true, fs') ∧
        (items ≠ [] → ∃ D R R', Holds fs p D ∧ dictGet c!"node_relationships" D = some (.dict R) ∧
          Holds fs' p (dictSet c!"node_relationships" (.dict R') D) ∧ RelAdded R items R') ∧ ∀ q, q ≠ p → fs'.get q = fs.get q) := by
  refine ⟨fun e fs' => ⟨fun h => ?_, fun ⟨h, e⟩ => by rw [e]; exact relFault_run h⟩, fun h => ?_⟩
  · rcases addRel_outcome o p items fs with ⟨e', h', hr⟩ | ⟨fs', hr, -⟩
    · rw [h] at hr
      cases hr
      exact ⟨h', rfl⟩
    · rw [h] at hr
      cases hr
  · rcases addRel_outcome o p items fs with ⟨e', h', -⟩ | ⟨fs', h1, ⟨D, v, h2, h3, h4⟩, h5⟩
    · exact absurd h' (h e')
    · refine ⟨fs', h1, fun hi => ?_, h5⟩
      obtain ⟨R, R', rfl, -, h6, h7⟩ := h4 hi
      exact ⟨D, R, R', h2, h3, h6, h7⟩

/-- C97: loading the index of labels or of names.  A file that is not JSON is taken for an empty index (C09). -/
theorem C97_load_set (p : Path) (name : Str) (fs : FS) :
    (∀ e fs', (loadIndexSet p name).run fs = (.error e, fs') ↔ SetFault fs p name e ∧ e ≠ .jsonDecode ∧ fs' = fs) ∧
      (SetFault fs p name .jsonDecode → (loadIndexSet p name).run fs = (.ok [], fs)) ∧
      ((∀ e, ¬ SetFault fs p name e) → ∃ v s, HasEntry fs p name v ∧ (loadIndexSet p name).run fs = (.ok s, fs) ∧
        ∀ x, x ∈ s ↔ Member x v) := by
  refine ⟨fun e fs' => ⟨fun h => ?_, fun ⟨h, hn, e⟩ => by rw [e]; exact loadSetFault_run h hn⟩, fun h => ?_, fun h => ?_⟩
  · rcases loadSet_outcome p name fs with ⟨e', h', hn, hr⟩ | ⟨-, hr⟩ | ⟨v, s, -, -, hr, -⟩
    · rw [h] at hr
      cases hr
      exact ⟨h', hn, rfl⟩
    · rw [h] at hr
      cases hr
    · rw [h] at hr
      cases hr
  · rcases loadSet_outcome p name fs with ⟨e', h', hn, -⟩ | ⟨-, hr⟩ | ⟨v, s, h1, h2, -⟩
    · exact absurd (setFault_unique h' h) hn
    · exact hr
    · exact (setFault_not h h1 h2).elim
  · rcases loadSet_outcome p name fs with ⟨e', h', -⟩ | ⟨hu, -⟩ | ⟨v, s, h1, -, h2⟩
    · exact absurd h' (h e')
    · exact absurd (.entry _ (.file _ (.broken hu))) (h _)
    · exact ⟨v, s, h1, h2⟩

/-- C97: loading the index of relationships. -/
theorem C97_load_relationships (p : Path) (fs : FS) :
    (∀ e fs', (loadNodeRelationshipsIndex p).run fs = (.error e, fs') ↔ RelLoadFault fs p e ∧ e ≠ .jsonDecode ∧ fs' = fs) ∧
      (RelLoadFault fs p .jsonDecode → (loadNodeRelationshipsIndex p).run fs = (.ok [], fs)) ∧
      ((∀ e, ¬ RelLoadFault fs p e) → ∃ R S, HasEntry fs p c!"node_relationships" (.dict R) ∧
        (loadNodeRelationshipsIndex p).run fs = (.ok S, fs) ∧ S.map Prod.fst = R.map Prod.fst ∧
        ∀ k s, (k, s) ∈ S → ∃ v, (k, v) ∈ R ∧ ∀ x, x ∈ s ↔ Member x v) := by
  refine ⟨fun e fs' => ⟨fun h => ?_, fun ⟨h, hn, e⟩ => by rw [e]; exact loadRelFault_run h hn⟩, fun h => ?_, fun h => ?_⟩
  · rcases loadRel_outcome p fs with ⟨e', h', hn, hr⟩ | ⟨-, hr⟩ | ⟨v, s, -, -, hr, -⟩
    · rw [h] at hr
      cases hr
      exact ⟨h', hn, rfl⟩
    · rw [h] at hr
      cases hr
    · rw [h] at hr
      cases hr
  · rcases loadRel_outcome p fs with ⟨e', h', hn, -⟩ | ⟨-, hr⟩ | ⟨R, S, h1, h2, -⟩
    · exact absurd (relLoadFault_unique h' h) hn
    · exact hr
    · exfalso
      cases h with
      | entry _ h => exact noEntry_not h h1
  · rcases loadRel_outcome p fs with ⟨e', h', -⟩ | ⟨hu, -⟩ | ⟨R, S, h1, -, h2⟩
    · exact absurd h' (h e')
    · exact absurd (.entry _ (.file _ (.broken hu))) (h _)
    · exact ⟨R, S, h1, h2⟩

/-- C97: wiping an index.  An index file without the entry gets it. -/
theorem C97_wipe_index (p : Path) (fs : FS) (w : Prog Bool) (name : Str) (empty : V)
    (hw : (w = wipeNodeLabelsIndex p true ∧ name = c!"node_labels" ∧ empty = .list []) ∨
      (w = wipeRelationshipNamesIndex p true ∧ name = c!"relationship_names" ∧ empty = .list []) ∨
      (w = wipeNodeRelationshipsIndex p true ∧ name = c!"node_relationships" ∧ empty = .dict [])) :
    (∀ e fs', w.run fs = (.error e, fs') ↔ NoDict fs p e ∧ fs' = fs) ∧
      ((∀ e, ¬ NoDict fs p e) → ∃ d fs', Holds fs p d ∧ w.run fs = (.ok true, fs') ∧ Holds fs' p (dictSet name empty d) ∧
        ∀ q, q ≠ p → fs'.get q = fs.get q) := by
  have le : (Val.list [] : V).Ser := by rw [Val.Ser]; trivial
  have de : (Val.dict [] : V).Ser := by rw [Val.Ser]; exact ⟨by simp, trivial⟩
  obtain ⟨he, hw⟩ : empty.Ser ∧ w = wipeIndexWith empty p name true := by
    rcases hw with ⟨rfl, rfl, rfl⟩ | ⟨rfl, rfl, rfl⟩ | ⟨rfl, rfl, rfl⟩
    · exact ⟨le, rfl⟩
    · exact ⟨le, rfl⟩
    · exact ⟨de, rfl⟩
  subst hw
  refine ⟨fun e fs' => ⟨fun h => ?_, fun ⟨h, e⟩ => by rw [e]; exact wipeFault_run he h⟩, fun h => ?_⟩
  · rcases wipeIndex_outcome he p name fs with ⟨e', h', hr⟩ | ⟨d, fs', -, hr, -⟩
    · rw [h] at hr
      cases hr
      exact ⟨h', rfl⟩
    · rw [h] at hr
      cases hr
  · rcases wipeIndex_outcome he p name fs with ⟨e', h', -⟩ | h'
    · exact absurd h' (h e')
    · exact h'

/-- C97: adding records to the database. -/
theorem C97_add_records (p : Path) (items : Dict V) (hi : DbOp.OK (.add items)) (fs : FS) :
    (∀ e fs', (addItemToDatabase p items).run fs = (.error e, fs') ↔ DbFault fs p (items.map Prod.fst) e ∧ fs' = fs) ∧
      ((∀ e, ¬ DbFault fs p (items.map Prod.fst) e) → ∃ fs', (addItemToDatabase p items).run fs = (.ok true, fs') ∧
        ∀ q, q ≠ p → fs'.get q = fs.get q) := by
  have hs : Val.SerDict items := hi.ser
  refine ⟨fun e fs' => ⟨fun h => ?_, fun ⟨h, e⟩ => by rw [e]; exact dbFault_run h⟩, fun h => ?_⟩
  · rcases addDb_outcome p items hi.1 hs fs with ⟨e', h', hr⟩ | ⟨fs', hr, -⟩
    · rw [h] at hr
      cases hr
      exact ⟨h', rfl⟩
    · rw [h] at hr
      cases hr
  · rcases addDb_outcome p items hi.1 hs fs with ⟨e', h', -⟩ | ⟨fs', h1, -, h2⟩
    · exact absurd h' (h e')
    · exact ⟨fs', h1, h2⟩

/-- C97: loading the database: whatever JSON the file holds, dict or not. -/
theorem C97_load_records (p : Path) (fs : FS) :
    (∀ e fs', (loadDatabase p).run fs = (.error e, fs') ↔ fs.get p = none ∧ e = .fileNotFound ∧ fs' = fs) ∧
      (Unreadable fs p → (loadDatabase p).run fs = (.ok (.dict []), fs)) ∧ (∀ v, IsJson fs p v → (loadDatabase p).run fs = (.ok v, fs)) := by
  refine ⟨fun e fs' => ⟨fun h => ?_, fun ⟨h, e1, e2⟩ => ?_⟩, fun ⟨t, h1, h2⟩ => run_loadDatabase_bad h1 h2,
    fun v ⟨t, h1, h2⟩ => run_loadDatabase_some h1 h2⟩
  · cases hp : fs.get p with
    | none =>
      have : (loadDatabase p).run fs = (.error .fileNotFound, fs) := by
        unfold loadDatabase
        rw [run_tryCatch, run_bind_err (run_readFile_none hp)]
        rfl
      rw [h] at this
      cases this
      exact ⟨rfl, rfl, rfl⟩
    | some t =>
      cases hl : jsonLoad t with
      | none =>
        rw [run_loadDatabase_bad hp hl] at h
        cases h
      | some v =>
        rw [run_loadDatabase_some hp hl] at h
        cases h
  · subst e1 e2
    unfold loadDatabase
    rw [run_tryCatch, run_bind_err (run_readFile_none h)]
    rfl

/-- C97: the counter. -/
theorem C97_counter (p : Path) (fs : FS) :
    (∀ e fs', (getCurrentWiggleNumber p).run fs = (.error e, fs') ↔ CounterFault fs p e ∧ fs' = fs) ∧
      ((∀ e, ¬ CounterFault fs p e) → ∃ s n, fs.get p = some s ∧ pyInt s = some n ∧ (getCurrentWiggleNumber p).run fs = (.ok n, fs)) := by
  refine ⟨fun e fs' => ⟨fun h => ?_, fun ⟨h, e⟩ => by rw [e]; exact counterFault_run h⟩, fun h => ?_⟩
  · rcases getNumber_outcome p fs with ⟨e', h', hr⟩ | ⟨s, n, -, -, hr⟩
    · rw [h] at hr
      cases hr
      exact ⟨h', rfl⟩
    · rw [h] at hr
      cases hr
  · rcases getNumber_outcome p fs with ⟨e', h', -⟩ | h'
    · exact absurd h' (h e')
    · exact h'

/-- C97: MAKE and its two halves return True whenever they return. -/
theorem C97_make_returns (env : Env) (pml : List ParsedMake) (mps : List MakePre) (nodes : List NodeData) (g : GPath) (fs fs' : FS) (b : Bool) :
    ((make env pml g).run fs = (.ok b, fs') → b = true) ∧ ((addNodesToGraph env nodes g).run fs = (.ok b, fs') → b = true) ∧
      ((addIndexes env nodes mps g).run fs = (.ok b, fs') → b = true) := by
  have key : ∀ {α : Type} {a : Prog α} {b : Bool} {fs fs' : FS}, (a >>= fun _ => (pure true : Prog Bool)).run fs = (.ok b, fs') → b = true := by
    intro α a b fs fs' h
    rw [run_bind] at h
    split at h
    · cases h
      rfl
    · cases h
  refine ⟨fun h => ?_, fun h => ?_, fun h => ?_⟩
  · unfold make at h
    rw [run_bind] at h
    split at h
    · rw [run_bind] at h
      split at h
      · rw [run_bind] at h
        split at h
        · rw [run_bind] at h
          split at h
          · rw [run_bind] at h
            split at h
            · exact key h
            · cases h
          · cases h
        · cases h
      · cases h
    · cases h
  · exact key h
  · unfold addIndexes at h
    rw [run_bind] at h
    split at h
    · rw [run_bind] at h
      split at h
      · exact key h
      · cases h
    · cases h

end

section
attribute [local instance] demoRuntime

/-- An index file with a number for the labels, a list in the names, a number for a node, and a text for another. -/
def demoDamaged : FS := demoFS c!"[\"7\"]"
  c!"{\"node_labels\": 5, \"relationship_names\": [[1]], \"node_relationships\": {\"1\": 7, \"2\": \"aab\"}}" c!"x"

/-- What is in it. -/
def demoDamagedIndex : Dict V := [(c!"node_labels", .int 5), (c!"relationship_names", .list [.list [.int 1]]),
  (c!"node_relationships", .dict [(c!"1", .int 7), (c!"2", .str c!"aab")])]

theorem demoDamaged_holds : Holds demoDamaged demoG.idx demoDamagedIndex := ⟨_, rfl, by decide +kernel⟩

/-- C97: labels that are a number. -/
example : (addItemsToNodeLabelsIndex demoOrd demoG.idx [c!"A"]).run demoDamaged = (.error .type, demoDamaged) :=
  ((C97_add_set _ _ _ _ _).1 _ _).2 ⟨.notSet (.int 5) ⟨_, demoDamaged_holds, rfl⟩ id, rfl⟩
/-- C97: names that contain a list, when loaded. -/
example : (loadRelationshipNamesIndex demoG.idx).run demoDamaged = (.error .type, demoDamaged) :=
  ((C97_load_set _ _ _).1 _ _).2 ⟨.notSet (.list [.list [.int 1]]) ⟨_, demoDamaged_holds, rfl⟩ (fun h => (h (.list [.int 1]) (by simp)).1 _ rfl),
    by decide, rfl⟩
/-- C97: numbers for a node whose entry is a number, … -/
example : (addItemsToNodeRelationshipsIndex demoOrd demoG.idx [(c!"2", [.int 3]), (c!"1", [.int 3])]).run demoDamaged =
    (.error .type, demoDamaged) :=
  ((C97_add_relationships demoOrd demoG.idx [(c!"2", [3]), (c!"1", [3])] demoDamaged).1 _ _).2
    ⟨.notSet _ c!"1" (.int 7) ⟨_, demoDamaged_holds, rfl⟩ (by decide) rfl id, rfl⟩
/-- … and for a node whose entry is a text: the letters become members. -/
example : ∃ fs', (addItemsToNodeRelationshipsIndex demoOrd demoG.idx [(c!"2", [.int 3])]).run demoDamaged = (.ok true, fs') ∧
    ∃ D R', Holds fs' demoG.idx (dictSet c!"node_relationships" (.dict R') D) ∧ ∃ v, dictGet c!"2" R' = some v ∧
      Member (.str c!"b") v ∧ Member (.int 3) v := by
  obtain ⟨fs', h1, h2, -⟩ := (C97_add_relationships demoOrd demoG.idx [(c!"2", [3])] demoDamaged).2 (by
    intro e h
    cases h with
    | entry e h => exact noEntry_not h ⟨_, demoDamaged_holds, rfl⟩
    | notDict v h hd _ => exact hd _ (hasEntry_unique h ⟨_, demoDamaged_holds, rfl⟩)
    | notSet R k v h hk hv hs =>
      cases hasEntry_unique h ⟨_, demoDamaged_holds, rfl⟩
      simp only [List.map_cons, List.map_nil, List.mem_singleton] at hk
      subst hk
      cases hv
      exact hs trivial)
  refine ⟨fs', h1, ?_⟩
  obtain ⟨D, R, R', a1, a2, a3, a4⟩ := h2 (by simp)
  cases hasEntry_unique ⟨D, a1, a2⟩ ⟨_, demoDamaged_holds, rfl⟩
  obtain ⟨v, b1, b2⟩ := (a4 c!"2").1 (by decide)
  exact ⟨D, R', a3, v, b1, (b2 _).2 (.inl ⟨_, rfl, _, List.mem_cons_of_mem _ (List.mem_cons_of_mem _ (List.mem_cons_self)), rfl⟩),
    (b2 _).2 (.inr ⟨_, List.mem_singleton.2 rfl, rfl, 3, by simp, rfl⟩)⟩
/-- C97: loading these relationships. -/
example : (loadNodeRelationshipsIndex demoG.idx).run demoDamaged = (.error .type, demoDamaged) :=
  ((C97_load_relationships _ _).1 _ _).2 ⟨.notSet _ (c!"1", .int 7) ⟨_, demoDamaged_holds, rfl⟩ (by simp) id, by decide, rfl⟩
/-- C97: wiping repairs the entry. -/
example : ∃ d fs', Holds demoDamaged demoG.idx d ∧ (wipeNodeLabelsIndex demoG.idx true).run demoDamaged = (.ok true, fs') ∧
    Holds fs' demoG.idx (dictSet c!"node_labels" (.list []) d) ∧ ∀ q, q ≠ demoG.idx → fs'.get q = demoDamaged.get q :=
  (C97_wipe_index demoG.idx demoDamaged _ c!"node_labels" (.list []) (.inl ⟨rfl, rfl, rfl⟩)).2 fun _ h => noDict_not_holds h demoDamaged_holds
/-- C97: a database that is a list: a key found in it counts as used, … -/
example : (addItemToDatabase demoG.db [(c!"7", .int 1)]).run demoDamaged = (.error .nodeExists, demoDamaged) :=
  ((C97_add_records demoG.db [(c!"7", .int 1)] (by simp [DbOp.OK, Val.WF]; exact ⟨_, rfl⟩) demoDamaged).1 _ _).2
    ⟨.inList [.str c!"7"] _ _ ⟨_, rfl, by decide +kernel⟩ (by simp), rfl⟩
/-- … another key fails because a list has no keys. -/
example : (addItemToDatabase demoG.db [(c!"8", .int 1)]).run demoDamaged = (.error .type, demoDamaged) :=
  ((C97_add_records demoG.db [(c!"8", .int 1)] (by simp [DbOp.OK, Val.WF]; exact ⟨_, rfl⟩) demoDamaged).1 _ _).2
    ⟨.noList [.str c!"7"] _ _ ⟨_, rfl, by decide +kernel⟩ (by decide), rfl⟩
/-- C97: the database loads as a list. -/
example : (loadDatabase demoG.db).run demoDamaged = (.ok (.list [.str c!"7"]), demoDamaged) :=
  (C97_load_records _ _).2.2 _ ⟨_, rfl, by decide +kernel⟩
/-- C97: a counter that is no number. -/
example : (getCurrentWiggleNumber demoG.wn).run demoDamaged = (.error .value, demoDamaged) :=
  ((C97_counter _ _).1 _ _).2 ⟨.noNumber c!"x" rfl (by simp) (by decide +kernel), rfl⟩

end

end WG
