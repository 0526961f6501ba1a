/-
The exports of a node against what MAKE stores (C74).
-/
import Verif.Proofs.Export
import Verif.Props.Index

set_option linter.unusedSectionVars false
set_option linter.unusedSimpArgs false

namespace WG

section
variable [PyRuntime]

/-- Before a MAKE that returned, a GDBMS is consistent. -/
theorem makeHist_success {P : ParsedPattern → Prop} {env : Env} {pml : List ParsedMake} {g : GPath}
    {fs fs' : FS} {r : Bool} (h : MakeHist P g fs) (hr : (make env pml g).run fs = (.ok r, fs')) :
    ∃ d labels names rels n, Consistent fs g d labels names rels n := by
  rcases makeHist_inv h with ⟨d', labels, names, rels, n, hc, hph⟩ | ⟨t, h1, h2⟩ | ⟨t, h1, h2⟩
  · exact ⟨_, _, _, _, _, hc⟩
  · exfalso
    obtain ⟨n, h3, _⟩ := C02_counter_advances_exactly _ _ _ _ _ _ hr
    by_cases hok : MakeOK pml
    · rw [run_make_counter h3, afterCounter_ok hok, commit_eq, run_bind_err (run_add_bad h1 h2)] at hr
      simp at hr
    · obtain ⟨e, he⟩ := C22_rejected_make_changes_nothing env pml g fs (Or.inr hok)
      rw [he] at hr; simp at hr
  · exfalso
    obtain ⟨n, h3, _⟩ := C02_counter_advances_exactly _ _ _ _ _ _ hr
    by_cases hok : MakeOK pml
    · rw [run_make_counter h3, afterCounter_ok hok] at hr
      unfold commit at hr
      obtain ⟨_, fs1, h4, hr⟩ := run_ok_bind hr
      have hne := (makeHist_ne h).1
      have e1 := run_only (only_addItem g.db (dbBatch env n (patsOf pml))) (q := g.idx)
        (by simpa using Ne.symm hne) fs
      rw [h4, h1] at e1
      rw [run_bind_err (run_addRelIndex_bad e1 h2)] at hr
      simp at hr
    · obtain ⟨e, he⟩ := C22_rejected_make_changes_nothing env pml g fs (Or.inr hok)
      rw [he] at hr; simp at hr

/-- C74: after a successful MAKE the database is the old one updated with the exports of the nodes
MAKE built, one after the other.
Missing from the full property: the relationship index (`C74_violated_index`). -/
theorem C74_make_stores_the_exports_partial (env : Env) (pml : List ParsedMake) (g : GPath) (fs fs' : FS)
    (d : Dict V) (labels names : List Str) (rels : Dict (List Int)) (n : Int) (r : Bool)
    (h : Healthy fs g d labels names rels n) (hr : (make env pml g).run fs = (.ok r, fs')) :
    ∃ ns, BuiltNodes n pml ns ∧
      Holds fs' g.db (ns.foldl (fun d m => dictUpdate d (exportNode env false false m)) d) := by
  obtain ⟨hok, hf, hs, hb, _, l, m, rl, hh, _⟩ := make_success h hr
  refine ⟨_, builtNodes_of hok, ?_⟩
  rw [exports_batch hf]
  exact hh.db

/-- C74: what a node exports is what the database holds under its number, whatever MAKE built it;
and the four exports are: the record, the record without `null` members, the record with only the
numbers in the metadata, and both.
Missing from the full property: the relationship index (`C74_violated_index`). -/
theorem C74_exports_of_the_record_partial (env : Env) (pml : List ParsedMake) (g : GPath) (fs fs' : FS)
    (d d' : Dict V) (labels names : List Str) (rels : Dict (List Int)) (n : Int) (r : Bool) (ns : List NodeData)
    (h : Healthy fs g d labels names rels n) (hr : (make env pml g).run fs = (.ok r, fs'))
    (hn : BuiltNodes n pml ns) (hd : Holds fs' g.db d') (m : NodeData) (hm : m ∈ ns) :
    ∃ v, dictGet (intStr m.wn) d' = some v ∧ nodeWn v = some m.wn ∧
      exportNode env false false m = [(intStr m.wn, v)] ∧
      exportNode env false true m = [(intStr m.wn, pruneNode v)] ∧
      exportNode env true false m = [(intStr m.wn, bareNode v)] ∧
      exportNode env true true m = [(intStr m.wn, pruneNode (bareNode v))] := by
  obtain ⟨hok, hf, hs, hb, _, l, _, rl, hh, _⟩ := make_success h hr
  obtain rfl := Holds.unique hd hh.db
  obtain ⟨_, rfl⟩ := builtNodes_iff hn
  obtain ⟨q, hq, hm⟩ := List.mem_flatMap.1 hm
  refine ⟨_, stored_get hf hq (madeNodes_stored hm), nodeWn_nodeVal env m, ?_, ?_, ?_, ?_⟩ <;>
    simp only [exportNode, nodeDict_full, nodeDict_prune, nodeDict_bare, nodeDict_bare_prune]

/-- C74, not as claimed: a node with relationships never exports the entry the relationship index has
for it.  The index maps the node to the numbers of its relationships, the export to the numbers of the
nodes they lead to; the two have no number in common, although both have one. -/
theorem C74_violated_index (P : ParsedPattern → Prop) (env : Env) (pml : List ParsedMake) (g : GPath)
    (fs fs' : FS) (r : Bool) (hist : MakeHist P g fs) (hr : (make env pml g).run fs = (.ok r, fs')) :
    ∃ n ns D labels names rels, BuiltNodes n pml ns ∧ Holds fs' g.idx D ∧ IndexShape D labels names rels ∧
      (∃ m ∈ ns, exportRelationshipIndexes m ≠ none) ∧
      ∀ m ∈ ns, ∀ ix, exportRelationshipIndexes m = some ix →
        ∃ s, ix = [(intStr m.wn, s)] ∧ s ≠ [] ∧ relsOf rels (intStr m.wn) ≠ [] ∧
          ∀ w ∈ s, w ∉ relsOf rels (intStr m.wn) := by
  obtain ⟨d, labels, names, rels, n, hc⟩ := makeHist_success hist hr
  obtain ⟨hok, hf, hs, hb, _, _⟩ := make_success hc.healthy hr
  obtain ⟨labels', names', rels', hc', _⟩ := consistent_make hc hr
  obtain ⟨D, hD, hI⟩ := hc'.healthy.idx
  refine ⟨n, _, D, labels', names', rels', builtNodes_of hok, hD, hI, ?_, ?_⟩
  · obtain ⟨x, hx⟩ := List.exists_mem_of_ne_nil _ hb
    obtain ⟨q, hq, m, hm, e⟩ := relBatch_mem.1 hx
    refine ⟨m, List.mem_flatMap.2 ⟨q, hq, by simp [madeNodes, hm]⟩, ?_⟩
    unfold relEntry at e
    unfold exportRelationshipIndexes
    split at e
    · next e' => simp [e']
    · simp at e
  · intro m hm ix hix
    obtain ⟨q, hq, hm⟩ := List.mem_flatMap.1 hm
    have hst := madeNodes_stored hm
    have hget := stored_get hf hq hst
    obtain ⟨hne, rfl⟩ := exportIdx_some hix
    have hiff : ∀ w, w ∈ relsOf rels' (intStr m.wn) ↔ ∃ x ∈ relsD m, x.wn = w := by
      intro w
      rw [hc'.rels.nums]
      constructor
      · rintro ⟨v, hv, hw⟩
        rw [hget] at hv
        obtain rfl := Option.some.inj hv
        rw [relationsOf_nodeVal, List.map_map] at hw
        obtain ⟨x, hx, e⟩ := List.mem_map.1 hw
        simp only [Function.comp, relWn_relVal, Option.some.injEq] at e
        exact ⟨x, hx, e⟩
      · rintro ⟨x, hx, rfl⟩
        refine ⟨_, hget, ?_⟩
        rw [relationsOf_nodeVal, List.map_map]
        exact List.mem_map.2 ⟨x, hx, by simp [relWn_relVal]⟩
    obtain ⟨x, hx⟩ := List.exists_mem_of_ne_nil _ hne
    refine ⟨_, rfl, ?_, ?_, ?_⟩
    · exact List.ne_nil_of_mem (mem_dedup.2 (List.mem_map.2 ⟨x, hx, rfl⟩))
    · exact List.ne_nil_of_mem ((hiff _).2 ⟨x, hx, rfl⟩)
    · intro w hw hw'
      obtain ⟨y, hy, rfl⟩ := List.mem_map.1 (mem_dedup.1 hw)
      obtain ⟨z, hz, e⟩ := (hiff _).1 hw'
      exact toWn_not_rel (hok.shape _ (place_mem hq)) hst hy hz e.symm

/-- C74: the names a node reports are all in the names index, apart from the missing and the empty
one. -/
theorem C74_names_indexed (env : Env) (pml : List ParsedMake) (g : GPath) (fs fs' : FS)
    (d D : Dict V) (labels names labels' names' : List Str) (rels rels' : Dict (List Int)) (n : Int) (r : Bool)
    (ns : List NodeData)
    (h : Healthy fs g d labels names rels n) (hr : (make env pml g).run fs = (.ok r, fs'))
    (hn : BuiltNodes n pml ns) (hD : Holds fs' g.idx D) (hI : IndexShape D labels' names' rels')
    (m : NodeData) (hm : m ∈ ns) (l : List (Option Str)) (hl : nodeRelationshipNames m = some l)
    (s : Str) (hs : some s ∈ l) (hne : s ≠ []) : s ∈ names' := by
  obtain ⟨hok, hf, _, _, _, l', n', rl, hh, _, hnames, _⟩ := make_success h hr
  obtain ⟨D', hD', hI'⟩ := hh.idx
  obtain rfl := Holds.unique hD hD'
  have e := hI.names.symm.trans hI'.names
  simp only [Option.some.injEq, Val.list.injEq] at e
  have e : names' = n' := (List.map_inj_right fun a b h => by simpa using h).1 e
  rw [e, hnames]
  right
  obtain ⟨_, rfl⟩ := builtNodes_iff hn
  obtain ⟨q, hq, hm⟩ := List.mem_flatMap.1 hm
  obtain rfl := names_some hl
  obtain ⟨x, hx, ex⟩ := List.mem_map.1 hs
  have hmem : dbEntry env m ∈ dbBatch env n (patsOf pml) :=
    dbBatch_mem.2 ⟨q, hq, m, madeNodes_stored hm, rfl⟩
  refine names_batch _ hmem (relVal env x) ?_ s ?_ hne
  · rw [dbEntry, relationsOf_nodeVal]
    exact List.mem_map.2 ⟨x, hx, rfl⟩
  · rw [(isRel_relVal env x).name, ex]

/-- C74: `json_to_dict` undoes `dict_to_json`, whatever the iteration order: same keys in the same
order, same members. -/
theorem C74_json_round_trip (o : SetOrd) (d : List (Str × List V)) (hs : ∀ x ∈ d, ∀ v ∈ x.2, hashable v = true) :
    ∃ d', jsonToDict (dictToJson o d) = .ok d' ∧ d'.map Prod.fst = d.map Prod.fst ∧
      ∀ (i : Nat) (x y : Str × List V), d[i]? = some x → d'[i]? = some y → ∀ v, v ∈ y.2 ↔ v ∈ x.2 := by
  refine ⟨d.map fun x => (x.1, dedup (o.ord x.2)), ?_, by simp [Function.comp_def], ?_⟩
  · induction d with
    | nil => rfl
    | cons x d ih =>
      have h1 : (o.ord x.2).all hashable = true := by
        rw [List.all_eq_true]
        intro v hv
        exact hs x (by simp) v ((o.perm _).mem_iff.1 hv)
      have ih := ih fun y hy => hs y (by simp [hy])
      simp only [dictToJson, List.map_cons, jsonToDict, pySet, h1, if_true] at ih ⊢
      rw [ih]
  · intro i x y hx hy v
    rw [List.getElem?_map, hx] at hy
    simp only [Option.map_some, Option.some.injEq] at hy
    subst hy
    rw [mem_dedup, (o.perm _).mem_iff]

end

/-! ### Examples and counterexamples -/

section
attribute [local instance] demoRuntime

/-- The nodes of `demoStmt`. -/
theorem demoStmt_built : BuiltNodes 0 demoStmt ((place 0 (patsOf demoStmt)).flatMap fun q => madeNodes q.1 q.2) := by
  obtain ⟨hok, _⟩ := make_success demoFresh_healthy (run_of demo_two_ok)
  exact builtNodes_of hok

/-- C74: one MAKE with two patterns; the first node built has a relationship. -/
example : ∃ ns, BuiltNodes 0 demoStmt ns ∧ Holds ((make demoEnv demoStmt demoG).run demoFresh).2 demoG.db
    (ns.foldl (fun d m => dictUpdate d (exportNode demoEnv false false m)) []) :=
  C74_make_stores_the_exports_partial demoEnv demoStmt demoG demoFresh _ [] [] [] [] 0 true demoFresh_healthy
    (run_of demo_two_ok)
example (d' : Dict V) (hd : Holds ((make demoEnv demoStmt demoG).run demoFresh).2 demoG.db d') (m : NodeData)
    (hm : m ∈ (place 0 (patsOf demoStmt)).flatMap fun q => madeNodes q.1 q.2) :
    ∃ v, dictGet (intStr m.wn) d' = some v ∧ exportNode demoEnv false true m = [(intStr m.wn, pruneNode v)] := by
  obtain ⟨v, h1, _, _, h2, _⟩ := C74_exports_of_the_record_partial demoEnv demoStmt demoG demoFresh _ [] d' [] [] [] 0 true _
    demoFresh_healthy (run_of demo_two_ok) demoStmt_built hd m hm
  exact ⟨v, h1, h2⟩
example : ∃ n ns D labels names rels, BuiltNodes n demoStmt ns ∧
    Holds ((make demoEnv demoStmt demoG).run demoFresh).2 demoG.idx D ∧ IndexShape D labels names rels ∧
    ∃ m ∈ ns, exportRelationshipIndexes m ≠ none := by
  obtain ⟨n, ns, D, labels, names, rels, h1, h2, h3, h4, _⟩ := C74_violated_index (fun _ => True) demoEnv demoStmt
    demoG demoFresh _ true (.new _ demoFresh_new) (run_of demo_two_ok)
  exact ⟨n, ns, D, labels, names, rels, h1, h2, h3, h4⟩
/-- The index has `"0": [2]`, the export `"0": {1}`. -/
example : relIndexesToAdd (madeNodes 0 demoRight) = [(c!"0", [.int 2])] ∧
    (madeNodes 0 demoRight).map exportRelationshipIndexes = [some [(c!"0", [1])], none] := by decide +kernel
/-- `node_relationship_names` of the nodes of `demoThree`: the third is built from the left one. -/
example : (madeNodes 0 demoThree).map nodeRelationshipNames =
    [some [some c!"R"], some [some c!"S"], some [some c!"R"]] := by decide +kernel
/-- C74: the names of the first node of `demoStmt`. -/
example (D : Dict V) (labels names : List Str) (rels : Dict (List Int))
    (hD : Holds ((make demoEnv demoStmt demoG).run demoFresh).2 demoG.idx D) (hI : IndexShape D labels names rels) :
    c!"R" ∈ names :=
  C74_names_indexed demoEnv demoStmt demoG demoFresh _ [] D [] [] labels names [] rels 0 true _ demoFresh_healthy
    (run_of demo_two_ok) demoStmt_built hD hI (nodeData (nodePre 0 demoRight.left (leftRels 0 demoRight)))
    (by simp [demoStmt, demoMake, patsOf, place, madeNodes, storedNodes]) [some c!"R"] (by decide +kernel) c!"R"
    (by simp) (by decide)
/-- `exclude_none` and `exclude_unset` change something. -/
example : exportNode demoEnv false false (nodeData (nodePre 7 demoSingle.left [])) ≠
    exportNode demoEnv false true (nodeData (nodePre 7 demoSingle.left [])) ∧
    exportNode demoEnv true false (nodeData (nodePre 7 demoSingle.left [])) ≠
    exportNode demoEnv true true (nodeData (nodePre 7 demoSingle.left [])) ∧
    exportNode demoEnv true true (nodeData (nodePre 7 demoSingle.left [])) =
      [(c!"7", .dict [(c!"node_metadata", .dict [(c!"wn", .int 7)]), (c!"node_label", .str c!"A")])] := by
  decide +kernel
/-- C74: a set of two numbers goes to JSON and back. -/
example : ∃ d', jsonToDict (dictToJson demoEnv.ord [(c!"0", [.int 2, .int 5]), (c!"3", [])]) = .ok d' ∧
    d'.map Prod.fst = [c!"0", c!"3"] := by
  obtain ⟨d', h1, h2, _⟩ := C74_json_round_trip demoEnv.ord [(c!"0", [.int 2, .int 5]), (c!"3", [])] (by decide)
  exact ⟨d', h1, h2⟩

end

end WG
