/- Lemmas about the exports of nodes. -/
import Verif.Spec.Export
import Verif.Proofs.Consistent

set_option linter.unusedSectionVars false
set_option linter.unusedSimpArgs false

namespace WG
variable [PyRuntime]

theorem isNoneV_iff (v : V) : (!isNoneV v) = decide (v ≠ .none) := by
  cases v <;> simp [isNoneV]

theorem metaDict_full (env : Env) (wn : Int) : metaDict env false false wn = metaVal env wn := rfl

theorem relDict_full (env : Env) (r : RelData) : relDict env false false r = relVal env r := rfl

theorem nodeDict_full (env : Env) (n : NodeData) : nodeDict env false false n = nodeVal env n := rfl

theorem metaDict_prune (env : Env) (wn : Int) : metaDict env false true wn = dropNulls (metaVal env wn) := by
  simp [metaDict, keepFields, isNoneV, dropNulls, metaVal]

theorem relDict_prune (env : Env) (r : RelData) :
    relDict env false true r = dropNulls (mapField c!"relationship_metadata" dropNulls (relVal env r)) := by
  simp only [relDict, metaDict_prune, relVal, mapField, dropNulls, keepFields, if_true, isNoneV_iff]
  rfl

theorem nodeDict_prune (env : Env) (n : NodeData) :
    nodeDict env false true n = pruneNode (nodeVal env n) := by
  obtain ⟨wn, label, props, rels⟩ := n
  cases rels with
  | none =>
    simp only [nodeDict, metaDict_prune, nodeVal, pruneNode, keepFields, if_true, isNoneV_iff]
    rfl
  | some rs =>
    have e : relDict env false true =
        fun r => dropNulls (mapField c!"relationship_metadata" dropNulls (relVal env r)) :=
      funext (relDict_prune env)
    simp only [nodeDict, metaDict_prune, nodeVal, pruneNode, keepFields, if_true, isNoneV_iff, e]
    simp [mapField, mapElems, dropNulls, Function.comp_def]

theorem relDict_bare (env : Env) (r : RelData) :
    relDict env true false r = mapField c!"relationship_metadata" onlyWn (relVal env r) := rfl

theorem nodeDict_bare (env : Env) (n : NodeData) :
    nodeDict env true false n = bareNode (nodeVal env n) := by
  obtain ⟨wn, label, props, rels⟩ := n
  cases rels with
  | none => rfl
  | some rs =>
    have e : relDict env true false =
        fun r => mapField c!"relationship_metadata" onlyWn (relVal env r) :=
      funext (relDict_bare env)
    simp only [nodeDict, e]
    simp [bareNode, nodeVal, mapField, mapElems, onlyWn, metaDict, metaVal, keepFields, Function.comp_def]

theorem nodeDict_bare_prune (env : Env) (n : NodeData) :
    nodeDict env true true n = pruneNode (bareNode (nodeVal env n)) := by
  have hm : ∀ w, metaDict env true true w = dropNulls (onlyWn (metaVal env w)) := by
    intro w
    simp [metaDict, keepFields, isNoneV, dropNulls, metaVal, onlyWn]
  have hr : relDict env true true = fun r => dropNulls (mapField c!"relationship_metadata" dropNulls
      (mapField c!"relationship_metadata" onlyWn (relVal env r))) := by
    funext r
    simp only [relDict, hm, relVal, mapField, dropNulls, keepFields, if_true, isNoneV_iff]
    rfl
  obtain ⟨wn, label, props, rels⟩ := n
  cases rels with
  | none =>
    simp only [nodeDict, hm, nodeVal, pruneNode, bareNode, keepFields, if_true, isNoneV_iff]
    rfl
  | some rs =>
    simp only [nodeDict, hm, hr, nodeVal, pruneNode, bareNode, keepFields, if_true, isNoneV_iff]
    simp [mapField, mapElems, dropNulls, onlyWn, Function.comp_def]

theorem builtNodes_iff {n : Int} {pml : List ParsedMake} {ns : List NodeData} (h : BuiltNodes n pml ns) :
    MakeOK pml ∧ ns = (place n (patsOf pml)).flatMap fun q => madeNodes q.1 q.2 := by
  obtain ⟨n', mps, h1, h2⟩ := h
  obtain ⟨h3, _, _, h4⟩ := plan_iff.1 ⟨h1, h2⟩
  exact ⟨h3, h4⟩

theorem builtNodes_of {n : Int} {pml : List ParsedMake} (h : MakeOK pml) :
    BuiltNodes n pml ((place n (patsOf pml)).flatMap fun q => madeNodes q.1 q.2) := by
  obtain ⟨h1, h2⟩ := plan_iff.2 ⟨h, rfl, rfl, rfl⟩
  exact ⟨_, _, h1, h2⟩

/-- A built node is one of the stored ones. -/
theorem madeNodes_stored {b : Int} {p : ParsedPattern} {m : NodeData} (h : m ∈ madeNodes b p) :
    m ∈ storedNodes b p := by
  unfold madeNodes at h
  rw [List.mem_append] at h
  rcases h with h | h
  · exact h
  · split at h
    · simp only [List.mem_singleton] at h
      subst h
      exact left_stored b p
    · simp at h

/-- Merging the exports one after the other is merging one dict of all of them. -/
theorem fold_exports (env : Env) (ns : List NodeData) (d : Dict V) :
    ns.foldl (fun d n => dictUpdate d (exportNode env false false n)) d =
      (ns.map fun n => (intStr n.wn, nodeVal env n)).foldl (fun d p => dictSet p.1 p.2 d) d := by
  induction ns generalizing d with
  | nil => rfl
  | cons n ns ih =>
    simp only [List.foldl_cons, List.map_cons]
    rw [ih]
    rfl

theorem dictSet_append_right {α : Type} {k : Str} {v : α} {d e : Dict α} (h : k ∉ keys d) :
    dictSet k v (d ++ e) = d ++ dictSet k v e := by
  induction d with
  | nil => rfl
  | cons p d ih =>
    obtain ⟨k', v'⟩ := p
    simp only [keys, List.map_cons, List.mem_cons, not_or] at h
    simp only [List.cons_append, dictSet]
    rw [if_neg (Ne.symm h.1), ih h.2]

theorem fold_append_right {α : Type} {l : List (Str × α)} {d e : Dict α} (h : ∀ x ∈ l, x.1 ∉ keys d) :
    l.foldl (fun d p => dictSet p.1 p.2 d) (d ++ e) = d ++ l.foldl (fun d p => dictSet p.1 p.2 d) e := by
  induction l generalizing e with
  | nil => rfl
  | cons p l ih =>
    simp only [List.foldl_cons]
    rw [dictSet_append_right (h p (by simp)), ih fun x hx => h x (by simp [hx])]

/-- The database after a MAKE, as one dict updated with the exports. -/
theorem exports_batch {env : Env} {d : Dict V} {n : Int} {pats : List ParsedPattern}
    (hf : Fresh d (dbBatch env n pats)) :
    (((place n pats).flatMap fun q => madeNodes q.1 q.2).foldl
      (fun d m => dictUpdate d (exportNode env false false m)) d) = d ++ dbBatch env n pats := by
  rw [fold_exports]
  have h := fold_append_right (e := ([] : Dict V))
    (l := ((place n pats).flatMap fun q => madeNodes q.1 q.2).map fun n => (intStr n.wn, nodeVal env n)) (d := d) (by
      intro x hx
      obtain ⟨m, hm, rfl⟩ := List.mem_map.1 hx
      obtain ⟨q, hq, hm⟩ := List.mem_flatMap.1 hm
      have hmem : dbEntry env m ∈ dbBatch env n pats := dbBatch_mem.2 ⟨q, hq, m, madeNodes_stored hm, rfl⟩
      exact hf.2 _ (List.mem_map.2 ⟨_, hmem, rfl⟩))
  rw [List.append_nil] at h
  rw [h]
  congr 1
  exact nodesToAdd_eq env n pats

/-- The end points of a stored node's relationships are not relationship numbers. -/
theorem toWn_not_rel {b : Int} {p : ParsedPattern} {m : NodeData} (hs : PatShape p) (hm : m ∈ storedNodes b p)
    {r r' : RelData} (hr : r ∈ relsD m) (hr' : r' ∈ relsD m) : r.toWn ≠ r'.wn := by
  have hlm := hs.lm
  have hmr := hs.mr
  have key : ∀ x ∈ relsD m, (x.toWn < b + (writtenNodes p).length) ∧ b + (writtenNodes p).length ≤ x.wn := by
    intro x hx
    have hR : ∀ y ∈ [relLM b p], truthy p.leftMiddle.text = true →
        (relData y).toWn < b + (writtenNodes p).length ∧ b + (writtenNodes p).length ≤ (relData y).wn := by
      intro y hy ht
      simp only [List.mem_singleton] at hy
      subst hy
      have := (hlm ht).1
      simp only [relData, relLM, lmNum, writtenNodes, this, if_true]
      constructor
      · split <;> split <;> simp <;> omega
      · simp
    have hR2 : ∀ y ∈ [relMR b p], truthy p.middleRight.text = true →
        (relData y).toWn < b + (writtenNodes p).length ∧ b + (writtenNodes p).length ≤ (relData y).wn := by
      intro y hy ht
      simp only [List.mem_singleton] at hy
      subst hy
      obtain ⟨h1, h2, _⟩ := hmr ht
      simp only [relData, relMR, mrNum, writtenNodes, h1, h2, if_true]
      constructor
      · split <;> simp <;> omega
      · split
        · simp; omega
        · simp
    unfold storedNodes at hm
    simp only [List.mem_cons] at hm
    rcases hm with rfl | hm
    · simp only [relsD_nodeData, nodePre, leftRels, List.mem_map] at hx
      obtain ⟨y, hy, rfl⟩ := hx
      split at hy
      · next e => simp at e; exact hR y hy e.1
      · simp at hy
    · split at hm
      · simp only [List.mem_singleton] at hm
        subst hm
        simp only [relsD_nodeData, nodePre, middleRels, List.mem_map, List.mem_append] at hx
        obtain ⟨y, hy, rfl⟩ := hx
        rcases hy with hy | hy
        · split at hy
          · next e => simp at e; exact hR y hy e.1
          · simp at hy
        · split at hy
          · next e => simp at e; exact hR2 y hy e.1
          · simp at hy
      · simp at hm
  have h1 := (key r hr).1
  have h2 := (key r' hr').2
  omega

theorem exportIdx_some {m : NodeData} {ix : Dict (List Int)} (h : exportRelationshipIndexes m = some ix) :
    relsD m ≠ [] ∧ ix = [(intStr m.wn, dedup ((relsD m).map (·.toWn)))] := by
  unfold exportRelationshipIndexes at h
  split at h
  · next r rs e =>
    simp only [Option.some.injEq] at h
    simp [relsD, e, ← h]
  · simp at h

theorem names_some {m : NodeData} {l : List (Option Str)} (h : nodeRelationshipNames m = some l) :
    l = (relsD m).map (·.name) := by
  unfold nodeRelationshipNames at h
  split at h
  · next r rs e =>
    simp only [Option.some.injEq] at h
    simp [relsD, e, ← h]
  · simp at h

end WG
