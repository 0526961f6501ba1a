/- The batches MAKE writes, and the numbers in them. -/
import Verif.Proofs.MakeNodes
import Verif.Proofs.Storage

set_option linter.unusedSectionVars false

namespace WG

theorem dictSet_same {α : Type} {k : Str} {v : α} {d : Dict α} (h : dictGet k d = some v) :
    dictSet k v d = d := by
  induction d with
  | nil => simp [dictGet] at h
  | cons p d ih =>
    obtain ⟨k', v'⟩ := p
    simp only [dictGet] at h
    simp only [dictSet]
    split at h
    · next e => simp at h; simp [e, h]
    · next e => simp [e, ih h]

theorem dictGet_append_right {α : Type} {k : Str} {d e : Dict α} (h : k ∉ keys d) :
    dictGet k (d ++ e) = dictGet k e := by
  induction d with
  | nil => rfl
  | cons p d ih =>
    obtain ⟨k', v'⟩ := p
    simp only [keys, List.map_cons, List.mem_cons, not_or] at h
    simp only [List.cons_append, dictGet]
    rw [if_neg (Ne.symm h.1)]
    exact ih h.2

theorem dictGet_append_left {α : Type} {k : Str} {v : α} {d e : Dict α} (h : dictGet k d = some v) :
    dictGet k (d ++ e) = some v := by
  induction d with
  | nil => simp [dictGet] at h
  | cons p d ih =>
    obtain ⟨k', v'⟩ := p
    simp only [dictGet, List.cons_append] at h ⊢
    split at h
    · next e => simpa [e] using h
    · next e => rw [if_neg e]; exact ih h

variable [PyRuntime]

/-- All nodes stored by MAKE statements whose first number is `b`. -/
def allStored (b : Int) (pats : List ParsedPattern) : List NodeData :=
  (place b pats).flatMap fun q => storedNodes q.1 q.2

theorem place_bounds {b : Int} {ps : List ParsedPattern} {q : Int × ParsedPattern} (h : q ∈ place b ps) :
    b ≤ q.1 ∧ q.1 + patSize q.2 ≤ b + totalSize ps := by
  induction ps generalizing b with
  | nil => simp [place] at h
  | cons p ps ih =>
    simp only [place, List.mem_cons] at h
    rcases h with rfl | h
    · simp [totalSize]; omega
    · have := ih h
      simp [totalSize] at this ⊢
      omega

theorem patSize_pos (p : ParsedPattern) : 1 ≤ patSize p := by
  simp [patSize, writtenNodes]; omega

theorem patSize_middle {p : ParsedPattern} (h : truthy p.middle.text = true) : 2 ≤ patSize p := by
  simp [patSize, writtenNodes, h]; omega

theorem storedNodes_wn {b : Int} {p : ParsedPattern} {n : NodeData} (h : n ∈ storedNodes b p) :
    b ≤ n.wn ∧ n.wn < b + patSize p := by
  unfold storedNodes at h
  simp only [List.mem_cons] at h
  rcases h with rfl | h
  · have := patSize_pos p; simp [nodeData, nodePre]; omega
  · split at h
    · next hm => have := patSize_middle hm; simp at h; subst h; simp [nodeData, nodePre]; omega
    · simp at h

/-- Building a dict from the nodes `make_nodes` returns: the duplicate of the left node that
stands for the right node has no effect. -/
theorem fold_madeNodes {α : Type} {f : NodeData → Option (Str × α)}
    (hf : ∀ n k v, f n = some (k, v) → k = intStr n.wn) (b : Int) (pats : List ParsedPattern)
    (acc : Dict α) (hacc : ∀ k ∈ keys acc, ∃ w, w < b ∧ k = intStr w) :
    (((place b pats).flatMap fun q => madeNodes q.1 q.2).filterMap f).foldl
      (fun d p => dictSet p.1 p.2 d) acc = acc ++ (allStored b pats).filterMap f := by
  induction pats generalizing b acc with
  | nil => simp [place, allStored]
  | cons p ps ih =>
    simp only [place, List.flatMap_cons, List.filterMap_append, List.foldl_append, allStored]
    have fresh : ∀ w, b ≤ w → intStr w ∉ keys acc := by
      intro w hw hk
      obtain ⟨w', h1, h2⟩ := hacc _ hk
      have := intStr_inj h2
      omega
    have step : ((madeNodes b p).filterMap f).foldl (fun d p => dictSet p.1 p.2 d) acc =
        acc ++ (storedNodes b p).filterMap f := by
      unfold madeNodes storedNodes
      generalize hL : nodeData (nodePre b p.left (leftRels b p)) = L
      generalize hM : nodeData (nodePre (b + 1) p.middle (middleRels b p)) = M
      have wL : L.wn = b := by rw [← hL]; rfl
      have wM : M.wn = b + 1 := by rw [← hM]; rfl
      have hLM : intStr b ≠ intStr (b + 1) := fun e => by have := intStr_inj e; omega
      cases fL : f L with
      | none =>
        cases fM : f M with
        | none => cases truthy p.middle.text <;> cases truthy p.right.text <;> simp [fL, fM]
        | some y =>
          obtain ⟨k, v⟩ := y
          have := hf _ _ _ fM
          rw [wM] at this
          subst this
          have e := dictSet_fresh (v := v) (fresh (b + 1) (by omega))
          cases truthy p.middle.text <;> cases truthy p.right.text <;> simp [fL, fM, e]
      | some x =>
        obtain ⟨k, v⟩ := x
        have := hf _ _ _ fL
        rw [wL] at this
        subst this
        have e := dictSet_fresh (v := v) (fresh b (by omega))
        have e1 : dictSet (intStr b) v (acc ++ [(intStr b, v)]) = acc ++ [(intStr b, v)] :=
          dictSet_same (by rw [dictGet_append_right (fresh b (by omega))]; simp [dictGet])
        cases fM : f M with
        | none => cases truthy p.middle.text <;> cases truthy p.right.text <;> simp [fL, fM, e, e1]
        | some y =>
          obtain ⟨k', v'⟩ := y
          have := hf _ _ _ fM
          rw [wM] at this
          subst this
          have e2 : dictSet (intStr (b + 1)) v' (acc ++ [(intStr b, v)]) =
              acc ++ [(intStr b, v)] ++ [(intStr (b + 1), v')] := by
            apply dictSet_fresh
            have := fresh (b + 1) (by omega)
            simp only [keys, List.map_append, List.mem_append, List.map_cons, List.map_nil,
              List.mem_singleton, not_or] at this ⊢
            exact ⟨this, Ne.symm hLM⟩
          have e3 : dictSet (intStr b) v (acc ++ [(intStr b, v)] ++ [(intStr (b + 1), v')]) =
              acc ++ [(intStr b, v)] ++ [(intStr (b + 1), v')] := by
            apply dictSet_same
            rw [List.append_assoc, dictGet_append_right (fresh b (by omega))]
            simp [dictGet]
          have e4 := e3
          rw [List.append_assoc, List.cons_append, List.nil_append] at e4
          cases truthy p.middle.text <;> cases truthy p.right.text <;>
            simp only [List.cons_append, List.nil_append, List.append_nil, List.filterMap_cons,
              List.filterMap_nil, fL, fM, List.foldl_cons, List.foldl_nil, e, e1, e2, e4,
              Bool.false_eq_true, if_false, if_true, List.append_assoc]
    rw [step, ih]
    · simp [allStored]
    · intro k hk
      simp only [keys, List.map_append, List.mem_append] at hk
      have hp := patSize_pos p
      rcases hk with hk | hk
      · obtain ⟨w, h1, h2⟩ := hacc k hk
        exact ⟨w, by omega, h2⟩
      · simp only [List.mem_map, List.mem_filterMap] at hk
        obtain ⟨⟨k', v⟩, ⟨n, hn, hfn⟩, rfl⟩ := hk
        have := storedNodes_wn hn
        exact ⟨n.wn, by omega, hf _ _ _ hfn⟩

/-- The record of a node in the batch for the database. -/
def dbEntry (env : Env) (n : NodeData) : Str × V := (intStr n.wn, nodeVal env n)

theorem nodesToAdd_eq (env : Env) (b : Int) (pats : List ParsedPattern) :
    nodesToAdd env ((place b pats).flatMap fun q => madeNodes q.1 q.2) =
      (allStored b pats).map (dbEntry env) := by
  have := fold_madeNodes (f := fun n => some (intStr n.wn, nodeVal env n)) (by simp) b pats []
    (by simp [keys])
  simp only [List.nil_append, List.filterMap_eq_map'] at this
  exact this

/-- The entry of a node in the batch for the relationship index. -/
def relEntry (n : NodeData) : Option (Str × List Int) :=
  match n.relations with
  | some (r :: rs) => some (intStr n.wn, (r :: rs).map (·.wn))
  | _ => none

theorem relIndexesToAdd_eq (b : Int) (pats : List ParsedPattern) :
    relIndexesToAdd ((place b pats).flatMap fun q => madeNodes q.1 q.2) =
      ((allStored b pats).filterMap relEntry).map fun x => (x.1, x.2.map Val.int) := by
  have := fold_madeNodes (f := fun n =>
    match n.relations with
    | some (r :: rs) => some (intStr n.wn, (r :: rs).map fun r => (Val.int r.wn : V))
    | _ => none) (by
      intro n k v h
      split at h
      · simp at h; exact h.1.symm
      · simp at h) b pats [] (by simp [keys])
  rw [List.nil_append] at this
  unfold relIndexesToAdd dictOf
  refine this.trans ?_
  rw [List.map_filterMap]
  congr 1
  funext n
  unfold relEntry
  split
  · simp
  · rfl

/-! ### Numbers -/

/-- The relationships of a node. -/
def relsD (n : NodeData) : List RelData := n.relations.getD []

/-- The numbers of a node and its relationships. -/
def numsOf (n : NodeData) : List Int := n.wn :: (relsD n).map (·.wn)

theorem relsD_nodeData (n : NodePre) : relsD (nodeData n) = n.rels.map relData := by
  unfold relsD nodeData
  cases h : n.rels <;> simp

theorem nums_pattern (b : Int) (p : ParsedPattern) :
    ((storedNodes b p).flatMap numsOf).Nodup ∧
      ∀ w ∈ (storedNodes b p).flatMap numsOf, b ≤ w ∧ w < b + patSize p := by
  unfold storedNodes numsOf
  simp only [List.flatMap_cons, relsD_nodeData, leftRels, middleRels, List.map_map,
    patSize, writtenNodes, writtenRels]
  cases h1 : truthy p.middle.text <;> cases h2 : truthy p.right.text <;>
    cases h3 : truthy p.leftMiddle.text <;> cases h4 : truthy p.middleRight.text <;>
    cases h5 : pointsRight p.leftMiddle <;> cases h6 : pointsRight p.middleRight <;>
    simp [relsD_nodeData] <;>
    simp [nodeData, nodePre, relData, relLM, relMR, lmNum, mrNum, writtenNodes, *] <;>
    repeat' (first | omega | (intro a) | apply And.intro)

theorem nums_all (b : Int) (pats : List ParsedPattern) :
    ((allStored b pats).flatMap numsOf).Nodup ∧
      ∀ w ∈ (allStored b pats).flatMap numsOf, b ≤ w ∧ w < b + totalSize pats := by
  induction pats generalizing b with
  | nil => simp [allStored, place]
  | cons p ps ih =>
    obtain ⟨h1, h2⟩ := nums_pattern b p
    obtain ⟨h3, h4⟩ := ih (b + patSize p)
    have e : allStored b (p :: ps) = storedNodes b p ++ allStored (b + patSize p) ps := by
      simp [allStored, place]
    have et : totalSize (p :: ps) = patSize p + totalSize ps := by simp [totalSize]
    rw [e, List.flatMap_append, et]
    refine ⟨List.nodup_append.2 ⟨h1, h3, ?_⟩, ?_⟩
    · intro x hx y hy
      have := h2 x hx
      have := h4 y hy
      omega
    · intro w hw
      rcases List.mem_append.1 hw with hw | hw
      · have := h2 w hw; omega
      · have := h4 w hw; omega

theorem keys_batch (env : Env) (b : Int) (pats : List ParsedPattern) :
    (keys ((allStored b pats).map (dbEntry env))).Nodup ∧
      ∀ k ∈ keys ((allStored b pats).map (dbEntry env)), ∃ w, b ≤ w ∧ w < b + totalSize pats ∧ k = intStr w := by
  obtain ⟨h1, h2⟩ := nums_all b pats
  generalize allStored b pats = l at h1 h2
  constructor
  · clear h2
    induction l with
    | nil => simp [keys]
    | cons n l ih =>
      simp only [List.flatMap_cons, numsOf, List.cons_append, List.nodup_cons, List.nodup_append] at h1
      simp only [List.map_cons, keys, List.nodup_cons]
      refine ⟨?_, ih h1.2.2.1⟩
      intro hm
      simp only [List.map_map, List.mem_map, Function.comp, dbEntry] at hm
      obtain ⟨m, hm, e⟩ := hm
      have := intStr_inj e
      apply h1.1
      rw [List.mem_append]
      right
      rw [List.mem_flatMap]
      exact ⟨m, hm, by simp [numsOf, this]⟩
  · intro k hk
    simp only [keys, List.map_map, List.mem_map, Function.comp, dbEntry] at hk
    obtain ⟨n, hn, rfl⟩ := hk
    have := h2 n.wn (by rw [List.mem_flatMap]; exact ⟨n, hn, by simp [numsOf]⟩)
    exact ⟨n.wn, this.1, this.2, rfl⟩

/-! ### Records -/

theorem nodeWn_nodeVal (env : Env) (n : NodeData) : nodeWn (nodeVal env n) = some n.wn := by
  simp [nodeWn, nodeVal, field, dictGet, metaVal, intOf]

theorem relWn_relVal (env : Env) (r : RelData) : relWn (relVal env r) = some r.wn := by
  simp [relWn, relVal, field, dictGet, metaVal, intOf]

theorem relationsOf_nodeVal (env : Env) (n : NodeData) :
    relationsOf (nodeVal env n) = (relsD n).map (relVal env) := by
  simp only [relationsOf, nodeVal, field, dictGet, relsD]
  cases n.relations <;> simp

theorem numbersOf_nodeVal (env : Env) (n : NodeData) :
    numbersOf (nodeVal env n) = (numsOf n).map some := by
  simp [numbersOf, numsOf, nodeWn_nodeVal, relationsOf_nodeVal, relWn_relVal, Function.comp_def]

theorem isNode_nodeVal (env : Env) (n : NodeData) : IsNode (nodeVal env n) n.wn n.label n.props := by
  refine ⟨nodeWn_nodeVal env n, by simp [nodeVal, field, dictGet], optDictVal n.props, ?_, ?_⟩
  · simp [nodeVal, field, dictGet]
  · cases n.props <;> simp [optDictVal, IsProps]

theorem isRel_relVal (env : Env) (r : RelData) :
    IsRel (relVal env r) r.wn r.name r.fromWn r.toWn r.props := by
  refine ⟨relWn_relVal env r, ?_, by simp [relVal, field, dictGet], by simp [relVal, field, dictGet],
    optDictVal r.props, ?_, ?_⟩
  · simp only [relVal, field, dictGet]; cases r.name <;> simp [optStrVal]
  · simp [relVal, field, dictGet]
  · cases r.props <;> simp [optDictVal, IsProps]

theorem allNumbers_append (d e : Dict V) : allNumbers (d ++ e) = allNumbers d ++ allNumbers e := by
  simp [allNumbers]

theorem allNumbers_batch (env : Env) (l : List NodeData) :
    allNumbers (l.map (dbEntry env)) = (l.flatMap numsOf).map some := by
  induction l with
  | nil => rfl
  | cons n l ih =>
    simp only [allNumbers, List.map_cons, List.flatMap_cons, List.map_append] at ih ⊢
    rw [ih, show numbersOf (dbEntry env n).2 = _ from numbersOf_nodeVal env n]

/-! ### Serialisability -/

theorem metaVal_ser (env : Env) (n : Int) : (metaVal env n).Ser := by
  unfold metaVal
  rw [Val.Ser]
  refine ⟨by simp, ?_⟩
  simp [Val.SerDict, Val.Ser]

/-- Serialisable optional properties. -/
def SerProps : Option (Dict V) → Prop
  | none => True
  | some d => (Val.dict d).Ser

theorem optDictVal_ser {p : Option (Dict V)} : (optDictVal p).Ser ↔ SerProps p := by
  cases p <;> simp [optDictVal, SerProps, Val.Ser]

theorem optStrVal_ser (p : Option Str) : (optStrVal p : V).Ser := by
  cases p <;> simp [optStrVal, Val.Ser]

theorem relVal_ser {env : Env} {r : RelData} : (relVal env r).Ser ↔ SerProps r.props := by
  rw [← optDictVal_ser]
  unfold relVal
  rw [Val.Ser]
  simp only [Val.SerDict, metaVal_ser, optStrVal_ser, true_and, and_true]
  constructor
  · rintro ⟨_, _, _, h⟩; exact h
  · intro h; exact ⟨by simp, by simp [Val.Ser], by simp [Val.Ser], h⟩

theorem nodeVal_ser {env : Env} {n : NodeData} :
    (nodeVal env n).Ser ↔ SerProps n.props ∧ ∀ r ∈ relsD n, SerProps r.props := by
  rw [← optDictVal_ser]
  unfold nodeVal
  rw [Val.Ser]
  simp only [Val.SerDict, metaVal_ser, true_and, and_true]
  have hr : (match n.relations with
      | none => (Val.none : V)
      | some rs => .list (rs.map (relVal env))).Ser ↔ ∀ r ∈ relsD n, SerProps r.props := by
    unfold relsD
    cases n.relations with
    | none => simp [Val.Ser]
    | some rs =>
      simp only [Val.Ser, serList_iff, List.mem_map, Option.getD_some]
      constructor
      · intro h r hr; exact relVal_ser.1 (h _ ⟨r, hr, rfl⟩)
      · rintro h x ⟨r, hr, rfl⟩; exact relVal_ser.2 (h r hr)
  rw [← hr]
  constructor
  · rintro ⟨_, _, h⟩; exact h
  · intro h; exact ⟨by simp, by simp [Val.Ser], h⟩

end WG
