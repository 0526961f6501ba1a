/- Lemmas on `make_nodes` and the batches written by MAKE. -/
import Verif.Proofs.MakePre
import Verif.Proofs.Dict

set_option linter.unusedSectionVars false

namespace WG
variable [PyRuntime]

/-- The properties of a text, `none` if they cannot be read. -/
def propsD (t : Option Str) : Option (Dict V) :=
  match getPropertyDict t with
  | .ok p => p
  | .error _ => none

theorem propsD_ok {t : Option Str} (h : ∃ p, getPropertyDict t = .ok p) :
    getPropertyDict t = .ok (propsD t) := by
  obtain ⟨p, h⟩ := h
  unfold propsD
  rw [h]

/-- The relationship built from a `RelationshipPre`. -/
def relData (r : RelPre) : RelData :=
  { wn := r.wn, name := r.name, fromWn := r.fromWn, toWn := r.toWn, props := propsD r.props }

/-- The node built from a `NodePre`. -/
def nodeData (n : NodePre) : NodeData :=
  { wn := n.wn, label := n.label, props := propsD n.props,
    relations := if n.rels.isEmpty then none else some (n.rels.map relData) }

theorem makeRelationships_iff {rs : List RelPre} {ds : List RelData} (hn : ∀ r ∈ rs, r.fromWn ≠ r.toWn) :
    makeRelationships rs = .ok ds ↔
      (∀ r ∈ rs, ∃ p, getPropertyDict r.props = .ok p) ∧ ds = rs.map relData := by
  induction rs generalizing ds with
  | nil => simp [makeRelationships, eq_comm]
  | cons r rs ih =>
    have ih := @ih
    unfold makeRelationships makeRelationship
    cases hp : getPropertyDict r.props with
    | error e => simp [hp]
    | ok p =>
      have hd : relData r = { wn := r.wn, name := r.name, fromWn := r.fromWn, toWn := r.toWn, props := p } := by
        simp [relData, propsD, hp]
      simp only [hn r (by simp), if_false]
      rw [← hd]
      cases hm : makeRelationships rs with
      | error e =>
        simp only [reduceCtorEq, false_iff, not_and, List.mem_cons, forall_eq_or_imp]
        intro h
        have := (ih (fun r h => hn r (by simp [h]))).2 ⟨h.2, rfl⟩
        rw [hm] at this
        simp at this
      | ok ds' =>
        obtain ⟨h1, h2⟩ := (ih (fun r h => hn r (by simp [h]))).1 hm
        simp only [Except.ok.injEq, List.mem_cons, forall_eq_or_imp, List.map_cons]
        rw [h2]
        constructor
        · intro h; exact ⟨⟨⟨p, hp⟩, h1⟩, h.symm⟩
        · rintro ⟨_, h⟩; exact h.symm

theorem makeNode_iff {n : NodePre} {d : NodeData} (hn : ∀ r ∈ n.rels, r.fromWn ≠ r.toWn)
    (hw : ∀ r ∈ n.rels, n.wn = r.fromWn ∨ n.wn = r.toWn) :
    makeNode n = .ok d ↔ (∃ p, getPropertyDict n.props = .ok p) ∧
      (∀ r ∈ n.rels, ∃ p, getPropertyDict r.props = .ok p) ∧ d = nodeData n := by
  unfold makeNode
  cases hp : getPropertyDict n.props with
  | error e => simp
  | ok p =>
    have hpd : propsD n.props = p := by simp [propsD, hp]
    simp only
    cases hr : n.rels.isEmpty with
    | true =>
      have : n.rels = [] := by simpa using hr
      simp [mkNode, nodeData, hpd, this, eq_comm]
    | false =>
      simp only [Bool.false_eq_true, if_false]
      cases hm : makeRelationships n.rels with
      | error e =>
        simp only [reduceCtorEq, false_iff, not_and]
        intro _ h
        have := (makeRelationships_iff hn).2 ⟨h, rfl⟩
        rw [hm] at this
        simp at this
      | ok ds =>
        obtain ⟨h1, h2⟩ := (makeRelationships_iff hn).1 hm
        subst h2
        have hall : ((n.rels.map relData).all fun r => decide (n.wn = r.fromWn ∨ n.wn = r.toWn)) = true := by
          simp only [List.all_map, List.all_eq_true]
          intro r hr
          exact decide_eq_true (hw r hr)
        simp only [mkNode, Option.getD_some, hall, if_true, Except.ok.injEq]
        have : nodeData n = { wn := n.wn, label := n.label, props := p, relations := some (n.rels.map relData) } := by
          simp [nodeData, hpd, hr]
        rw [this]
        constructor
        · intro h; exact ⟨⟨p, rfl⟩, h1, h.symm⟩
        · rintro ⟨_, _, h⟩; exact h.symm

/-- The nodes MAKE stores for a pattern. -/
def storedNodes (b : Int) (p : ParsedPattern) : List NodeData :=
  nodeData (nodePre b p.left (leftRels b p)) ::
    (if truthy p.middle.text then [nodeData (nodePre (b + 1) p.middle (middleRels b p))] else [])

/-- The nodes `make_nodes` returns for a pattern. -/
def madeNodes (b : Int) (p : ParsedPattern) : List NodeData :=
  storedNodes b p ++ (if truthy p.right.text then [nodeData (nodePre b p.left (leftRels b p))] else [])

theorem leftRels_ne {b : Int} {p : ParsedPattern} : ∀ r ∈ leftRels b p, r.fromWn ≠ r.toWn := by
  intro r hr
  unfold leftRels at hr
  split at hr
  · simp at hr; subst hr; simp [relLM]; split <;> omega
  · simp at hr

theorem leftRels_wn {b : Int} {p : ParsedPattern} :
    ∀ r ∈ leftRels b p, r = relLM b p ∧ r.fromWn = b ∧ r.toWn = b + 1 := by
  intro r hr
  unfold leftRels at hr
  split at hr
  · next h => simp at hr; subst hr; simp at h; simp [relLM, h.2]
  · simp at hr

theorem middleRels_wn {b : Int} {p : ParsedPattern} :
    ∀ r ∈ middleRels b p, (r = relLM b p ∧ r.fromWn = b + 1 ∧ r.toWn = b) ∨
      (r = relMR b p ∧ r.fromWn = b + 1 ∧ r.toWn = b + 2) := by
  intro r hr
  unfold middleRels at hr
  rcases List.mem_append.1 hr with hr | hr
  · left
    split at hr
    · next h => simp at hr; subst hr; simp at h; simp [relLM, h.2]
    · simp at hr
  · right
    split at hr
    · next h => simp at hr; subst hr; simp at h; simp [relMR, h.2]
    · simp at hr

theorem middleRels_ne {b : Int} {p : ParsedPattern} : ∀ r ∈ middleRels b p, r.fromWn ≠ r.toWn := by
  intro r hr
  rcases middleRels_wn r hr with h | h <;> omega

/-- `make_nodes` on a processed pattern. -/
theorem makeNodes_iff {b : Int} {p : ParsedPattern} {ns : List NodeData} (hs : PatShape p) :
    makeNodes (prePattern b p) = .ok ns ↔ PatProps p ∧ ns = madeNodes b p := by
  have hl := @makeNode_iff _ (nodePre b p.left (leftRels b p)) (hn := leftRels_ne)
    (hw := fun r hr => Or.inl (leftRels_wn r hr).2.1.symm)
  have hm := @makeNode_iff _ (nodePre (b + 1) p.middle (middleRels b p)) (hn := middleRels_ne)
    (hw := fun r hr => Or.inl (by rcases middleRels_wn r hr with h | h <;> exact h.2.1.symm))
  have hPP : PatProps p ↔ ((∃ q, getPropertyDict p.left.props = .ok q) ∧
      ∀ r ∈ leftRels b p, ∃ q, getPropertyDict r.props = .ok q) ∧
      (truthy p.middle.text = true → (∃ q, getPropertyDict p.middle.props = .ok q) ∧
        ∀ r ∈ middleRels b p, ∃ q, getPropertyDict r.props = .ok q) := by
    constructor
    · intro h
      refine ⟨⟨h.left, ?_⟩, fun ht => ⟨h.middle ht, ?_⟩⟩
      · intro r hr
        have h1 := (leftRels_wn r hr).1
        unfold leftRels at hr
        split at hr
        · next hc => simp at hc; subst h1; exact h.lm hc.1
        · simp at hr
      · intro r hr
        unfold middleRels at hr
        rcases List.mem_append.1 hr with hr | hr
        · split at hr
          · next hc => simp at hc hr; subst hr; exact h.lm hc.1
          · simp at hr
        · split at hr
          · next hc => simp at hc hr; subst hr; exact h.mr hc.1 hc.2
          · simp at hr
    · rintro ⟨⟨h1, h2⟩, h3⟩
      refine ⟨h1, fun ht => (h3 ht).1, ?_, ?_⟩
      · intro ht
        cases hp : pointsRight p.leftMiddle with
        | true => exact h2 (relLM b p) (by simp [leftRels, ht, hp])
        | false => exact (h3 (hs.lm ht).1).2 (relLM b p) (by simp [middleRels, ht, hp])
      · intro ht hp
        exact (h3 (hs.mr ht).1).2 (relMR b p) (by simp [middleRels, ht, hp])
  rw [hPP]
  unfold makeNodes
  simp only [prePattern]
  cases hml : makeNode (nodePre b p.left (leftRels b p)) with
  | error e =>
    simp only [reduceCtorEq, false_iff]
    rintro ⟨⟨h, _⟩, _⟩
    have := (hl _).2 ⟨h.1, h.2, rfl⟩
    rw [hml] at this
    simp at this
  | ok l =>
    obtain ⟨l1, l2, rfl⟩ := (hl _).1 hml
    simp only
    unfold madeNodes storedNodes
    have lh : ((∃ q, getPropertyDict p.left.props = .ok q) ∧
      ∀ r ∈ leftRels b p, ∃ q, getPropertyDict r.props = .ok q) := ⟨l1, l2⟩
    cases htm : truthy p.middle.text with
    | false =>
      refine Iff.trans ?_ (and_iff_right ⟨lh, by simp⟩).symm
      cases htr : truthy p.right.text <;> simp [eq_comm]
    | true =>
      simp only [if_true, forall_const]
      cases hmm : makeNode (nodePre (b + 1) p.middle (middleRels b p)) with
      | error e =>
        simp only [reduceCtorEq, false_iff]
        rintro ⟨⟨_, h⟩, _⟩
        have := (hm _).2 ⟨h.1, h.2, rfl⟩
        rw [hmm] at this
        simp at this
      | ok m =>
        obtain ⟨m1, m2, rfl⟩ := (hm _).1 hmm
        have mh : ((∃ q, getPropertyDict p.middle.props = .ok q) ∧
          ∀ r ∈ middleRels b p, ∃ q, getPropertyDict r.props = .ok q) := ⟨m1, m2⟩
        refine Iff.trans ?_ (and_iff_right ⟨lh, mh⟩).symm
        cases htr : truthy p.right.text <;> simp [eq_comm]

theorem makeAllNodes_iff {qs : List (Int × ParsedPattern)} {ns : List NodeData}
    (hs : ∀ q ∈ qs, PatShape q.2) :
    makeAllNodes (qs.map fun q => prePattern q.1 q.2) = .ok ns ↔
      (∀ q ∈ qs, PatProps q.2) ∧ ns = qs.flatMap fun q => madeNodes q.1 q.2 := by
  induction qs generalizing ns with
  | nil => simp [makeAllNodes, eq_comm]
  | cons q qs ih =>
    have ih := @ih
    have ih' := fun {ns} => ih (ns := ns) (fun q h => hs q (by simp [h]))
    have h1 := fun {ns} => makeNodes_iff (b := q.1) (ns := ns) (hs q (by simp))
    simp only [List.map_cons, makeAllNodes, List.mem_cons, forall_eq_or_imp, List.flatMap_cons]
    cases hm : makeNodes (prePattern q.1 q.2) with
    | error e =>
      simp only [reduceCtorEq, false_iff]
      rintro ⟨⟨h, _⟩, _⟩
      have := h1.2 ⟨h, rfl⟩
      rw [hm] at this
      simp at this
    | ok a =>
      obtain ⟨p1, rfl⟩ := h1.1 hm
      simp only
      cases hm2 : makeAllNodes (qs.map fun q => prePattern q.1 q.2) with
      | error e =>
        simp only [reduceCtorEq, false_iff]
        rintro ⟨⟨_, h⟩, _⟩
        have := ih'.2 ⟨h, rfl⟩
        rw [hm2] at this
        simp at this
      | ok a2 =>
        obtain ⟨p2, rfl⟩ := ih'.1 hm2
        simp only [Except.ok.injEq]
        constructor
        · intro h; exact ⟨⟨p1, p2⟩, h.symm⟩
        · rintro ⟨_, h⟩; exact h.symm

theorem place_mem {b : Int} {ps : List ParsedPattern} {q : Int × ParsedPattern} (h : q ∈ place b ps) :
    q.2 ∈ ps := by
  induction ps generalizing b with
  | nil => simp [place] at h
  | cons p ps ih =>
    simp only [place, List.mem_cons] at h
    rcases h with rfl | h
    · simp
    · simp [ih h]

theorem mem_place {b : Int} {ps : List ParsedPattern} {p : ParsedPattern} (h : p ∈ ps) :
    ∃ c, (c, p) ∈ place b ps := by
  induction ps generalizing b with
  | nil => simp at h
  | cons p' ps ih =>
    simp only [List.mem_cons] at h
    rcases h with rfl | h
    · exact ⟨b, by simp [place]⟩
    · obtain ⟨c, hc⟩ := ih (b := b + patSize p') h
      exact ⟨c, by simp [place, hc]⟩

/-- The first two phases of MAKE, completely. -/
theorem plan_iff {b n' : Int} {pml : List ParsedMake} {mps : List MakePre} {ns : List NodeData} :
    (processParsedMakeList b pml = .ok (n', mps) ∧ makeAllNodes mps = .ok ns) ↔
      MakeOK pml ∧ n' = b + totalSize (patsOf pml) ∧
      mps = (place b (patsOf pml)).map (fun q => prePattern q.1 q.2) ∧
      ns = (place b (patsOf pml)).flatMap fun q => madeNodes q.1 q.2 := by
  constructor
  · rintro ⟨h1, h2⟩
    obtain ⟨c, s, e⟩ := processParsedMakeList_iff.1 h1
    simp only [Prod.mk.injEq] at e
    obtain ⟨rfl, rfl⟩ := e
    obtain ⟨p, rfl⟩ := (makeAllNodes_iff fun q hq => s _ (place_mem hq)).1 h2
    refine ⟨⟨c, s, ?_⟩, rfl, rfl, rfl⟩
    intro x hx
    obtain ⟨c, hc⟩ := mem_place (b := b) hx
    exact p _ hc
  · rintro ⟨⟨c, s, p⟩, rfl, rfl, rfl⟩
    exact ⟨processParsedMakeList_iff.2 ⟨c, s, rfl⟩,
      (makeAllNodes_iff fun q hq => s _ (place_mem hq)).2 ⟨fun q hq => p _ (place_mem hq), rfl⟩⟩

end WG
