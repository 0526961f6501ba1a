/- What is stored by a successful MAKE. -/
import Verif.Proofs.Make

set_option linter.unusedSectionVars false
set_option linter.unusedSimpArgs false

namespace WG
variable [PyRuntime]

theorem mem_keys_of_dictGet {α : Type} {k : Str} {v : α} {d : Dict α} (h : dictGet k d = some v) :
    k ∈ d.map Prod.fst := by
  induction d with
  | nil => simp [dictGet] at h
  | cons x d ih =>
    obtain ⟨k', v'⟩ := x
    simp only [dictGet] at h
    split at h
    · next e => simp [e]
    · simp only [List.map_cons, List.mem_cons]; exact Or.inr (ih h)

theorem Holds.unique {fs : FS} {p : Path} {d e : Dict V} (h : Holds fs p d) (h' : Holds fs p e) : d = e := by
  obtain ⟨t, h1, h2⟩ := h
  obtain ⟨t', h1', h2'⟩ := h'
  rw [h1] at h1'
  obtain rfl := Option.some.inj h1'
  rw [h2] at h2'
  simpa using h2'

theorem pairwise_flatMap_disjoint {α β : Type} {f : α → List β} {l : List α}
    (h : (l.flatMap f).Nodup) {a b : α} (ha : a ∈ l) (hb : b ∈ l) (hab : a ≠ b) {x : β} (hx : x ∈ f a)
    (hy : x ∈ f b) : False := by
  induction l with
  | nil => simp at ha
  | cons c l ih =>
    rw [List.flatMap_cons, List.nodup_append] at h
    obtain ⟨_, h2, h3⟩ := h
    simp only [List.mem_cons] at ha hb
    rcases ha with rfl | ha <;> rcases hb with rfl | hb
    · exact hab rfl
    · exact h3 x hx x (List.mem_flatMap.2 ⟨_, hb, hy⟩) rfl
    · exact h3 x hy x (List.mem_flatMap.2 ⟨_, ha, hx⟩) rfl
    · exact ih h2 ha hb

theorem nums_layout {b : Int} {p : ParsedPattern} {m : NodeData} {w : Int} (hs : PatShape p)
    (hm : m ∈ storedNodes b p) (hw : w ∈ numsOf m) :
    w ∈ layout b p ∧ (pointsRight p.middleRight = false → truthy p.middleRight.text = true → w ≠ mrNum b p) := by
  have hlm := hs.lm
  have hmr := hs.mr
  unfold storedNodes at hm
  simp only [List.mem_cons] at hm
  rcases hm with rfl | hm
  · simp only [numsOf, relsD_nodeData, List.mem_cons, List.mem_map] at hw
    rcases hw with rfl | ⟨_, ⟨r, hr, rfl⟩, rfl⟩
    · refine ⟨by simp [layout, nodeData, nodePre, leftNum], fun _ _ => ?_⟩
      simp [nodeData, nodePre, mrNum, writtenNodes]; split <;> omega
    · simp only [nodePre, leftRels] at hr
      split at hr
      · next e =>
        simp at e hr; subst hr
        refine ⟨by simp [layout, relData, relLM, e.1], fun _ _ => ?_⟩
        simp [relData, relLM, mrNum, lmNum, e.1]; omega
      · simp at hr
  · split at hm
    · next hmid =>
      simp only [List.mem_singleton] at hm
      subst hm
      simp only [numsOf, relsD_nodeData, List.mem_cons, List.mem_map] at hw
      rcases hw with rfl | ⟨_, ⟨r, hr, rfl⟩, rfl⟩
      · refine ⟨by simp [layout, nodeData, nodePre, middleNum, hmid], fun _ _ => ?_⟩
        simp [nodeData, nodePre, mrNum, writtenNodes, hmid]; split <;> omega
      · simp only [nodePre, middleRels, List.mem_append] at hr
        rcases hr with hr | hr
        · split at hr
          · next e =>
            simp at e hr; subst hr
            refine ⟨by simp [layout, relData, relLM, e.1], fun _ _ => ?_⟩
            simp [relData, relLM, mrNum, lmNum, e.1]; omega
          · simp at hr
        · split at hr
          · next e =>
            simp at e hr; subst hr
            refine ⟨by simp [layout, relData, relMR, e.1], fun h _ => ?_⟩
            rw [e.2] at h; simp at h
          · simp at hr
    · simp at hm

theorem stored_get {env : Env} {d : Dict V} {n : Int} {pats : List ParsedPattern} {q : Int × ParsedPattern}
    {m : NodeData} (hf : Fresh d (dbBatch env n pats)) (hq : q ∈ place n pats)
    (hm : m ∈ storedNodes q.1 q.2) :
    dictGet (intStr m.wn) (d ++ dbBatch env n pats) = some (nodeVal env m) := by
  have hmem : dbEntry env m ∈ dbBatch env n pats := dbBatch_mem.2 ⟨q, hq, m, hm, rfl⟩
  rw [dictGet_append_right]
  · exact dictGet_of_mem hf.1 hmem
  · exact hf.2 _ (List.mem_map.2 ⟨_, hmem, rfl⟩)

theorem storedNode_of {env : Env} {d : Dict V} {n wn : Int} {pats : List ParsedPattern}
    {q : Int × ParsedPattern} {t : PartText} {rs : List RelPre}
    (hf : Fresh d (dbBatch env n pats)) (hq : q ∈ place n pats)
    (hm : nodeData (nodePre wn t rs) ∈ storedNodes q.1 q.2) (hl : t.label ≠ none) (hp : PropsOK t) :
    StoredNode (d ++ dbBatch env n pats) wn t := by
  refine ⟨_, labelD t, propsD t.props, stored_get hf hq hm, ?_, propsD_ok hp, isNode_nodeVal env _⟩
  unfold labelD
  cases h : t.label with
  | none => exact absurd h hl
  | some l => rfl

theorem storedRel_of {env : Env} {d : Dict V} {n wn : Int} {pats : List ParsedPattern}
    {q : Int × ParsedPattern} {t t' : PartText} {rs : List RelPre} {r : RelPre}
    (hf : Fresh d (dbBatch env n pats)) (hq : q ∈ place n pats)
    (hm : nodeData (nodePre wn t rs) ∈ storedNodes q.1 q.2) (hr : r ∈ rs) (hp : PropsOK t')
    (hsrc : r.fromWn = wn) (hname : r.name = t'.label) (hprops : r.props = t'.props) :
    StoredRel (d ++ dbBatch env n pats) r.wn wn r.toWn t' := by
  refine ⟨_, relVal env (relData r), propsD t'.props, stored_get hf hq hm, ?_, propsD_ok hp, ?_⟩
  · rw [relationsOf_nodeVal, relsD_nodeData]
    exact List.mem_map.2 ⟨_, List.mem_map.2 ⟨r, hr, rfl⟩, rfl⟩
  · have := isRel_relVal env (relData r)
    simp only [relData, hsrc, hname, hprops] at this
    rw [relData, hsrc, hname, hprops]
    exact this

theorem left_stored (b : Int) (p : ParsedPattern) :
    nodeData (nodePre b p.left (leftRels b p)) ∈ storedNodes b p := by simp [storedNodes]

theorem middle_stored {b : Int} {p : ParsedPattern} (h : truthy p.middle.text = true) :
    nodeData (nodePre (b + 1) p.middle (middleRels b p)) ∈ storedNodes b p := by simp [storedNodes, h]

end WG
