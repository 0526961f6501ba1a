/-
Lemmas for C52: what criteria add.
-/
import Verif.Spec.Criteria
import Verif.Spec.Make
import Verif.Proofs.Dict
import Verif.Proofs.MakePre

set_option linter.unusedSectionVars false
set_option linter.unusedSimpArgs false

namespace WG
section
variable [PyRuntime]

theorem addYesNo_refined {c : Criteria} (hc : c.Dicts) {h : Option Str} {own yes : Option (Dict V)} {no : Dict V}
    (e : addYesNo c h own [] = .ok (yes, no)) : Refined c h own yes no := by
  unfold addYesNo at e
  cases hg : criteriaGet c h with
  | none =>
    simp only [hg, Except.ok.injEq, Prod.mk.injEq] at e
    refine Or.inl ⟨?_, e.1.symm, e.2.symm⟩
    rintro h rfl
    simpa [criteriaGet] using hg
  | some yn =>
    cases h with
    | none => simp [criteriaGet] at hg
    | some h =>
      simp only [criteriaGet] at hg
      obtain ⟨n1, n2⟩ := hc h yn hg
      simp only [criteriaGet, hg] at e
      have hno : ∀ k, dictGet k (dictUpdate [] yn.no) = dictGet k yn.no := by
        intro k
        rw [dictGet_update n2]
        cases dictGet k yn.no <;> rfl
      refine Or.inr ⟨h, yn, rfl, hg, ?_⟩
      split at e
      · next he =>
        simp only [Except.ok.injEq, Prod.mk.injEq] at e
        exact ⟨by rw [← e.2]; exact hno, Or.inl ⟨by simpa using he, e.1.symm⟩⟩
      · split at e
        · simp at e
        · next d =>
          simp only [Except.ok.injEq, Prod.mk.injEq] at e
          exact ⟨by rw [← e.2]; exact hno, Or.inr ⟨d, _, rfl, e.1.symm, fun k => dictGet_update n1 k⟩⟩

theorem findNode_refined {c : Criteria} (hc : c.Dicts) {t : PartText} {n : FindNodePre} (e : findNode t (some c) = .ok n) :
    NodeRefined c t n ∧ n.rels = [] := by
  unfold findNode at e
  split at e
  · simp at e
  · next own ho =>
    cases hl : t.label with
    | none => simp [hl, mkFindNode] at e
    | some l =>
      simp only [hl, mkFindNode, addCriteriaNode] at e
      split at e
      · simp at e
      · next yes no hy =>
        simp only [Except.ok.injEq] at e
        subst e
        exact ⟨⟨hl, rfl, own, ho, addYesNo_refined hc hy⟩, rfl⟩

theorem findRel_refined {c : Criteria} (hc : c.Dicts) {t : PartText} {x : FindRelPre} (e : findRel t (some c) = .ok x) :
    RelRefined c t x := by
  unfold findRel at e
  split at e
  · simp at e
  · next own ho =>
    simp only [addCriteriaRel] at e
    split at e
    · simp at e
    · next yes no hy =>
      simp only [Except.ok.injEq] at e
      subst e
      exact ⟨rfl, rfl, own, ho, addYesNo_refined hc hy⟩

/-- Two nodes that differ in their relationships only. -/
def SameButRels (a b : FindNodePre) : Prop := a.label = b.label ∧ a.handle = b.handle ∧ a.yes = b.yes ∧ a.no = b.no

theorem SameButRels.refined {c : Criteria} {t : PartText} {a b : FindNodePre} (h : SameButRels a b) (ha : NodeRefined c t a) :
    NodeRefined c t b := by
  obtain ⟨h1, h2, h3, h4⟩ := h
  unfold NodeRefined at *
  rwa [← h1, ← h2, ← h3, ← h4]

theorem findLM_refined {c : Criteria} (hc : c.Dicts) {p : ParsedPattern} {f g : FindPre} (e : findLM p (some c) f = .ok g) :
    SameButRels f.left g.left ∧ (∀ m, g.middle = some m → ∃ m', f.middle = some m' ∧ SameButRels m' m) ∧ g.right = f.right ∧
    ((truthy p.leftMiddle.text = false ∧ g = f) ∨ ∃ x, RelRefined c p.leftMiddle x ∧ truthy p.leftMiddle.text = true ∧
      (if pointsRight p.leftMiddle then g.left.rels = f.left.rels ++ [x] ∧ g.middle = f.middle
       else g.left = f.left ∧ g.middle ≠ none ∧ heldRels g.middle = heldRels f.middle ++ [x])) := by
  unfold findLM at e
  split at e
  · next ch cs ht =>
    split at e
    · simp at e
    · next x hx =>
      have hr := findRel_refined hc hx
      have htr : truthy p.leftMiddle.text = true := by simp [ht, truthy]
      rw [isLeftToRight_some ht] at e
      split at e
      · simp at e
      · next b hb =>
        split at hb
        · simp at hb
        · simp only [Except.ok.injEq] at hb
          simp only [Except.ok.injEq] at e
          subst e
          exact ⟨⟨rfl, rfl, rfl, rfl⟩, fun m hm => ⟨m, hm, rfl, rfl, rfl, rfl⟩, rfl,
            Or.inr ⟨x, hr, htr, by rw [if_pos hb]; exact ⟨rfl, rfl⟩⟩⟩
      · next b hb =>
        split at hb
        · simp at hb
        · simp only [Except.ok.injEq] at hb
          split at e
          · simp at e
          · next m hm =>
            simp only [Except.ok.injEq] at e
            subst e
            refine ⟨⟨rfl, rfl, rfl, rfl⟩, fun m' hm' => ⟨m, hm, ?_⟩, rfl, Or.inr ⟨x, hr, htr, ?_⟩⟩
            · simp only [Option.some.injEq] at hm'
              subst hm'
              exact ⟨rfl, rfl, rfl, rfl⟩
            · rw [if_neg (by simp [hb])]
              exact ⟨rfl, by simp, by simp [heldRels, hm, FindNodePre.addRel]⟩
  · next hn =>
    simp only [Except.ok.injEq] at e
    subst e
    refine ⟨⟨rfl, rfl, rfl, rfl⟩, fun m hm => ⟨m, hm, rfl, rfl, rfl, rfl⟩, rfl, Or.inl ⟨?_, rfl⟩⟩
    cases ht : p.leftMiddle.text with
    | none => rfl
    | some s =>
      cases s with
      | nil => rfl
      | cons a s => exact absurd ht (hn a s)

theorem findMR_refined {c : Criteria} (hc : c.Dicts) {p : ParsedPattern} {f g : FindPre} (e : findMR p (some c) f = .ok g) :
    g.left = f.left ∧ (∀ m, g.middle = some m → ∃ m', f.middle = some m' ∧ SameButRels m' m) ∧
    ((truthy p.middleRight.text = false ∧ g = f) ∨ ∃ x, RelRefined c p.middleRight x ∧ truthy p.middleRight.text = true ∧
      (if pointsRight p.middleRight then g.right = f.right ∧ g.middle ≠ none ∧ heldRels g.middle = heldRels f.middle ++ [x]
       else g.middle = f.middle ∧ g.right ≠ none ∧ heldRels g.right = heldRels f.right ++ [x])) := by
  unfold findMR at e
  split at e
  · next ch cs ht =>
    split at e
    · simp at e
    · next x hx =>
      have hr := findRel_refined hc hx
      have htr : truthy p.middleRight.text = true := by simp [ht, truthy]
      rw [isLeftToRight_some ht] at e
      split at e
      · simp at e
      · next b hb =>
        split at hb
        · simp at hb
        · simp only [Except.ok.injEq] at hb
          split at e
          · simp at e
          · next m hm =>
            simp only [Except.ok.injEq] at e
            subst e
            refine ⟨rfl, fun m' hm' => ⟨m, hm, ?_⟩, Or.inr ⟨x, hr, htr, ?_⟩⟩
            · simp only [Option.some.injEq] at hm'
              subst hm'
              exact ⟨rfl, rfl, rfl, rfl⟩
            · rw [if_pos hb]
              exact ⟨rfl, by simp, by simp [heldRels, hm, FindNodePre.addRel]⟩
      · next b hb =>
        split at hb
        · simp at hb
        · simp only [Except.ok.injEq] at hb
          split at e
          · simp at e
          · next m hm =>
            simp only [Except.ok.injEq] at e
            subst e
            refine ⟨rfl, fun m' hm' => ⟨m', hm', rfl, rfl, rfl, rfl⟩, Or.inr ⟨x, hr, htr, ?_⟩⟩
            rw [if_neg (by simp [hb])]
            exact ⟨rfl, by simp, by simp [heldRels, hm, FindNodePre.addRel]⟩
  · next hn =>
    simp only [Except.ok.injEq] at e
    subst e
    refine ⟨rfl, fun m hm => ⟨m, hm, rfl, rfl, rfl, rfl⟩, Or.inl ⟨?_, rfl⟩⟩
    cases ht : p.middleRight.text with
    | none => rfl
    | some s =>
      cases s with
      | nil => rfl
      | cons a s => exact absurd ht (hn a s)

theorem findMiddle_refined {c : Criteria} (hc : c.Dicts) {p : ParsedPattern} {f g : FindPre} (hf : f.middle = none)
    (e : findMiddle p (some c) f = .ok g) :
    g.left = f.left ∧ g.right = f.right ∧ heldRels g.middle = [] ∧ (truthy p.middle.text = true → g.middle ≠ none) ∧
      ∀ m, g.middle = some m → NodeRefined c p.middle m := by
  unfold findMiddle at e
  split at e
  · split at e
    · simp at e
    · next m hm =>
      simp only [Except.ok.injEq] at e
      subst e
      obtain ⟨h1, h2⟩ := findNode_refined hc hm
      refine ⟨rfl, rfl, by simp [heldRels, h2], fun _ => by simp, fun m' hm' => ?_⟩
      simp only [Option.some.injEq] at hm'
      subst hm'
      exact h1
  · next ht =>
    simp only [Except.ok.injEq] at e
    subst e
    exact ⟨rfl, rfl, by simp [heldRels, hf], fun h => absurd h ht, fun m hm => by simp [hf] at hm⟩

theorem findRight_rels {c : Option Criteria} {p : ParsedPattern} {f g : FindPre} (hf : f.right = none)
    (e : findRight p c f = .ok g) : g.left = f.left ∧ g.middle = f.middle ∧ heldRels g.right = [] := by
  unfold findRight at e
  split at e
  · split at e
    · simp at e
    · split at e
      · simp at e
      · split at e
        · simp at e
        · next n hn =>
          split at e
          · simp at e
          · next r hr =>
            simp only [Except.ok.injEq] at e
            subst e
            have h0 : n.rels = [] := by
              unfold mkFindNode at hn
              split at hn
              · simp at hn
              · simp only [Except.ok.injEq] at hn
                subst hn
                rfl
            have h1 : r.rels = n.rels := by
              unfold addCriteriaNode at hr
              split at hr
              · simp only [Except.ok.injEq] at hr
                subst hr
                rfl
              · split at hr
                · simp at hr
                · simp only [Except.ok.injEq] at hr
                  subst hr
                  rfl
            exact ⟨rfl, rfl, by simp [heldRels, h1, h0]⟩
  · simp only [Except.ok.injEq] at e
    subst e
    exact ⟨rfl, rfl, by simp [heldRels, hf]⟩

end
end WG
