/-
C52: CRITERIA refine the nodes and relationships of a FIND, for patterns of any length.
-/
import Verif.Proofs.Criteria
import Verif.Spec.DemoMake

set_option linter.unusedSectionVars false

namespace WG
section
variable [PyRuntime]

/-- C52 for every pattern: if a FIND is processed with CRITERIA, the left and the middle node and both relationships
have exactly the properties of their own and those the criteria give for their handle; a relationship is held by the
node it comes from, and no node holds others.  Missing from the full property: the right node (`C51_violated_right`),
and that processing may fail (`C52_violated`, `C52_violated_three`). -/
theorem C52_criteria_everywhere_partial {pf : ParsedFind} {c : Criteria} {f : FindPre} (hc : c.Dicts)
    (h : processParsedFind pf (some c) = .ok f) :
    NodeRefined c pf.pattern.left f.left ∧
    (truthy pf.pattern.middle.text = true → f.middle ≠ none) ∧
    (∀ m, f.middle = some m → NodeRefined c pf.pattern.middle m) ∧
    ∃ lm mr : List FindRelPre,
      (if truthy pf.pattern.leftMiddle.text then ∃ x, lm = [x] ∧ RelRefined c pf.pattern.leftMiddle x else lm = []) ∧
      (if truthy pf.pattern.middleRight.text then ∃ x, mr = [x] ∧ RelRefined c pf.pattern.middleRight x else mr = []) ∧
      f.left.rels = (if pointsRight pf.pattern.leftMiddle then lm else []) ∧
      heldRels f.middle = (if pointsRight pf.pattern.leftMiddle then [] else lm) ++
        (if pointsRight pf.pattern.middleRight then mr else []) ∧
      heldRels f.right = (if pointsRight pf.pattern.middleRight then [] else mr) := by
  unfold processParsedFind at h
  split at h
  · simp at h
  · split at h
    · simp at h
    · next l hl =>
      split at h
      · simp at h
      · next f1 h1 =>
        split at h
        · simp at h
        · next f2 h2 =>
          split at h
          · simp at h
          · next f3 h3 =>
            obtain ⟨l1, l2⟩ := findNode_refined hc hl
            obtain ⟨a1, a2, a3, a4, a5⟩ := findMiddle_refined hc rfl h1
            obtain ⟨b1, b2, b3⟩ := findRight_rels a2 h2
            obtain ⟨c1, c2, c3, c4⟩ := findLM_refined hc h3
            obtain ⟨d1, d2, d3⟩ := findMR_refined hc h
            have e1 : f2.left = l := by rw [b1, a1]
            have e2 : f2.left.rels = [] := by rw [e1, l2]
            have e3 : heldRels f2.middle = [] := by rw [b2, a3]
            refine ⟨?_, ?_, ?_, ?_⟩
            · rw [d1]
              rw [e1] at c1
              exact c1.refined l1
            · intro hm
              have m1 : f2.middle ≠ none := by rw [b2]; exact a4 hm
              have m2 : f3.middle ≠ none := by
                rcases c4 with ⟨_, rfl⟩ | ⟨x, _, _, hx⟩
                · exact m1
                · split at hx
                  · rw [hx.2]; exact m1
                  · exact hx.2.1
              rcases d3 with ⟨_, rfl⟩ | ⟨x, _, _, hx⟩
              · exact m2
              · split at hx
                · exact hx.2.1
                · rw [hx.1]; exact m2
            · intro m hm
              obtain ⟨m', hm', s1⟩ := d2 m hm
              obtain ⟨m'', hm'', s2⟩ := c2 m' hm'
              rw [b2] at hm''
              exact s1.refined (s2.refined (a5 m'' hm''))
            · have k1 : ∃ lm, (if truthy pf.pattern.leftMiddle.text then ∃ x, lm = [x] ∧ RelRefined c pf.pattern.leftMiddle x
                  else lm = []) ∧ f3.left.rels = (if pointsRight pf.pattern.leftMiddle then lm else []) ∧
                  heldRels f3.middle = (if pointsRight pf.pattern.leftMiddle then [] else lm) := by
                rcases c4 with ⟨t, rfl⟩ | ⟨x, hr, t, hx⟩
                · exact ⟨[], by simp [t], by simp [e2], by simp [e3]⟩
                · refine ⟨[x], by rw [if_pos t]; exact ⟨x, rfl, hr⟩, ?_⟩
                  split at hx
                  · next hp => simp [hp, hx.1, hx.2, e2, e3]
                  · next hp => simp [hp, hx.1, hx.2.2, e2, e3]
              have k2 : heldRels f3.right = [] := by rw [c3, b3]
              obtain ⟨lm, p1, p2, p3⟩ := k1
              rcases d3 with ⟨t, rfl⟩ | ⟨x, hr, t, hx⟩
              · exact ⟨lm, [], p1, by simp [t], p2, by simp [p3], by simp [k2]⟩
              · refine ⟨lm, [x], p1, by rw [if_pos t]; exact ⟨x, rfl, hr⟩, by rw [d1, p2], ?_⟩
                split at hx
                · next hp => simp [hp, hx.1, hx.2.2, p3, k2]
                · next hp => simp [hp, hx.1, hx.2.2, p3, k2]

end

section
attribute [local instance] demoRuntime

/-- `(a:A{x: 1})-[r:R{x: 1}]->(b:B{x: 1})<-[s:S]-(c:C)` -/
def critPattern : ParsedPattern :=
  ⟨⟨some c!"(a:A{x: 1})", some c!"a", some c!"A", some c!"{x: 1}"⟩,
   ⟨some c!"-[r:R{x: 1}]->", some c!"r", some c!"R", some c!"{x: 1}"⟩,
   ⟨some c!"(b:B{x: 1})", some c!"b", some c!"B", some c!"{x: 1}"⟩,
   ⟨some c!"<-[s:S]-", some c!"s", some c!"S", none⟩,
   ⟨some c!"(c:C)", some c!"c", some c!"C", none⟩⟩

/-- Criteria for `b`, `r` and, without properties to ask for, `s`. -/
def critTable : Criteria :=
  [(c!"b", ⟨[], []⟩), (c!"r", ⟨[(c!"x", .int 7), (c!"y", .int 8)], [(c!"z", .int 9)]⟩), (c!"s", ⟨[], [(c!"w", .int 5)]⟩)]

/-- C52: the relationships are refined, evaluated. -/
example : (match processParsedFind ⟨[], .find, critPattern⟩ (some critTable) with
    | .ok f => decide (f.left.yes = some [(c!"x", .int 1)] ∧
        f.left.rels = [⟨some c!"R", some c!"r", some [(c!"x", .int 7), (c!"y", .int 8)], [(c!"z", .int 9)]⟩] ∧
        heldRels f.middle = [] ∧ heldRels f.right = [⟨some c!"S", some c!"s", none, [(c!"w", .int 5)]⟩])
    | _ => false) = true := by decide +kernel

/-- The criteria are dicts. -/
theorem critTable_dicts : critTable.Dicts := by
  intro h yn e
  simp only [critTable, dictGet] at e
  repeat' split at e
  all_goals simp at e
  all_goals subst e
  all_goals decide

/-- The hypotheses of `C52_criteria_everywhere_partial` are met. -/
example : ∃ f, processParsedFind ⟨[], .find, critPattern⟩ (some critTable) = .ok f ∧ NodeRefined critTable critPattern.left f.left ∧
    ∃ x, f.left.rels = [x] ∧ RelRefined critTable critPattern.leftMiddle x := by
  have h : (match processParsedFind ⟨[], .find, critPattern⟩ (some critTable) with
    | .ok _ => true
    | _ => false) = true := by decide +kernel
  split at h
  · next f hf =>
    obtain ⟨h1, _, _, lm, mr, h2, _, h3, _⟩ := C52_criteria_everywhere_partial critTable_dicts hf
    rw [if_pos (by decide)] at h2
    obtain ⟨x, rfl, hx⟩ := h2
    exact ⟨f, hf, h1, x, by rw [h3]; rfl, hx⟩
  · simp at h

end
end WG
