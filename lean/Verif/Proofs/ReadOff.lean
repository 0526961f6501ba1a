/-
Reading the patterns off the records.
-/
import Verif.Spec.ReadOff

namespace WG
variable [PyRuntime]

theorem isProps_unique {v : V} {o o' : Option (Dict V)} (h : IsProps v o) (h' : IsProps v o') : o = o' := by
  cases o <;> cases o' <;> simp only [IsProps] at h h' <;> rw [h] at h' <;> cases h' <;> rfl

theorem node_unique {v : V} {b : Int} {n n' : NodeText} (h : NodeRecord v b n) (h' : NodeRecord v b n') : AlikeNode n n' := by
  obtain ⟨o, h1, h2, h3, x, h4, h5⟩ := h
  obtain ⟨o', h1', h2', h3', x', h4', h5'⟩ := h'
  rw [h3] at h3'
  rw [h4] at h4'
  simp only [Option.some.injEq, Val.str.injEq] at h3' h4'
  subst h4'
  cases isProps_unique h5 h5'
  exact ⟨h3', o, h1, h1'⟩

theorem rel_unique {v : V} {wn wn' a a' b b' : Int} {r r' : RelText} (h : RelRecord v wn r a b) (h' : RelRecord v wn' r' a' b') :
    AlikeRel r r' ∧ wn = wn' ∧ a = a' ∧ b = b' := by
  obtain ⟨o, h1, h2, h3, h4, h5, x, h6, h7⟩ := h
  obtain ⟨o', h1', h2', h3', h4', h5', x', h6', h7'⟩ := h'
  rw [h2] at h2'
  rw [h3] at h3'
  rw [h4] at h4'
  rw [h5] at h5'
  rw [h6] at h6'
  simp only [Option.some.injEq, Val.str.injEq, Val.int.injEq] at h2' h3' h4' h5' h6'
  subst h6'
  cases isProps_unique h7 h7'
  exact ⟨⟨h3', o, h1, h1'⟩, h2', h4', h5'⟩

theorem sameProps_symm {p p' : Option Str} (h : AlikeProps p p') : AlikeProps p' p := by
  obtain ⟨o, h1, h2⟩ := h
  exact ⟨o, h2, h1⟩

theorem sameNode_symm {n n' : NodeText} (h : AlikeNode n n') : AlikeNode n' n := ⟨h.1.symm, sameProps_symm h.2⟩

theorem sameRel_symm {n n' : RelText} (h : AlikeRel n n') : AlikeRel n' n := ⟨h.1.symm, sameProps_symm h.2⟩

theorem relSeen_unique {rs rs' : List V} {wn wn' a b : Int} {r r' : RelText} (h : RelSeen rs rs' wn r a b)
    (h' : RelSeen rs rs' wn' r' a b) : AlikeRel r r' ∧ wn = wn' ∧ r.seenRight = r'.seenRight := by
  obtain ⟨x, h⟩ := h
  obtain ⟨x', h'⟩ := h'
  cases e : r.seenRight <;> cases e' : r'.seenRight <;> rw [e] at h <;> rw [e'] at h' <;>
    simp only [if_true, if_false, Bool.false_eq_true] at h h' <;> obtain ⟨h1, h2, h3⟩ := h <;> obtain ⟨h1', h2', h3'⟩ := h'
  · rw [h2] at h2'
    cases h2'
    obtain ⟨k1, k2, -⟩ := rel_unique h3 h3'
    exact ⟨k1, k2, rfl⟩
  · rw [h1] at h1'
    cases h1'
  · rw [h1] at h1'
    cases h1'
  · rw [h1] at h1'
    cases h1'
    obtain ⟨k1, k2, -⟩ := rel_unique h3 h3'
    exact ⟨k1, k2, rfl⟩

/-- The first record of some patterns, if it has no number of its own pattern among its relationships. -/
theorem first_rel {b : Int} {cs : List ChainText} {k : Str} {w : V} {y : Dict V} (h : Records ActualRecords b cs ((k, w) :: y)) :
    relationsOf w = [] ∨ ∃ (x : V) (r : RelText) (i : Int), relationsOf w = [x] ∧ RelRecord x i r b (b + 1) := by
  cases cs with
  | nil => cases h
  | cons c cs =>
    obtain ⟨x, y', hxy, hc, -⟩ := h
    have seen : ∀ {rs' : List V} {i : Int} {r : RelText}, RelSeen (relationsOf w) rs' i r b (b + 1) →
        relationsOf w = [] ∨ ∃ (x : V) (r : RelText) (i : Int), relationsOf w = [x] ∧ RelRecord x i r b (b + 1) := by
      intro rs' i r h
      obtain ⟨x, h⟩ := h
      cases e : r.seenRight <;> rw [e] at h <;> simp only [if_true, if_false, Bool.false_eq_true] at h
      · exact .inl h.1
      · exact .inr ⟨x, r, i, h.1, h.2.2⟩
    cases c with
    | one n =>
      obtain ⟨v, rfl, -, h2⟩ := hc
      cases hxy
      exact .inl h2
    | two n r m =>
      obtain ⟨v, v', rfl, -, -, h2⟩ := hc
      cases hxy
      exact seen h2
    | three n r m s k =>
      obtain ⟨v, v', w1, w2, rfl, -, -, -, h2, -⟩ := hc
      cases hxy
      exact seen h2

/-- A single node is not taken for the first of two. -/
theorem one_not_more {b i : Int} {n : NodeText} {r : RelText} {x y y' : Dict V} {cs : List ChainText} {v w : V} {k k' : Str} {w1 w2 : List V}
    (hc : ActualRecords b (.one n) x) (hs : Records ActualRecords (b + (ChainText.one n).size) cs y)
    (he : x ++ y = (k, v) :: (k', w) :: y') (hw : relationsOf w = w1 ++ w2) (hr : RelSeen (relationsOf v) w1 i r b (b + 1)) : False := by
  obtain ⟨u, rfl, -, h2⟩ := hc
  obtain ⟨z, hr⟩ := hr
  cases he
  rw [h2] at hr
  cases e : r.seenRight <;> rw [e] at hr <;> simp only [if_true, if_false, Bool.false_eq_true] at hr
  · obtain ⟨-, rfl, h3⟩ := hr
    rw [List.singleton_append] at hw
    rcases first_rel hs with h | ⟨x', r', i', h, h'⟩
    · rw [hw] at h
      cases h
    · rw [hw] at h
      cases h
      obtain ⟨-, -, -, h5⟩ := rel_unique h3 h'
      simp only [ChainText.size] at h5
      omega
  · exact absurd hr.1 (by simp)

/-- The first pattern can be read off. -/
theorem read_first {b : Int} {c c' : ChainText} {x x' y y' : Dict V} {cs cs' : List ChainText} (hc : ActualRecords b c x)
    (hc' : ActualRecords b c' x') (hs : Records ActualRecords (b + c.size) cs y) (hs' : Records ActualRecords (b + c'.size) cs' y')
    (he : x ++ y = x' ++ y') : SameKept c c' ∧ y = y' ∧ c.size = c'.size := by
  cases c with
  | one n =>
    cases c' with
    | one n' =>
      obtain ⟨v, rfl, h1, -⟩ := hc
      obtain ⟨v', rfl, h1', -⟩ := hc'
      cases he
      exact ⟨node_unique h1 h1', rfl, rfl⟩
    | two n' r' m' =>
      exfalso
      obtain ⟨v, w, rfl, -, -, h3⟩ := hc'
      exact one_not_more hc hs he (List.append_nil _).symm h3
    | three n' r' m' s' k' =>
      exfalso
      obtain ⟨v, w, w1, w2, rfl, -, -, h2, h3, -⟩ := hc'
      exact one_not_more hc hs he h2 h3
  | two n r m =>
    obtain ⟨v, w, rfl, h1, h2, h3⟩ := hc
    cases c' with
    | one n' =>
      exfalso
      exact one_not_more hc' hs' he.symm (List.append_nil _).symm h3
    | two n' r' m' =>
      obtain ⟨v', w', rfl, h1', h2', h3'⟩ := hc'
      cases he
      obtain ⟨k1, -, k2⟩ := relSeen_unique h3 h3'
      exact ⟨⟨node_unique h1 h1', k1, k2, node_unique h2 h2'⟩, rfl, rfl⟩
    | three n' r' m' s' k' =>
      exfalso
      obtain ⟨v', w', w1, w2, rfl, -, -, h4, ⟨z', h5⟩, -⟩ := hc'
      cases he
      obtain ⟨z, h3⟩ := h3
      cases e : r.seenRight <;> cases e' : r'.seenRight <;> rw [e] at h3 <;> rw [e'] at h5 <;>
        simp only [if_true, if_false, Bool.false_eq_true] at h3 h5
      · obtain ⟨-, rfl, h6⟩ := h5
        rw [h3.2.1] at h4
        cases h4
        have := (rel_unique h3.2.2 h6).2.1
        omega
      · rw [h3.1] at h5
        simp at h5
      · rw [h3.1] at h5
        simp at h5
      · rw [h3.1] at h5
        obtain ⟨h7, -, h6⟩ := h5
        cases h7
        have := (rel_unique h3.2.2 h6).2.1
        omega
  | three n r m s k =>
    obtain ⟨v, w, w1, w2, rfl, h1, h2, h3, h4, h5⟩ := hc
    cases c' with
    | one n' =>
      exfalso
      exact one_not_more hc' hs' he.symm h3 h4
    | two n' r' m' =>
      exfalso
      obtain ⟨v', w', rfl, -, -, ⟨z, h6⟩⟩ := hc'
      cases he
      obtain ⟨z', h4⟩ := h4
      cases e : r.seenRight <;> cases e' : r'.seenRight <;> rw [e] at h4 <;> rw [e'] at h6 <;>
        simp only [if_true, if_false, Bool.false_eq_true] at h4 h6
      · obtain ⟨-, rfl, h8⟩ := h4
        rw [h6.2.1] at h3
        cases h3
        have := (rel_unique h6.2.2 h8).2.1
        omega
      · rw [h4.1] at h6
        simp at h6
      · rw [h4.1] at h6
        simp at h6
      · rw [h4.1] at h6
        obtain ⟨h7, -, h6⟩ := h6
        cases h7
        have := (rel_unique h4.2.2 h6).2.1
        omega
    | three n' r' m' s' k' =>
      obtain ⟨v', w', w1', w2', rfl, h1', h2', h3', h4', h5'⟩ := hc'
      cases he
      obtain ⟨e1, e2⟩ : w1 = w1' ∧ w2 = w2' := by
        have hl : w1.length = w1'.length := by
          obtain ⟨z, h4⟩ := h4
          obtain ⟨z', h4'⟩ := h4'
          cases e : r.seenRight <;> cases e' : r'.seenRight <;> rw [e] at h4 <;> rw [e'] at h4' <;>
            simp only [if_true, if_false, Bool.false_eq_true] at h4 h4'
          · rw [h4.2.1, h4'.2.1]
            rfl
          · rw [h4.1] at h4'
            simp at h4'
          · rw [h4.1] at h4'
            simp at h4'
          · rw [h4.2.1, h4'.2.1]
        exact List.append_inj (h3.symm.trans h3') hl
      subst e1 e2
      obtain ⟨k1, -, k2⟩ := relSeen_unique h4 h4'
      refine ⟨⟨node_unique h1 h1', k1, k2, node_unique h2 h2', ?_⟩, rfl, rfl⟩
      cases e : s.seenRight <;> cases e' : s'.seenRight <;> rw [e] at h5 <;> rw [e'] at h5' <;>
        simp only [if_true, if_false, Bool.false_eq_true] at h5 h5'
      · exact ⟨rfl, by simp⟩
      · obtain ⟨x, h5', -⟩ := h5'
        rw [h5] at h5'
        cases h5'
      · obtain ⟨x, h5, -⟩ := h5
        rw [h5] at h5'
        cases h5'
      · obtain ⟨x, h5, h6⟩ := h5
        obtain ⟨x', h5', h6'⟩ := h5'
        rw [h5] at h5'
        cases h5'
        exact ⟨rfl, fun _ => (rel_unique h6 h6').1⟩

theorem actual_ne {b : Int} {c : ChainText} {x : Dict V} (h : ActualRecords b c x) : x ≠ [] := by
  cases c with
  | one n =>
    obtain ⟨v, rfl, -⟩ := h
    simp
  | two n r m =>
    obtain ⟨v, w, rfl, -⟩ := h
    simp
  | three n r m s k =>
    obtain ⟨v, w, w1, w2, rfl, -⟩ := h
    simp

/-- All patterns can be read off. -/
theorem read_all {b : Int} {cs cs' : List ChainText} {d : Dict V} (h : Records ActualRecords b cs d) (h' : Records ActualRecords b cs' d) :
    Each SameKept cs cs' := by
  induction cs generalizing b cs' d with
  | nil =>
    cases h
    cases cs' with
    | nil => trivial
    | cons c' cs' =>
      obtain ⟨x, y, hxy, hc, -⟩ := h'
      exact absurd (List.append_eq_nil_iff.1 hxy.symm).1 (actual_ne hc)
  | cons c cs ih =>
    obtain ⟨x, y, rfl, hc, hs⟩ := h
    cases cs' with
    | nil => exact absurd (List.append_eq_nil_iff.1 h').1 (actual_ne hc)
    | cons c' cs' =>
      obtain ⟨x', y', he, hc', hs'⟩ := h'
      obtain ⟨k1, rfl, k3⟩ := read_first hc hc' hs hs' he
      rw [← k3] at hs'
      exact ⟨k1, ih hs hs'⟩

end WG
