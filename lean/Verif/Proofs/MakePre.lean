/- Lemmas on `process_parsed_make_list`. -/
import Verif.Spec.Make

namespace WG

theorem truthy_some {t : Option Str} (h : truthy t = true) : ∃ c cs, t = some (c :: cs) := by
  cases t with
  | none => simp [truthy] at h
  | some s => cases s with
    | nil => simp [truthy] at h
    | cons c cs => exact ⟨c, cs, rfl⟩

theorem isLeftToRight_some {t : PartText} {c : Char} {cs : Str} (h : t.text = some (c :: cs)) :
    isLeftToRight (c :: cs) = if '<' ∈ c :: cs ∧ '>' ∈ c :: cs then .error .nonDirected else .ok (pointsRight t) := by
  unfold isLeftToRight pointsRight
  rw [h]
  cases hl : (c :: cs).getLast? with
  | none => simp at hl
  | some x =>
    have : (some x == some '>') = (x == '>') := by
      by_cases e : x = '>' <;> simp [e]
    simp only [Option.getD_some, hl, this]

/-- The left-middle relationship a pattern describes. -/
def relLM (b : Int) (p : ParsedPattern) : RelPre :=
  { wn := lmNum b p, name := p.leftMiddle.label, handle := p.leftMiddle.handle,
    props := p.leftMiddle.props,
    fromWn := if pointsRight p.leftMiddle then b else b + 1,
    toWn := if pointsRight p.leftMiddle then b + 1 else b }

/-- The middle-right relationship a pattern describes. -/
def relMR (b : Int) (p : ParsedPattern) : RelPre :=
  { wn := mrNum b p, name := p.middleRight.label, handle := p.middleRight.handle,
    props := p.middleRight.props,
    fromWn := if pointsRight p.middleRight then b + 1 else b + 2,
    toWn := if pointsRight p.middleRight then b + 2 else b + 1 }

/-- Label of a part. -/
def labelD (t : PartText) : Str := t.label.getD []

/-- The node a part describes. -/
def nodePre (wn : Int) (t : PartText) (rels : List RelPre) : NodePre :=
  { wn := wn, label := labelD t, handle := t.handle, props := t.props, rels := rels }

/-- Relationships of the left node. -/
def leftRels (b : Int) (p : ParsedPattern) : List RelPre :=
  if truthy p.leftMiddle.text && pointsRight p.leftMiddle then [relLM b p] else []

/-- Relationships of the middle node. -/
def middleRels (b : Int) (p : ParsedPattern) : List RelPre :=
  (if truthy p.leftMiddle.text && !pointsRight p.leftMiddle then [relLM b p] else []) ++
  (if truthy p.middleRight.text && pointsRight p.middleRight then [relMR b p] else [])

/-- Relationships of the right node. -/
def rightRels (b : Int) (p : ParsedPattern) : List RelPre :=
  if truthy p.middleRight.text && !pointsRight p.middleRight then [relMR b p] else []

/-- Non-empty relationship name of a part. -/
def relNameOf (t : PartText) : List Str := addRelName [] t.label

theorem addRelName_eq (l : List Str) (n : Option Str) : addRelName l n = l ++ addRelName [] n := by
  unfold addRelName
  split <;> simp

/-- Result of processing a pattern. -/
def prePattern (b : Int) (p : ParsedPattern) : MakePre :=
  { left := nodePre b p.left (leftRels b p)
    middle := if truthy p.middle.text then some (nodePre (b + 1) p.middle (middleRels b p)) else none
    right := if truthy p.right.text then some (nodePre (rightNum b p) p.right (rightRels b p)) else none
    labels := (writtenNodes p).map labelD
    relNames := (writtenRels p).flatMap relNameOf }

theorem mkNodePre_ok {n : Int} {t : PartText} (h : t.label ≠ none) :
    mkNodePre n t = .ok (nodePre n t []) := by
  unfold mkNodePre nodePre labelD
  cases hl : t.label with
  | none => exact absurd hl h
  | some l => rfl

theorem mkNodePre_none {n : Int} {t : PartText} (h : t.label = none) :
    mkNodePre n t = .error .validation := by
  unfold mkNodePre; rw [h]

/-- The state after the nodes. -/
def preNodes (b : Int) (p : ParsedPattern) : MakePre :=
  { left := nodePre b p.left []
    middle := if truthy p.middle.text then some (nodePre (b + 1) p.middle []) else none
    right := if truthy p.right.text then some (nodePre (rightNum b p) p.right []) else none
    labels := (writtenNodes p).map labelD
    relNames := [] }

/-- The state after the left-middle relationship. -/
def preLM (b : Int) (p : ParsedPattern) : MakePre :=
  { preNodes b p with
    left := nodePre b p.left (leftRels b p)
    middle := if truthy p.middle.text then some (nodePre (b + 1) p.middle
      (if truthy p.leftMiddle.text && !pointsRight p.leftMiddle then [relLM b p] else [])) else none
    relNames := if truthy p.leftMiddle.text then relNameOf p.leftMiddle else [] }

theorem nodes_ok {b : Int} {p : ParsedPattern}
    (hm : truthy p.middle.text = true → p.middle.label ≠ none)
    (hr : truthy p.right.text = true → p.right.label ≠ none) :
    (match processMiddle (b + 1) p
      { left := nodePre b p.left [], middle := none, right := none, labels := [labelD p.left], relNames := [] } with
    | .error e => Except.error e
    | .ok (n1, mp1) => processRight n1 p mp1) =
      .ok (b + (writtenNodes p).length, preNodes b p) := by
  unfold processMiddle processRight preNodes writtenNodes rightNum
  cases h1 : truthy p.middle.text <;> cases h2 : truthy p.right.text
  · simp
  · simp [mkNodePre_ok (hr h2)]
    exact ⟨by omega, rfl⟩
  · simp [mkNodePre_ok (hm h1)]
    exact ⟨by omega, rfl⟩
  · simp [mkNodePre_ok (hm h1), mkNodePre_ok (hr h2)]
    exact ⟨by omega, by congr 1; omega, rfl, rfl⟩

theorem lm_ok {b : Int} {p : ParsedPattern}
    (h : truthy p.leftMiddle.text = true → truthy p.middle.text = true ∧ ¬ bothHeads p.leftMiddle) :
    processLM (b + (writtenNodes p).length) p (preNodes b p) =
      .ok (b + (writtenNodes p).length + (if truthy p.leftMiddle.text then 1 else 0), preLM b p) := by
  cases ht : truthy p.leftMiddle.text with
  | false =>
    unfold processLM
    have : ∀ c cs, p.leftMiddle.text ≠ some (c :: cs) := by
      intro c cs e; rw [e] at ht; simp [truthy] at ht
    split
    · next c cs e => exact absurd e (this c cs)
    · simp [preLM, preNodes, leftRels, ht]
  | true =>
    obtain ⟨c, cs, e⟩ := truthy_some ht
    obtain ⟨hm, hb⟩ := h ht
    have hb' : ¬ ('<' ∈ c :: cs ∧ '>' ∈ c :: cs) := by
      unfold bothHeads at hb; rw [e] at hb; exact hb
    unfold processLM
    rw [e]
    simp only
    rw [isLeftToRight_some e, if_neg hb']
    simp only [preNodes, hm, if_true, preLM, leftRels, ht, Bool.true_and, NodePre.addRel, relLM, lmNum,
      relNameOf, nodePre]
    cases pointsRight p.leftMiddle <;> simp

theorem mr_ok {b : Int} {p : ParsedPattern}
    (h : truthy p.middleRight.text = true →
      truthy p.middle.text = true ∧ truthy p.right.text = true ∧ ¬ bothHeads p.middleRight) :
    processMR (b + (writtenNodes p).length + (if truthy p.leftMiddle.text then 1 else 0)) p (preLM b p) =
      .ok (b + patSize p, prePattern b p) := by
  have hs : (b + (writtenNodes p).length + (if truthy p.leftMiddle.text = true then 1 else 0) : Int)
      + (if truthy p.middleRight.text = true then 1 else 0) = b + patSize p := by
    unfold patSize writtenRels
    cases truthy p.leftMiddle.text <;> cases truthy p.middleRight.text <;> simp <;> omega
  have hnames : (if truthy p.leftMiddle.text = true then relNameOf p.leftMiddle else [])
      ++ (if truthy p.middleRight.text = true then relNameOf p.middleRight else [])
      = (writtenRels p).flatMap relNameOf := by
    unfold writtenRels
    cases truthy p.leftMiddle.text <;> cases truthy p.middleRight.text <;> simp
  cases ht : truthy p.middleRight.text with
  | false =>
    unfold processMR
    have : ∀ c cs, p.middleRight.text ≠ some (c :: cs) := by
      intro c cs e; rw [e] at ht; simp [truthy] at ht
    split
    · next c cs e => exact absurd e (this c cs)
    · rw [ht] at hs hnames
      simp only [Bool.false_eq_true, if_false, Int.add_zero] at hs
      rw [hs]
      simp at hnames
      simp [preLM, preNodes, prePattern, middleRels, rightRels, ht, hnames]
  | true =>
    obtain ⟨c, cs, e⟩ := truthy_some ht
    obtain ⟨hm, hr, hb⟩ := h ht
    have hb' : ¬ ('<' ∈ c :: cs ∧ '>' ∈ c :: cs) := by
      unfold bothHeads at hb; rw [e] at hb; exact hb
    unfold processMR
    rw [e]
    simp only
    rw [isLeftToRight_some e, if_neg hb']
    rw [ht] at hs hnames
    simp only [if_true] at hs hnames
    have hrn : rightNum b p = b + 2 := by simp [rightNum, hm]
    simp only [preNodes, hm, hr, if_true, preLM, prePattern, middleRels, rightRels, ht, Bool.true_and,
      NodePre.addRel, relMR, mrNum, nodePre, hrn, hs]
    rw [addRelName_eq, show addRelName [] p.middleRight.label = relNameOf p.middleRight from rfl, hnames]
    cases pointsRight p.middleRight <;> simp

theorem processPattern_ok {b : Int} {p : ParsedPattern} (h : PatShape p) :
    processPattern b p = .ok (b + patSize p, prePattern b p) := by
  unfold processPattern
  rw [mkNodePre_ok h.left]
  simp only
  have h1 := nodes_ok (b := b) h.middle h.right
  rw [show (nodePre b p.left []).label = labelD p.left from rfl]
  split at h1
  · simp at h1
  · next n1 mp1 e1 =>
    rw [e1]
    simp only
    rw [h1]
    simp only
    rw [lm_ok h.lm]
    simp only
    exact mr_ok h.mr

/-- A pattern is processed iff it is well formed. -/
theorem processPattern_shape {b : Int} {p : ParsedPattern} {x : Int × MakePre}
    (h : processPattern b p = .ok x) : PatShape p := by
  unfold processPattern at h
  cases hl : p.left.label with
  | none => rw [mkNodePre_none hl] at h; simp at h
  | some l =>
    have hl' : p.left.label ≠ none := by simp [hl]
    rw [mkNodePre_ok hl'] at h
    simp only at h
    rw [show (nodePre b p.left []).label = labelD p.left from rfl] at h
    have hm : truthy p.middle.text = true → p.middle.label ≠ none := by
      intro ht hn
      unfold processMiddle at h
      rw [if_pos ht, mkNodePre_none hn] at h
      simp at h
    have hr : truthy p.right.text = true → p.right.label ≠ none := by
      intro ht hn
      split at h
      · simp at h
      · unfold processRight at h
        rw [if_pos ht, mkNodePre_none hn] at h
        simp at h
    have h1 := nodes_ok (b := b) hm hr
    split at h1
    · simp at h1
    · next n1 mp1 e1 =>
      rw [e1] at h
      simp only at h
      rw [h1] at h
      simp only at h
      have hlm : truthy p.leftMiddle.text = true → truthy p.middle.text = true ∧ ¬ bothHeads p.leftMiddle := by
        intro ht
        obtain ⟨c, cs, e⟩ := truthy_some ht
        have : bothHeads p.leftMiddle ↔ ('<' ∈ c :: cs ∧ '>' ∈ c :: cs) := by
          unfold bothHeads; rw [e]; rfl
        rw [this]
        unfold processLM at h
        rw [e] at h
        simp only at h
        rw [isLeftToRight_some e] at h
        by_cases hb : '<' ∈ c :: cs ∧ '>' ∈ c :: cs
        · rw [if_pos hb] at h; simp at h
        · rw [if_neg hb] at h
          refine ⟨?_, hb⟩
          simp only [preNodes] at h
          cases hm : truthy p.middle.text with
          | true => rfl
          | false => rw [hm] at h; simp at h
      rw [lm_ok hlm] at h
      simp only at h
      refine ⟨hl', hm, hr, hlm, ?_⟩
      intro ht
      obtain ⟨c, cs, e⟩ := truthy_some ht
      have : bothHeads p.middleRight ↔ ('<' ∈ c :: cs ∧ '>' ∈ c :: cs) := by
        unfold bothHeads; rw [e]; rfl
      rw [this]
      unfold processMR at h
      rw [e] at h
      simp only at h
      rw [isLeftToRight_some e] at h
      by_cases hb : '<' ∈ c :: cs ∧ '>' ∈ c :: cs
      · rw [if_pos hb] at h; simp at h
      · rw [if_neg hb] at h
        simp only [preLM, preNodes] at h
        cases hm : truthy p.middle.text with
        | false => rw [hm] at h; simp at h
        | true =>
          cases hr : truthy p.right.text with
          | false => rw [hm, hr] at h; simp at h
          | true => exact ⟨rfl, rfl, hb⟩

theorem processPatterns_iff {b : Int} {ps : List ParsedPattern} {x : Int × List MakePre} :
    processPatterns b ps = .ok x ↔ (∀ p ∈ ps, PatShape p) ∧
      x = (b + totalSize ps, (place b ps).map fun q => prePattern q.1 q.2) := by
  induction ps generalizing b x with
  | nil => simp [processPatterns, totalSize, place, eq_comm]
  | cons p ps ih =>
    unfold processPatterns
    constructor
    · intro h
      split at h
      · simp at h
      · next n1 mp e1 =>
        have hs := processPattern_shape e1
        rw [processPattern_ok hs] at e1
        simp at e1
        obtain ⟨rfl, rfl⟩ := e1
        split at h
        · simp at h
        · next n2 mps e2 =>
          simp at h
          obtain ⟨h1, h2⟩ := ih.1 e2
          simp at h2
          refine ⟨by simpa using ⟨hs, h1⟩, ?_⟩
          rw [← h, h2.1, h2.2]
          simp [place, totalSize]
          omega
    · rintro ⟨h, rfl⟩
      rw [processPattern_ok (h p (by simp))]
      simp only
      rw [ih.2 ⟨fun q hq => h q (by simp [hq]), rfl⟩]
      simp [place, totalSize]
      omega

theorem place_append (b : Int) (ps qs : List ParsedPattern) :
    place b (ps ++ qs) = place b ps ++ place (b + totalSize ps) qs := by
  induction ps generalizing b with
  | nil => simp [place, totalSize]
  | cons p ps ih =>
    simp only [List.cons_append, place, ih, totalSize, List.map_cons, List.sum_cons]
    congr 3
    rw [Int.natCast_add]; omega

theorem totalSize_append (ps qs : List ParsedPattern) :
    totalSize (ps ++ qs) = totalSize ps + totalSize qs := by
  simp [totalSize]

/-- `process_parsed_make_list` completely: which inputs it accepts, and the result. -/
theorem processParsedMakeList_iff {b : Int} {pml : List ParsedMake} {x : Int × List MakePre} :
    processParsedMakeList b pml = .ok x ↔
      (∀ pm ∈ pml, pm.clause = .make) ∧ (∀ p ∈ patsOf pml, PatShape p) ∧
      x = (b + totalSize (patsOf pml), (place b (patsOf pml)).map fun q => prePattern q.1 q.2) := by
  induction pml generalizing b x with
  | nil => simp [processParsedMakeList, patsOf, totalSize, place, eq_comm]
  | cons pm pml ih =>
    unfold processParsedMakeList
    have e : patsOf (pm :: pml) = pm.patterns ++ patsOf pml := by simp [patsOf]
    by_cases hc : pm.clause = .make
    · rw [if_neg (by simpa using hc)]
      constructor
      · intro h
        split at h
        · simp at h
        · next n1 mps e1 =>
          obtain ⟨s1, e1⟩ := processPatterns_iff.1 e1
          simp at e1
          obtain ⟨rfl, rfl⟩ := e1
          split at h
          · simp at h
          · next n2 mps' e2 =>
            obtain ⟨c2, s2, e2⟩ := ih.1 e2
            simp at e2 h
            obtain ⟨rfl, rfl⟩ := e2
            refine ⟨by simpa using ⟨hc, c2⟩, ?_, ?_⟩
            · rw [e]
              intro p hp
              rcases List.mem_append.1 hp with hp | hp
              · exact s1 p hp
              · exact s2 p hp
            · rw [← h, e, place_append, totalSize_append]
              simp
              omega
      · rintro ⟨h1, h2, rfl⟩
        rw [e] at h2 ⊢
        rw [processPatterns_iff.2 ⟨fun p hp => h2 p (by simp [hp]), rfl⟩]
        simp only
        rw [ih.2 ⟨fun p hp => h1 p (by simp [hp]), fun p hp => h2 p (by simp [hp]), rfl⟩]
        rw [place_append, totalSize_append]
        simp
        omega
    · rw [if_pos hc]
      simp
      intro h
      exact absurd h hc

end WG
