/-
The pattern regex on chains and on statements.
-/
import Verif.Proofs.Pattern

set_option linter.unusedSectionVars false
set_option linter.unusedSimpArgs false

namespace WG
open Re
variable [PyRuntime]

/-! ### Parts -/

theorem hd_part_hit {g : Re} {sp s : Str} {m : MRes} (hsp : sp.all isSpace = true) (hs : NotHead isSpace s)
    (h : Hd g s m) : Hd (part g) (sp ++ s) (sp ++ m.1, m.2.1, m.2.2) := by
  have := hd_seq (hd_star hsp hs) (hd_opt h)
  simpa [part] using this

theorem hd_part_none {g : Re} {sp s : Str} (hsp : sp.all isSpace = true) (hs : NotHead isSpace s) (h : Fails g s) :
    Hd (part g) (sp ++ s) (sp, s, []) := by
  have := hd_seq (hd_star hsp hs) (hd_opt_none h)
  simpa [part] using this

/-- A part always has a first way. -/
theorem part_total (g : Re) (s : Str) : ∃ m, Hd (part g) s m := by
  rcases hd_or_fails g (s.dropWhile isSpace) with ⟨m, h⟩ | h
  · have := hd_part_hit (all_takeWhile isSpace s) (notHead_dropWhile isSpace s) h
    rw [List.takeWhile_append_dropWhile] at this
    exact ⟨_, this⟩
  · have := hd_part_none (all_takeWhile isSpace s) (notHead_dropWhile isSpace s) h
    rw [List.takeWhile_append_dropWhile] at this
    exact ⟨_, this⟩

/-! ### First characters -/

theorem node_notHead (n : NodeText) (rest : Str) (p : Char → Bool) (h : p '(' = false) : NotHead p (n.render ++ rest) :=
  notHead_cons h

theorem rel_notHead (r : RelText) (rest : Str) (p : Char → Bool) (h : p '<' = false) (h' : p '-' = false) :
    NotHead p (r.render ++ rest) := by
  unfold RelText.render
  split
  · exact notHead_cons h
  · exact notHead_cons h'

theorem node_starts (n : NodeText) (rest : Str) : NotHead isSpace (n.render ++ rest) ∧ NotHead (· == '-') (n.render ++ rest) ∧
    NotHead (· == '>') (n.render ++ rest) ∧ NotHead (fun c => c == '<' || c == '-') (n.render ++ rest) :=
  ⟨node_notHead n rest _ sp_lit.2.1, node_notHead n rest _ (by decide), node_notHead n rest _ (by decide),
    node_notHead n rest _ (by decide)⟩

theorem rel_starts (r : RelText) (rest : Str) : NotHead isSpace (r.render ++ rest) ∧ NotHead (· == '(') (r.render ++ rest) :=
  ⟨rel_notHead r rest _ sp_lit.2.2.2.2.2.2.2.1 sp_lit.2.2.2.2.2.2.1, rel_notHead r rest _ (by decide) (by decide)⟩

/-! ### One chain -/

/-- The captures of a part. -/
def partCaps (i : Nat) (text handle label : Str) (props : Option Str) : Caps :=
  (gAll i, text) :: (gHandle i, handle) :: (gLabel i, label) :: optCaps (gProps i) props

theorem hd_node {n : NodeText} (h : n.OK) {sp rest : Str} (hsp : sp.all isSpace = true) (hr : NotHead isSpace rest) (i : Nat) :
    HdR (part (nodeGrp i)) (sp ++ (n.render ++ rest)) rest (partCaps i n.render n.handle n.label n.props) :=
  (hd_part_hit hsp (node_starts n rest).1 (hd_nodeGrp h hr i)).toR

theorem hd_rel {r : RelText} (h : r.OK) (n : NodeText) (rest : Str) (i : Nat) :
    HdR (part (relGrp i)) (r.render ++ (n.render ++ rest)) (n.render ++ rest) (partCaps i r.render r.handle r.nm r.props) := by
  obtain ⟨h1, h2, h3, _⟩ := node_starts n rest
  exact (hd_part_hit (sp := []) rfl (rel_starts r (n.render ++ rest)).1 (hd_relText h h1 h2 h3 i)).toR

theorem hd_none {g : Re} {s : Str} (hs : NotHead isSpace s) (h : Fails g s) : HdR (part g) s s [] :=
  (hd_part_none (sp := []) rfl hs h).toR

/-- The captures of a chain. -/
def ChainText.caps : ChainText → Caps
  | .one n => partCaps 0 n.render n.handle n.label n.props
  | .two n r m => partCaps 0 n.render n.handle n.label n.props ++ (partCaps 1 r.render r.handle r.nm r.props ++
      partCaps 2 m.render m.handle m.label m.props)
  | .three n r m r' m' => partCaps 0 n.render n.handle n.label n.props ++ (partCaps 1 r.render r.handle r.nm r.props ++
      (partCaps 2 m.render m.handle m.label m.props ++ (partCaps 3 r'.render r'.handle r'.nm r'.props ++
        partCaps 4 m'.render m'.handle m'.label m'.props)))

/-- The regex on a chain followed by something that is not part of it. -/
theorem hd_chain {c : ChainText} (h : c.OK) {sp rest : Str} (hsp : sp.all isSpace = true)
    (hr : NotHead (fun c => !idleChar c) rest) :
    Hd nodesRelsPattern (sp ++ (c.render ++ rest)) (sp ++ c.render, rest, c.caps) := by
  obtain ⟨r1, r2, r3⟩ := idle_notHead hr
  have nn : ∀ i, HdR (part (nodeGrp i)) rest rest [] := fun i => hd_none r1 (fails_nodeGrp r2)
  have nr : ∀ i, HdR (part (relGrp i)) rest rest [] := fun i => hd_none r1 (fails_relGrp r3)
  suffices HdR nodesRelsPattern ((sp ++ c.render) ++ rest) rest c.caps by
    have := this.toHd
    simpa using this
  rw [List.append_assoc]
  cases c with
  | one n =>
    have := (hd_node h hsp r1 0).seq ((nr 1).seq ((nn 2).seq ((nr 3).seq (nn 4))))
    simpa [nodesRelsPattern, seqs, ChainText.caps, ChainText.render] using this
  | two n r m =>
    obtain ⟨hn, hrel, hm⟩ := h
    have h2 := hd_node (sp := []) hm rfl r1 2
    have := (hd_node hn hsp (rel_starts r (m.render ++ rest)).1 0).seq ((hd_rel hrel m rest 1).seq
      (h2.seq ((nr 3).seq (nn 4))))
    simpa [nodesRelsPattern, seqs, ChainText.caps, ChainText.render] using this
  | three n r m r' m' =>
    obtain ⟨hn, hrel, hm, hrel', hm'⟩ := h
    have h2 := hd_node (sp := []) hm rfl (rel_starts r' (m'.render ++ rest)).1 2
    have h4 := hd_node (sp := []) hm' rfl r1 4
    have := (hd_node hn hsp (rel_starts r (m.render ++ (r'.render ++ (m'.render ++ rest)))).1 0).seq
      ((hd_rel hrel m (r'.render ++ (m'.render ++ rest)) 1).seq
      (h2.seq ((hd_rel hrel' m' rest 3).seq h4)))
    simpa [nodesRelsPattern, seqs, ChainText.caps, ChainText.render] using this

theorem capGet_optCaps (k n : Nat) (p : Option Str) : capGet k (optCaps n p) = if n = k then p else none := by
  cases p with
  | none => simp [optCaps, capGet]
  | some p => by_cases h : n = k <;> simp [optCaps, capGet, h]

/-- What the captures of a chain stand for. -/
theorem chain_pattern (c : ChainText) : patternOf c.caps = c.pattern := by
  cases c <;>
    simp [patternOf, partOf, ChainText.caps, ChainText.pattern, partCaps, capGet, capGet_append, capGet_optCaps, gAll, gHandle,
      gLabel, gProps, NodeText.part, RelText.part, RelText.nm, PartText.absent] <;>
    grind

theorem chain_ne (c : ChainText) : c.render ≠ [] := by
  cases c <;> simp [ChainText.render, NodeText.render]

theorem idle_iff {t : Str} : Idle t ↔ ∀ c ∈ t, idleChar c = true := by
  unfold Idle
  refine forall_congr' fun c => forall_congr' fun _ => ?_
  simp [idleChar, and_assoc]

/-- One pattern, then the others. -/
theorem statementPatterns_chain {c : ChainText} (h : c.OK) {t sp rest : Str} (ht : Idle t) (hsp : sp.all isSpace = true)
    (hr : NotHead (fun c => !idleChar c) rest) :
    statementPatterns (t ++ (sp ++ (c.render ++ rest))) = c.pattern :: statementPatterns rest := by
  rw [patterns_idle (idle_iff.1 ht), statementPatterns_eq, solid_hit (hd_chain h hsp hr) (by simp [chain_ne])]
  simp [chain_pattern, statementPatterns_eq]

theorem notHead_idle {t rest : Str} (ht : Idle t) (h : t = [] → NotHead (fun c => !idleChar c) rest) :
    NotHead (fun c => !idleChar c) (t ++ rest) := by
  cases t with
  | nil => exact h rfl
  | cons c cs => exact notHead_cons (by simp [idle_iff.1 ht c (by simp)])

theorem statementPatterns_idle {t : Str} (ht : Idle t) : statementPatterns t = [] := by
  have := patterns_idle (s := []) (idle_iff.1 ht)
  rw [List.append_nil] at this
  rw [this, statementPatterns_eq, solid_onlyEmpty_nil (onlyEmpty_nil _)]
  rfl

theorem statementPatterns_app {l : List (Str × Str × ChainText)} (h : PatternsOK l) {tail : Str}
    (ht : NotHead (fun c => !idleChar c) tail) :
    statementPatterns (renderPatterns l ++ tail) = l.map (·.2.2.pattern) ++ statementPatterns tail := by
  induction l with
  | nil => rfl
  | cons x l ih =>
    obtain ⟨t, sp, c⟩ := x
    have hx := h.1 _ (List.mem_cons_self)
    have hl : PatternsOK l := ⟨fun y hy => h.1 y (List.mem_cons_of_mem _ hy), fun y hy => h.2 y (List.mem_of_mem_tail hy)⟩
    have hr : NotHead (fun c => !idleChar c) (renderPatterns l ++ tail) := by
      cases l with
      | nil => exact ht
      | cons y l =>
        obtain ⟨t', sp', c'⟩ := y
        have hy := h.1 (t', sp', c') (by simp)
        simp only [renderPatterns, List.append_assoc]
        exact notHead_idle hy.1 fun e => absurd e (h.2 (t', sp', c') (by simp))
    simp only [renderPatterns, List.append_assoc, List.map_cons]
    rw [statementPatterns_chain hx.2.2 hx.1 hx.2.1 hr, ih hl]
    rfl

theorem statementPatterns_render {l : List (Str × Str × ChainText)} (h : PatternsOK l) {tail : Str} (ht : Idle tail) :
    statementPatterns (renderPatterns l ++ tail) = l.map (·.2.2.pattern) := by
  have hn : NotHead (fun c => !idleChar c) tail := by
    simpa using notHead_idle (rest := []) ht fun _ => notHead_nil _
  rw [statementPatterns_app h hn, statementPatterns_idle ht, List.append_nil]

/-- White space alone is taken as a pattern of which nothing is given. -/
theorem statementPatterns_blank {sp rest : Str} (hsp : sp.all isSpace = true) (hne : sp ≠ [])
    (hr : NotHead (fun c => !idleChar c) rest) :
    statementPatterns (sp ++ rest) = ⟨.absent, .absent, .absent, .absent, .absent⟩ :: statementPatterns rest := by
  obtain ⟨r1, r2, r3⟩ := idle_notHead hr
  have nn : ∀ i, HdR (part (nodeGrp i)) rest rest [] := fun i => hd_none r1 (fails_nodeGrp r2)
  have nr : ∀ i, HdR (part (relGrp i)) rest rest [] := fun i => hd_none r1 (fails_relGrp r3)
  have h0 : HdR (part (nodeGrp 0)) (sp ++ rest) rest [] := (hd_part_none hsp r1 (fails_nodeGrp r2)).toR
  have h1 := h0.seq ((nr 1).seq ((nn 2).seq ((nr 3).seq (nn 4))))
  have h2 : Hd nodesRelsPattern (sp ++ rest) (sp, rest, []) := HdR.toHd (by simpa [nodesRelsPattern, seqs] using h1)
  rw [statementPatterns_eq, solid_hit h2 (by simpa using hne)]
  simp [statementPatterns_eq, patternOf, partOf, capGet, PartText.absent]

end WG
