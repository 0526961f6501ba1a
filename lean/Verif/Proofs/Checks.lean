/-
Lemmas about the statement checks.
-/
import Verif.Proofs.Extract

set_option linter.unusedSectionVars false
set_option linter.unusedSimpArgs false

namespace WG
open Re
variable [PyRuntime]

theorem forEach_ok {α : Type} {check : α → Except PyErr Unit} {l : List α} :
    forEach check l = .ok () ↔ ∀ x ∈ l, check x = .ok () := by
  induction l with
  | nil => simp [forEach]
  | cons x l ih =>
    simp only [forEach, List.mem_cons, forall_eq_or_imp]
    cases h : check x with
    | error e => simp
    | ok u => simp [ih]

theorem forEach_err {α : Type} {check : α → Except PyErr Unit} {l : List α} {e : PyErr}
    (h : forEach check l = .error e) : ∃ x ∈ l, check x = .error e := by
  induction l with
  | nil => simp [forEach] at h
  | cons x l ih =>
    rw [forEach] at h
    cases hx : check x with
    | error e' =>
      rw [hx] at h
      simp at h
      exact ⟨x, by simp, by rw [hx, h]⟩
    | ok u =>
      rw [hx] at h
      obtain ⟨y, hy, he⟩ := ih h
      exact ⟨y, by simp [hy], he⟩

theorem forEach_congr {α : Type} {check check' : α → Except PyErr Unit} {l : List α}
    (h : ∀ x ∈ l, check x = check' x) : forEach check l = forEach check' l := by
  induction l with
  | nil => rfl
  | cons x l ih =>
    rw [forEach, forEach, h x (by simp), ih fun y hy => h y (by simp [hy])]

theorem validate_ok {stmts : List Str} : validateStatement stmts = .ok () ↔
    checkStatementSyntax stmts = .ok () ∧ checkIllegalCharacters stmts = .ok () ∧
    checkNodeRelProperties stmts = .ok () ∧ checkRelationships stmts = .ok () := by
  unfold validateStatement
  cases h1 : checkStatementSyntax stmts with
  | error => simp
  | ok _ =>
    cases h2 : checkIllegalCharacters stmts with
    | error => simp
    | ok _ =>
      cases h3 : checkNodeRelProperties stmts with
      | error => simp
      | ok _ => simp

/-! ### Illegal characters -/

theorem search_cls {p : Char → Bool} {s : Str} : (Re.search (.cls p) s).isSome = s.any p := by
  induction s with
  | nil => simp [Re.search, Re.matchAt, run]
  | cons c cs ih =>
    rw [Re.search]
    by_cases h : p c = true
    · simp [Re.matchAt, run, h]
    · simp [Re.matchAt, run, h, ih]

theorem illegal_ok {stmts : List Str} :
    checkIllegalCharacters stmts = .ok () ↔ ∀ s ∈ stmts, ∀ c ∈ s, isIllegal c = false := by
  unfold checkIllegalCharacters
  rw [forEach_ok]
  refine forall_congr' fun s => imp_congr Iff.rfl ?_
  rw [illegalRe, search_cls]
  cases h : s.any isIllegal with
  | true =>
    simp only [if_true]
    simp only [List.any_eq_true] at h
    obtain ⟨c, hc, hi⟩ := h
    simp only [reduceCtorEq, false_iff]
    intro hall
    rw [hall c hc] at hi
    simp at hi
  | false =>
    simp only [Bool.false_eq_true, if_false, true_iff]
    intro c hc
    rw [List.any_eq_false] at h
    simpa using h c hc

/-! ### Pieces between arrows -/

/-- `piece` is a maximal part of `s` without separators. -/
def IsPiece (p : Char → Bool) (s piece : Str) : Prop :=
  ∃ a b, s = a ++ piece ++ b ∧ (∀ c ∈ piece, p c = false) ∧ NotHead (fun c => !p c) b ∧
    (∀ c, a.getLast? = some c → p c = true)

theorem splitAux_ne_nil (p : Char → Bool) (b : Bool) (s : Str) : splitClassAux p b s ≠ [] := by
  induction s generalizing b with
  | nil => simp [splitClassAux]
  | cons c cs ih =>
    rw [splitClassAux]
    split
    · split
      · exact ih true
      · simp
    · split <;> simp

/-- Characters before the first separator. -/
theorem splitAux_head {p : Char → Bool} {u s : Str} (hu : ∀ c ∈ u, p c = false) (hne : u ≠ []) (b : Bool)
    (hs : NotHead (fun c => !p c) s) : ∃ ws, splitClassAux p b (u ++ s) = u :: ws := by
  induction u generalizing b with
  | nil => simp at hne
  | cons c cs ih =>
    have hc : p c = false := hu c (by simp)
    cases cs with
    | nil =>
      simp only [List.cons_append, List.nil_append, splitClassAux, hc, Bool.false_eq_true, if_false]
      cases s with
      | nil => exact ⟨[], by simp [splitClassAux]⟩
      | cons d ds =>
        have hd : p d = true := by simpa using hs d ds rfl
        simp [splitClassAux, hd]
    | cons d ds =>
      obtain ⟨ws, h⟩ := ih (fun c hc => hu c (by simp [hc])) (by simp) false
      rw [List.cons_append, splitClassAux, h]
      simp [hc]

/-- What stands before a separator does not change the later pieces. -/
theorem splitAux_tail {p : Char → Bool} {s piece : Str} (h : piece ∈ splitClassAux p true s) (a : Str) (c : Char)
    (hc : p c = true) : piece ∈ (splitClassAux p false (a ++ c :: s)).tail ∧
      piece ∈ splitClassAux p true (a ++ c :: s) := by
  induction a with
  | nil => simp [splitClassAux, hc, h]
  | cons d ds ih =>
    rw [List.cons_append, splitClassAux, splitClassAux]
    by_cases hd : p d = true
    · simp [hd, ih.2]
    · simp only [hd, Bool.false_eq_true, if_false]
      cases hx : splitClassAux p false (ds ++ c :: s) with
      | nil => exact absurd hx (splitAux_ne_nil _ _ _)
      | cons w ws =>
        have := ih.1
        rw [hx] at this
        simp at this
        simp [this]

theorem splitClass_piece {p : Char → Bool} {s piece : Str} (h : IsPiece p s piece) (hne : piece ≠ []) :
    piece ∈ splitClass p s := by
  obtain ⟨a, b, rfl, h1, h2, h3⟩ := h
  obtain ⟨ws, hw⟩ := splitAux_head h1 hne true h2
  obtain ⟨ws', hw'⟩ := splitAux_head h1 hne false h2
  rcases List.eq_nil_or_concat a with rfl | ⟨a', c, rfl⟩
  · simp [splitClass, hw']
  · have hc : p c = true := h3 c (by simp)
    have := (splitAux_tail (s := piece ++ b) (piece := piece) (by rw [hw]; simp) a' c hc).1
    rw [splitClass]
    have e : (a' ++ [c]) ++ piece ++ b = a' ++ c :: (piece ++ b) := by simp
    rw [List.concat_eq_append, e]
    exact List.mem_of_mem_tail this

theorem checkPiece_ok {piece : Str} : checkPiece piece = .ok () ↔
    piece.countP (fun c => c == '(' || c == ')') % 2 = 0 ∧ piece.countP (fun c => c == '{' || c == '}') % 2 = 0 ∧
    piece.countP (fun c => c == '[' || c == ']') % 2 = 0 := by
  unfold checkPiece
  split
  · simp; omega
  · split
    · simp; omega
    · split
      · simp; omega
      · simp; omega

theorem syntax_ok {stmts : List Str} : checkStatementSyntax stmts = .ok () ↔
    ∀ s ∈ stmts, ∀ piece ∈ splitClass isAngle s, checkPiece piece = .ok () := by
  unfold checkStatementSyntax
  rw [forEach_ok]
  simp only [forEach_ok]

/-! ### Keywords are ignored by the checks -/

/-- Characters that mean nothing to the checks: no brackets, arrows, white space or illegal characters. -/
def plainChar (c : Char) : Bool :=
  !(isSpace c || c == '(' || c == ')' || c == '{' || c == '}' || c == '[' || c == ']' || c == '<' || c == '>'
    || c == '-' || isIllegal c)

theorem plainChar_iff {c : Char} : plainChar c = true ↔ isSpace c = false ∧ c ≠ '(' ∧ c ≠ ')' ∧ c ≠ '{' ∧ c ≠ '}' ∧
    c ≠ '[' ∧ c ≠ ']' ∧ c ≠ '<' ∧ c ≠ '>' ∧ c ≠ '-' ∧ isIllegal c = false := by
  simp [plainChar, and_assoc]

theorem splitClass_plain {p : Char → Bool} {u s : Str} (hu : ∀ c ∈ u, p c = false) :
    ∃ w ws, splitClass p s = w :: ws ∧ splitClass p (u ++ s) = (u ++ w) :: ws := by
  unfold splitClass
  induction u with
  | nil =>
    cases h : splitClassAux p false s with
    | nil => exact absurd h (splitAux_ne_nil _ _ _)
    | cons w ws => exact ⟨w, ws, rfl, by simp [h]⟩
  | cons c cs ih =>
    obtain ⟨w, ws, h1, h2⟩ := ih fun c hc => hu c (by simp [hc])
    refine ⟨w, ws, h1, ?_⟩
    rw [List.cons_append, splitClassAux, h2]
    simp [hu c (by simp)]

theorem countP_plain {q : Char → Bool} {u w : Str} (hu : ∀ c ∈ u, q c = false) : (u ++ w).countP q = w.countP q := by
  rw [List.countP_append, List.countP_eq_zero.2 (by simpa using hu)]
  simp

theorem checkPiece_plain {u w : Str} (hu : ∀ c ∈ u, plainChar c = true) : checkPiece (u ++ w) = checkPiece w := by
  simp only [plainChar_iff] at hu
  unfold checkPiece
  rw [countP_plain (by intro c hc; have := hu c hc; simp [this]),
    countP_plain (by intro c hc; have := hu c hc; simp [this]),
    countP_plain (by intro c hc; have := hu c hc; simp [this])]

theorem syntax_plain {u s : Str} (hu : ∀ c ∈ u, plainChar c = true) :
    checkStatementSyntax [u ++ s] = checkStatementSyntax [s] := by
  have h' : ∀ c ∈ u, isAngle c = false := by
    intro c hc
    have := plainChar_iff.1 (hu c hc)
    simp [isAngle, this]
  obtain ⟨w, ws, h1, h2⟩ := splitClass_plain (s := s) h'
  simp [checkStatementSyntax, forEach, h1, h2, checkPiece_plain hu]

theorem illegal_plain {u s : Str} (hu : ∀ c ∈ u, plainChar c = true) :
    checkIllegalCharacters [u ++ s] = checkIllegalCharacters [s] := by
  have : u.any isIllegal = false := by
    rw [List.any_eq_false]
    intro c hc
    simp [(plainChar_iff.1 (hu c hc))]
  simp [checkIllegalCharacters, forEach, illegalRe, search_cls, this]

theorem fails_checkProps {s : Str} (h : ∀ cs, s ≠ '{' :: cs) : Fails checkProps s :=
  fails_grp (fails_seq_left (fails_ch h))

theorem fails_relDirCheck {s : Str} (h : NotHead (fun c => c == '<' || c == '-') s) : Fails relDirCheck s := by
  refine fails_grp (fails_seq fun m hm => ?_)
  have hn : NotHead (· == '<') s := fun c cs e => by have := h c cs e; simp at this; simp [this]
  have hn' : NotHead (· == '-') s := fun c cs e => by have := h c cs e; simp at this; simp [this]
  have : m = ([], s, []) := by
    have h1 := fails_cls hn
    simp only [Fails] at h1
    simpa [optC, run, h1] using hm
  subst this
  exact fails_seq_left (fails_plus hn')

theorem nodeRelProps_plain {u s : Str} (hu : ∀ c ∈ u, plainChar c = true) :
    checkNodeRelProperties [u ++ s] = checkNodeRelProperties [s] := by
  have : checkProps.finditer (u ++ s) = checkProps.finditer s := by
    refine finditer_skip fun a b e hb => fails_checkProps fun cs hcs => ?_
    cases b with
    | nil => simp at hb
    | cons c b =>
      simp only [List.cons_append, List.cons.injEq] at hcs
      have := plainChar_iff.1 (hu c (by simp [e]))
      simp [hcs.1] at this
  simp [checkNodeRelProperties, forEach, checkStmtProps, this]

theorem relDir_plain {u s : Str} (hu : ∀ c ∈ u, plainChar c = true) :
    relDirCheck.finditer (u ++ s) = relDirCheck.finditer s := by
  refine finditer_skip fun a b e hb => fails_relDirCheck fun c cs hcs => ?_
  cases b with
  | nil => simp at hb
  | cons d b =>
    simp only [List.cons_append, List.cons.injEq] at hcs
    have := plainChar_iff.1 (hu d (by simp [e]))
    simp [← hcs.1, this]

theorem relationships_plain {u s : Str} (hu : ∀ c ∈ u, plainChar c = true) :
    checkRelationships [u ++ s] = checkRelationships [s] := by
  simp [checkRelationships, relDir_plain hu]

theorem validate_plain {u s : Str} (hu : ∀ c ∈ u, plainChar c = true) :
    validateStatement [u ++ s] = validateStatement [s] := by
  simp [validateStatement, syntax_plain hu, illegal_plain hu, nodeRelProps_plain hu, relationships_plain hu]

/-! ### The pattern regex on characters that start no pattern -/

/-- Characters at which no part of a pattern can start. -/
def idleChar (c : Char) : Bool := !(isSpace c || c == '(' || c == '<' || c == '-')

theorem idle_of_plain {c : Char} (h : plainChar c = true) : idleChar c = true := by
  have := plainChar_iff.1 h
  simp [idleChar, this]

theorem idle_notHead {s : Str} (h : NotHead (fun c => !idleChar c) s) :
    NotHead isSpace s ∧ NotHead (· == '(') s ∧ NotHead (fun c => c == '<' || c == '-') s := by
  refine ⟨fun c cs e => ?_, fun c cs e => ?_, fun c cs e => ?_⟩ <;>
  · have := h c cs e
    simp [idleChar] at this
    simp [this]

theorem fails_nodeGrp {i : Nat} {s : Str} (h : NotHead (· == '(') s) : Fails (nodeGrp i) s :=
  fails_grp (fails_seq_left (fails_cls h))

theorem fails_relGrp {i : Nat} {s : Str} (h : NotHead (fun c => c == '<' || c == '-') s) : Fails (relGrp i) s := by
  refine fails_grp (fails_seq fun m hm => ?_)
  have hn : NotHead (· == '<') s := fun c cs e => by have := h c cs e; simp at this; simp [this]
  have hn' : NotHead (· == '-') s := fun c cs e => by have := h c cs e; simp at this; simp [this]
  have : m = ([], s, []) := by
    have h1 := fails_cls hn
    simp only [Fails] at h1
    simpa [optC, run, h1] using hm
  subst this
  exact fails_seq_left (fails_plus hn')

theorem onlyEmpty_pattern {s : Str} (h : NotHead (fun c => !idleChar c) s) : OnlyEmpty nodesRelsPattern s := by
  obtain ⟨h1, h2, h3⟩ := idle_notHead h
  have hn : ∀ i, OnlyEmpty (part (nodeGrp i)) s := fun i =>
    onlyEmpty_seq (onlyEmpty_star h1) (onlyEmpty_opt (fails_nodeGrp h2))
  have hr : ∀ i, OnlyEmpty (part (relGrp i)) s := fun i =>
    onlyEmpty_seq (onlyEmpty_star h1) (onlyEmpty_opt (fails_relGrp h3))
  exact onlyEmpty_seq (hn 0) (onlyEmpty_seq (hr 1) (onlyEmpty_seq (hn 2) (onlyEmpty_seq (hr 3) (hn 4))))

theorem statementPatterns_eq (stmt : Str) :
    statementPatterns stmt = (solid (nodesRelsPattern.finditer stmt)).map fun m => patternOf m.2 := rfl

/-- Idle characters are skipped. -/
theorem solid_idle {u s : Str} (hu : ∀ c ∈ u, idleChar c = true) :
    solid (nodesRelsPattern.finditer (u ++ s)) = solid (nodesRelsPattern.finditer s) := by
  induction u with
  | nil => rfl
  | cons c cs ih =>
    rw [List.cons_append, solid_onlyEmpty (onlyEmpty_pattern (notHead_cons (by simp [hu c]))),
      ih fun d hd => hu d (by simp [hd])]

theorem patterns_idle {u s : Str} (hu : ∀ c ∈ u, idleChar c = true) :
    statementPatterns (u ++ s) = statementPatterns s := by
  rw [statementPatterns_eq, statementPatterns_eq, solid_idle hu]

/-! ### Everything captured stands in the statement -/

theorem pattern_infix {stmt : Str} {p : ParsedPattern} (h : p ∈ statementPatterns stmt) {t : PartText} (ht : t ∈ p.parts)
    {x : Str} (hx : t.text = some x ∨ t.handle = some x ∨ t.label = some x ∨ t.props = some x) : x <:+: stmt := by
  rw [statementPatterns_eq] at h
  obtain ⟨m, hm, rfl⟩ := List.mem_map.1 h
  have hm' : m ∈ nodesRelsPattern.finditer stmt := (List.mem_filter.1 hm).1
  obtain ⟨pre, post, h1, h2⟩ := finditer_sound hm'
  have : ∃ n, capGet n m.2 = some x := by
    simp only [patternOf, ParsedPattern.parts, List.mem_cons, List.not_mem_nil, or_false] at ht
    rcases ht with rfl | rfl | rfl | rfl | rfl <;> simp only [partOf] at hx <;>
    · rcases hx with h | h | h | h <;> exact ⟨_, h⟩
  obtain ⟨n, hn⟩ := this
  have := caps_infix h2 (capGet_mem hn)
  refine this.trans ?_
  rw [h1]
  exact ⟨pre, post, rfl⟩

end WG
