/-
Lemmas about reading pattern texts.
-/
import Verif.Model.PatternTexts
import Verif.Spec.PatternTexts

namespace WG

theorem readFrom_append (a b : Str) (st : RState) : st.readFrom (a ++ b) = (st.readFrom a).bind (·.readFrom b) := by
  induction a generalizing st with
  | nil => rfl
  | cons c a ih =>
    simp only [List.cons_append, RState.readFrom]
    cases st.step c with
    | none => rfl
    | some st' => exact ih st'

theorem isAlpha_ne {c d : Char} (hc : c.isAlpha = true) (hd : d.isAlpha = false) : (c == d) = false := by
  rw [beq_eq_false_iff_ne]; intro e; rw [e, hd] at hc; cases hc

theorem plain_letter {c : Char} (h : c.isAlpha = true) (st : RState) : st.plain c = some (st.push (.lit c)) := by
  have n (d : Char) (hd : d.isAlpha = false) := isAlpha_ne h hd
  unfold RState.plain
  simp [n '\\' (by decide), n '(' (by decide), n '[' (by decide), n '{' (by decide), n ')' (by decide), n '|' (by decide),
    n '?' (by decide), n '*' (by decide), n '+' (by decide), n '.' (by decide), n '^' (by decide), n '$' (by decide)]

theorem read_word (w : Str) (hw : ∀ c ∈ w, c.isAlpha = true) (num : Nat) (name : Str) (alts atoms : List Pat) (below : List Frame)
    (next : Nat) (names : List Str) :
    RState.readFrom ⟨.normal, ⟨num, name, alts, atoms⟩, below, next, names⟩ w =
      some ⟨.normal, ⟨num, name, alts, (w.map Pat.lit).reverse ++ atoms⟩, below, next, names⟩ := by
  induction w generalizing atoms with
  | nil => rfl
  | cons c w ih =>
    simp only [RState.readFrom, RState.step, plain_letter (hw c (.head _)), RState.push]
    rw [ih fun x hx => hw x (.tail _ hx)]
    simp

theorem read_bars (ws : List Str) (w : Str) (hw : ∀ v ∈ w :: ws, ∀ c ∈ v, c.isAlpha = true) (num : Nat) (name : Str) (alts : List Pat)
    (below : List Frame) (next : Nat) (names : List Str) :
    ∃ al at', RState.readFrom ⟨.normal, ⟨num, name, alts, []⟩, below, next, names⟩ (PatternText.barJoin (w :: ws)) =
        some ⟨.normal, ⟨num, name, al, at'⟩, below, next, names⟩ ∧
      (Pat.seqL at'.reverse :: al).reverse = alts.reverse ++ (w :: ws).map Pat.wordP := by
  induction ws generalizing w alts with
  | nil =>
    refine ⟨_, _, read_word w (hw w (.head _)) .., ?_⟩
    simp [Pat.wordP]
  | cons v ws ih =>
    obtain ⟨al, at', h1, h2⟩ := ih v (fun x hx => hw x (.tail _ hx)) (Pat.wordP w :: alts)
    refine ⟨al, at', ?_, ?_⟩
    · rw [PatternText.barJoin, readFrom_append, read_word w (hw w (.head _)), ← h1]
      · simp [Option.bind, RState.readFrom, RState.step, RState.plain, Pat.wordP]
      · simp
    · rw [h2]; simp

theorem letter_ascii {c : Char} (h : c.isAlpha = true) : c.toNat < 128 := by
  simp only [Char.isAlpha, Char.isUpper, Char.isLower, Bool.or_eq_true, Bool.and_eq_true, decide_eq_true_eq, ge_iff_le, UInt32.le_iff_toNat_le] at h
  have e : c.val.toNat = c.toNat := rfl
  have k1 : (90 : UInt32).toNat = 90 := rfl
  have k2 : (122 : UInt32).toNat = 122 := rfl
  rcases h with ⟨_, h⟩ | ⟨_, h⟩
  · have : c.val.toNat ≤ 90 := h
    omega
  · have : c.val.toNat ≤ 122 := h
    omega

theorem letter_cases {P : Char → Bool} (h : ∀ n : Fin 128, (Char.ofNat n).isAlpha = true → P (Char.ofNat n) = true) {c : Char}
    (hc : c.isAlpha = true) : P c = true := by
  have := h ⟨c.toNat, letter_ascii hc⟩
  simp only [Char.ofNat_toNat] at this
  exact this hc

theorem letter_upper {c : Char} (h : c.isAlpha = true) : c.toUpper.isAlpha = true :=
  letter_cases (P := fun c => c.toUpper.isAlpha) (by decide) h
theorem letter_lower {c : Char} (h : c.isAlpha = true) : c.toLower.isAlpha = true :=
  letter_cases (P := fun c => c.toLower.isAlpha) (by decide) h
theorem letter_isAscii {c : Char} (h : c.isAlpha = true) : isAscii c = true :=
  letter_cases (P := fun c => isAscii c) (by decide) h
theorem letter_upper_lower {c : Char} (h : c.isAlpha = true) : c.toUpper.toLower = c.toLower :=
  eq_of_beq (letter_cases (P := fun c => c.toUpper.toLower == c.toLower) (by decide) h)
theorem letter_lower_lower {c : Char} (h : c.isAlpha = true) : c.toLower.toLower = c.toLower :=
  eq_of_beq (letter_cases (P := fun c => c.toLower.toLower == c.toLower) (by decide) h)

theorem upperA_letters {w : Str} (hw : Letters w) : Letters (PatternText.upperA w) := by
  intro c hc
  obtain ⟨d, hd, rfl⟩ := List.mem_map.1 hc
  exact letter_upper (hw d hd)

theorem lowerA_letters {w : Str} (hw : Letters w) : Letters (PatternText.lowerA w) := by
  intro c hc
  obtain ⟨d, hd, rfl⟩ := List.mem_map.1 hc
  exact letter_lower (hw d hd)

theorem lower_upper {w : Str} (hw : Letters w) : PatternText.lowerA (PatternText.upperA w) = PatternText.lowerA w := by
  simp only [PatternText.lowerA, PatternText.upperA, List.map_map]
  exact List.map_congr_left fun c hc => letter_upper_lower (hw c hc)

theorem lower_lower {w : Str} (hw : Letters w) : PatternText.lowerA (PatternText.lowerA w) = PatternText.lowerA w := by
  simp only [PatternText.lowerA, List.map_map]
  exact List.map_congr_left fun c hc => letter_lower_lower (hw c hc)

section
variable [PyRuntime]
open Re

theorem toRe_seqL {ci : Bool} : ∀ {ps : List Pat} {rs : List Re}, ps.map (Pat.toRe ci) = rs.map some →
    (Pat.seqL ps).toRe ci = some (seqs rs)
  | [], [], _ => rfl
  | [p], [r], h => by simpa [Pat.seqL, seqs] using h
  | [p], r :: t :: rs, h => by simp at h
  | p :: q :: ps, [r], h => by simp at h
  | p :: q :: ps, r :: t :: rs, h => by
    simp only [List.map_cons, List.cons.injEq] at h
    have := toRe_seqL (ci := ci) (ps := q :: ps) (rs := t :: rs) (by simp [h.2.1, h.2.2])
    simp [Pat.seqL, seqs, Pat.toRe, h.1, this]

theorem toRe_altL {ci : Bool} : ∀ {ps : List Pat} {rs : List Re}, ps ≠ [] → ps.map (Pat.toRe ci) = rs.map some →
    (Pat.altL ps).toRe ci = some (alts rs)
  | [p], [r], _, h => by simpa [Pat.altL, alts] using h
  | [p], r :: t :: rs, _, h => by simp at h
  | p :: q :: ps, [r], _, h => by simp at h
  | p :: q :: ps, r :: t :: rs, _, h => by
    simp only [List.map_cons, List.cons.injEq] at h
    have := toRe_altL (ci := ci) (ps := q :: ps) (rs := t :: rs) (by simp) (by simp [h.2.1, h.2.2])
    simp [Pat.altL, alts, Pat.toRe, h.1, this]

omit [PyRuntime] in
theorem word_seqs (w : Str) : word w = seqs (w.map ch) := by
  induction w with
  | nil => rfl
  | cons c w ih => cases w with
    | nil => rfl
    | cons d w => rw [word, ih]; · rfl
                  · simp

omit [PyRuntime] in
theorem wordCI_seqs (w : Str) : wordCI w = seqs (w.map fun c => .cls (matchCI c)) := by
  induction w with
  | nil => rfl
  | cons c w ih => cases w with
    | nil => rfl
    | cons d w => rw [wordCI, ih]; · rfl
                  · simp

theorem toRe_word (w : Str) : (Pat.wordP w).toRe false = some (word w) := by
  rw [word_seqs]
  refine toRe_seqL ?_
  simp [Pat.toRe, Pat.one, ch]

theorem toRe_wordCI {w : Str} (hw : Letters w) : (Pat.wordP w).toRe true = some (wordCI (PatternText.lowerA w)) := by
  rw [wordCI_seqs]
  refine toRe_seqL ?_
  simp only [PatternText.lowerA, List.map_map]
  refine List.map_congr_left fun c hc => ?_
  simp [Pat.toRe, Pat.one, letter_isAscii (hw c hc), hw c hc]

end

theorem read_opened (top : Frame) (below : List Frame) (next : Nat) (names : List Str) (t : Str) (ht : ∃ c r, t = c :: r ∧ c ≠ '?') :
    RState.readFrom ⟨.opened, top, below, next, names⟩ t =
      RState.readFrom ⟨.normal, ⟨next, [], [], []⟩, top :: below, next + 1, names⟩ t := by
  obtain ⟨c, r, rfl, hc⟩ := ht
  simp [RState.readFrom, RState.step, hc, RState.enter]

theorem letters_first {w : Str} (hw : Letters w) (d : Char) (hd : d ≠ '?') (r : Str) : ∃ c t, w ++ d :: r = c :: t ∧ c ≠ '?' := by
  cases w with
  | nil => exact ⟨d, r, rfl, hd⟩
  | cons c w =>
    refine ⟨c, _, rfl, ?_⟩
    rintro rfl
    exact absurd (hw '?' (.head _)) (by decide)

theorem barJoin_first {w : Str} {ws : List Str} (hw : ∀ v ∈ w :: ws, Letters v) (d : Char) (hd : d ≠ '?') (r : Str) :
    ∃ c t, PatternText.barJoin (w :: ws) ++ d :: r = c :: t ∧ c ≠ '?' := by
  cases ws with
  | nil => exact letters_first (hw w (.head _)) d hd r
  | cons v ws =>
    rw [PatternText.barJoin, List.append_assoc]
    · exact letters_first (hw w (.head _)) '|' (by decide) _
    · simp

/-- A parenthesis of alternatives of words, followed by more. -/
theorem read_choice (w : Str) (ws : List Str) (hw : ∀ v ∈ w :: ws, Letters v) (num : Nat) (name : Str) (f : Frame) (below : List Frame)
    (next : Nat) (names : List Str) (r : Str) :
    RState.readFrom ⟨.normal, ⟨num, name, [], []⟩, f :: below, next, names⟩ (PatternText.barJoin (w :: ws) ++ ')' :: r) =
      RState.readFrom ⟨.normal, { f with atoms := .group num name (Pat.altL ((w :: ws).map Pat.wordP)) :: f.atoms }, below, next, names⟩ r := by
  obtain ⟨al, at', h1, h2⟩ := read_bars ws w hw num name [] (f :: below) next names
  rw [readFrom_append, h1]
  simp only [Option.bind, RState.readFrom, RState.step, RState.plain, Frame.content, h2]
  rfl

/-- The tree of `get_clause_all_regex`. -/
theorem parse_clauseAll {w : Str} (hw : Letters w) : parsePattern (PatternText.clauseAll w) =
    some (.group 0 c!"clause_stmt_all" (Pat.seqL [.group 1 [] (.alt (Pat.wordP (PatternText.upperA w)) (Pat.wordP (PatternText.lowerA w))),
      .rep .star (.cat .space), .lit '(', .rep .plus .dot, .lit ')', .lit ';'])) := by
  have hl : ∀ v ∈ [PatternText.upperA w, PatternText.lowerA w], Letters v := by
    intro v hv
    simp only [List.mem_cons, List.not_mem_nil, or_false] at hv
    rcases hv with rfl | rfl
    · exact upperA_letters hw
    · exact lowerA_letters hw
  have e : PatternText.clauseAll w = c!"(?P<clause_stmt_all>(" ++ (PatternText.barJoin [PatternText.upperA w, PatternText.lowerA w]
      ++ ')' :: c!"\\s*\\(.+\\);)") := by simp [PatternText.clauseAll, PatternText.barJoin]
  rw [parsePattern, e, readFrom_append]
  rw [show RState.init.readFrom c!"(?P<clause_stmt_all>(" = some ⟨.opened, ⟨0, c!"clause_stmt_all", [], []⟩, [⟨0, [], [], []⟩], 1, [c!"clause_stmt_all"]⟩ from rfl]
  rw [Option.bind_some, read_opened _ _ _ _ _ (barJoin_first hl _ (by decide) _), read_choice _ _ hl]
  rfl

/-- The tree of a word's permutations, in whatever group. -/
theorem perms_letters {w : Str} (hw : Letters w) (n : Nat) : ∀ v ∈ perms n w, Letters v := by
  induction n generalizing w with
  | zero => intro v hv; simp only [perms, List.mem_singleton] at hv; subst hv; intro c hc; cases hc
  | succ n ih =>
    have hp : ∀ (l : Str), Letters l → ∀ p ∈ picks l, p.1.isAlpha = true ∧ Letters p.2 := by
      intro l
      induction l with
      | nil => intro _ p hp; cases hp
      | cons c l ihl =>
        intro hl p hp
        have hl' : Letters l := fun x hx => hl x (.tail _ hx)
        simp only [picks, List.mem_cons, List.mem_map] at hp
        rcases hp with rfl | ⟨q, hq, rfl⟩
        · exact ⟨hl c (.head _), hl'⟩
        · obtain ⟨h1, h2⟩ := ihl hl' q hq
          refine ⟨h1, ?_⟩
          intro x hx
          rcases List.mem_cons.1 hx with rfl | hx
          · exact hl _ (.head _)
          · exact h2 x hx
    intro v hv
    simp only [perms, List.mem_flatMap, List.mem_map] at hv
    obtain ⟨p, hp1, u, hu, rfl⟩ := hv
    obtain ⟨h1, h2⟩ := hp w hw p hp1
    intro x hx
    rcases List.mem_cons.1 hx with rfl | hx
    · exact h1
    · exact ih h2 u hu x hx

theorem perms_ne_nil {α : Type} : ∀ (l : List α), perms l.length l ≠ []
  | [] => by simp [perms]
  | x :: l => by
    have := perms_ne_nil l
    simp only [List.length_cons, perms, picks]
    intro h
    rw [List.flatMap_cons] at h
    have h := (List.append_eq_nil_iff.1 h).1
    simp at h
    exact this h

theorem picks_map {α β : Type} (f : α → β) : ∀ (l : List α), picks (l.map f) = (picks l).map fun p => (f p.1, p.2.map f)
  | [] => rfl
  | x :: l => by simp [picks, picks_map f l, Function.comp_def]

theorem perms_map {α β : Type} (f : α → β) (n : Nat) : ∀ (l : List α), perms n (l.map f) = (perms n l).map (List.map f) := by
  induction n with
  | zero => intro l; rfl
  | succ n ih => intro l; simp [perms, picks_map, ih, List.flatMap_map, List.map_flatMap, Function.comp_def]

theorem parse_permutations {w : Str} (hw : Letters w) : parsePattern (PatternText.clausePermutations w) =
    some (Pat.seqL [.rep .opt (.cat .space), .group 0 c!"clause_syntax_error" (Pat.altL ((perms w.length w).map Pat.wordP)),
      .rep .opt (.cat .space), .lit '(']) := by
  have hl := perms_letters hw w.length
  have hn := perms_ne_nil w
  rw [parsePattern, PatternText.clausePermutations, PatternText.permutations]
  generalize perms w.length w = ps at hl hn ⊢
  cases ps with
  | nil => exact absurd rfl hn
  | cons v vs =>
    have e (t : Str) : c!"\\s?(?P<clause_syntax_error>" ++ t ++ c!")\\s?\\(" = c!"\\s?(?P<clause_syntax_error>" ++ (t ++ ')' :: c!"\\s?\\(") := by simp
    rw [e, readFrom_append]
    rw [show RState.init.readFrom c!"\\s?(?P<clause_syntax_error>" = some ⟨.normal, ⟨0, c!"clause_syntax_error", [], []⟩,
      [⟨0, [], [], [.rep .opt (.cat .space)]⟩], 1, [c!"clause_syntax_error"]⟩ from rfl]
    rw [Option.bind_some, read_choice _ _ hl]
    rfl

/-- The report patterns: a choice of words in an unnamed group. -/
theorem parse_report {w : Str} {ws : List Str} (hl : ∀ v ∈ w :: ws, Letters v) :
    parsePattern (c!"(?P<report_stmt_all>(" ++ PatternText.barJoin (w :: ws) ++ c!").+;)") =
      some (.group 0 c!"report_stmt_all" (Pat.seqL [.group 1 [] (Pat.altL ((w :: ws).map Pat.wordP)), .rep .plus .dot, .lit ';'])) := by
  have e (t : Str) : c!"(?P<report_stmt_all>(" ++ t ++ c!").+;)" = c!"(?P<report_stmt_all>(" ++ (t ++ ')' :: c!".+;)") := by simp
  rw [parsePattern, e, readFrom_append]
  rw [show RState.init.readFrom c!"(?P<report_stmt_all>(" = some ⟨.opened, ⟨0, c!"report_stmt_all", [], []⟩, [⟨0, [], [], []⟩], 1, [c!"report_stmt_all"]⟩ from rfl]
  rw [Option.bind_some, read_opened _ _ _ _ _ (barJoin_first hl _ (by decide) _), read_choice _ _ hl]
  rfl

theorem ident_append {n t : Str} (hn : Ident n) (ht : ∀ d ∈ t, (isNameStart d || d.isDigit) = true) : Ident (n ++ t) := by
  cases n with
  | nil => exact hn.elim
  | cons c cs =>
    refine ⟨hn.1, fun d hd => ?_⟩
    rcases List.mem_append.1 hd with h | h
    · exact hn.2 d h
    · exact ht d h

theorem nameStart_ne_close {c : Char} (h : (isNameStart c || c.isDigit) = true) : (c == '>') = false := by
  rw [beq_eq_false_iff_ne]; rintro rfl; exact absurd h (by decide)

theorem read_name_rest (t : Str) (ht : ∀ d ∈ t, (isNameStart d || d.isDigit) = true) (a : Char) (acc : Str) (top : Frame) (below : List Frame)
    (next : Nat) (names : List Str) (r : Str) :
    RState.readFrom ⟨.name (a :: acc), top, below, next, names⟩ (t ++ r) =
      RState.readFrom ⟨.name (t.reverse ++ a :: acc), top, below, next, names⟩ r := by
  induction t generalizing a acc with
  | nil => rfl
  | cons c t ih =>
    have hc := ht c (.head _)
    have := ih (fun d hd => ht d (.tail _ hd)) c (a :: acc)
    simp only [List.cons_append, RState.readFrom, RState.step, nameStart_ne_close hc, List.isEmpty_cons, Bool.not_false, Bool.and_true, hc,
      if_true, Bool.false_eq_true, if_false]
    rw [this]
    simp

/-- `(?P<name>` opens a group of that name. -/
theorem read_open {n : Str} (hn : Ident n) (top : Frame) (below : List Frame) (next : Nat) (names : List Str) (hf : n ∉ names) (r : Str) :
    RState.readFrom ⟨.normal, top, below, next, names⟩ (c!"(?P<" ++ (n ++ '>' :: r)) =
      RState.readFrom ⟨.normal, ⟨next, n, [], []⟩, top :: below, next + 1, n :: names⟩ r := by
  rw [readFrom_append, show RState.readFrom ⟨.normal, top, below, next, names⟩ c!"(?P<" = some ⟨.name [], top, below, next, names⟩ from rfl,
    Option.bind_some]
  cases n with
  | nil => exact hn.elim
  | cons c cs =>
    have hc : (isNameStart c || c.isDigit) = true := by simp [hn.1]
    have h1 : RState.readFrom ⟨.name [], top, below, next, names⟩ ((c :: cs) ++ '>' :: r) =
        RState.readFrom ⟨.name [c], top, below, next, names⟩ (cs ++ '>' :: r) := by
      simp [RState.readFrom, RState.step, nameStart_ne_close hc, hn.1]
    rw [h1, read_name_rest cs hn.2 c []]
    have hf' : names.elem (c :: cs) = false := by simpa using hf
    have he : ((cs.reverse ++ [c]).isEmpty || names.elem (cs.reverse ++ [c]).reverse) = false := by
      rw [Bool.or_eq_false_iff]; refine ⟨by simp, ?_⟩; simpa using hf'
    simp only [RState.readFrom, RState.step, he, beq_self_eq_true, if_true, Bool.false_eq_true, if_false, RState.enter]
    simp

/-- The characters of the parameters. -/
def paramItems : List SetItem :=
  [.one '{', .one '}', .cat .word, .one ':', .cat .space, .one ',', .one '\'', .one '"', .one '.', .one '[', .one ']', .one '@']

/-- The tree of a node's group. -/
def nodePat (i : Nat) (n : Str) : Pat :=
  .group i n (Pat.seqL [.lit '(', .rep .star (.cat .space), .group (i + 1) (n ++ c!"_handle") (.rep .star (.cat .word)),
    .rep .star (.cat .space), .lit ':', .rep .star (.cat .space), .group (i + 2) (n ++ c!"_label") (.rep .plus (.cat .word)),
    .rep .star (.cat .space), .rep .opt (.group (i + 3) (n ++ c!"_props") (.rep .plus (.set paramItems))), .rep .star (.cat .space),
    .lit ')', .rep .star (.cat .space)])

/-- The tree of a relationship's group. -/
def relPat (i : Nat) (n : Str) : Pat :=
  .group i n (Pat.seqL [.rep .opt (.lit '<'), .rep .plus (.lit '-'), .lit '[', .rep .star (.cat .space),
    .group (i + 1) (n ++ c!"_handle") (.rep .star (.cat .word)), .rep .star (.cat .space), .rep .opt (.lit ':'), .rep .star (.cat .space),
    .group (i + 2) (n ++ c!"_label") (.rep .star (.cat .word)), .rep .star (.cat .space),
    .rep .opt (.group (i + 3) (n ++ c!"_props") (.rep .plus (.set paramItems))), .rep .star (.cat .space),
    .lit ']', .rep .plus (.lit '-'), .rep .opt (.lit '>'), .rep .star (.cat .space)])

/-- The names a node or relationship brings. -/
def groupsOf (n : Str) : List Str := [n ++ c!"_props", n ++ c!"_label", n ++ c!"_handle", n]

theorem read_chunk {st st' : RState} {a b : Str} (h : st.readFrom a = some st') : st.readFrom (a ++ b) = st'.readFrom b := by
  rw [readFrom_append, h]; rfl

theorem read_nodePattern {n : Str} (hn : Ident n) (num : Nat) (nm : Str) (alts atoms : List Pat) (below : List Frame) (next : Nat)
    (names : List Str) (hf : ∀ x ∈ groupsOf (n ++ c!"_node"), x ∉ names) :
    RState.readFrom ⟨.normal, ⟨num, nm, alts, atoms⟩, below, next, names⟩ (PatternText.nodePattern n) =
      some ⟨.normal, ⟨num, nm, alts, nodePat next (n ++ c!"_node") :: .rep .star (.cat .space) :: atoms⟩, below, next + 4,
        groupsOf (n ++ c!"_node") ++ names⟩ := by
  have e : PatternText.nodePattern n = c!"\\s*" ++ (c!"(?P<" ++ ((n ++ c!"_node") ++ '>' :: (c!"\\(\\s*" ++ (c!"(?P<" ++
      ((n ++ c!"_node" ++ c!"_handle") ++ '>' :: (c!"\\w*)\\s*:\\s*" ++ (c!"(?P<" ++ ((n ++ c!"_node" ++ c!"_label") ++ '>' ::
      (c!"\\w+)\\s*" ++ (c!"(?P<" ++ ((n ++ c!"_node" ++ c!"_props") ++ '>' :: c!"[{}\\w:\\s,'\\\"\\.\\[\\]@]+)?\\s*\\)\\s*)"))))))))))) := by
    simp [PatternText.nodePattern, PatternText.handleLabel, PatternText.allParams, PatternText.extraAllowed]
  have hn' : Ident (n ++ c!"_node") := ident_append hn (by decide)
  generalize hm : n ++ c!"_node" = m at e hf hn' ⊢
  have f0 : m ∉ names := hf _ (by simp [groupsOf])
  have f1 : m ++ c!"_handle" ∉ m :: names := by
    have := hf (m ++ c!"_handle") (by simp [groupsOf]); simp [this]
  have f2 : m ++ c!"_label" ∉ (m ++ c!"_handle") :: m :: names := by
    have := hf (m ++ c!"_label") (by simp [groupsOf]); simp [this]
  have f3 : m ++ c!"_props" ∉ (m ++ c!"_label") :: (m ++ c!"_handle") :: m :: names := by
    have := hf (m ++ c!"_props") (by simp [groupsOf]); simp [this]
  rw [e]
  refine (read_chunk (st' := _) rfl).trans ?_
  refine (read_open hn' _ _ _ _ f0 _).trans ?_
  refine (read_chunk (st' := _) rfl).trans ?_
  refine (read_open (ident_append hn' (by decide)) _ _ _ _ f1 _).trans ?_
  refine (read_chunk (st' := _) rfl).trans ?_
  refine (read_open (ident_append hn' (by decide)) _ _ _ _ f2 _).trans ?_
  refine (read_chunk (st' := _) rfl).trans ?_
  refine (read_open (ident_append hn' (by decide)) _ _ _ _ f3 _).trans ?_
  rfl

theorem read_relPattern {n : Str} (hn : Ident n) (num : Nat) (nm : Str) (alts atoms : List Pat) (below : List Frame) (next : Nat)
    (names : List Str) (hf : ∀ x ∈ groupsOf (n ++ c!"_rel"), x ∉ names) :
    RState.readFrom ⟨.normal, ⟨num, nm, alts, atoms⟩, below, next, names⟩ (PatternText.relPattern n) =
      some ⟨.normal, ⟨num, nm, alts, relPat next (n ++ c!"_rel") :: .rep .star (.cat .space) :: atoms⟩, below, next + 4,
        groupsOf (n ++ c!"_rel") ++ names⟩ := by
  have e : PatternText.relPattern n = c!"\\s*" ++ (c!"(?P<" ++ ((n ++ c!"_rel") ++ '>' :: (c!"<?-+\\[\\s*" ++ (c!"(?P<" ++
      ((n ++ c!"_rel" ++ c!"_handle") ++ '>' :: (c!"\\w*)\\s*:?\\s*" ++ (c!"(?P<" ++ ((n ++ c!"_rel" ++ c!"_label") ++ '>' ::
      (c!"\\w*)\\s*" ++ (c!"(?P<" ++ ((n ++ c!"_rel" ++ c!"_props") ++ '>' :: c!"[{}\\w:\\s,'\\\"\\.\\[\\]@]+)?\\s*]-+>?\\s*)"))))))))))) := by
    simp [PatternText.relPattern, PatternText.handleLabel, PatternText.allParams, PatternText.extraAllowed]
  have hn' : Ident (n ++ c!"_rel") := ident_append hn (by decide)
  generalize hm : n ++ c!"_rel" = m at e hf hn' ⊢
  have f0 : m ∉ names := hf _ (by simp [groupsOf])
  have f1 : m ++ c!"_handle" ∉ m :: names := by
    have := hf (m ++ c!"_handle") (by simp [groupsOf]); simp [this]
  have f2 : m ++ c!"_label" ∉ (m ++ c!"_handle") :: m :: names := by
    have := hf (m ++ c!"_label") (by simp [groupsOf]); simp [this]
  have f3 : m ++ c!"_props" ∉ (m ++ c!"_label") :: (m ++ c!"_handle") :: m :: names := by
    have := hf (m ++ c!"_props") (by simp [groupsOf]); simp [this]
  rw [e]
  refine (read_chunk (st' := _) rfl).trans ?_
  refine (read_open hn' _ _ _ _ f0 _).trans ?_
  refine (read_chunk (st' := _) rfl).trans ?_
  refine (read_open (ident_append hn' (by decide)) _ _ _ _ f1 _).trans ?_
  refine (read_chunk (st' := _) rfl).trans ?_
  refine (read_open (ident_append hn' (by decide)) _ _ _ _ f2 _).trans ?_
  refine (read_chunk (st' := _) rfl).trans ?_
  refine (read_open (ident_append hn' (by decide)) _ _ _ _ f3 _).trans ?_
  rfl

theorem parse_nodePattern {n : Str} (hn : Ident n) : parsePattern (PatternText.nodePattern n) =
    some (.seq (.rep .star (.cat .space)) (nodePat 0 (n ++ c!"_node"))) := by
  rw [parsePattern, RState.init, read_nodePattern hn _ _ _ _ _ _ _ (by simp)]
  rfl

theorem parse_relPattern {n : Str} (hn : Ident n) : parsePattern (PatternText.relPattern n) =
    some (.seq (.rep .star (.cat .space)) (relPat 0 (n ++ c!"_rel"))) := by
  rw [parsePattern, RState.init, read_relPattern hn _ _ _ _ _ _ _ (by simp)]
  rfl

/-- The tree of the whole pattern. -/
def nodesRelsPat : Pat :=
  Pat.seqL [.rep .star (.cat .space), .rep .opt (nodePat 0 c!"left_node"), .rep .star (.cat .space), .rep .opt (relPat 4 c!"left_middle_rel"),
    .rep .star (.cat .space), .rep .opt (nodePat 8 c!"middle_node"), .rep .star (.cat .space), .rep .opt (relPat 12 c!"middle_right_rel"),
    .rep .star (.cat .space), .rep .opt (nodePat 16 c!"right_node")]

theorem parse_nodesRels : parsePattern PatternText.nodesRels = some nodesRelsPat := by decide +kernel

section
variable [PyRuntime]
open Re

theorem one_param (ci : Bool) : (Pat.set paramItems).one ci = some isParamChar := by
  have h : paramItems.all SetItem.caseless = true := by decide
  simp only [Pat.one, h, Bool.not_true, Bool.and_false, Bool.false_eq_true, if_false]
  congr 1
  funext c
  simp [paramItems, SetItem.has, Cat.has, isParamChar, Bool.or_assoc]

theorem toRe_node (ci : Bool) (i : Nat) (n : Str) : (nodePat (4 * i) n).toRe ci = some (nodeGrp i) := by
  cases ci <;> (simp only [nodePat, Pat.seqL, Pat.toRe, one_param]; rfl)

theorem toRe_rel (ci : Bool) (i : Nat) (n : Str) : (relPat (4 * i) n).toRe ci = some (relGrp i) := by
  cases ci <;> (simp only [relPat, Pat.seqL, Pat.toRe, one_param]; rfl)

omit [PyRuntime] in
theorem run_assoc (a b c : Re) : (Re.seq (.seq a b) c).run = (Re.seq a (.seq b c)).run := by
  funext s
  simp [Re.run, List.flatMap_assoc, List.flatMap_map, List.map_flatMap, Function.comp_def, List.append_assoc]

omit [PyRuntime] in
theorem run_seq_congr {a b b' : Re} (h : b.run = b'.run) : (Re.seq a b).run = (Re.seq a b').run := by
  funext s; simp [Re.run, h]

theorem toRe_nodesRels (ci : Bool) : nodesRelsPat.toRe ci = some (seqs [.star isSpace, .opt (nodeGrp 0), .star isSpace, .opt (relGrp 1),
    .star isSpace, .opt (nodeGrp 2), .star isSpace, .opt (relGrp 3), .star isSpace, .opt (nodeGrp 4)]) := by
  have h0 := toRe_node ci 0 c!"left_node"
  have h1 := toRe_rel ci 1 c!"left_middle_rel"
  have h2 := toRe_node ci 2 c!"middle_node"
  have h3 := toRe_rel ci 3 c!"middle_right_rel"
  have h4 := toRe_node ci 4 c!"right_node"
  simp only [Nat.mul_zero, Nat.mul_one, Nat.reduceMul] at h0 h1 h2 h3 h4
  simp only [nodesRelsPat, Pat.seqL, Pat.toRe, h0, h1, h2, h3, h4]
  rfl

theorem run_nodesRels : (seqs [.star isSpace, .opt (nodeGrp 0), .star isSpace, .opt (relGrp 1),
    .star isSpace, .opt (nodeGrp 2), .star isSpace, .opt (relGrp 3), .star isSpace, .opt (nodeGrp 4)]).run = nodesRelsPattern.run := by
  simp only [nodesRelsPattern, part, seqs]
  symm
  rw [run_assoc]
  refine run_seq_congr (run_seq_congr ?_)
  rw [run_assoc]
  refine run_seq_congr (run_seq_congr ?_)
  rw [run_assoc]
  refine run_seq_congr (run_seq_congr ?_)
  rw [run_assoc]

omit [PyRuntime] in
/-- What is found depends only on the ways to match. -/
theorem same_finditer {a b : Re} (h : a.run = b.run) : a.finditer = b.finditer := by
  funext s
  have hm : a.matchAt = b.matchAt := by funext s; simp [matchAt, h]
  have hn : a.matchNonempty = b.matchNonempty := by funext s; simp [matchNonempty, h]
  have : ∀ n s, finditerFuel a n s = finditerFuel b n s := by
    intro n
    induction n with
    | zero => intro s; rfl
    | succ n ih =>
      intro s
      have e : finditerFuel a n = finditerFuel b n := funext ih
      simp only [finditerFuel, hm, hn, e]
  exact this _ s

end

theorem groups_seqL : ∀ (ps : List Pat), (Pat.seqL ps).groups = ps.flatMap Pat.groups
  | [] => rfl
  | [a] => by simp [Pat.seqL]
  | a :: b :: ps => by rw [Pat.seqL, Pat.groups, groups_seqL (b :: ps)]; · simp
                       · simp

theorem groups_altL : ∀ (ps : List Pat), (Pat.altL ps).groups = ps.flatMap Pat.groups
  | [] => rfl
  | [a] => by simp [Pat.altL]
  | a :: b :: ps => by rw [Pat.altL, Pat.groups, groups_altL (b :: ps)]; · simp
                       · simp

/-- The groups of an open parenthesis. -/
def Frame.body (f : Frame) : List (Nat × Str) := f.alts.reverse.flatMap Pat.groups ++ f.atoms.reverse.flatMap Pat.groups

theorem content_groups (f : Frame) : f.content.groups = f.body := by
  rw [Frame.content, groups_altL, Frame.body]; simp [groups_seqL]

/-- The groups of all open parentheses, the innermost first in the argument. -/
def openGroups : List Frame → List (Nat × Str)
  | [] => []
  | [f] => f.body
  | f :: fs => openGroups fs ++ (f.num, f.name) :: f.body

/-- Groups are numbered in the order of their parentheses, and no name comes twice. -/
def RState.Sound (st : RState) : Prop :=
  (openGroups (st.top :: st.below)).map Prod.fst = List.range st.next ∧
    ((openGroups (st.top :: st.below)).map Prod.snd).filter (fun n => !n.isEmpty) = st.names.reverse ∧ st.names.Nodup

theorem openGroups_cons (f g : Frame) (fs : List Frame) : openGroups (f :: g :: fs) = openGroups (g :: fs) ++ (f.num, f.name) :: f.body := rfl

theorem openGroups_body (f f' : Frame) (fs : List Frame) (x : List (Nat × Str)) (h : f'.body = f.body ++ x) (hn : f'.num = f.num)
    (hm : f'.name = f.name) : openGroups (f' :: fs) = openGroups (f :: fs) ++ x := by
  cases fs with
  | nil => exact h
  | cons g fs => simp [openGroups_cons, h, hn, hm]

theorem sound_of_groups {st st' : RState} (h : st.Sound) (e : openGroups (st'.top :: st'.below) = openGroups (st.top :: st.below))
    (hn : st'.next = st.next) (hm : st'.names = st.names) : st'.Sound := by
  unfold RState.Sound; rw [e, hn, hm]; exact h

theorem sound_push {st : RState} (h : st.Sound) {p : Pat} (hp : p.groups = []) : (st.push p).Sound := by
  refine sound_of_groups h ?_ rfl rfl
  have := openGroups_body st.top (st.push p).top st.below [] (by simp [Frame.body, RState.push, hp]) rfl rfl
  rw [List.append_nil] at this
  exact this

theorem sound_enter {st : RState} (h : st.Sound) {n : Str} (hn : n ∉ st.names) : (st.enter n).Sound := by
  obtain ⟨h1, h2, h3⟩ := h
  have e : openGroups ((st.enter n).top :: (st.enter n).below) = openGroups (st.top :: st.below) ++ [(st.next, n)] := by
    simp [RState.enter, openGroups_cons, Frame.body]
  refine ⟨?_, ?_, ?_⟩
  · rw [e, List.map_append, h1]; simp [RState.enter, List.range_succ]
  · rw [e, List.map_append, List.filter_append, h2]
    by_cases hh : n.isEmpty <;> simp [RState.enter, hh]
  · by_cases hh : n.isEmpty <;> simp [RState.enter, hh, h3, hn]

theorem sound_mode {st : RState} (h : st.Sound) (m : RMode) : RState.Sound { st with mode := m } := h

theorem sound_quant {st st' : RState} (h : st.Sound) {q : Quant} (e : st.quant q = some st') : st'.Sound := by
  unfold RState.quant at e
  split at e
  · cases e
  · rename_i a as ha
    split at e
    · cases e
    · cases e
      refine sound_of_groups h ?_ rfl rfl
      have := openGroups_body st.top { st.top with atoms := .rep q a :: as } st.below [] (by simp [Frame.body, ha, Pat.groups]) rfl rfl
      simpa using this

theorem sound_plain {st st' : RState} (h : st.Sound) {c : Char} (e : st.plain c = some st') : st'.Sound := by
  unfold RState.plain at e
  split at e; · cases e; exact h
  split at e; · cases e; exact h
  split at e; · cases e; exact h
  split at e; · cases e; exact h
  split at e
  · split at e
    · cases e
    · rename_i f fs hb
      cases e
      refine sound_of_groups h ?_ rfl rfl
      have := openGroups_body f { f with atoms := .group st.top.num st.top.name st.top.content :: f.atoms } fs
        ((st.top.num, st.top.name) :: st.top.body) (by simp [Frame.body, Pat.groups, content_groups]) rfl rfl
      simp only [this, hb, openGroups_cons]
  split at e
  · cases e
    refine sound_of_groups h ?_ rfl rfl
    have := openGroups_body st.top { st.top with alts := Pat.seqL st.top.atoms.reverse :: st.top.alts, atoms := [] } st.below []
      (by simp [Frame.body, groups_seqL]) rfl rfl
    simpa using this
  split at e; · exact sound_quant h e
  split at e; · exact sound_quant h e
  split at e; · exact sound_quant h e
  split at e; · cases e; exact sound_push h rfl
  split at e; · cases e
  cases e; exact sound_push h rfl

theorem sound_step {st st' : RState} (h : st.Sound) (h0 : [] ∉ st.names) {c : Char} (e : st.step c = some st') : st'.Sound := by
  unfold RState.step at e
  split at e
  · exact sound_plain h e
  · split at e
    · cases e; exact sound_push h rfl
    · split at e
      · cases e
      · cases e; exact sound_push h rfl
  · split at e
    · cases e; exact h
    · exact sound_plain (sound_enter h h0) e
  · split at e
    · cases e; exact h
    · cases e
  · split at e
    · cases e; exact h
    · cases e
  · split at e
    · split at e
      · cases e
      · rename_i hn
        cases e
        refine sound_enter h ?_
        simp at hn
        exact hn.2
    · split at e
      · cases e; exact h
      · cases e
  · split at e
    · cases e
    · split at e
      · cases e; exact h
      · cases e; exact h
  · split at e
    · cases e; exact sound_push h rfl
    · split at e
      · cases e; exact h
      · split at e
        · split at e
          · cases e; exact h
          · cases e
        · cases e; exact h
  · split at e
    · cases e; exact h
    · split at e
      · cases e
      · cases e; exact h
  · split at e
    · cases e
    · cases e; exact h
  · split at e
    · cases e
    · exact sound_plain (sound_push h rfl) e

theorem sound_noEmpty {st : RState} (h : st.Sound) : [] ∉ st.names := by
  intro hm
  have : [] ∈ st.names.reverse := List.mem_reverse.2 hm
  rw [← h.2.1] at this
  simp at this

theorem sound_read {s : Str} {st st' : RState} (h : st.Sound) (e : st.readFrom s = some st') : st'.Sound := by
  induction s generalizing st with
  | nil => cases e; exact h
  | cons c s ih =>
    simp only [RState.readFrom] at e
    cases hs : st.step c with
    | none => rw [hs] at e; cases e
    | some st1 => rw [hs] at e; exact ih (sound_step h (sound_noEmpty h) hs) e

theorem parse_groups {s : Str} {p : Pat} (h : parsePattern s = some p) : p.groups.map Prod.fst = List.range p.groups.length ∧
    ((p.groups.map Prod.snd).filter (fun n => !n.isEmpty)).Nodup := by
  have key : ∀ st : RState, st.Sound → st.below = [] → st.top.content.groups.map Prod.fst = List.range st.top.content.groups.length ∧
      ((st.top.content.groups.map Prod.snd).filter (fun n => !n.isEmpty)).Nodup := by
    intro st hs hb
    obtain ⟨h1, h2, h3⟩ := hs
    rw [hb] at h1 h2
    rw [content_groups]
    simp only [openGroups] at h1 h2
    have hl := congrArg List.length h1
    simp at hl
    refine ⟨by rw [h1, hl], ?_⟩
    rw [h2]; 
    exact List.pairwise_reverse.2 (h3.imp fun h => Ne.symm h)
  unfold parsePattern at h
  cases hr : RState.init.readFrom s with
  | none => rw [hr] at h; cases h
  | some st =>
    rw [hr, Option.bind_some] at h
    have hs : st.Sound := sound_read (st := RState.init) (by refine ⟨rfl, rfl, ?_⟩; exact List.nodup_nil) hr
    unfold RState.finish at h
    split at h
    · rename_i hm hb; cases h; exact key st hs hb
    · rename_i hm hb; cases h; exact key (st.push (.lit '{')) (sound_push hs rfl) hb
    · cases h

section
variable [PyRuntime]
open Re

theorem toRe_perms {w : Str} (hw : Letters w) : (Pat.altL ((perms w.length w).map Pat.wordP)).toRe true =
    some (alts ((perms w.length (PatternText.lowerA w)).map wordCI)) := by
  refine toRe_altL (by simpa using perms_ne_nil w) ?_
  rw [PatternText.lowerA, perms_map]
  simp only [List.map_map]
  exact List.map_congr_left fun v hv => toRe_wordCI (perms_letters hw _ v hv)

/-- The tree of ALL_PROPERTIES_KEY_VALUE_REGEX. -/
def propKVPat : Pat :=
  Pat.seqL [.group 0 c!"property_name" (.rep .plus (.cat .word)), .rep .star (.cat .space), .lit ':', .rep .star (.cat .space),
    .group 1 c!"property_value" (Pat.altL [
      .group 2 c!"none_type" (Pat.wordP c!"null"),
      .group 3 c!"bool_type" (.alt (Pat.wordP c!"true") (Pat.wordP c!"false")),
      .group 4 c!"float_type" (Pat.seqL [.rep .plus (.cat .digit), .lit '.', .rep .plus (.cat .digit)]),
      .group 5 c!"int_type" (.rep .plus (.set [.range '0' '9'])),
      .group 6 c!"list_type" (Pat.seqL [.lit '[', .rep .plus (.set [.cat .word, .one ',', .cat .space, .one '\'', .one '"', .one '.', .one '@', .one '+']),
        .lit ']']),
      .group 7 c!"string_type" (.rep .plus (.set [.cat .word, .one '+', .one '\'', .one '"', .one '@', .one '.', .cat .space]))])]

omit [PyRuntime] in
theorem parse_propKV : parsePattern PatternText.propKV = some propKVPat := by decide +kernel

theorem one_set {items : List SetItem} {f : Char → Bool} (hc : items.all SetItem.caseless = true)
    (h : ∀ c, items.any (SetItem.has · c) = f c) (ci : Bool) : (Pat.set items).one ci = some f := by
  simp only [Pat.one, hc, Bool.not_true, Bool.and_false, Bool.false_eq_true, if_false]
  exact congrArg some (funext h)

theorem toRe_propKV : propKVPat.toRe true = some propKV := by
  have h1 := one_set (items := [.range '0' '9']) (f := isDig) (by decide) (by intro c; simp [SetItem.has, isDig]) true
  have h2 := one_set (items := [.cat .word, .one ',', .cat .space, .one '\'', .one '"', .one '.', .one '@', .one '+']) (f := isListChar)
    (by decide) (by intro c; simp [SetItem.has, Cat.has, isListChar, Bool.or_assoc]) true
  have h3 := one_set (items := [.cat .word, .one '+', .one '\'', .one '"', .one '@', .one '.', .cat .space]) (f := isStrChar)
    (by decide) (by intro c; simp [SetItem.has, Cat.has, isStrChar, Bool.or_assoc]) true
  simp only [propKVPat, Pat.seqL, Pat.altL, Pat.toRe, h1, h2, h3]
  rfl

/-- The tree of CHECK_PROPERTIES_SYNTAX_REGEX. -/
def checkPropsPat : Pat :=
  .group 0 c!"all_props" (Pat.seqL [.lit '{', .rep .plus (.set [.cat .word, .one ':', .cat .space, .one ',', .one '\'', .one '"', .one '.',
    .one '[', .one ']', .one '@']), .lit '}'])

omit [PyRuntime] in
theorem parse_checkProps : parsePattern PatternText.checkProps = some checkPropsPat := by decide +kernel

theorem toRe_checkProps : checkPropsPat.toRe true = some checkProps := by
  have h := one_set (items := [.cat .word, .one ':', .cat .space, .one ',', .one '\'', .one '"', .one '.', .one '[', .one ']', .one '@'])
    (f := isCheckChar) (by decide) (by intro c; simp [SetItem.has, Cat.has, isCheckChar, Bool.or_assoc]) true
  simp only [checkPropsPat, Pat.seqL, Pat.toRe, h]
  rfl

/-- The tree of PROPERTIES_LIST_VALUE_REGEX. -/
def listValuePat : Pat :=
  .group 0 c!"list_value" (Pat.seqL [.lit '[', .rep .plus (.set [.cat .word, .one ',', .cat .space, .one '\'', .one '"', .one '.', .one '@']),
    .lit ']'])

omit [PyRuntime] in
theorem parse_listValue : parsePattern PatternText.listValue = some listValuePat := by decide +kernel

theorem toRe_listValue : listValuePat.toRe true = some listValue := by
  have h := one_set (items := [.cat .word, .one ',', .cat .space, .one '\'', .one '"', .one '.', .one '@'])
    (f := isListValChar) (by decide) (by intro c; simp [SetItem.has, Cat.has, isListValChar, Bool.or_assoc]) true
  simp only [listValuePat, Pat.seqL, Pat.toRe, h]
  rfl

/-- The tree of RELATIONSHIP_DIR_CHECK_REGEX. -/
def relDirCheckPat : Pat :=
  .group 0 c!"foo" (Pat.seqL [.rep .opt (.lit '<'), .rep .plus (.lit '-'), .lit '[', .rep .star (.cat .space), .rep .star (.cat .word),
    .rep .star (.cat .space), .rep .opt (.lit ':'), .rep .star (.cat .space), .group 1 c!"rel_name" (.rep .star (.cat .word)),
    .rep .star (.cat .space), .rep .plus (.set paramItems), .rep .plus (.lit '-'), .rep .opt (.lit '>')])

omit [PyRuntime] in
theorem parse_relDirCheck : parsePattern PatternText.relDirCheck = some relDirCheckPat := by decide +kernel

theorem toRe_relDirCheck : relDirCheckPat.toRe true = some relDirCheck := by
  simp only [relDirCheckPat, Pat.seqL, Pat.toRe, one_param]
  rfl

omit [PyRuntime] in
theorem parse_illegal : parsePattern PatternText.illegal = some (.set [.one '#', .one '%', .one '&', .one '*', .one '$']) := by decide +kernel

theorem toRe_illegal : (Pat.set [.one '#', .one '%', .one '&', .one '*', .one '$']).toRe true = some illegalRe := by
  rw [Pat.toRe, one_set (f := isIllegal) (by decide) (by intro c; simp [SetItem.has, isIllegal, Bool.or_assoc])]
  rfl

omit [PyRuntime] in
theorem parse_angles : parsePattern PatternText.angles = some (.rep .plus (.set [.one '<', .one '>'])) := by decide +kernel

theorem toRe_angles : (Pat.rep .plus (.set [.one '<', .one '>'])).toRe false = some (plus isAngle) := by
  rw [Pat.toRe, one_set (f := isAngle) (by decide) (by intro c; simp [SetItem.has, isAngle])]
  rfl

end

end WG
