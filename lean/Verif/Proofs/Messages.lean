/-
Helper lemmas for the messages of refused queries.
-/
import Verif.Spec.Messages
import Verif.Proofs.Checks
import Verif.Props.Exact

set_option linter.unusedSectionVars false
set_option linter.unusedSimpArgs false

namespace WG
open Re
variable [PyRuntime]

/-! ### The same exceptions -/

/-- Without the message. -/
def noText {α : Type} (x : Except Raised α) : Except PyErr α := x.mapError Raised.kind

@[simp] theorem noText_ok {α : Type} (a : α) : noText (.ok a) = .ok a := rfl
@[simp] theorem noText_err {α : Type} (r : Raised) : noText (.error r : Except Raised α) = .error r.kind := rfl

theorem noText_forEach {α : Type} {f : α → Except Raised Unit} {g : α → Except PyErr Unit} (h : ∀ x, noText (f x) = g x) (l : List α) :
    noText (forEachR f l) = forEach g l := by
  induction l with
  | nil => rfl
  | cons x l ih =>
    rw [forEachR, forEach, ← h x]
    cases f x with
    | error e => rfl
    | ok _ => exact ih

theorem noText_spelling (q : Str) (c : Clause) : noText (checkClauseSpellingR q c) = checkClauseSpelling q c := by
  have h : ∀ c n (l : List (Str × Caps)), noText (misspelt c n l) = if l.isEmpty then .ok () else .error .clauseSyntax := by
    intro c n l
    cases l <;> rfl
  cases c <;> simp only [checkClauseSpellingR, checkClauseSpelling, h]
  rfl

theorem noText_params (s : Str) : noText (checkParamsR s) = checkParams s := by
  unfold checkParamsR checkParams
  have h1 : ∀ s, noText (checkPropertySyntaxR s) = checkPropertySyntax s := by
    intro s
    unfold checkPropertySyntaxR checkPropertySyntax
    split <;> rfl
  have h2 : ∀ l s, noText (checkListR l s) = checkList s := by
    intro l s
    unfold checkListR checkList
    split <;> simp_all [Raised.lib]
  rw [← h1]
  cases checkPropertySyntaxR (listValue.erase (pyKeywords s)) with
  | error e => rfl
  | ok _ => exact noText_forEach (h2 _) _

theorem noText_rel (c : Caps) : noText (checkRelR c) = checkRel c := by
  unfold checkRelR checkRel
  simp only
  split
  · rfl
  · split
    · rfl
    · split <;> rfl

theorem noText_rels (l : List Str) : noText (checkRelationshipsR l) = checkRelationships l := by
  induction l with
  | nil => rfl
  | cons s l ih =>
    rw [checkRelationshipsR, checkRelationships]
    cases relDirCheck.finditer s with
    | nil => rfl
    | cons m ms =>
      simp only
      rw [← noText_forEach (f := fun m : Str × Caps => checkRelR m.2) (fun m => noText_rel m.2)]
      cases forEachR (fun m : Str × Caps => checkRelR m.2) (m :: ms) with
      | error e => rfl
      | ok _ => exact ih

theorem noText_validate (l : List Str) : noText (validateStatementR l) = validateStatement l := by
  have h1 : noText (checkStatementSyntaxR l) = checkStatementSyntax l :=
    noText_forEach (fun s => noText_forEach (fun p => by unfold checkPieceR checkPiece; (repeat' split) <;> rfl) _) _
  have h2 : noText (checkIllegalCharactersR l) = checkIllegalCharacters l :=
    noText_forEach (fun s => by cases illegalRe.search s <;> rfl) _
  have h3 : noText (checkNodeRelPropertiesR l) = checkNodeRelProperties l :=
    noText_forEach (fun s => noText_forEach noText_params _) _
  unfold validateStatementR validateStatement
  rw [← h1, ← h2, ← h3]
  cases checkStatementSyntaxR l with
  | error e => rfl
  | ok _ =>
    cases checkIllegalCharactersR l with
    | error e => rfl
    | ok _ =>
      cases checkNodeRelPropertiesR l with
      | error e => rfl
      | ok _ => exact noText_rels l

theorem noText_extract (q : Str) (c : Clause) : noText (extractAllStatementsR q c) = extractAllStatements q c := by
  unfold extractAllStatementsR extractAllStatements
  have h := noText_spelling q c
  cases c
  case criteria => rfl
  all_goals
    simp only
    rw [← h]
    split
    · next e => simp only [e, noText_ok]
    · next e =>
      simp only [e]
      cases checkClauseSpellingR q _ <;> rfl

theorem noText_pattern (p : ParsedPattern) : noText p.validateR = p.validate := by
  unfold ParsedPattern.validateR ParsedPattern.validate
  split <;> rfl

theorem noText_patterns (l : List ParsedPattern) : noText (validatePatternsR l) = validatePatterns l := by
  induction l with
  | nil => rfl
  | cons p l ih =>
    rw [validatePatternsR, validatePatterns, ← noText_pattern, ← ih]
    cases p.validateR with
    | error e => rfl
    | ok _ => cases validatePatternsR l <;> rfl

theorem noText_makes (l : List Str) : noText (buildParsedMakesR l) = buildParsedMakes l := by
  have h : ∀ s, noText (buildParsedMakeR s) = buildParsedMake s := by
    intro s
    unfold buildParsedMakeR buildParsedMake
    rw [← noText_patterns]
    cases validatePatternsR (statementPatterns s) with
    | error e => rfl
    | ok _ => simp only [noText_ok]; split <;> rfl
  induction l with
  | nil => rfl
  | cons s l ih =>
    rw [buildParsedMakesR, buildParsedMakes, ← h, ← ih]
    cases buildParsedMakeR s with
    | error e => rfl
    | ok _ => cases buildParsedMakesR l <;> rfl

theorem noText_parseMake (q : Str) : noText (parseMakeR q) = parseMake q := by
  unfold parseMakeR parseMake
  rw [← noText_extract]
  cases extractAllStatementsR q .make with
  | error e => rfl
  | ok o =>
    cases o with
    | none => rfl
    | some l =>
      simp only [noText_ok]
      rw [← noText_validate, ← noText_makes]
      cases validateStatementR l with
      | error e => rfl
      | ok _ => cases buildParsedMakesR l <;> rfl

theorem noText_parseFind (q : Str) : noText (parseFindR q) = parseFind q := by
  have h : ∀ s, noText (buildParsedFindR s) = buildParsedFind s := by
    intro s
    unfold buildParsedFindR buildParsedFind
    cases statementPatterns s with
    | nil => rfl
    | cons p l =>
      simp only
      rw [← noText_pattern]
      cases p.validateR with
      | error e => rfl
      | ok _ => simp only [noText_ok]; split <;> rfl
  unfold parseFindR parseFind
  rw [← noText_extract]
  cases extractAllStatementsR q .find with
  | error e => rfl
  | ok o =>
    cases o with
    | none => rfl
    | some l =>
      cases l with
      | nil => rfl
      | cons s ss =>
        simp only [noText_ok]
        rw [← noText_validate, ← h]
        split
        · rfl
        · cases validateStatementR [s] with
          | error e => rfl
          | ok _ => cases buildParsedFindR s <;> rfl

theorem noText_parseReport (q : Str) (hs : List Str) : noText (parseReportR q hs) = parseReport q hs := by
  have h : ∀ s, noText (checkFindReportHandlesR hs s) = checkFindReportHandles hs s := by
    intro s
    unfold checkFindReportHandlesR checkFindReportHandles
    cases hf : hs.filter (fun h => !isSubstr h s) with
    | nil =>
      rw [List.filter_eq_nil_iff] at hf
      rw [if_pos (List.all_eq_true.2 fun x hx => by simpa using hf x hx)]
      rfl
    | cons x l =>
      have hx : x ∈ hs.filter (fun h => !isSubstr h s) := by simp [hf]
      rw [List.mem_filter] at hx
      rw [if_neg fun ha => by have := List.all_eq_true.1 ha x hx.1; simp [this] at hx]
      rfl
  unfold parseReportR parseReport
  rw [← noText_extract]
  cases extractAllStatementsR q .report with
  | error e => rfl
  | ok o =>
    cases o with
    | none => rfl
    | some l =>
      cases l with
      | nil => rfl
      | cons s ss =>
        simp only [noText_ok]
        rw [← h]
        split
        · rfl
        · cases checkFindReportHandlesR hs s with
          | error e => rfl
          | ok _ => simp only [noText_ok]; split <;> rfl

theorem noText_parse (q : Str) : noText (parseQueryStringR q) = parseQueryString q := by
  unfold parseQueryStringR parseQueryString
  rw [← noText_parseMake, ← noText_parseFind]
  cases parseMakeR q with
  | error e => rfl
  | ok mk =>
    cases parseFindR q with
    | error e => rfl
    | ok o =>
      cases o with
      | none => rfl
      | some f =>
        simp only [noText_ok]
        rw [← noText_parseReport]
        cases parseReportR q f.pattern.patternHandles <;> rfl

/-! ### What the messages say -/

/-- An exception of Python or pydantic. -/
def Raised.Foreign (r : Raised) : Prop := r.text = none ∧ r.kind ∈ [PyErr.value, .other, .validation, .index, .attribute]

/-- Only exceptions that are explained. -/
def Told {α : Type} (q : Str) (x : Except Raised α) : Prop := ∀ r, x = .error r → r.Foreign ∨ Explains q r

theorem told_ok {α : Type} {q : Str} (a : α) : Told q (.ok a) := fun _ h => by simp at h

theorem told_err {α : Type} {q : Str} {r : Raised} (h : r.Foreign ∨ Explains q r) : Told q (.error r : Except Raised α) := by
  intro r' h'
  simp only [Except.error.injEq] at h'
  exact h' ▸ h

theorem told_of {α β : Type} {q : Str} {x : Except Raised α} {r : Raised} (h : Told q x) (e : x = .error r) : Told q (.error r : Except Raised β) :=
  told_err (h r e)

theorem told_forEach {α : Type} {q : Str} {f : α → Except Raised Unit} {l : List α} (h : ∀ x ∈ l, Told q (f x)) : Told q (forEachR f l) := by
  induction l with
  | nil => exact told_ok _
  | cons x l ih =>
    rw [forEachR]
    cases hf : f x with
    | error e => exact told_of (h x (by simp)) hf
    | ok _ => exact ih fun y hy => h y (List.mem_cons_of_mem _ hy)

theorem finditer_infix {r : Re} {s : Str} {x : Str × Caps} (h : x ∈ r.finditer s) : x.1 <:+: s := by
  obtain ⟨a, b, e, -⟩ := finditer_sound h
  exact ⟨a, b, e.symm⟩

theorem cap_infix {r : Re} {s : Str} {x : Str × Caps} (h : x ∈ r.finditer s) (n : Nat) : (capGet n x.2).getD [] <:+: s := by
  cases hc : capGet n x.2 with
  | none => exact List.nil_infix
  | some t =>
    obtain ⟨a, b, e, hm⟩ := finditer_sound h
    exact (caps_infix hm (capGet_mem hc)).trans ⟨a, b, e.symm⟩

theorem finditer_two {r : Re} (hne : ∀ s, ∀ m ∈ r.run s, m.1 ≠ []) {s : Str} {x y : Str × Caps} {l : List (Str × Caps)}
    (h : r.finditer s = x :: y :: l) : ∃ a b c, s = a ++ (x.1 ++ (b ++ (y.1 ++ c))) := by
  suffices ∀ n (s : Str), s.length < n → r.finditer s = x :: y :: l → ∃ a b c, s = a ++ (x.1 ++ (b ++ (y.1 ++ c))) from
    this (s.length + 1) s (by omega) h
  clear h s
  intro n
  induction n with
  | zero => intro s hs; omega
  | succ n ih =>
    intro s hs h
    rw [finditer_step] at h
    unfold findStep at h
    cases hm : r.matchAt s with
    | none =>
      rw [hm] at h
      cases s with
      | nil => simp [Re.next] at h
      | cons c cs =>
        simp only [Re.next] at h
        obtain ⟨a, b, d, e⟩ := ih cs (by simp at hs; omega) h
        exact ⟨c :: a, b, d, by simp [e]⟩
    | some m =>
      have hmem := mem_of_head? hm
      rw [hm] at h
      have : m.1.isEmpty = false := by simpa using hne s m hmem
      simp only [this, Bool.false_eq_true, if_false, List.cons.injEq] at h
      obtain ⟨rfl, h⟩ := h
      have hy : y ∈ r.finditer m.2.1 := by rw [h]; simp
      obtain ⟨b, c, e, -⟩ := finditer_sound hy
      refine ⟨[], b, c, ?_⟩
      have := run_append hmem
      rw [← this, e]
      simp

theorem splitAux_piece {p : Char → Bool} {b : Bool} {s : Str} :
    (b = false → ∀ x, (splitClassAux p b s).head? = some x → x <+: s ∧ ∀ c ∈ x, p c = false) ∧
    ∀ x ∈ splitClassAux p b s, x <:+: s ∧ ∀ c ∈ x, p c = false := by
  induction s generalizing b with
  | nil => simp [splitClassAux]
  | cons c cs ih =>
    rw [splitClassAux]
    have up : ∀ b x, x ∈ splitClassAux p b cs → x <:+: c :: cs ∧ ∀ c ∈ x, p c = false := fun b x hx =>
      ⟨((ih (b := b)).2 x hx).1.trans (List.suffix_cons c cs).isInfix, ((ih (b := b)).2 x hx).2⟩
    split
    · split
      · next hb => exact ⟨fun h => by simp [h] at hb, up _⟩
      · refine ⟨fun _ x hx => ?_, fun x hx => ?_⟩
        · simp at hx; subst hx; simp
        · rcases List.mem_cons.1 hx with rfl | hx
          · simp
          · exact up _ _ hx
    · next hp =>
      have hp : p c = false := by simpa using hp
      split
      · next e => exact absurd e (splitAux_ne_nil p false cs)
      · next w ws e =>
        have hw := (ih (b := false)).1 rfl w (by rw [e]; rfl)
        have hh : (c :: w) <+: c :: cs ∧ ∀ d ∈ c :: w, p d = false :=
          ⟨List.cons_prefix_cons.2 ⟨rfl, hw.1⟩, fun d hd => by rcases List.mem_cons.1 hd with h | hd; exact h ▸ hp; exact hw.2 d hd⟩
        refine ⟨fun _ x hx => ?_, fun x hx => ?_⟩
        · simp at hx; subst hx; exact hh
        · rcases List.mem_cons.1 hx with rfl | hx
          · exact ⟨hh.1.isInfix, hh.2⟩
          · exact up false x (by rw [e]; exact List.mem_cons_of_mem _ hx)

theorem countP_two {a b : Char} (h : a ≠ b) (s : Str) : s.countP (fun c => c == a || c == b) = s.count a + s.count b := by
  induction s with
  | nil => rfl
  | cons c cs ih =>
    rw [List.countP_cons, List.count_cons, List.count_cons, ih]
    by_cases h1 : c = a
    · subst h1
      simp [h]
      omega
    · by_cases h2 : c = b
      · subst h2
        simp [h1]
        omega
      · simp [h1, h2]

theorem told_piece {q x : Str} (hq : x <:+: q) (hx : ∀ c ∈ x, isAngle c = false) : Told q (checkPieceR x) := by
  have hx : ∀ c ∈ x, c ≠ '<' ∧ c ≠ '>' := fun c hc => by simpa [isAngle] using hx c hc
  unfold checkPieceR
  rw [countP_two (by decide), countP_two (by decide), countP_two (by decide)]
  split
  · next h => exact told_err (.inr (.parentheses x hq hx h ⟨rfl, rfl⟩))
  · split
    · next h => exact told_err (.inr (.braces x hq hx h ⟨rfl, rfl⟩))
    · split
      · next h => exact told_err (.inr (.brackets x hq hx h ⟨rfl, rfl⟩))
      · exact told_ok _

theorem told_params {q x : Str} (hq : '{' :: (x ++ c!"}") <:+: q) : Told q (checkParamsR ('{' :: (x ++ c!"}"))) := by
  unfold checkParamsR
  cases hp : checkPropertySyntaxR (listValue.erase (pyKeywords ('{' :: (x ++ c!"}")))) with
  | error e =>
    refine told_of (x := checkPropertySyntaxR (listValue.erase (pyKeywords ('{' :: (x ++ c!"}"))))) ?_ hp
    unfold checkPropertySyntaxR
    split
    · next h => exact told_err (.inr (.colons x _ hq h rfl ⟨rfl, rfl⟩))
    · exact told_ok _
  | ok _ =>
    refine told_forEach fun y hy => ?_
    unfold checkListR
    split
    · exact told_ok _
    · next he =>
      refine told_err (.inr (.list x y _ hq (fun z hz => ?_) hy he ⟨rfl, rfl⟩))
      obtain ⟨m, hm, rfl⟩ := List.mem_map.1 hz
      exact finditer_infix hm
    · exact told_err (.inl ⟨rfl, by simp [Raised.lib]⟩)
    · exact told_err (.inl ⟨rfl, by simp [Raised.lib]⟩)

theorem told_rel {q s : Str} (hs : s <:+: q) {m : Str × Caps} (hm : m ∈ relDirCheck.finditer s) : Told q (checkRelR m.2) := by
  have h0 := (cap_infix hm 0).trans hs
  have h1 := (cap_infix hm 1).trans hs
  unfold checkRelR
  simp only
  split
  · next h => exact told_err (.inr (.twoHeads _ h0 h ⟨rfl, rfl⟩))
  · split
    · next h => exact told_err (.inr (.noHead _ h0 h ⟨rfl, rfl⟩))
    · split
      · next h => exact told_err (.inr (.name _ h1 (by simpa using h.1) h.2 ⟨rfl, rfl⟩))
      · exact told_ok _

theorem told_rels {q : Str} {l : List Str} (h : ∀ s ∈ l, s <:+: q) : Told q (checkRelationshipsR l) := by
  induction l with
  | nil => exact told_ok _
  | cons s l ih =>
    rw [checkRelationshipsR]
    split
    · exact told_ok _
    · next m ms e =>
      have : Told q (forEachR (fun m : Str × Caps => checkRelR m.2) (m :: ms)) :=
        told_forEach fun x hx => told_rel (h s (by simp)) (by rw [e]; exact hx)
      split
      · next e => exact told_of this e
      · exact ih fun s hs => h s (List.mem_cons_of_mem _ hs)

theorem search_mem {p : Char → Bool} {s : Str} {m : MRes} (h : Re.search (.cls p) s = some m) : ∃ c ∈ s, p c = true ∧ m.1 = [c] := by
  induction s with
  | nil => simp [search, matchAt, run] at h
  | cons c cs ih =>
    rw [search] at h
    split at h
    · next e =>
      obtain ⟨d, ds, h1, h2, h3⟩ := mem_cls_inv (mem_of_head? e)
      simp at h1 h
      subst h h3
      exact ⟨d, by simp [h1.1], h2, rfl⟩
    · obtain ⟨d, h1, h2⟩ := ih h
      exact ⟨d, List.mem_cons_of_mem _ h1, h2⟩

theorem told_validate {q : Str} {l : List Str} (h : ∀ s ∈ l, s <:+: q) : Told q (validateStatementR l) := by
  have h1 : Told q (checkStatementSyntaxR l) := told_forEach fun s hs => told_forEach fun x hx =>
    told_piece ((splitAux_piece.2 x hx).1.trans (h s hs)) (splitAux_piece.2 x hx).2
  have h2 : Told q (checkIllegalCharactersR l) := told_forEach fun s hs => by
    split
    · next m e =>
      obtain ⟨c, h1, h2, h3⟩ := search_mem e
      rw [h3]
      exact told_err (.inr (.illegal c ((h s hs).subset h1) (by simpa [isIllegal, or_assoc] using h2) ⟨rfl, rfl⟩))
    · exact told_ok _
  have h3 : Told q (checkNodeRelPropertiesR l) := told_forEach fun s hs => told_forEach fun x hx => by
    obtain ⟨m, hm, rfl⟩ := List.mem_map.1 hx
    have hi := (finditer_infix hm).trans (h s hs)
    obtain ⟨a, b, -, hr⟩ := finditer_sound hm
    obtain ⟨m0, h0, e0⟩ := mem_grp_inv hr
    obtain ⟨m1, h1, m2, h2, rfl⟩ := mem_seq_inv h0
    obtain ⟨m3, h3, m4, h4, rfl⟩ := mem_seq_inv h2
    obtain ⟨cs, e1, rfl⟩ := mem_ch_inv h1
    obtain ⟨ds, e4, rfl⟩ := mem_ch_inv h4
    have : m.1 = '{' :: (m3.1 ++ c!"}") := by simpa using congrArg Prod.fst e0
    rw [this] at hi ⊢
    exact told_params hi
  unfold validateStatementR
  split
  · next e => exact told_of h1 e
  · split
    · next e => exact told_of h2 e
    · split
      · next e => exact told_of h3 e
      · exact told_rels h

theorem told_misspelt {q kw KW : Str} (hk : kw = c!"make" ∧ KW = c!"MAKE" ∨ kw = c!"find" ∧ KW = c!"FIND") (c : Clause) (hc : c.value = KW) :
    Told q (misspelt c 1 ((spelling kw).finditer q)) := by
  cases hf : (spelling kw).finditer q with
  | nil => exact told_ok _
  | cons m ms =>
    have hm : m ∈ (spelling kw).finditer q := by rw [hf]; simp
    obtain ⟨pre, post, hq, hr⟩ := finditer_sound hm
    obtain ⟨m1, h1, m2, h2, e⟩ := mem_seq_inv hr
    obtain ⟨m3, h3, m4, h4, rfl⟩ := mem_seq_inv h2
    obtain ⟨m5, h5, m6, h6, rfl⟩ := mem_seq_inv h4
    obtain ⟨m3, h3', rfl⟩ := mem_grp_inv h3
    obtain ⟨r, hr', h3''⟩ := alts_inv h3'
    obtain ⟨kw', hkw', rfl⟩ := List.mem_map.1 hr'
    have e1 : m1.2.2 = [] := by rcases mem_optC_inv h1 with ⟨_, _, _, _, rfl⟩ | rfl <;> rfl
    obtain ⟨cs, e6, rfl⟩ := mem_ch_inv h6
    obtain ⟨l5, a5⟩ := optC_short h5
    simp only [Prod.mk.injEq, e1] at e
    have hcap : (capGet 0 m.2).getD [] = m3.1 := by rw [e.2.2]; rfl
    refine told_err (.inr ?_)
    refine .misspelt kw KW m3.1 m5.1 (pre ++ m1.1) post hk ⟨kw', perms_perm rfl hkw', wordCI_mem h3''⟩ ?_ ⟨l5, a5⟩ ⟨rfl, ?_⟩
    · rw [hq, e.1]
      simp
    · simp only [spelt, if_pos, hcap, hc]

theorem told_misspeltReport {q : Str} : Told q (misspelt .report 2 (reportSpelling.finditer q)) := by
  cases hf : reportSpelling.finditer q with
  | nil => exact told_ok _
  | cons m ms =>
    have hm : m ∈ reportSpelling.finditer q := by rw [hf]; simp
    obtain ⟨pre, post, hq, hr⟩ := finditer_sound hm
    obtain ⟨m0, h0, e⟩ := mem_grp_inv hr
    obtain ⟨m1, h1, m2, h2, rfl⟩ := mem_seq_inv h0
    obtain ⟨m3, h3, rfl⟩ := mem_grp_inv h1
    obtain ⟨r, hr', h3'⟩ := alts_inv h3
    obtain ⟨kw', hkw', rfl⟩ := List.mem_map.1 hr'
    obtain ⟨m7, h7, m8, h8, rfl⟩ := mem_seq_inv h2
    obtain ⟨e7, hd, hne, _⟩ := mem_plus_inv h7
    obtain ⟨cs, e9, rfl⟩ := mem_ch_inv h8
    simp only [Prod.mk.injEq] at e
    have hcap : (capGet 0 m.2).getD [] = m3.1 ++ (m7.1 ++ c!";") := by rw [e.2.2]; rfl
    have hcap' : (capGet 1 m.2).getD [] = m3.1 := by rw [e.2.2]; rfl
    refine told_err (.inr ?_)
    refine .misspeltReport m3.1 m7.1 pre post ⟨kw', perms_perm rfl hkw', wordCI_mem h3'⟩ ?_ hne ⟨rfl, ?_⟩
    · rw [hq, e.1]
      simp
    · simp only [spelt, hcap, hcap']
      rfl

theorem extract_sound {q : Str} {c : Clause} {l : List Str} (h : extractAllStatementsR q c = .ok (some l)) : ∀ s ∈ l, s <:+: q := by
  have key : ∀ re : Re, ∀ s ∈ (re.finditer q).map Prod.fst, s <:+: q := by
    intro re s hs
    obtain ⟨m, hm, rfl⟩ := List.mem_map.1 hs
    exact finditer_infix hm
  unfold extractAllStatementsR at h
  split at h
  · simp at h
  · next re _ =>
    split at h
    · next s ss e =>
      simp at h
      rw [← h, ← e]
      exact key re
    · split at h <;> simp at h

theorem told_extract {q : Str} {c : Clause} (hc : c ≠ .criteria) : Told q (extractAllStatementsR q c) := by
  have h : Told q (checkClauseSpellingR q c) := by
    cases c
    · exact told_misspelt (.inr ⟨rfl, rfl⟩) _ rfl
    · exact told_misspelt (.inl ⟨rfl, rfl⟩) _ rfl
    · exact absurd rfl hc
    · exact told_misspeltReport
  unfold extractAllStatementsR
  split
  · next h => cases c <;> simp_all
  · split
    · exact told_ok _
    · split
      · next e => exact told_of h e
      · exact told_ok _

theorem names_infix {stmt q : Str} (hs : stmt <:+: q) {p : ParsedPattern} (h : p ∈ statementPatterns stmt) : ∀ x ∈ p.handleNames, x <:+: q := by
  intro x hx
  obtain ⟨t, ht, e⟩ := List.mem_filterMap.1 hx
  split at e
  · exact (pattern_infix h ht (.inr (.inl e))).trans hs
  · simp at e

theorem told_pattern {q : Str} {p : ParsedPattern} (h : ∀ x ∈ p.handleNames, x <:+: q) : Told q p.validateR := by
  unfold ParsedPattern.validateR
  split
  · exact told_ok _
  · next hd => exact told_err (.inr (.handles _ h hd ⟨rfl, rfl⟩))

theorem told_patterns {q : Str} {l : List ParsedPattern} (h : ∀ p ∈ l, ∀ x ∈ p.handleNames, x <:+: q) : Told q (validatePatternsR l) := by
  induction l with
  | nil => exact told_ok _
  | cons p l ih =>
    rw [validatePatternsR]
    split
    · next e => exact told_of (told_pattern (h p (by simp))) e
    · split
      · next e => exact told_of (ih fun p hp => h p (List.mem_cons_of_mem _ hp)) e
      · exact told_ok _

theorem told_makes {q : Str} {l : List Str} (h : ∀ s ∈ l, s <:+: q) : Told q (buildParsedMakesR l) := by
  induction l with
  | nil => exact told_ok _
  | cons s l ih =>
    have hs : Told q (buildParsedMakeR s) := by
      unfold buildParsedMakeR
      split
      · next e => exact told_of (told_patterns fun p hp => names_infix (h s (by simp)) hp) e
      · split
        · exact told_ok _
        · exact told_err (.inl ⟨rfl, by simp [Raised.lib]⟩)
    rw [buildParsedMakesR]
    split
    · next e => exact told_of hs e
    · split
      · next e => exact told_of (ih fun s hs => h s (List.mem_cons_of_mem _ hs)) e
      · exact told_ok _

theorem told_parseMake {q : Str} : Told q (parseMakeR q) := by
  unfold parseMakeR
  split
  · next e => exact told_of (told_extract (by simp)) e
  · exact told_ok _
  · next l e =>
    have hl := extract_sound e
    split
    · next e => exact told_of (told_validate hl) e
    · split
      · next e => exact told_of (told_makes hl) e
      · exact told_ok _

theorem twice_found {q : Str} {c : Clause} {re : Re} {kw KW : Str} (hk : kw = c!"find" ∧ KW = c!"FIND" ∨ kw = c!"report" ∧ KW = c!"REPORT")
    (hc : c.value = KW) (hre : ∀ s x, x ∈ re.run s → ∃ w t, x.1 = w ++ t ∧ CISpelling kw w ∧ t ≠ []) {s : Str} {ss : List Str}
    (h : (re.finditer q).map Prod.fst = s :: ss) (hss : ss ≠ []) : Explains q (onlyOne c) := by
  match hf : re.finditer q, h with
  | x :: y :: l, h =>
    obtain ⟨a, b, d, e⟩ := finditer_two (fun s m hm => by obtain ⟨w, t, e, -, ht⟩ := hre s m hm; simp [e, ht]) hf
    have key : ∀ z ∈ re.finditer q, ∃ w t, z.1 = w ++ t ∧ CISpelling kw w ∧ t ≠ [] := by
      intro z hz
      obtain ⟨_, _, -, hr⟩ := finditer_sound hz
      exact hre _ _ hr
    obtain ⟨w, t, e1, h1, -⟩ := key x (by rw [hf]; simp)
    obtain ⟨w', t', e2, h2, -⟩ := key y (by rw [hf]; simp)
    exact .twice kw KW a w (t ++ b) w' (t' ++ d) hk (by rw [e, e1, e2]; simp) h1 h2 ⟨rfl, by rw [onlyOne, hc]⟩
  | [x], h => simp at h; exact absurd h.2.symm (fun e => hss e.symm)
  | [], h => simp at h

theorem told_find {q s : Str} (hs : s <:+: q) : Told q (buildParsedFindR s) ∧ ∀ f, buildParsedFindR s = .ok f → ∀ x ∈ f.pattern.patternHandles, x <:+: q := by
  unfold buildParsedFindR
  split
  · exact ⟨told_err (.inl ⟨rfl, by simp [Raised.lib]⟩), by simp⟩
  · next p l e =>
    have hp := names_infix hs (p := p) (by rw [e]; simp)
    split
    · next e => exact ⟨told_of (told_pattern hp) e, by simp⟩
    · next p' e =>
      have : p' = p := by
        unfold ParsedPattern.validateR at e
        split at e <;> simp at e
        exact e.symm
      subst this
      split
      · refine ⟨told_ok _, ?_⟩
        intro f hf
        simp at hf
        subst hf
        exact hp
      · exact ⟨told_err (.inl ⟨rfl, by simp [Raised.lib]⟩), by simp⟩

theorem told_parseFind {q : Str} : Told q (parseFindR q) ∧ ∀ f, parseFindR q = .ok (some f) → ∀ x ∈ f.pattern.patternHandles, x <:+: q := by
  unfold parseFindR
  split
  · next e => exact ⟨told_of (told_extract (by simp)) e, by simp⟩
  · exact ⟨told_ok _, by simp⟩
  · exact ⟨told_ok _, by simp⟩
  · next s ss e =>
    have hl := extract_sound e
    split
    · next hne =>
      refine ⟨told_err (.inr ?_), by simp⟩
      have e : (findAll.finditer q).map Prod.fst = s :: ss := by
        unfold extractAllStatementsR at e
        simp only at e
        split at e
        · next h => simp at e; rw [h, e.1, e.2]
        · split at e <;> simp at e
      refine twice_found (.inl ⟨rfl, rfl⟩) rfl (fun s x hx => ?_) e hne
      obtain ⟨w, sp, body, -, e, hw, -⟩ := clauseAll_inv hx
      exact ⟨w, _, e, hw, by simp⟩
    · split
      · next e => exact ⟨told_of (told_validate fun s' hs => by simp at hs; exact hs ▸ hl s (by simp)) e, by simp⟩
      · have hf := told_find (hl s (by simp))
        split
        · next e => exact ⟨told_of hf.1 e, by simp⟩
        · next f e =>
          refine ⟨told_ok _, ?_⟩
          intro f' hf'
          simp at hf'
          exact hf' ▸ hf.2 f e

theorem told_parseReport {q : Str} {hs : List Str} (hh : ∀ x ∈ hs, x <:+: q) : Told q (parseReportR q hs) := by
  unfold parseReportR
  split
  · next e => exact told_of (told_extract (by simp)) e
  · exact told_ok _
  · exact told_ok _
  · next s ss e =>
    have hl := extract_sound e
    split
    · next hne =>
      refine told_err (.inr ?_)
      have e : (reportAll.finditer q).map Prod.fst = s :: ss := by
        unfold extractAllStatementsR at e
        simp only at e
        split at e
        · next h => simp at e; rw [h, e.1, e.2]
        · split at e <;> simp at e
      refine twice_found (.inr ⟨rfl, rfl⟩) rfl (fun s x hx => ?_) e hne
      obtain ⟨w, body, -, e, hw, -⟩ := reportAll_inv hx
      exact ⟨w, _, e, hw, by simp⟩
    · have : Told q (checkFindReportHandlesR hs s) := by
        unfold checkFindReportHandlesR
        split
        · exact told_ok _
        · next h t e =>
          refine told_err (.inr (.report (h :: t) s (hl s (by simp)) (fun x hx => ?_) (by simp) ⟨rfl, rfl⟩))
          rw [← e, List.mem_filter] at hx
          exact ⟨hh x hx.1, fun hi => by simp [(isSubstr_iff x s).2 hi] at hx⟩
      split
      · next e => exact told_of this e
      · split
        · exact told_ok _
        · exact told_err (.inl ⟨rfl, by simp [Raised.lib]⟩)

theorem told_parse {q : Str} : Told q (parseQueryStringR q) := by
  unfold parseQueryStringR
  split
  · next e => exact told_of told_parseMake e
  · split
    · next e => exact told_of told_parseFind.1 e
    · exact told_err (.inl ⟨rfl, by simp [Raised.lib]⟩)
    · next f e =>
      split
      · next e' => exact told_of (told_parseReport (told_parseFind.2 f e)) e'
      · exact told_ok _

end WG
