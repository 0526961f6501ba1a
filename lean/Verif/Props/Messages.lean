/-
C91: what the message of a refused query says.
-/
import Verif.Proofs.Messages

set_option linter.unusedSectionVars false
set_option linter.unusedSimpArgs false

namespace WG
open Re
section
variable [PyRuntime]

/-- C91: the functions with messages raise the same exceptions, and return the same parsed queries, as those without. -/
theorem C91_same_kind (q : Str) : (parseQueryStringR q).mapError Raised.kind = parseQueryString q := noText_parse q

/-- C91, every refused query: the message is not the project's, or it says what is wrong with the query. -/
theorem C91_explains (q : Str) (r : Raised) (h : parseQueryStringR q = .error r) :
    (r.text = none ∧ r.kind ∈ [PyErr.value, .other, .validation, .index, .attribute]) ∨ Explains q r := told_parse r h

theorem joined_quotes (l : List Str) : ∀ p ∈ joined l, ∀ t ∈ p.quotes, t ∈ l := by
  induction l with
  | nil => simp [joined]
  | cons x l ih =>
    cases l with
    | nil => simp [joined, Piece.quotes]
    | cons y l =>
      intro p hp t ht
      simp only [joined, List.mem_cons] at hp ih
      rcases hp with rfl | rfl | hp
      · simp [Piece.quotes] at ht; simp [ht]
      · simp [Piece.quotes] at ht
      · exact List.mem_cons_of_mem _ (by simpa using ih p (by simpa using hp) t ht)

/-- C91: an explained message is shown with the name of its class in front, and its text is not empty. -/
theorem C91_shown (q : Str) (r : Raised) (h : Explains q r) :
    ∃ n m, r.kind.className = some n ∧ r.text = some m ∧ m ≠ [] ∧ r.shown = some (.words (n ++ c!": ") :: m) := by
  cases h
  all_goals
    rename_i h
    obtain ⟨h1, h2⟩ := h
    rw [h1]
    exact ⟨_, _, rfl, h2, by simp, by simp [Raised.shown, h1, h2, PyErr.className]⟩

theorem explains_quotes {q : Str} {r : Raised} (h : Explains q r) (hk : r.kind ≠ .paramSyntax) {m : List Piece}
    (hm : r.text = some m) : ∀ p ∈ m, ∀ t ∈ p.quotes, t <:+: q := by
  have key : ∀ {k m'}, r.Says k m' → m' = m := fun hs => by
    have := hs.2
    rw [hm] at this
    exact (Option.some.inj this).symm
  have single : ∀ {a b t : Str}, t <:+: q → ∀ p ∈ [Piece.words a, .quote t, .words b], ∀ t ∈ p.quotes, t <:+: q := by
    intro a b t ht p hp u hu
    simp only [List.mem_cons, List.not_mem_nil, or_false] at hp
    rcases hp with rfl | rfl | rfl <;> simp [Piece.quotes] at hu
    exact hu ▸ ht
  cases h with
  | misspelt kw KW w sp a b _ _ hq _ h =>
    rw [← key h]
    intro p hp u hu
    simp only [List.mem_cons, List.not_mem_nil, or_false] at hp
    rcases hp with rfl | rfl | rfl | rfl | rfl <;> simp [Piece.quotes] at hu
    exact ⟨a, sp ++ '(' :: b, by rw [hq, hu]; simp⟩
  | misspeltReport w body a b _ hq _ h =>
    rw [← key h]
    intro p hp u hu
    simp only [List.mem_cons, List.not_mem_nil, or_false] at hp
    rcases hp with rfl | rfl | rfl | rfl | rfl <;> simp only [Piece.quotes, List.mem_cons, List.not_mem_nil, or_false] at hu
    rcases hu with rfl | rfl
    · exact ⟨a, b, by rw [hq]; simp⟩
    · exact ⟨a, body ++ c!";" ++ b, by rw [hq]; simp⟩
  | twice kw KW a w b w' c _ _ _ _ h =>
    rw [← key h]
    intro p hp u hu
    simp only [List.mem_cons, List.not_mem_nil, or_false] at hp
    subst hp
    simp [Piece.quotes] at hu
  | parentheses x hq _ _ h => rw [← key h]; exact single hq
  | braces x hq _ _ h => rw [← key h]; exact single hq
  | brackets x hq _ _ h => rw [← key h]; exact single hq
  | illegal c hq _ h =>
    rw [← key h]
    intro p hp u hu
    simp only [List.mem_cons, List.not_mem_nil, or_false] at hp
    rcases hp with rfl | rfl <;> simp [Piece.quotes] at hu
    obtain ⟨a, b, rfl⟩ := List.append_of_mem hq
    exact ⟨a, b, by simp [hu]⟩
  | colons x y _ _ _ h => exact absurd h.1 hk
  | list x y l _ _ _ _ h => exact absurd h.1 hk
  | twoHeads x hq _ h =>
    rw [← key h]
    intro p hp u hu
    simp only [List.mem_cons, List.not_mem_nil, or_false] at hp
    rcases hp with rfl | rfl <;> simp [Piece.quotes] at hu
    exact hu ▸ hq
  | noHead x hq _ h =>
    rw [← key h]
    intro p hp u hu
    simp only [List.mem_cons, List.not_mem_nil, or_false] at hp
    rcases hp with rfl | rfl <;> simp [Piece.quotes] at hu
    exact hu ▸ hq
  | name x hq _ _ h =>
    rw [← key h]
    intro p hp u hu
    simp only [List.mem_cons, List.not_mem_nil, or_false] at hp
    rcases hp with rfl | rfl | rfl | rfl <;> simp [Piece.quotes] at hu
    exact hu ▸ hq
  | handles l hq _ h =>
    rw [← key h]
    intro p hp u hu
    rcases List.mem_cons.1 hp with rfl | hp
    · simp [Piece.quotes] at hu
    · exact hq u (joined_quotes l p hp u hu)
  | report l s hs hq _ h =>
    rw [← key h]
    intro p hp u hu
    simp only [List.mem_cons, List.not_mem_nil, or_false] at hp
    rcases hp with rfl | rfl | rfl | rfl | rfl <;> simp only [Piece.quotes, List.mem_cons, List.not_mem_nil, or_false] at hu
    · exact (hq u hu).1
    · exact hu ▸ hs

/-- C91, every exception of the project but ParamSyntaxError: every text that the message shows stands in the query as it is.
Not proved, since false: the same for ParamSyntaxError (`C91_violated`). -/
theorem C91_quotes_partial (q : Str) (r : Raised) (h : parseQueryStringR q = .error r) (hk : r.kind ≠ .paramSyntax) (m : List Piece)
    (hm : r.text = some m) : ∀ p ∈ m, ∀ t ∈ p.quotes, t <:+: q := by
  rcases told_parse r h with h | h
  · rw [h.1] at hm
    cases hm
  exact explains_quotes h hk hm

/-! ### The message that blames a word spelt right -/

theorem ci_length {kw w : Str} (h : CISpelling kw w) : w.length = kw.length := by
  induction kw generalizing w with
  | nil => cases w <;> simp_all [CISpelling]
  | cons k ks ih =>
    cases w with
    | nil => simp [CISpelling] at h
    | cons c cs => simp only [CISpelling] at h; simp [ih h.2]

theorem misspelt_first {k : Char} {ks w sp x : Str} (hk : ∀ c, matchCI k c = true → isSpace c = false) (c : Clause)
    (hw : CISpelling (k :: ks) w) (hsp : sp.length ≤ 1 ∧ sp.all isSpace = true) :
    misspelt c 1 ((spelling (k :: ks)).finditer (w ++ (sp ++ '(' :: x))) =
      .error ⟨.clauseSyntax, some [.words c!"SyntaxError: ", .quote w, .words c!" was not recognised did you mean ", .words c.value, .words c!"?"]⟩ := by
  have h1 : (w, sp ++ '(' :: x, []) ∈ (alts ((perms (k :: ks).length (k :: ks)).map wordCI)).run (w ++ (sp ++ '(' :: x)) :=
    mem_alts (List.mem_map.2 ⟨_, perms_mem rfl (List.Perm.refl _), rfl⟩) (hd_wordCI hw _).mem
  have h2 := mem_seq (mem_optC_none (p := isSpace) (w ++ (sp ++ '(' :: x))) (mem_seq (mem_grp (n := 0) h1)
      (mem_seq (mem_oneSpace (oneSpace_of hsp.1 hsp.2) _) (hd_ch '(' x).mem))
  rcases hd_or_fails (spelling (k :: ks)) (w ++ (sp ++ '(' :: x)) with ⟨m, hm⟩ | hf
  · have hr := hm.mem
    obtain ⟨m1, g1, m2, g2, e⟩ := mem_seq_inv hr
    obtain ⟨m3, g3, m4, g4, rfl⟩ := mem_seq_inv g2
    obtain ⟨m5, g5, m6, g6, rfl⟩ := mem_seq_inv g4
    obtain ⟨m3, g3', rfl⟩ := mem_grp_inv g3
    obtain ⟨r, hr', g3''⟩ := alts_inv g3'
    obtain ⟨kw', hkw', rfl⟩ := List.mem_map.1 hr'
    have e1 : m1 = ([], w ++ (sp ++ '(' :: x), []) := by
      rcases mem_optC_inv g1 with ⟨d, ds, ed, hd, -⟩ | h
      · cases w with
        | nil => simp [CISpelling] at hw
        | cons c cs =>
          simp only [CISpelling] at hw
          simp only [List.cons_append, List.cons.injEq] at ed
          rw [← ed.1, hk c hw.1] at hd
          cases hd
      · exact h
    have e3 := run_append g3'
    rw [e1] at e3
    have l3 : m3.1.length = w.length := by rw [ci_length (wordCI_mem g3''), ci_length hw, (perms_perm rfl hkw').length_eq]
    have e3' : m3.1 = w := (List.append_inj e3 l3).1
    have hmne : m.1 ≠ [] := by
      obtain ⟨cs, -, rfl⟩ := mem_ch_inv g6
      rw [e]
      simp
    rw [finditer_hit hm hmne, misspelt]
    have hcap : (capGet 0 m.2.2).getD [] = w := by
      rw [e, e1]
      simp [capGet, e3']
    simp [spelt, hcap]
  · exact absurd hf (not_fails h2)

theorem noStatement_semi {kw q : Str} (h : ';' ∉ q) : (clauseAll kw).finditer q = [] :=
  noStatement_nil fun a w sp body b e _ _ _ _ => h (by rw [e]; simp [stmtText])

theorem semi_find {q : Str} (h : ';' ∉ q) (c : Clause) (hc : c = .make ∨ c = .find) {r : Raised} (hr : checkClauseSpellingR q c = .error r) :
    extractAllStatementsR q c = .error r := by
  rcases hc with rfl | rfl
  · simp [extractAllStatementsR, makeAll, noStatement_semi h, hr]
  · simp [extractAllStatementsR, findAll, noStatement_semi h, hr]

theorem semi_avoids {kw w sp x : Str} (hk : ∀ k ∈ kw, matchCI k ';' = false) (hw : CISpelling kw w) (hsp : sp.all isSpace = true) (hx : ';' ∉ x) :
    ';' ∉ w ++ (sp ++ '(' :: x) := by
  have h1 := ciSpelling_avoids hk hw
  have h2 : ';' ∉ sp := fun h => by
    have := List.all_eq_true.1 hsp _ h
    simp [isSpace, isAscii] at this
  simp [h1, h2, hx]

/-- C91, every MAKE without a semicolon: the message says that the word, which is spelt right, was not recognised, and offers the
same word. -/
theorem C91_right_word_make (w sp x : Str) (hw : CISpelling c!"make" w) (hsp : sp.length ≤ 1 ∧ sp.all isSpace = true) (hx : ';' ∉ x) :
    parseQueryStringR (w ++ (sp ++ '(' :: x)) = .error (Raised.notRecognised w c!"MAKE") := by
  have hs := semi_avoids (by decide) hw hsp.2 hx
  have h := misspelt_first (x := x) (fun c hc => by simp [matchCI] at hc; rcases hc with rfl | rfl <;> simp [isSpace, isAscii]) .make hw hsp
  unfold parseQueryStringR parseMakeR
  rw [semi_find hs .make (.inl rfl) h]
  rfl

/-- C91, every FIND without a semicolon, unless the letters of MAKE stand before a parenthesis: the same. -/
theorem C91_right_word_find (w sp x : Str) (hw : CISpelling c!"find" w) (hsp : sp.length ≤ 1 ∧ sp.all isSpace = true) (hx : ';' ∉ x)
    (hm : ¬ LooksMisspelt c!"make" (w ++ (sp ++ '(' :: x))) :
    parseQueryStringR (w ++ (sp ++ '(' :: x)) = .error (Raised.notRecognised w c!"FIND") := by
  have hs := semi_avoids (by decide) hw hsp.2 hx
  have h := misspelt_first (x := x) (fun c hc => by simp [matchCI] at hc; rcases hc with rfl | rfl <;> simp [isSpace, isAscii]) .find hw hsp
  have h0 : (spelling c!"make").finditer (w ++ (sp ++ '(' :: x)) = [] := by
    refine Classical.byContradiction fun hc => hm ((spelling_iff _ _).1 hc)
  have h1 : parseMakeR (w ++ (sp ++ '(' :: x)) = .ok none := by
    simp [parseMakeR, extractAllStatementsR, makeAll, noStatement_semi hs, checkClauseSpellingR, makeSpelling, h0, misspelt]
  unfold parseQueryStringR parseFindR
  rw [h1, semi_find hs .find (.inr rfl) h]
  rfl

end

section
attribute [local instance] demoRuntime

/-- Properties without a comma. -/
def badProps : Str := c!"MAKE (a:M{a: true b: 1});"

theorem badProps_message : parseQueryStringR badProps =
    .error ⟨.paramSyntax, some [.words c!"SyntaxError: ", .quote c!"{a: True b: 1}", .words c!" missing : or ,"]⟩ := by decide +kernel

/-- C91 is violated: the text shown need not stand in the query; and a word spelt right may be called unknown. -/
theorem C91_violated :
    (¬ ∀ q r m, parseQueryStringR q = .error r → r.text = some m → ∀ p ∈ m, ∀ t ∈ p.quotes, t <:+: q) ∧
    ∃ q w, w <:+: q ∧ CISpelling c!"find" w ∧ parseQueryStringR q = .error (Raised.notRecognised w c!"FIND") := by
  refine ⟨fun h => ?_, c!"FIND (a:Man)", c!"FIND", ⟨[], c!" (a:Man)", rfl⟩, by simp [CISpelling, sameLetter], by decide +kernel⟩
  have := h _ _ _ badProps_message rfl (.quote c!"{a: True b: 1}") (by simp) c!"{a: True b: 1}" (by simp [Piece.quotes])
  rw [← isSubstr_iff] at this
  exact absurd this (by decide +kernel)

/-- What the shell shows, without `repr`, `upper` and sets. -/
def said (q : Str) : Option (List Piece) :=
  match parseQueryStringR q with
  | .error r => r.shown
  | .ok _ => none

/-- One query for each reason. -/
example : said c!"MAEK (a:Man);" = some [.words c!"ClauseSyntaxError: ", .words c!"SyntaxError: ", .quote c!"MAEK", .words c!" was not recognised did you mean ", .words c!"MAKE", .words c!"?"] := by decide +kernel
example : said c!"FIND (a:Man);\nREPROT a;" = some [.words c!"ClauseSyntaxError: ", .words c!"SyntaxError: ", .tuple [c!"REPROT a;", c!"REPROT"], .words c!" was not recognised did you mean ", .words c!"REPORT", .words c!"?"] := by decide +kernel
example : said c!"FIND (a:Man);\nFIND (b:Man);" = some [.words c!"MultipleClauseStatementsError: ", .words c!"Only one Clause.FIND clause is allowed per query"] := by decide +kernel
example : said c!"MAKE ((a:Man);" = some [.words c!"ClauseSyntaxError: ", .words c!"Node is missing a parentheses: ---> ", .quote c!"MAKE ((a:Man);", .words c!" <---"] := by decide +kernel
example : said c!"MAKE (a:Man{x: 1);" = some [.words c!"ClauseSyntaxError: ", .words c!"Properties is missing a curly brace: ---> ", .quote c!"MAKE (a:Man{x: 1);", .words c!" <---"] := by decide +kernel
example : said c!"MAKE (a:Man{x: [1});" = some [.words c!"ClauseSyntaxError: ", .words c!"A Relationship or property list is missing a square bracket: ---> ", .quote c!"MAKE (a:Man{x: [1});", .words c!" <---"] := by decide +kernel
example : said c!"MAKE (a:Man{x: 1%});" = some [.words c!"IllegalCharacterError: ", .quote c!"%", .words c!" is not allowed"] := by decide +kernel
example : said c!"MAKE (a:Man{x: [1 2]});" = some [.words c!"ParamSyntaxError: ", .words c!"SyntaxError: ", .list [c!"[1 2]"], .words c!" missing a comma?"] := by decide +kernel
example : said c!"MAKE (a:M)<-[r:NN]->(b:M);" = some [.words c!"NonDirectedRelationshipError: ", .words c!"Relationships must be unidirectional: ", .quote c!"<-[r:NN]->"] := by decide +kernel
example : said c!"MAKE (a:M)-[r:NN]-(b:M);" = some [.words c!"NonDirectedRelationshipError: ", .words c!"Relationships must be singly directed: ", .quote c!"-[r:NN]-"] := by decide +kernel
example : said c!"MAKE (a:M)-[r:nn]->(b:M);" = some [.words c!"RelationshipNameSyntaxError: ", .words c!"Relationship names must be upper case: ", .quote c!"nn", .words c!" -> ", .upper c!"nn"] := by decide +kernel
example : said c!"FIND (a:M)-[r:NN]->(a:M);" = some [.words c!"MakeDuplicateHandlesError: ", .words c!"Handles must be unique per MAKE statement Handles:", .quote c!"a", .words c!", ", .quote c!"r", .words c!", ", .quote c!"a"] := by decide +kernel
example : said c!"FIND (a:M)-[r:NN]->(b:M);\nREPORT(a, r);" = some [.words c!"FindReportHandleMissmatch: ", .words c!"FIND handle ", .oneOf [c!"b"], .words c!" was not found not in the ---> ", .quote c!"REPORT(a, r);", .words c!" <---"] := by decide +kernel
/-- An exception of Python: no FIND. -/
example : parseQueryStringR c!"MAKE (a:M);" = .error ⟨.attribute, none⟩ := by decide +kernel
/-- Words spelt right, of a kind not excluded. -/
example : parseQueryStringR (c!"Make" ++ (c!" " ++ '(' :: c!"a:M)")) = .error (Raised.notRecognised c!"Make" c!"MAKE") :=
  C91_right_word_make _ _ _ (by simp [CISpelling, sameLetter]) (by decide) (by decide)
example : parseQueryStringR (c!"find" ++ ([] ++ '(' :: c!"a:M)")) = .error (Raised.notRecognised c!"find" c!"FIND") :=
  C91_right_word_find _ _ _ (by simp [CISpelling, sameLetter]) (by decide) (by decide) fun h => absurd ((spelling_iff _ _).2 h) (by decide +kernel)

end
end WG
