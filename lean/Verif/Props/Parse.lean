/-
Properties C29-C33, C35, C39-C41: statements of a query and the checks on them.
-/
import Verif.Proofs.Parse
import Verif.Proofs.Slots
import Verif.Proofs.Query
import Verif.Spec.DemoFS
import Verif.Spec.DemoMake

set_option linter.unusedSectionVars false
set_option linter.unusedSimpArgs false

namespace WG

/-! ### C29: statements on separate lines -/

section
variable [PyRuntime]

/-- C29: a query in which every MAKE statement stands on its own line yields exactly these statements, in
order. -/
theorem C29_make_statements_on_lines {ls : List (Str × Option Str)} (h : ∀ l ∈ ls, QLine c!"make" l.1 l.2)
    (hne : ls.filterMap Prod.snd ≠ []) :
    extractAllStatements (joinLines (ls.map Prod.fst)) .make = .ok (some (ls.filterMap Prod.snd)) :=
  extract_of_finditer rfl (make_lines h) hne

/-- C29 for FIND. -/
theorem C29_find_statements_on_lines {ls : List (Str × Option Str)} (h : ∀ l ∈ ls, QLine c!"find" l.1 l.2)
    (hne : ls.filterMap Prod.snd ≠ []) :
    extractAllStatements (joinLines (ls.map Prod.fst)) .find = .ok (some (ls.filterMap Prod.snd)) :=
  extract_of_finditer rfl (find_lines h) hne

/-- C29 for REPORT. -/
theorem C29_report_statements_on_lines {ls : List (Str × Option Str)} (h : ∀ l ∈ ls, RLine l.1 l.2)
    (hne : ls.filterMap Prod.snd ≠ []) :
    extractAllStatements (joinLines (ls.map Prod.fst)) .report = .ok (some (ls.filterMap Prod.snd)) :=
  extract_of_finditer rfl (reportAll_lines h) hne

end

section
attribute [local instance] demoRuntime

/-- Three lines: a statement with a trailing remark, a line with something else, an indented statement. -/
def demoLines : List (Str × Option Str) :=
  [(c!"MAKE (a:A); then", some c!"MAKE (a:A);"), (c!"look", none), (c!"  make(b:B)-[:R]->(c:C);", some c!"make(b:B)-[:R]->(c:C);")]

theorem demoLines_ok : ∀ l ∈ demoLines, QLine c!"make" l.1 l.2 := by
  intro l hl
  simp only [demoLines, List.mem_cons, List.not_mem_nil, or_false] at hl
  rcases hl with rfl | rfl | rfl
  · exact .stmt c!"" c!"MAKE" c!" " c!"a:A" c!" then" (by simp [Indent]) rfl (by decide) (by decide) (by decide)
      (by decide) (by decide) (noKeyword_of (by decide))
  · exact .other _ (by decide) (noKeyword_of (by decide))
  · exact .stmt c!"  " c!"make" c!"" c!"b:B)-[:R]->(c:C" c!"" (by simp [Indent]) rfl (by decide) (by decide)
      (by decide) (by decide) (by decide) (noKeyword_of (by decide))

example : extractAllStatements c!"MAKE (a:A); then\nlook\n  make(b:B)-[:R]->(c:C);" .make =
    .ok (some [c!"MAKE (a:A);", c!"make(b:B)-[:R]->(c:C);"]) :=
  C29_make_statements_on_lines demoLines_ok (by decide)
end

/-! ### C30: the semicolon -/

section
variable [PyRuntime]

/-- C30 is violated, for all bodies: two statements on one line are taken as one statement. -/
theorem C30_violated {w w' sp sp' gap body body' : Str} (hw : IsSpelling c!"make" w) (hsp : sp.all isSpace = true)
    (hsp' : '\n' ∉ sp') (hg : '\n' ∉ gap) (hw' : '\n' ∉ w') (hb : body ≠ []) (hn : '\n' ∉ body) (hn' : '\n' ∉ body') :
    extractAllStatements (stmtText w sp body ++ (gap ++ stmtText w' sp' body')) .make =
      .ok (some [stmtText w sp body ++ (gap ++ stmtText w' sp' body')]) := by
  have hq : QLine c!"make" (stmtText w sp (body ++ (c!");" ++ (gap ++ (w' ++ (sp' ++ '(' :: body'))))))
      (some (stmtText w sp (body ++ (c!");" ++ (gap ++ (w' ++ (sp' ++ '(' :: body'))))))) := by
    have := QLine.stmt (kw := c!"make") [] w sp (body ++ (c!");" ++ (gap ++ (w' ++ (sp' ++ '(' :: body'))))) []
      (by simp [Indent]) hw hsp
      (by simp [hb]) (by simp [hn, hg, hw', hsp', hn']) (by simp) (by simp) (noKeyword_of (by simp))
    simpa using this
  have := C29_make_statements_on_lines (ls := [(_, _)]) (by simpa using hq) (by simp)
  simpa [joinLines, stmtText] using this

/-- C30, partial: with a line break between them, statements are kept apart.  Missing: statements on one line
(`C30_violated`). -/
theorem C30_separate_lines_partial {w w' sp sp' body body' : Str} (hw : IsSpelling c!"make" w)
    (hw' : IsSpelling c!"make" w') (hsp : sp.all isSpace = true) (hsp' : sp'.all isSpace = true) (hb : body ≠ [])
    (hb' : body' ≠ []) (hn : '\n' ∉ body) (hn' : '\n' ∉ body') :
    extractAllStatements (stmtText w sp body ++ '\n' :: stmtText w' sp' body') .make =
      .ok (some [stmtText w sp body, stmtText w' sp' body']) := by
  have h1 := QLine.stmt (kw := c!"make") [] w sp body [] (by simp [Indent]) hw hsp hb hn (by simp) (by simp)
    (noKeyword_of (by simp))
  have h2 := QLine.stmt (kw := c!"make") [] w' sp' body' [] (by simp [Indent]) hw' hsp' hb' hn' (by simp) (by simp)
    (noKeyword_of (by simp))
  have := C29_make_statements_on_lines (ls := [(_, _), (_, _)])
    (by simp only [List.mem_cons, List.not_mem_nil, or_false, forall_eq_or_imp, forall_eq]; exact ⟨h1, h2⟩) (by simp)
  simpa [joinLines] using this

end

section
attribute [local instance] demoRuntime

/-- C30: the two statements of this line are taken as one. -/
example : extractAllStatements c!"MAKE (a:A); MAKE (b:B);" .make = .ok (some [c!"MAKE (a:A); MAKE (b:B);"]) :=
  C30_violated (w := c!"MAKE") (w' := c!"MAKE") (sp := c!" ") (sp' := c!" ") (gap := c!" ") (body := c!"a:A")
    (body' := c!"b:B") rfl (by decide) (by decide) (by decide) (by decide) (by decide) (by decide) (by decide)
/-- C30: on two lines they are not. -/
example : extractAllStatements c!"MAKE (a:A);\nmake(b:B);" .make = .ok (some [c!"MAKE (a:A);", c!"make(b:B);"]) :=
  C30_separate_lines_partial (w := c!"MAKE") (w' := c!"make") (sp := c!" ") (sp' := c!"") (body := c!"a:A")
    (body' := c!"b:B") rfl rfl (by decide) (by decide) (by decide) (by decide) (by decide) (by decide)
end

/-! ### C31: spellings of the keyword -/

section
variable [PyRuntime]

/-- What a parsed MAKE part means: its patterns (the raw statement is only kept for messages). -/
def makePatterns (r : Except PyErr (Option (List ParsedMake))) : Except PyErr (Option (List (List ParsedPattern))) :=
  r.map (Option.map (List.map ParsedMake.patterns))

theorem parseMake_lines {l : List (Str × Str × Str)} (hne : l ≠ [])
    (h : ∀ x ∈ l, (x.1 = c!"MAKE" ∨ x.1 = c!"make") ∧ x.2.1.all isSpace = true ∧ x.2.2 ≠ [] ∧ '\n' ∉ x.2.2) :
    makePatterns (parseMake (joinLines (l.map fun x => stmtText x.1 x.2.1 x.2.2))) =
      match validateStatement (l.map fun x => x.2.1 ++ '(' :: (x.2.2 ++ c!");")) with
      | .error e => .error e
      | .ok _ =>
        match patternsLoop (l.map fun x => x.2.1 ++ '(' :: (x.2.2 ++ c!");")) with
        | .error e => .error e
        | .ok pss => .ok (some pss) := by
  have h1 : extractAllStatements (joinLines (l.map fun x => stmtText x.1 x.2.1 x.2.2)) .make =
      .ok (some (l.map fun x => stmtText x.1 x.2.1 x.2.2)) := by
    have := C29_make_statements_on_lines (ls := l.map fun x => (stmtText x.1 x.2.1 x.2.2, some (stmtText x.1 x.2.1 x.2.2)))
      (by
        intro y hy
        obtain ⟨x, hx, rfl⟩ := List.mem_map.1 hy
        obtain ⟨hw, hsp, hb, hn⟩ := h x hx
        have := QLine.stmt (kw := c!"make") [] x.1 x.2.1 x.2.2 [] (by simp [Indent])
          (by rcases hw with e | e <;> rw [e] <;> rfl) hsp hb hn (by simp) (by simp) (noKeyword_of (by simp))
        simpa using this)
      (by cases l with
        | nil => simp at hne
        | cons => simp)
    simpa [Function.comp_def, List.filterMap_map] using this
  have h2 := validate_plain_list (l := l.map fun x => (x.1, x.2.1 ++ '(' :: (x.2.2 ++ c!");"))) (by
    intro y hy
    obtain ⟨x, hx, rfl⟩ := List.mem_map.1 hy
    rcases (h x hx).1 with e | e <;> simp only [e] <;> simp [plainChar, isSpace, isAscii, isIllegal])
  simp only [List.map_map, Function.comp_def] at h2
  rw [parseMake, h1]
  simp only
  rw [show (l.map fun x => stmtText x.1 x.2.1 x.2.2) = l.map fun x => x.1 ++ (x.2.1 ++ '(' :: (x.2.2 ++ c!");")) from rfl, h2]
  cases validateStatement (l.map fun x => x.2.1 ++ '(' :: (x.2.2 ++ c!");")) with
  | error e => rfl
  | ok _ =>
    simp only
    rw [← buildParsedMakes_patterns h]
    simp only [stmtText]
    cases buildParsedMakes (l.map fun x => x.1 ++ (x.2.1 ++ '(' :: (x.2.2 ++ c!");"))) <;> rfl

/-- C31, partial: every choice between `MAKE` and `make`, statement by statement, gives the same result, for
all bodies, accepted or not.  Missing: other spellings (`C31_other_spellings_raise`). -/
theorem C31_upper_or_lower_partial {l : List (Bool × Str × Str)}
    (h : ∀ x ∈ l, x.2.1.all isSpace = true ∧ x.2.2 ≠ [] ∧ '\n' ∉ x.2.2) :
    makePatterns (parseMake (joinLines (l.map fun x => stmtText (if x.1 then c!"MAKE" else c!"make") x.2.1 x.2.2))) =
      makePatterns (parseMake (joinLines (l.map fun x => stmtText c!"MAKE" x.2.1 x.2.2))) := by
  by_cases hne : l = []
  · subst hne; rfl
  · have h1 := parseMake_lines (l := l.map fun x => (if x.1 then c!"MAKE" else c!"make", x.2)) (by simpa using hne) (by
      intro y hy
      obtain ⟨x, hx, rfl⟩ := List.mem_map.1 hy
      refine ⟨?_, h x hx⟩
      cases x.1 <;> simp)
    have h2 := parseMake_lines (l := l.map fun x => (c!"MAKE", x.2)) (by simpa using hne) (by
      intro y hy
      obtain ⟨x, hx, rfl⟩ := List.mem_map.1 hy
      exact ⟨.inl rfl, h x hx⟩)
    simp only [List.map_map, Function.comp_def] at h1 h2
    rw [h1, h2]

/-- C31, partial, for FIND: `FIND` and `find` give the same pattern. -/
theorem C31_find_upper_or_lower_partial {sp body : Str} (hsp : sp.all isSpace = true) (hb : body ≠ []) (hn : '\n' ∉ body) :
    (parseFind (stmtText c!"FIND" sp body)).map (Option.map ParsedFind.pattern) =
      (parseFind (stmtText c!"find" sp body)).map (Option.map ParsedFind.pattern) := by
  have key : ∀ w, w = c!"FIND" ∨ w = c!"find" → (parseFind (stmtText w sp body)).map (Option.map ParsedFind.pattern) =
      match validateStatement [sp ++ '(' :: (body ++ c!");")] with
      | .error e => .error e
      | .ok _ =>
        match statementPatterns (sp ++ '(' :: (body ++ c!");")) with
        | [] => .error .index
        | p :: _ => (p.validate).map some := by
    intro w hw
    have h1 : extractAllStatements (stmtText w sp body) .find = .ok (some [stmtText w sp body]) := by
      have hq := QLine.stmt (kw := c!"find") [] w sp body [] (by simp [Indent])
        (by rcases hw with e | e <;> rw [e] <;> rfl) hsp hb hn (by simp) (by simp) (noKeyword_of (by simp))
      have := C29_find_statements_on_lines (ls := [(_, _)])
        (by simp only [List.mem_cons, List.not_mem_nil, or_false, forall_eq]; exact hq) (by simp)
      simpa [joinLines] using this
    have hp : ∀ c ∈ w, plainChar c = true := by
      rcases hw with rfl | rfl <;> simp [plainChar, isSpace, isAscii, isIllegal]
    have h2 : validateStatement [stmtText w sp body] = validateStatement [sp ++ '(' :: (body ++ c!");")] :=
      validate_plain hp
    have h3 : statementPatterns (stmtText w sp body) = statementPatterns (sp ++ '(' :: (body ++ c!");")) :=
      patterns_idle fun c hc => idle_of_plain (hp c hc)
    have h4 : (findAllCS.matchAt (stmtText w sp body)).isSome = true := cs_match hw hsp hb hn
    rw [parseFind, h1]
    simp only [ne_eq, not_true, if_false, h2]
    cases validateStatement [sp ++ '(' :: (body ++ c!");")] with
    | error => rfl
    | ok _ =>
      simp only [buildParsedFind, h3, h4, if_true]
      cases statementPatterns (sp ++ '(' :: (body ++ c!");")) with
      | nil => rfl
      | cons p ps =>
        simp only
        cases p.validate <;> rfl
  rw [key _ (.inl rfl), key _ (.inr rfl)]

/-- C31 is violated, for all bodies: a spelling other than `MAKE` and `make` is recognised as a MAKE statement
and always raises. -/
theorem C31_other_spellings_raise {w sp body : Str} (hw : IsSpelling c!"make" w) (h1 : w ≠ c!"MAKE") (h2 : w ≠ c!"make")
    (hsp : sp.all isSpace = true) (hb : body ≠ []) (hn : '\n' ∉ body) :
    extractAllStatements (stmtText w sp body) .make = .ok (some [stmtText w sp body]) ∧
    ∃ e, parseMake (stmtText w sp body) = .error e := by
  have hx : extractAllStatements (stmtText w sp body) .make = .ok (some [stmtText w sp body]) := by
    have hq := QLine.stmt (kw := c!"make") [] w sp body [] (by simp [Indent]) hw hsp hb hn (by simp) (by simp)
      (noKeyword_of (by simp))
    have := C29_make_statements_on_lines (ls := [(_, _)])
      (by simp only [List.mem_cons, List.not_mem_nil, or_false, forall_eq]; exact hq) (by simp)
    simpa [joinLines] using this
  refine ⟨hx, ?_⟩
  have hl : w.length = 4 := by
    have := congrArg List.length hw
    simpa using this
  have hm : makeAllCS.matchAt (stmtText w sp body) = none := cs_no_match (by rw [hl]; rfl) (by rw [hl]; rfl) h1 h2
  cases hp : parseMake (stmtText w sp body) with
  | error e => exact ⟨e, rfl⟩
  | ok o =>
    exfalso
    unfold parseMake at hp
    simp only [hx] at hp
    cases hv : validateStatement [stmtText w sp body] with
    | error => simp [hv] at hp
    | ok _ =>
      simp only [hv, buildParsedMakes, buildParsedMake, hm, Option.isSome_none, Bool.false_eq_true, if_false] at hp
      cases hs : validatePatterns (statementPatterns (stmtText w sp body)) with
      | error => simp [hs] at hp
      | ok _ => simp [hs] at hp
end

section
attribute [local instance] demoRuntime

/-- C31 violated: the statement is accepted as `MAKE`, and with the keyword spelt `Make` it raises. -/
theorem C31_violated : ∃ sp body w, IsSpelling c!"make" w ∧ (∃ ms, parseMake (stmtText c!"MAKE" sp body) = .ok (some ms)) ∧
    ∃ e, parseMake (stmtText w sp body) = .error e := by
  refine ⟨c!" ", c!"a:A", c!"Make", rfl, ?_, (C31_other_spellings_raise (w := c!"Make") rfl (by decide) (by decide) (by decide) (by decide)
    (by decide)).2⟩
  have h : (match parseMake (stmtText c!"MAKE" c!" " c!"a:A") with
    | .ok (some _) => true
    | _ => false) = true := by decide +kernel
  split at h
  · next ms hms => exact ⟨ms, hms⟩
  · simp at h

/-- C31: two statements, one in lower case. -/
example : makePatterns (parseMake c!"make (a:A);\nMAKE(b:B);") = makePatterns (parseMake c!"MAKE (a:A);\nMAKE(b:B);") :=
  C31_upper_or_lower_partial (l := [(false, c!" ", c!"a:A"), (true, c!"", c!"b:B")]) (by decide)

/-- C31: that query is accepted. -/
example : (match makePatterns (parseMake c!"make (a:A);\nMAKE(b:B);") with
    | .ok (some [[_], [_]]) => true
    | _ => false) = true := by decide +kernel

/-- C31: FIND. -/
example : (parseFind c!"FIND (a:A);").map (Option.map ParsedFind.pattern) =
    (parseFind c!"find (a:A);").map (Option.map ParsedFind.pattern) :=
  C31_find_upper_or_lower_partial (sp := c!" ") (body := c!"a:A") (by decide) (by decide) (by decide)
end

/-! ### C32: illegal characters -/

section
variable [PyRuntime]

/-- The texts of a part of a pattern. -/
def PartText.texts (t : PartText) : List Str := [t.text, t.handle, t.label, t.props].filterMap id

theorem mem_texts {t : PartText} {x : Str} :
    x ∈ t.texts ↔ t.text = some x ∨ t.handle = some x ∨ t.label = some x ∨ t.props = some x := by
  simp [PartText.texts, eq_comm]

/-- C32: no text that an accepted MAKE hands on - whole parts, handles, labels, names, property texts -
contains an illegal character, for every query string. -/
theorem C32_make_texts_legal {q : Str} {ms : List ParsedMake} (h : parseMake q = .ok (some ms)) :
    ∀ m ∈ ms, (∀ c ∈ m.rawStatement, c ∉ illegalChars) ∧
      ∀ p ∈ m.patterns, ∀ a : Slot, ∀ x ∈ (partAt p a).texts, ∀ c ∈ x, c ∉ illegalChars := by
  obtain ⟨_, hv, hb⟩ := parseMake_ok h
  have hi := illegal_ok.1 (validate_ok.1 hv).2.1
  intro m hm
  have h1 : ∀ c ∈ m.rawStatement, c ∉ illegalChars := by
    intro c hc
    rw [← isIllegal_iff, hi _ (List.mem_map.2 ⟨m, hm, rfl⟩) c hc]
    simp
  refine ⟨h1, fun p hp a x hx c hc => h1 c ?_⟩
  rw [(buildParsedMake_ok (hb m hm)).2.2.1] at hp
  exact (pattern_infix hp (partAt_mem p a) (mem_texts.1 hx)).subset hc

/-- C32 for FIND. -/
theorem C32_find_texts_legal {q : Str} {f : ParsedFind} (h : parseFind q = .ok (some f)) :
    (∀ c ∈ f.rawStatement, c ∉ illegalChars) ∧
      ∀ a : Slot, ∀ x ∈ (partAt f.pattern a).texts, ∀ c ∈ x, c ∉ illegalChars := by
  obtain ⟨_, hv, hb⟩ := parseFind_ok h
  have hi := illegal_ok.1 (validate_ok.1 hv).2.1
  have h1 : ∀ c ∈ f.rawStatement, c ∉ illegalChars := by
    intro c hc
    rw [← isIllegal_iff, hi _ (by simp) c hc]
    simp
  refine ⟨h1, fun a x hx c hc => h1 c ?_⟩
  obtain ⟨ps, e⟩ := (buildParsedFind_ok hb).2.2.1
  exact (pattern_infix (by rw [e]; simp) (partAt_mem _ a) (mem_texts.1 hx)).subset hc

/-- C32: a query with an illegal character in one of its MAKE statements raises. -/
theorem C32_illegal_make_raises {q : Str} {ss : List Str} (h : extractAllStatements q .make = .ok (some ss)) {s : Str}
    (hs : s ∈ ss) {c : Char} (hc : c ∈ illegalChars) (hcs : c ∈ s) : ∃ e, parseMake q = .error e := by
  cases hp : parseMake q with
  | error e => exact ⟨e, rfl⟩
  | ok o =>
    exfalso
    cases o with
    | none =>
      unfold parseMake at hp
      simp only [h] at hp
      split at hp
      · simp at hp
      · split at hp <;> simp at hp
    | some ms =>
      have h1 := (parseMake_ok hp).1
      rw [h] at h1
      simp at h1
      subst h1
      obtain ⟨m, hm, rfl⟩ := List.mem_map.1 hs
      exact (C32_make_texts_legal hp m hm).1 c hcs hc

/-- C32: the same for a FIND statement. -/
theorem C32_illegal_find_raises {q : Str} {ss : List Str} (h : extractAllStatements q .find = .ok (some ss)) {s : Str}
    (hs : s ∈ ss) {c : Char} (hc : c ∈ illegalChars) (hcs : c ∈ s) : ∃ e, parseFind q = .error e := by
  cases hp : parseFind q with
  | error e => exact ⟨e, rfl⟩
  | ok o =>
    exfalso
    cases o with
    | none =>
      unfold parseFind at hp
      simp only [h] at hp
      cases ss with
      | nil => simp at hs
      | cons s' ss =>
        simp only at hp
        split at hp
        · simp at hp
        · split at hp
          · simp at hp
          · split at hp <;> simp at hp
    | some f =>
      have h1 := (parseFind_ok hp).1
      rw [h] at h1
      simp at h1
      subst h1
      simp at hs
      subst hs
      exact (C32_find_texts_legal hp).1 c hcs hc

end

section
attribute [local instance] demoRuntime

/-- C32: an accepted query. -/
example : (match parseMake c!"MAKE (a:A{x: 'one@two'})-[r:R]->(b:B);" with
    | .ok (some [m]) => !m.patterns.isEmpty
    | _ => false) = true := by decide +kernel

/-- C32: the exception for an illegal character in the second statement only, evaluated. -/
example : (match parseMake c!"MAKE (a:A);\nMAKE (b:B{x: '5$'});" with
    | .error .illegalCharacter => true
    | _ => false) = true := by decide +kernel

/-- C32: a `$` in the second statement. -/
example : ∃ e, parseMake c!"MAKE (a:A);\nMAKE (b:B{x: '5$'});" = .error e :=
  C32_illegal_make_raises (s := c!"MAKE (b:B{x: '5$'});") (c := '$')
    (C30_separate_lines_partial (w := c!"MAKE") (w' := c!"MAKE") (sp := c!" ") (sp' := c!" ") (body := c!"a:A")
      (body' := c!"b:B{x: '5$'}") rfl rfl (by decide) (by decide) (by decide) (by decide) (by decide) (by decide))
    (by decide) (by decide) (by decide)

/-- C32: a `#` in a FIND. -/
example : ∃ e, parseFind c!"FIND (a:A{x: '#'});" = .error e := by
  have h : extractAllStatements c!"FIND (a:A{x: '#'});" .find = .ok (some [c!"FIND (a:A{x: '#'});"]) := by decide +kernel
  exact C32_illegal_find_raises h (List.mem_singleton_self _) (c := '#') (by decide) (by decide)
end

/-! ### C33: paired brackets -/

section
variable [PyRuntime]

/-- The brackets of one kind come in pairs, as far as their number goes. -/
def EvenBrackets (l r : Char) (t : Str) : Prop := (t.filter fun c => c == l || c == r).length % 2 = 0

/-- Every part of the statement between two arrow heads (or the ends) has an even number of brackets of every
kind. -/
def PiecesEven (s : Str) : Prop :=
  ∀ a piece b, s = a ++ piece ++ b → '<' ∉ piece → '>' ∉ piece → (b = [] ∨ ∃ b', b = '<' :: b' ∨ b = '>' :: b') →
    (a = [] ∨ ∃ a', a = a' ++ ['<'] ∨ a = a' ++ ['>']) →
    EvenBrackets '(' ')' piece ∧ EvenBrackets '{' '}' piece ∧ EvenBrackets '[' ']' piece

theorem pieces_even {ss : List Str} (h : validateStatement ss = .ok ()) {s : Str} (hs : s ∈ ss) : PiecesEven s := by
  intro a piece b e h1 h2 hb ha
  by_cases hne : piece = []
  · subst hne; simp [EvenBrackets]
  · have hp : IsPiece isAngle s piece := by
      refine ⟨a, b, e, ?_, ?_, ?_⟩
      · intro c hc
        simp only [isAngle, Bool.or_eq_false_iff, beq_eq_false_iff_ne]
        exact ⟨fun e => h1 (e ▸ hc), fun e => h2 (e ▸ hc)⟩
      · intro c cs hcs
        rcases hb with rfl | ⟨b', rfl | rfl⟩
        · simp at hcs
        · simp at hcs; simp [← hcs.1, isAngle]
        · simp at hcs; simp [← hcs.1, isAngle]
      · intro c hc
        rcases ha with rfl | ⟨a', rfl | rfl⟩
        · simp at hc
        · simp at hc; simp [← hc, isAngle]
        · simp at hc; simp [← hc, isAngle]
    have := checkPiece_ok.1 (syntax_ok.1 (validate_ok.1 h).1 s hs piece (splitClass_piece hp hne))
    simpa [EvenBrackets, List.countP_eq_length_filter] using this

/-- C33: in every statement of an accepted MAKE, brackets come in pairs between the arrow heads. -/
theorem C33_make_brackets_paired {q : Str} {ms : List ParsedMake} (h : parseMake q = .ok (some ms)) :
    ∀ m ∈ ms, PiecesEven m.rawStatement :=
  fun m hm => pieces_even (parseMake_ok h).2.1 (List.mem_map.2 ⟨m, hm, rfl⟩)

/-- C33 for FIND. -/
theorem C33_find_brackets_paired {q : Str} {f : ParsedFind} (h : parseFind q = .ok (some f)) :
    PiecesEven f.rawStatement :=
  pieces_even (parseFind_ok h).2.1 (by simp)
end

section
attribute [local instance] demoRuntime

/-- C33: an accepted query with two arrows. -/
example : ∃ ms, parseMake c!"MAKE (a:A)-[:R]->(b:B)<-[:S]-(c:C);" = .ok (some ms) ∧ ms ≠ [] ∧
    ∀ m ∈ ms, PiecesEven m.rawStatement := by
  have h : (match parseMake c!"MAKE (a:A)-[:R]->(b:B)<-[:S]-(c:C);" with
    | .ok (some ms) => !ms.isEmpty
    | _ => false) = true := by decide +kernel
  split at h
  · next ms hms => exact ⟨ms, hms, by simpa using h, C33_make_brackets_paired hms⟩
  · simp at h

/-- The check counts only: this statement, with both brackets closing, is not rejected by it. -/
example : checkStatementSyntax [c!"MAKE (a:A)));"] = .ok () := by decide +kernel
end

/-! ### C35: handles -/

section
variable [PyRuntime]

theorem handleNames_nodup {p : ParsedPattern} : p.handleNames.Nodup ↔ ¬ DuplicateHandle p := by
  rw [duplicateHandle_iff]
  have ht : ∀ (t : PartText) (h : Str), (if truthy t.handle then t.handle else none) = some h ↔ t.handle = some h ∧ h ≠ [] := by
    intro t h
    cases ht : t.handle with
    | none => simp [truthy]
    | some x =>
      cases x with
      | nil => simp [truthy]
      | cons c x => simp [truthy]; rintro rfl; simp
  unfold ParsedPattern.handleNames List.Nodup
  rw [List.pairwise_filterMap, List.pairwise_iff_getElem]
  simp only [ht]
  constructor
  · rintro hp ⟨i, j, t, u, h, hij, h1, h2, h3, h4, h5⟩
    obtain ⟨hi, rfl⟩ := List.getElem?_eq_some_iff.1 h1
    obtain ⟨hj, rfl⟩ := List.getElem?_eq_some_iff.1 h2
    exact hp i j hi hj hij h ⟨h3, h5⟩ h ⟨h4, h5⟩ rfl
  · intro hd i j hi hj hij h ⟨h1, h2⟩ h' ⟨h3, _⟩ e
    subst e
    exact hd ⟨i, j, _, _, h, hij, List.getElem?_eq_getElem hi, List.getElem?_eq_getElem hj, h1, h3, h2⟩

/-- C35: a pattern is rejected for its handles exactly if two of its parts share a non-empty one. -/
theorem C35_duplicate_handles (p : ParsedPattern) :
    (p.validate = .error .makeDuplicateHandles ↔ DuplicateHandle p) ∧ (p.validate = .ok p ↔ ¬ DuplicateHandle p) := by
  unfold ParsedPattern.validate
  by_cases h : p.handleNames.Nodup
  · simp [h, handleNames_nodup.1 h]
  · simp only [h, if_false, true_iff]
    have : DuplicateHandle p := Classical.byContradiction fun hd => h (handleNames_nodup.2 hd)
    simp [this]

theorem validatePatterns_cases (l : List ParsedPattern) :
    ((∃ p ∈ l, DuplicateHandle p) → validatePatterns l = .error .makeDuplicateHandles) ∧
    ((∀ p ∈ l, ¬ DuplicateHandle p) → validatePatterns l = .ok l) := by
  induction l with
  | nil => simp [validatePatterns]
  | cons p l ih =>
    refine ⟨?_, ?_⟩
    · rintro ⟨p', hp', hd⟩
      rw [validatePatterns]
      by_cases hp : DuplicateHandle p
      · rw [(C35_duplicate_handles p).1.2 hp]
      · rw [(C35_duplicate_handles p).2.2 hp]
        rcases List.mem_cons.1 hp' with rfl | hp'
        · exact absurd hd hp
        · simp [ih.1 ⟨p', hp', hd⟩]
    · intro h
      rw [validatePatterns, (C35_duplicate_handles p).2.2 (h p (by simp))]
      simp [ih.2 fun x hx => h x (by simp [hx])]

/-- C35 for a MAKE statement: a duplicate handle in one of its patterns raises, and without one the statement
is not rejected for that reason. -/
theorem C35_make_duplicate_handles (stmt : Str) :
    buildParsedMake stmt = .error .makeDuplicateHandles ↔ ∃ p ∈ statementPatterns stmt, DuplicateHandle p := by
  unfold buildParsedMake
  by_cases h : ∃ p ∈ statementPatterns stmt, DuplicateHandle p
  · simp [(validatePatterns_cases _).1 h, h]
  · rw [(validatePatterns_cases _).2 fun p hp hd => h ⟨p, hp, hd⟩]
    simp only [h, iff_false]
    split <;> simp

/-- C35 for whole queries: an accepted MAKE or FIND has no duplicate handle in a pattern. -/
theorem C35_accepted_make_no_duplicates {q : Str} {ms : List ParsedMake} (h : parseMake q = .ok (some ms)) :
    ∀ m ∈ ms, ∀ p ∈ m.patterns, ¬ DuplicateHandle p :=
  fun m hm p hp => (C35_duplicate_handles p).2.1 ((buildParsedMake_ok ((parseMake_ok h).2.2 m hm)).2.2.2 p hp)

/-- C35 for FIND. -/
theorem C35_accepted_find_no_duplicates {q : Str} {f : ParsedFind} (h : parseFind q = .ok (some f)) :
    ¬ DuplicateHandle f.pattern :=
  (C35_duplicate_handles _).2.1 (buildParsedFind_ok (parseFind_ok h).2.2).2.2.2
end

section
attribute [local instance] demoRuntime

/-- C35: the handle `a` twice. -/
example : buildParsedMake c!"MAKE (a:A)-[:R]->(a:B);" = .error .makeDuplicateHandles := by decide +kernel
example : ∃ p ∈ statementPatterns c!"MAKE (a:A)-[:R]->(a:B);", DuplicateHandle p :=
  (C35_make_duplicate_handles _).1 (by decide +kernel)

/-- C35: a node and a relationship, and two relationships, with the same handle. -/
example : buildParsedMake c!"MAKE (a:A)-[a:R]->(b:B);" = .error .makeDuplicateHandles := by decide +kernel
example : buildParsedMake c!"MAKE (a:A)-[r:R]->(b:B)-[r:R]->(c:C);" = .error .makeDuplicateHandles := by decide +kernel

/-- C35: the empty handle may be repeated, and different patterns may share handles. -/
example : buildParsedMake c!"MAKE (:A)-[:R]->(:A), (a:A), (a:A);" ≠ .error .makeDuplicateHandles := by decide +kernel
end

/-! ### C39: one FIND, one REPORT -/

section
variable [PyRuntime]

theorem parseFind_multiple {q : Str} {s s' : Str} {ss : List Str}
    (h : extractAllStatements q .find = .ok (some (s :: s' :: ss))) : parseFind q = .error .multipleClause := by
  simp [parseFind, h]

/-- C39, partial: a query with FIND statements on more than one line raises MultipleClauseStatementsError and
changes nothing (its MAKEs, if any, having been accepted).  Missing: several FINDs on one line
(`C39_violated`). -/
theorem C39_multiple_find_raises_partial {ls : List (Str × Option Str)} (h : ∀ l ∈ ls, QLine c!"find" l.1 l.2)
    (hn : 1 < (ls.filterMap Prod.snd).length) {mk : Option (List ParsedMake)}
    (hm : parseMake (joinLines (ls.map Prod.fst)) = .ok mk) (env : Env) (g : GPath) (fs : FS) :
    (query env (joinLines (ls.map Prod.fst)) g).run fs = (.error .multipleClause, fs) := by
  have h1 := C29_find_statements_on_lines h (by intro e; simp [e] at hn)
  have h2 : parseFind (joinLines (ls.map Prod.fst)) = .error .multipleClause := by
    cases hl : ls.filterMap Prod.snd with
    | nil => simp [hl] at hn
    | cons s l =>
      cases l with
      | nil => simp [hl] at hn
      | cons s' l =>
        rw [hl] at h1
        exact parseFind_multiple h1
  rw [query_run]
  simp [parseQueryString, hm, h2]

/-- C39, partial, for REPORT: with REPORT statements on more than one line, MultipleClauseStatementsError is
raised and nothing changes (MAKEs and FIND having been accepted).  Missing: several REPORTs on one line. -/
theorem C39_multiple_report_raises_partial {ls : List (Str × Option Str)} (h : ∀ l ∈ ls, RLine l.1 l.2)
    (hn : 1 < (ls.filterMap Prod.snd).length) {mk : Option (List ParsedMake)} {f : ParsedFind}
    (hm : parseMake (joinLines (ls.map Prod.fst)) = .ok mk) (hf : parseFind (joinLines (ls.map Prod.fst)) = .ok (some f))
    (env : Env) (g : GPath) (fs : FS) :
    (query env (joinLines (ls.map Prod.fst)) g).run fs = (.error .multipleClause, fs) := by
  have h1 := C29_report_statements_on_lines h (by intro e; simp [e] at hn)
  have h2 : ∀ hs, parseReport (joinLines (ls.map Prod.fst)) hs = .error .multipleClause := by
    intro hs
    cases hl : ls.filterMap Prod.snd with
    | nil => simp [hl] at hn
    | cons s l =>
      cases l with
      | nil => simp [hl] at hn
      | cons s' l =>
        rw [hl] at h1
        simp [parseReport, h1]
  rw [query_run]
  simp [parseQueryString, hm, hf, h2]

/-- C39 is violated, for all bodies: two FIND statements on one line count as one. -/
theorem C39_one_line_counts_once {w w' sp sp' gap body body' : Str} (hw : IsSpelling c!"find" w) (hsp : sp.all isSpace = true)
    (hsp' : '\n' ∉ sp') (hg : '\n' ∉ gap) (hw' : '\n' ∉ w') (hb : body ≠ []) (hn : '\n' ∉ body) (hn' : '\n' ∉ body') :
    extractAllStatements (stmtText w sp body ++ (gap ++ stmtText w' sp' body')) .find =
      .ok (some [stmtText w sp body ++ (gap ++ stmtText w' sp' body')]) := by
  have hq : QLine c!"find" (stmtText w sp (body ++ (c!");" ++ (gap ++ (w' ++ (sp' ++ '(' :: body'))))))
      (some (stmtText w sp (body ++ (c!");" ++ (gap ++ (w' ++ (sp' ++ '(' :: body'))))))) := by
    have := QLine.stmt (kw := c!"find") [] w sp (body ++ (c!");" ++ (gap ++ (w' ++ (sp' ++ '(' :: body'))))) []
      (by simp [Indent]) hw hsp
      (by simp [hb]) (by simp [hn, hg, hw', hsp', hn']) (by simp) (by simp) (noKeyword_of (by simp))
    simpa using this
  have := C29_find_statements_on_lines (ls := [(_, _)])
    (by simp only [List.mem_cons, List.not_mem_nil, or_false, forall_eq]; exact hq) (by simp)
  simpa [joinLines, stmtText] using this
end

section
attribute [local instance] demoRuntime

/-- C39 violated: this query has two FIND statements and is executed. -/
theorem C39_violated : ((query demoEnv c!"FIND (a:A); FIND (b:B);" demoG).run demoFresh).1 = .ok true := by
  decide +kernel

/-- Two FIND lines. -/
def demoFinds : List (Str × Option Str) := [(c!"FIND (a:A);", some c!"FIND (a:A);"), (c!"find(b:B);", some c!"find(b:B);")]

example : (query demoEnv c!"FIND (a:A);\nfind(b:B);" demoG).run demoFresh = (.error .multipleClause, demoFresh) := by
  refine C39_multiple_find_raises_partial (ls := demoFinds) ?_ (by decide) (mk := none) (by decide +kernel) _ _ _
  intro l hl
  simp only [demoFinds, List.mem_cons, List.not_mem_nil, or_false] at hl
  rcases hl with rfl | rfl
  · exact .stmt c!"" c!"FIND" c!" " c!"a:A" c!"" (by simp [Indent]) rfl (by decide) (by decide) (by decide)
      (by decide) (by decide) (noKeyword_of (by decide))
  · exact .stmt c!"" c!"find" c!"" c!"b:B" c!"" (by simp [Indent]) rfl (by decide) (by decide) (by decide)
      (by decide) (by decide) (noKeyword_of (by decide))

/-- Two REPORT lines after a FIND. -/
def demoReports : List (Str × Option Str) :=
  [(c!"FIND (a:A);", none), (c!"REPORT(a);", some c!"REPORT(a);"), (c!"report(a);", some c!"report(a);")]

example : (query demoEnv c!"FIND (a:A);\nREPORT(a);\nreport(a);" demoG).run demoFresh =
    (.error .multipleClause, demoFresh) := by
  have h : (match parseFind c!"FIND (a:A);\nREPORT(a);\nreport(a);" with
    | .ok (some _) => true
    | _ => false) = true := by decide +kernel
  split at h
  · next f hf =>
    refine C39_multiple_report_raises_partial (ls := demoReports) ?_ (by decide) (mk := none) (by decide +kernel) hf _ _ _
    intro l hl
    simp only [demoReports, List.mem_cons, List.not_mem_nil, or_false] at hl
    rcases hl with rfl | rfl | rfl
    · exact .other _ (by decide) (noKeyword_of (by decide))
    · exact .stmt c!"" c!"REPORT" c!"(a)" c!"" (by simp [Indent]) rfl (by decide) (by decide) (by decide)
        (by decide) (noKeyword_of (by decide))
    · exact .stmt c!"" c!"report" c!"(a)" c!"" (by simp [Indent]) rfl (by decide) (by decide) (by decide)
        (by decide) (noKeyword_of (by decide))
  · simp at h
end

/-! ### C40: REPORT names the handles of FIND -/

section
variable [PyRuntime]

theorem parseQuery_ok {q : Str} {p : ParsedQuery} (h : parseQueryString q = .ok p) :
    ∃ f, p.find = some f ∧ parseFind q = .ok (some f) ∧ parseMake q = .ok p.make ∧
      parseReport q f.pattern.patternHandles = .ok p.report := by
  unfold parseQueryString at h
  cases hm : parseMake q with
  | error => simp [hm] at h
  | ok mk =>
    cases hf : parseFind q with
    | error => simp [hm, hf] at h
    | ok o =>
      cases o with
      | none => simp [hm, hf] at h
      | some f =>
        cases hr : parseReport q f.pattern.patternHandles with
        | error => simp [hm, hf, hr] at h
        | ok r =>
          simp [hm, hf, hr] at h
          subst h
          exact ⟨f, rfl, rfl, rfl, hr⟩

theorem parseReport_ok {q : Str} {hs : List Str} {r : ParsedReport} (h : parseReport q hs = .ok (some r)) :
    extractAllStatements q .report = .ok (some [r.rawStatement]) ∧ ∀ x ∈ hs, x <:+: r.rawStatement := by
  unfold parseReport at h
  cases h1 : extractAllStatements q .report with
  | error => rw [h1] at h; simp at h
  | ok o =>
    cases o with
    | none => rw [h1] at h; simp at h
    | some ss =>
      cases ss with
      | nil => rw [h1] at h; simp at h
      | cons s ss =>
        rw [h1] at h
        simp only at h
        split at h
        · simp at h
        · next hss =>
          simp at hss
          subst hss
          cases h2 : checkFindReportHandles hs s with
          | error => simp [h2] at h
          | ok _ =>
            simp only [h2] at h
            split at h
            · simp at h
              subst h
              refine ⟨rfl, fun x hx => ?_⟩
              unfold checkFindReportHandles at h2
              split at h2
              · next ha => exact (isSubstr_iff _ _).1 (List.all_eq_true.1 ha x hx)
              · simp at h2
            · simp at h

/-- C40, partial: if an accepted query has a REPORT, the text of every non-empty handle of its FIND stands
somewhere in the REPORT statement.  Missing: a query without REPORT is accepted (`C40_violated`), and the handle
may stand inside another word (`C40_violated_substring`). -/
theorem C40_report_contains_handles_partial {q : Str} {p : ParsedQuery} {r : ParsedReport}
    (h : parseQueryString q = .ok p) (hr : p.report = some r) :
    ∃ f, p.find = some f ∧ ∀ (a : Slot) (x : Str), (partAt f.pattern a).handle = some x → x ≠ [] → x <:+: r.rawStatement := by
  obtain ⟨f, hf, _, _, h4⟩ := parseQuery_ok h
  rw [hr] at h4
  refine ⟨f, hf, fun a x hx hne => (parseReport_ok h4).2 x ?_⟩
  unfold ParsedPattern.patternHandles ParsedPattern.handleNames
  rw [List.mem_filterMap]
  refine ⟨_, partAt_mem _ a, ?_⟩
  cases x with
  | nil => simp at hne
  | cons c x => simp [hx, truthy]
end

section
attribute [local instance] demoRuntime

/-- C40 violated: the handle `a` of FIND is not reported, and the query is executed. -/
theorem C40_violated : ∃ p f, parseQueryString c!"FIND (a:A);" = .ok p ∧ p.find = some f ∧ p.report = none ∧
    f.pattern.handleNames = [c!"a"] ∧ ((query demoEnv c!"FIND (a:A);" demoG).run demoFresh).1 = .ok true := by
  have h : (match parseQueryString c!"FIND (a:A);" with
    | .ok ⟨_, some f, none⟩ => decide (f.pattern.handleNames = [c!"a"])
    | _ => false) = true := by decide +kernel
  split at h
  · next hp => exact ⟨_, _, hp, rfl, rfl, of_decide_eq_true h, by decide +kernel⟩
  · simp at h

/-- C40 violated: `p` counts as named because the keyword contains it. -/
theorem C40_violated_substring : ∃ p f r, parseQueryString c!"FIND (p:A);\nreport (x);" = .ok p ∧ p.find = some f ∧
    p.report = some r ∧ f.pattern.handleNames = [c!"p"] ∧ r.rawStatement = c!"report (x);" := by
  have h : (match parseQueryString c!"FIND (p:A);\nreport (x);" with
    | .ok ⟨_, some f, some r⟩ => decide (f.pattern.handleNames = [c!"p"] ∧ r.rawStatement = c!"report (x);")
    | _ => false) = true := by decide +kernel
  split at h
  · next hp => exact ⟨_, _, _, hp, rfl, rfl, (of_decide_eq_true h).1, (of_decide_eq_true h).2⟩
  · simp at h

/-- C40: a REPORT that names the handle is accepted, one that does not is rejected. -/
example : (match parseQueryString c!"FIND (a:A);\nREPORT(a);" with
    | .ok ⟨_, some f, some _⟩ => decide (f.pattern.handleNames = [c!"a"])
    | _ => false) = true := by decide +kernel
example : parseReport c!"FIND (a:A);\nREPORT(b);" [c!"a"] = .error .findReportHandle := by decide +kernel
end

/-! ### C41: misspelt keywords -/

section
variable [PyRuntime]

/-- C41: the letters of MAKE in any order and case, before a parenthesis (with at most one white-space
character between), in a query without a correct MAKE statement: ClauseSyntaxError.  Missing: more white space
(`C41_violated`). -/
theorem C41_misspelt_make_partial {q a w sp b : Str} (hq : q = a ++ (w ++ (sp ++ '(' :: b))) (hw : Misspelt c!"make" w)
    (hsp : sp = [] ∨ ∃ c, isSpace c = true ∧ sp = [c]) (hno : NoStatement c!"make" q) :
    extractAllStatements q .make = .error .clauseSyntax ∧ parseMake q = .error .clauseSyntax := by
  have h1 : extractAllStatements q .make = .error .clauseSyntax := by
    rw [extract_def]
    simp only [clauseRe, show makeAll.finditer q = [] from noStatement_nil hno, List.map_nil, checkClauseSpelling]
    have : (makeSpelling.finditer q).isEmpty = false := by
      rw [hq]
      have := spelling_found (kw := c!"make") (a := a) (b := b) hw hsp
      cases h : makeSpelling.finditer (a ++ (w ++ (sp ++ '(' :: b))) with
      | nil => exact absurd h this
      | cons => rfl
    simp [this]
  exact ⟨h1, by simp [parseMake, h1]⟩

/-- C41 for FIND. -/
theorem C41_misspelt_find_partial {q a w sp b : Str} (hq : q = a ++ (w ++ (sp ++ '(' :: b))) (hw : Misspelt c!"find" w)
    (hsp : sp = [] ∨ ∃ c, isSpace c = true ∧ sp = [c]) (hno : NoStatement c!"find" q) :
    extractAllStatements q .find = .error .clauseSyntax ∧ parseFind q = .error .clauseSyntax := by
  have h1 : extractAllStatements q .find = .error .clauseSyntax := by
    rw [extract_def]
    simp only [clauseRe, show findAll.finditer q = [] from noStatement_nil hno, List.map_nil, checkClauseSpelling]
    have : (findSpelling.finditer q).isEmpty = false := by
      rw [hq]
      have := spelling_found (kw := c!"find") (a := a) (b := b) hw hsp
      cases h : findSpelling.finditer (a ++ (w ++ (sp ++ '(' :: b))) with
      | nil => exact absurd h this
      | cons => rfl
    simp [this]
  exact ⟨h1, by simp [parseFind, h1]⟩

/-- C41 for REPORT: the misspelt word with anything up to a semicolon on the same line. -/
theorem C41_misspelt_report {q a w body b : Str} (hq : q = a ++ (w ++ (body ++ ';' :: b))) (hw : Misspelt c!"report" w)
    (hb : body ≠ []) (hn : '\n' ∉ body) (hno : NoReport q) (hs : List Str) :
    extractAllStatements q .report = .error .clauseSyntax ∧ parseReport q hs = .error .clauseSyntax := by
  have h1 : extractAllStatements q .report = .error .clauseSyntax := by
    rw [extract_def]
    simp only [clauseRe, noReport_nil hno, List.map_nil, checkClauseSpelling]
    have : (reportSpelling.finditer q).isEmpty = false := by
      rw [hq]
      have := reportSpelling_found (a := a) (b := b) hw hb hn
      cases h : reportSpelling.finditer (a ++ (w ++ (body ++ ';' :: b))) with
      | nil => exact absurd h this
      | cons => rfl
    simp [this]
  exact ⟨h1, by simp [parseReport, h1]⟩
end

section
attribute [local instance] demoRuntime

/-- C41 violated: with two blanks before the parenthesis the misspelt MAKE is silently dropped. -/
theorem C41_violated : Misspelt c!"make" c!"MKAE" ∧ parseMake c!"MKAE  (a:A);" = .ok none := by
  exact ⟨by unfold Misspelt; decide, by decide +kernel⟩

example : parseMake c!"FIND (a:A); mkAe (b:B);" = .error .clauseSyntax := by
  exact (C41_misspelt_make_partial (a := c!"FIND (a:A); ") (w := c!"mkAe") (sp := c!" ") (b := c!"b:B);") rfl
    (by unfold Misspelt; decide) (.inr ⟨' ', by decide, rfl⟩) (noStatement_of (noKeyword_of_search (by decide +kernel)))).2

example : parseFind c!"FNID(b:B);" = .error .clauseSyntax :=
  (C41_misspelt_find_partial (a := c!"") (w := c!"FNID") (sp := c!"") (b := c!"b:B);") rfl
    (by unfold Misspelt; decide) (.inl rfl) (noStatement_of (noKeyword_of_search (by decide +kernel)))).2

example : parseReport c!"FIND(b:B);\nROPERT b;" [c!"b"] = .error .clauseSyntax :=
  (C41_misspelt_report (a := c!"FIND(b:B);\n") (w := c!"ROPERT") (body := c!" b") (b := c!"") rfl
    (by unfold Misspelt; decide) (by decide) (by decide) (noReport_of (noKeyword_of_search (by decide +kernel))) _).2
end

end WG
