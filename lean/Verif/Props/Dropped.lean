/-
C68: whether a statement that is written is executed.
-/
import Verif.Proofs.Dropped
import Verif.Props.EndToEnd
set_option linter.unusedSectionVars false
set_option linter.unusedSimpArgs false

namespace WG
open Re

section
variable [PyRuntime]

/-- A query with a further MAKE, on several lines, between its lines. -/
def withSplit (l : List Line) (m : StmtText) (l' : List Line) : List Line := l ++ { text := .other m.render } :: l'

theorem withSplit_of {l l' : List Line} {m : StmtText} :
    makesOf (withSplit l m l') = makesOf (l ++ l') ∧ findsOf (withSplit l m l') = findsOf (l ++ l') ∧
      reportsOf (withSplit l m l') = reportsOf (l ++ l') := by
  simp [withSplit, makesOf, findsOf, reportsOf, List.filterMap_append]

theorem withSplit_good {l l' : List Line} {m f : StmtText} (hm : m.Split c!"MAKE" c!"make") (h : QueryGood (l ++ l') f)
    (hr : (reportsOf (l ++ l') = [] ∧ NoAnagram c!"report" (queryText (withSplit l m l'))) ∨
      (reportsOf (l ++ l') ≠ [] ∧ NoKeyword c!"report" m.render)) (hne : makesOf (l ++ l') ≠ []) : QueryGood (withSplit l m l') f where
  lines x hx := by
    simp only [withSplit, List.mem_append, List.mem_cons] at hx
    rcases hx with hx | rfl | hx
    · exact h.lines x (by simp [hx])
    · exact line_good (x := .other m.render) (split_stray hm)
    · exact h.lines x (by simp [hx])
  find := by rw [withSplit_of.2.1, h.find]
  quiet h0 := by
    rw [withSplit_of.1] at h0
    exact absurd h0 hne
  report := by
    rw [withSplit_of.2.2]
    rcases hr with ⟨h1, h2⟩ | ⟨h1, h2⟩
    · exact .inl ⟨h1, h2⟩
    · rcases h.report with ⟨h3, -⟩ | ⟨r, h3, h4, h5⟩
      · exact absurd h3 h1
      · refine .inr ⟨r, h3, h4, fun x hx => ?_⟩
        simp only [withSplit, List.mem_append, List.mem_cons] at hx
        rcases hx with hx | rfl | hx
        · exact h5 x (by simp [hx])
        · simpa [Line.outside, Line.render, LineText.render] using h2
        · exact h5 x (by simp [hx])

/-- Why C68 fails: in a well-formed query with a MAKE, a further MAKE whose patterns stand on several lines is silently
ignored, whatever it says and wherever it stands; the query does what it does without it. -/
theorem C68_split_make_is_ignored {l l' : List Line} {m f : StmtText} (hm : m.Split c!"MAKE" c!"make") (h : QueryGood (l ++ l') f)
    (hr : (reportsOf (l ++ l') = [] ∧ NoAnagram c!"report" (queryText (withSplit l m l'))) ∨
      (reportsOf (l ++ l') ≠ [] ∧ NoKeyword c!"report" m.render)) (hne : makesOf (l ++ l') ≠ []) (env : Env) (g : GPath) (fs : FS) :
    (query env (queryText (withSplit l m l')) g).run fs = (query env (queryText (l ++ l')) g).run fs := by
  have h1 := parseQuery_text (withSplit_good hm h hr hne)
  have h2 := parseQuery_text h
  rw [withSplit_of.1, withSplit_of.2.2, ← h2] at h1
  rw [query_run, query_run]
  unfold queryText
  rw [h1]

/-- C68, partial: if it is the only MAKE of the query and at most one white-space character stands behind its keyword, the
query is refused and nothing is stored.  Missing: other MAKEs in the query (`C68_split_make_is_ignored`), more white space
(`C68_violated_only`). -/
theorem C68_only_make_is_refused_partial {l l' : List Line} {m : StmtText} (hm : m.Split c!"MAKE" c!"make")
    (h : ∀ x ∈ l ++ l', x.Good) (hne : makesOf (l ++ l') = []) (hsp : m.sp.length ≤ 1) (env : Env) (g : GPath) (fs : FS) :
    (query env (queryText (withSplit l m l')) g).run fs = (.error .clauseSyntax, fs) := by
  have hf : (makeAll.finditer (queryText (withSplit l m l'))).map Prod.fst = [] := by
    have := make_finditer (l := withSplit l m l') (fun x hx => by
      simp only [withSplit, List.mem_append, List.mem_cons] at hx
      rcases hx with hx | rfl | hx
      · exact (h x (by simp [hx])).loose
      · exact (line_good (x := .other m.render) (split_stray hm)).loose
      · exact (h x (by simp [hx])).loose)
    rw [withSplit_of.1, hne] at this
    exact this
  obtain ⟨a, b, e⟩ : ∃ a b, queryText (withSplit l m l') = a ++ (m.render ++ b) := by
    have key : ∀ (l : List Line) (x : Str) (l' : List Line), ∃ a b,
        joinLines (l.map Line.render ++ x :: l'.map Line.render) = a ++ (x ++ b) := by
      intro l x l'
      induction l with
      | nil =>
        cases l' with
        | nil => exact ⟨[], [], by simp [joinLines]⟩
        | cons y l' => exact ⟨[], '\n' :: joinLines ((y :: l').map Line.render), by simp [joinLines]⟩
      | cons y l ih =>
        obtain ⟨a, b, e⟩ := ih
        refine ⟨y.render ++ '\n' :: a, b, ?_⟩
        cases l with
        | nil => simp only [List.map_nil, List.nil_append, List.map_cons, List.cons_append] at e ⊢; rw [joinLines, e]; simp; simp
        | cons z l => simp only [List.map_cons, List.cons_append] at e ⊢; rw [joinLines, e]; simp; simp
    obtain ⟨a, b, e⟩ := key l m.render l'
    exact ⟨a, b, by simpa [queryText, withSplit, Line.render, LineText.render] using e⟩
  obtain ⟨body, e2, -, -⟩ := stmt_shape hm.toWritten.loose
  have hs : makeSpelling.finditer (queryText (withSplit l m l')) ≠ [] := by
    rw [e, e2]
    have e3 : a ++ (stmtText m.kw m.sp body ++ b) = a ++ (m.kw ++ (m.sp ++ '(' :: (body ++ c!");" ++ b))) := by simp [stmtText]
    rw [e3]
    refine spelling_found (kw := c!"make") ?_ ?_
    · rcases hm.kw with e | e <;> rw [e] <;> exact .refl _
    · match hmsp : m.sp with
      | [] => exact .inl rfl
      | [c] =>
        have := hm.sp
        rw [hmsp] at this
        exact .inr ⟨c, by simpa using this, rfl⟩
      | _ :: _ :: _ => rw [hmsp] at hsp; simp at hsp
  have hp : parseQueryString (queryText (withSplit l m l')) = .error .clauseSyntax := by
    have : makeAll.finditer (queryText (withSplit l m l')) = [] := by simpa using hf
    cases hsf : makeSpelling.finditer (queryText (withSplit l m l')) with
    | nil => exact absurd hsf hs
    | cons => simp [parseQueryString, parseMake, extractAllStatements, this, checkClauseSpelling, hsf]
  rw [query_run, hp]

end

/-! ### Examples and counterexamples -/

section
attribute [local instance] demoRuntime

/-- `-[r:KNOWS]->` and a line feed. -/
def eRelNl : RelText := { eRel with sp3 := c!"\n" }
/-- `MAKE (a:Man)-[r:KNOWS]->`, line feed, `(b:Man);`. -/
def eSplit (sp : Str) : StmtText := ⟨c!"MAKE", sp, .two (eNode c!"a" c!"Man" none) eRelNl (eNode c!"b" c!"Man" none), []⟩

theorem eSplit_split {sp : Str} (h : sp.all isSpace = true) : (eSplit sp).Split c!"MAKE" c!"make" where
  kw := .inl rfl
  sp := h
  rest := by simp [eSplit]
  chains := by
    simp only [eSplit, StmtText.chains, List.map_nil, List.mem_singleton, forall_eq]
    refine ⟨⟨eNode_good (by decide) (by decide) (by decide), ?_, eNode_good (by decide) (by decide) (by decide)⟩, by decide⟩
    obtain ⟨⟨h1, h2, h3, h4, h5, h6, -⟩, h8, h9, h10⟩ := eRel_good
    exact ⟨⟨h1, h2, h3, h4, h5, h6, by decide⟩, h8, h9, h10⟩
  close := by
    rintro c h
    simp [eSplit, StmtText.chains] at h
    subst h
    rfl
  lines := by
    rw [show (eSplit sp).first = (eSplit []).first from rfl, show (eSplit sp).rest = (eSplit []).rest from rfl]
    decide

/-- C68 on a query with two MAKEs. -/
example : (query demoEnv c!"MAKE (a:Man{x: 5})-[r:KNOWS]->(b:Man);\nMAKE (a:Man)-[r:KNOWS]->\n(b:Man);\nFIND (c:Man);" demoG).run demoFresh =
    (query demoEnv c!"MAKE (a:Man{x: 5})-[r:KNOWS]->(b:Man);\nFIND (c:Man);" demoG).run demoFresh := by
  have := C68_split_make_is_ignored (l := [{ text := .make eMake }]) (l' := [{ text := .find eFind }]) (f := eFind)
    (eSplit_split (sp := c!" ") (by decide)) eQuery_good (.inl ⟨rfl, noAnagram_of (k := 't') (by decide) (by decide)⟩)
    (by simp [makesOf]) demoEnv demoG demoFresh
  rw [← eQuery_text]
  exact this

/-- C68 on a query with one MAKE. -/
example : (query demoEnv c!"MAKE (a:Man)-[r:KNOWS]->\n(b:Man);\nFIND (c:Man);" demoG).run demoFresh = (.error .clauseSyntax, demoFresh) :=
  C68_only_make_is_refused_partial (l := []) (l' := [{ text := .find eFind }]) (eSplit_split (sp := c!" ") (by decide))
    (by
      simp only [List.nil_append, List.mem_singleton, forall_eq]
      exact line_good (x := .find eFind) eFind_good) rfl (by decide) demoEnv demoG demoFresh

/-- C68 is violated: the query returns true, and of its two MAKEs only the first is stored. -/
theorem C68_violated : (eSplit c!" ").Split c!"MAKE" c!"make" ∧
    Stores demoEnv (eMake.render ++ (c!"\n" ++ ((eSplit c!" ").render ++ (c!"\n" ++ eFind.render)))) demoG demoFresh [] [] [] [] 0
      [eMake.first] := by
  refine ⟨eSplit_split (by decide), ?_⟩
  have h := C65_query_stores_what_it_says_partial eQuery_runnable demoEnv demoG demoFresh [] [] [] [] 0 demoFresh_healthy (below_nil 0)
  have e := C68_split_make_is_ignored (l := [{ text := .make eMake }]) (l' := [{ text := .find eFind }]) (f := eFind)
    (eSplit_split (sp := c!" ") (by decide)) eQuery_good (.inl ⟨rfl, noAnagram_of (k := 't') (by decide) (by decide)⟩)
    (by simp [makesOf]) demoEnv demoG demoFresh
  obtain ⟨fs', new, l, n, r, h1, h2⟩ := h
  exact ⟨fs', new, l, n, r, e.trans h1, h2⟩

/-- C68 is violated: with two blanks behind the keyword, the only MAKE of a query is ignored, and the query returns true. -/
theorem C68_violated_only : (eSplit c!"  ").Split c!"MAKE" c!"make" ∧
    parseQueryString ((eSplit c!"  ").render ++ (c!"\n" ++ eFind.render)) = .ok ⟨none, some ⟨eFind.render, .find, eFind.first.pattern⟩, none⟩ ∧
    ((query demoEnv ((eSplit c!"  ").render ++ (c!"\n" ++ eFind.render)) demoG).run demoFresh).1 = .ok true := by
  have hp : parseQueryString ((eSplit c!"  ").render ++ (c!"\n" ++ eFind.render)) =
      .ok ⟨none, some ⟨eFind.render, .find, eFind.first.pattern⟩, none⟩ := by decide +kernel
  refine ⟨eSplit_split (by decide), hp, ?_⟩
  rw [query_run, hp]
  rfl

end

end WG
