/-
C68: the only MAKE of a query, on several lines, with more than one white-space character behind its keyword.
-/
import Verif.Props.Dropped
import Verif.Props.Exact
set_option linter.unusedSectionVars false
set_option linter.unusedSimpArgs false

namespace WG
open Re

section
variable [PyRuntime]

/-- `parseReport_text` without the condition on MAKE. -/
theorem parseReport_lines {l : List Line} {f : StmtText} (hl : ∀ x ∈ l, x.Loose)
    (hrep : (reportsOf l = [] ∧ NoAnagram c!"report" (joinLines (l.map Line.render))) ∨
      (∃ r, reportsOf l = [r] ∧ (∀ h ∈ f.first.handles, h <:+: r) ∧ ∀ x ∈ l, NoKeyword c!"report" x.outside)) :
    parseReport (joinLines (l.map Line.render)) f.first.pattern.patternHandles = .ok (parsedReport (reportsOf l)) := by
  rcases hrep with ⟨hr, ha⟩ | ⟨r, hr, hh, hk⟩
  · have hf : reportAll.finditer (joinLines (l.map Line.render)) = [] :=
      noReport_nil (noReport_of fun a w b e => ha a w b e _ (.refl _))
    simp only [parseReport, extractAllStatements, hf, List.map_nil, checkClauseSpelling, reportSpelling_none ha, List.isEmpty_nil,
      if_true, hr, parsedReport, List.head?_nil, Option.map_none]
  · have he : extractAllStatements (joinLines (l.map Line.render)) .report = .ok (some [r]) :=
      extract_of_finditer rfl (by rw [report_finditer hl hk, hr]) (by simp)
    obtain ⟨kw, body, rfl, x, hx, ht⟩ := mem_reportsOf (l := l) (r := r) (by simp [hr])
    have hg := (hl _ hx).text
    rw [ht] at hg
    have hc : checkFindReportHandles f.first.pattern.patternHandles (kw ++ (body ++ c!";")) = .ok () := by
      rw [checkFindReportHandles, if_pos]
      rw [List.all_eq_true]
      intro x hx
      rw [ParsedPattern.patternHandles, handles_pattern] at hx
      exact (isSubstr_iff _ _).2 (hh x (List.mem_filter.1 hx).1)
    have hcs := report_cs hg.1 hg.2.1 hg.2.2.1
    simp [parseReport, he, hc, hcs, hr, parsedReport]

theorem joinLines_two {l r : List Str} (hl : l ≠ []) (hr : r ≠ []) : joinLines (l ++ r) = joinLines l ++ '\n' :: joinLines r := by
  induction l with
  | nil => exact absurd rfl hl
  | cons y l ih =>
    cases l with
    | nil =>
      cases r with
      | nil => exact absurd rfl hr
      | cons z r => simp [joinLines]
    | cons z l =>
      have h1 := ih (by simp)
      have h2 : joinLines (y :: z :: l) = y ++ '\n' :: joinLines (z :: l) := by simp [joinLines]
      have h3 : joinLines (y :: z :: l ++ r) = y ++ '\n' :: joinLines (z :: l ++ r) := by simp [joinLines]
      rw [h3, h1, h2]
      simp

/-- The text of a query around one of its lines. -/
theorem joinLines_around (l : List Str) (x : Str) (l' : List Str) : ∃ a b, joinLines (l ++ x :: l') = a ++ (x ++ b) ∧
    (a = [] ∨ a = joinLines l ++ c!"\n") ∧ (b = [] ∨ b = '\n' :: joinLines l') := by
  obtain ⟨b, hb, e⟩ : ∃ b, (b = [] ∨ b = '\n' :: joinLines l') ∧ joinLines (x :: l') = x ++ b := by
    cases l' with
    | nil => exact ⟨[], .inl rfl, by simp [joinLines]⟩
    | cons y l' => exact ⟨_, .inr rfl, by simp [joinLines]⟩
  cases l with
  | nil => exact ⟨[], b, e, .inl rfl, hb⟩
  | cons y l => exact ⟨_, b, by rw [joinLines_two (by simp) (by simp), e]; simp, .inr rfl, hb⟩

/-- No keyword, spelt in any way, before a parenthesis within one white-space character, if the only MAKE has two behind its keyword. -/
theorem split_not_misspelt {l l' : List Line} {m : StmtText} (hm : m.Split c!"MAKE" c!"make") (h : ∀ x ∈ l ++ l', x.Loose)
    (hne : makesOf (l ++ l') = []) (hq : ∀ x ∈ l ++ l', ∀ t, x.text = .other t → '(' ∉ t) (hsp : 2 ≤ m.sp.length) :
    ¬ LooksMisspelt c!"make" (queryText (withSplit l m l')) := by
  rintro ⟨a, w, sp, b, kw', e, hp, hw, hs1, hs2⟩
  obtain ⟨A, B, e1, hA, hB⟩ := joinLines_around (l.map Line.render) m.render (l'.map Line.render)
  obtain ⟨body, e2, -, -⟩ := stmt_shape hm.toWritten.loose
  have ho := make_open hm.toWritten
  simp only [List.mem_append, not_or] at ho
  have hml : makesOf l = [] ∧ makesOf l' = [] := by simpa [makesOf, List.filterMap_append] using hne
  have eq : queryText (withSplit l m l') = (A ++ (m.kw ++ m.sp)) ++ '(' :: (body ++ c!");" ++ B) := by
    have : queryText (withSplit l m l') = joinLines (l.map Line.render ++ m.render :: l'.map Line.render) := by
      simp [queryText, withSplit, Line.render, LineText.render]
    rw [this, e1, e2]
    simp [stmtText]
  -- the last letter of the word
  obtain ⟨ks, k, rfl⟩ : ∃ ks k, kw' = ks ++ [k] := by
    rcases List.eq_nil_or_concat kw' with rfl | ⟨ks, k, e⟩
    · exact absurd hp.length_eq (by simp)
    · exact ⟨ks, k, by rw [e, List.concat_eq_append]⟩
  obtain ⟨w', x, rfl, hx⟩ := ciSpelling_last hw
  have hk : k ∈ c!"make" := hp.subset (by simp)
  have hxs : isSpace x = false := by
    simp at hk
    rcases hk with rfl | rfl | rfl | rfl <;> simp [matchCI] at hx
    · rcases hx with rfl | rfl <;> simp [isSpace, isAscii]
    · rcases hx with rfl | rfl <;> simp [isSpace, isAscii]
    · rcases hx with (rfl | rfl) | rfl <;> simp [isSpace, isAscii, PyRuntime.uSpace_kelvin]
    · rcases hx with rfl | rfl <;> simp [isSpace, isAscii]
  have quiet : ∀ {o : Option Char}, Quiet o → o ≠ some x := by
    rintro o ⟨y, rfl, hy⟩ e
    obtain rfl : y = x := by simpa using e
    rw [hy k hk] at hx
    simp at hx
  have hAq : ∀ cur, some x ∉ opens cur A := by
    intro cur ho
    rcases hA with rfl | rfl
    · simp [opens] at ho
    · rw [opens_append, List.mem_append] at ho
      rcases ho with ho | ho
      · exact quiet (opens_lines (fun y hy => h y (by simp [hy])) hml.1 (fun y hy => hq y (by simp [hy])) ho) rfl
      · rw [opens_none (by simp)] at ho
        simp at ho
  have hBq : ∀ cur, some x ∉ opens cur B := by
    intro cur ho
    rcases hB with rfl | rfl
    · simp [opens] at ho
    · rw [show '\n' :: joinLines (l'.map Line.render) = c!"\n" ++ joinLines (l'.map Line.render) from rfl, opens_append, List.mem_append] at ho
      rcases ho with ho | ho
      · rw [opens_none (by simp)] at ho
        simp at ho
      · exact quiet (opens_lines (fun y hy => h y (by simp [hy])) hml.2 (fun y hy => hq y (by simp [hy])) ho) rfl
  have hx' : x ≠ ',' ∧ x ≠ '-' ∧ x ≠ '>' ∧ x ≠ '(' := by
    simp at hk
    refine ⟨?_, ?_, ?_, ?_⟩ <;> rintro rfl <;> rcases hk with rfl | rfl | rfl | rfl <;> simp [matchCI] at hx
  have e3 : (a ++ w' ++ x :: sp) ++ '(' :: b = (A ++ (m.kw ++ m.sp)) ++ '(' :: (body ++ c!");" ++ B) := by
    rw [← eq, e]
    simp
  -- the parenthesis of the MAKE
  have same : A ++ (m.kw ++ m.sp) = a ++ w' ++ x :: sp → False := by
    intro h1
    obtain ⟨sp', y, z, es⟩ : ∃ sp' y z, m.sp = sp' ++ [y, z] := by
      rcases List.eq_nil_or_concat m.sp with e | ⟨s, z, e⟩
      · rw [e] at hsp; simp at hsp
      · rcases List.eq_nil_or_concat s with e' | ⟨s, y, e'⟩
        · rw [e, e'] at hsp; simp at hsp
        · exact ⟨s, y, z, by rw [e, e']; simp⟩
    have hms := hm.sp
    rw [es] at hms h1
    simp at hms
    match hsp' : sp, hs1 with
    | [], _ =>
      have : (a ++ w') ++ [x] = (A ++ (m.kw ++ (sp' ++ [y]))) ++ [z] := by simpa using h1.symm
      have := (List.append_inj' this rfl).2
      simp at this
      rw [this, hms.2.2] at hxs
      simp at hxs
    | [c], _ =>
      have : (a ++ w') ++ [x, c] = (A ++ (m.kw ++ sp')) ++ [y, z] := by simpa using h1.symm
      have := (List.append_inj' this rfl).2
      simp at this
      rw [this.1, hms.2.1] at hxs
      simp at hxs
    | _ :: _ :: _, h => simp at h
  rcases List.append_eq_append_iff.1 e3 with ⟨d, h1, h2⟩ | ⟨d, h1, h2⟩
  · cases d with
    | nil => exact same (by simpa using h1)
    | cons c d =>
      -- before it
      obtain ⟨rfl, h2⟩ : '(' = c ∧ b = d ++ '(' :: (body ++ c!");" ++ B) := by simpa using h2
      have : some x ∈ opens none ((a ++ w') ++ x :: (sp ++ '(' :: d)) := opens_mem hxs hs2 none
      rw [show (a ++ w') ++ x :: (sp ++ '(' :: d) = A ++ (m.kw ++ m.sp) by rw [h1]; simp, opens_append, opens_append, opens_none ho.1,
        opens_none ho.2, List.append_nil, List.append_nil] at this
      exact hAq none this
  · cases d with
    | nil => exact same (by simpa using h1.symm)
    | cons c d =>
      -- behind it
      obtain ⟨rfl, h3⟩ : '(' = c ∧ body ++ c!");" ++ B = d ++ '(' :: b := by simpa using h2
      -- the letter stands in `d`
      obtain ⟨d', ed⟩ : ∃ d', d = d' ++ x :: sp := by
        rcases List.append_eq_append_iff.1 h1 with ⟨t, h4, h5⟩ | ⟨t, h4, h5⟩
        · have : '(' ∈ x :: sp := by rw [h5]; simp
          rcases List.mem_cons.1 this with h | h
          · exact absurd h.symm hx'.2.2.2
          · exact absurd h (space_open hs2)
        · cases t with
          | nil => simp at h5; exact absurd h5.1.symm hx'.2.2.2
          | cons c t => simp at h5; exact ⟨t, h5.2⟩
      have : some x ∈ opens (some '(') (body ++ c!");" ++ B) := by
        rw [h3, ed]
        have := opens_mem (a := d') (t := b) hxs hs2 (some '(')
        simpa using this
      rw [opens_append, List.mem_append] at this
      rcases this with this | this
      · rcases opens_inside hm.toWritten e2 this with h | h | h
        · exact hx'.1 h
        · exact hx'.2.1 h
        · exact hx'.2.2.1 h
      · exact hBq _ this

/-- Why C68 fails for a query with a single MAKE: if its patterns stand on several lines and two or more white-space characters stand behind
its keyword, the query does what it does without the MAKE, for every such query. -/
theorem C68_only_make_is_ignored {l l' : List Line} {m f : StmtText} (hm : m.Split c!"MAKE" c!"make") (h : QueryGood (l ++ l') f)
    (hr : (reportsOf (l ++ l') = [] ∧ NoAnagram c!"report" (queryText (withSplit l m l'))) ∨
      (reportsOf (l ++ l') ≠ [] ∧ NoKeyword c!"report" m.render)) (hne : makesOf (l ++ l') = []) (hsp : 2 ≤ m.sp.length)
    (env : Env) (g : GPath) (fs : FS) :
    (query env (queryText (withSplit l m l')) g).run fs = (query env (queryText (l ++ l')) g).run fs := by
  have hl : ∀ x ∈ withSplit l m l', x.Loose := by
    intro x hx
    simp only [withSplit, List.mem_append, List.mem_cons] at hx
    rcases hx with hx | rfl | hx
    · exact (h.lines x (by simp [hx])).loose
    · exact (line_good (x := .other m.render) (split_stray hm)).loose
    · exact (h.lines x (by simp [hx])).loose
  have hmake : parseMake (queryText (withSplit l m l')) = .ok none := by
    have hn := split_not_misspelt hm (fun x hx => (h.lines x hx).loose) hne (h.quiet hne) hsp
    rw [← spelling_iff] at hn
    have hs : makeSpelling.finditer (queryText (withSplit l m l')) = [] := Classical.not_not.1 hn
    have hf : makeAll.finditer (queryText (withSplit l m l')) = [] := by
      have := make_finditer hl
      rw [withSplit_of.1, hne] at this
      exact List.map_eq_nil_iff.1 this
    simp only [parseMake, extractAllStatements, hf, List.map_nil, checkClauseSpelling, hs, List.isEmpty_nil, if_true]
  have hfg := checkRels_good (l := [f]) (fun t ht => findsOf_goods h.lines t (by rw [h.find]; exact ht))
  simp only [List.map_cons, List.map_nil] at hfg
  have hfind := parseFind_loose hl (f := f) (by rw [withSplit_of.2.1, h.find])
  rw [hfg] at hfind
  have hrep := parseReport_lines (f := f) hl (by
    rw [withSplit_of.2.2]
    rcases hr with ⟨h1, h2⟩ | ⟨h1, h2⟩
    · exact .inl ⟨h1, h2⟩
    · rcases h.report with ⟨h3, -⟩ | ⟨r, h3, h4, h5⟩
      · exact absurd h3 h1
      · refine .inr ⟨r, h3, h4, fun x hx => ?_⟩
        simp only [withSplit, List.mem_append, List.mem_cons] at hx
        rcases hx with hx | rfl | hx
        · exact h5 x (by simp [hx])
        · simpa [Line.outside, Line.render, LineText.render] using h2
        · exact h5 x (by simp [hx]))
  rw [withSplit_of.2.2] at hrep
  have h1 : parseQueryString (queryText (withSplit l m l')) = .ok ⟨none, some ⟨f.render, .find, f.first.pattern⟩, parsedReport (reportsOf (l ++ l'))⟩ := by
    rw [parseQueryString, hmake]
    unfold queryText
    rw [hfind]
    simp only [hrep]
  have h2 := parseQuery_text h
  rw [hne] at h2
  rw [query_run, query_run, h1]
  unfold queryText
  rw [h2]
  rfl

end

section
attribute [local instance] demoRuntime

/-- C68 on a query whose only MAKE has two blanks behind its keyword and stands on two lines. -/
example : (query demoEnv c!"MAKE  (a:Man)-[r:KNOWS]->\n(b:Man);\nFIND (c:Man);" demoG).run demoFresh =
    (query demoEnv c!"FIND (c:Man);" demoG).run demoFresh :=
  C68_only_make_is_ignored (l := []) (l' := [{ text := .find eFind }]) (f := eFind) (eSplit_split (sp := c!"  ") (by decide))
    ⟨by simp only [List.nil_append, List.mem_singleton, forall_eq]; exact line_good (x := .find eFind) eFind_good, rfl, by simp,
      .inl ⟨rfl, noAnagram_of (k := 't') (by decide) (by decide)⟩⟩
    (.inl ⟨rfl, noAnagram_of (k := 't') (by decide) (by decide)⟩) rfl (by decide) demoEnv demoG demoFresh

end

end WG
