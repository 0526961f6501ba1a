/-
Lemmas: queries typed on one line.
-/
import Verif.Proofs.EndToEnd
set_option linter.unusedSectionVars false
set_option linter.unusedSimpArgs false

namespace WG
open Re
variable [PyRuntime]

theorem kwStart_make : KwStart c!"make" := ⟨'m', _, rfl, by decide, by decide⟩
theorem kwStart_find : KwStart c!"find" := ⟨'f', _, rfl, by decide, by decide⟩

theorem spelling_make {t : StmtText} (h : t.Good c!"MAKE" c!"make") : IsSpelling c!"make" t.kw := by
  rcases h.kw with e | e <;> rw [e] <;> rfl
theorem spelling_find {t : StmtText} (h : t.Good c!"FIND" c!"find") : IsSpelling c!"find" t.kw := by
  rcases h.kw with e | e <;> rw [e] <;> rfl

theorem noKeyword_nil {kw : Str} (h : kw ≠ []) : NoKeyword kw [] := by
  cases kw with
  | nil => exact absurd rfl h
  | cons k ks => exact noKeyword_of rfl

/-- A line that consists of an indented statement. -/
theorem clause_line {kw ind w sp body : Str} (hst : KwStart kw) (hne : kw ≠ []) (hk : ∀ w, CISpelling kw w → '\n' ∉ w)
    (hi : Indent ind) (hw : IsSpelling kw w) (hsp : sp.all isSpace = true) (hb : body ≠ []) (hn : '\n' ∉ body) :
    ((clauseAll kw).finditer (ind ++ stmtText w sp body)).map Prod.fst = [stmtText w sp body] := by
  have hq : QLine kw (ind ++ (stmtText w sp body ++ [])) (some (stmtText w sp body)) :=
    .stmt ind w sp body [] hi hw hsp hb hn (by simp) (by simp) (noKeyword_nil hne)
  have := line_clauseAll hst hk hq (s := []) (.inl rfl)
  have h0 : (clauseAll kw).finditer [] = [] := finditer_nil (fails_lineEnd hne hk (.inl rfl))
  rw [h0] at this
  simpa using this

theorem semi_notHead (s : Str) : NotHead (fun c => !idleChar c) (c!";" ++ s) :=
  notHead_idle (by simp [Idle, isSpace, isAscii]) (by simp)

/-- The first pattern of a statement, whatever stands behind the statement. -/
theorem first_pattern {up low : Str} {t : StmtText} (h : t.Good up low) (h1 : Idle up) (h2 : Idle low) (s : Str) :
    ∃ l, statementPatterns (t.render ++ s) = t.first.pattern :: l := by
  have hi : Idle t.kw := by rcases h.kw with e | e <;> rw [e] <;> assumption
  have hr : NotHead (fun c => !idleChar c) (renderRest t.rest ++ (c!";" ++ s)) := by
    cases hrest : t.rest with
    | nil => exact semi_notHead s
    | cons x l =>
      obtain ⟨sp, c⟩ := x
      have := notHead_idle (t := c!",") (rest := sp ++ (c.render ++ renderRest l) ++ (c!";" ++ s)) (by simp [Idle, isSpace, isAscii])
        (by simp)
      simpa [renderRest] using this
  have := statementPatterns_chain h.toWritten.firstOK hi h.sp hr
  refine ⟨statementPatterns (renderRest t.rest ++ (c!";" ++ s)), ?_⟩
  rw [← this]
  simp [StmtText.render]

theorem TypedText.text {t : TypedText} (h : t.Good) : ∃ body, t.render = stmtText t.find.kw t.find.sp body ∧ body ≠ [] ∧ '\n' ∉ body := by
  obtain ⟨b, e, hb, hn⟩ := stmt_text h.find.loose
  cases hm : t.make with
  | none => exact ⟨b, by simp [TypedText.render, hm, e], hb, hn⟩
  | some m =>
    obtain ⟨b', e', hb', hn'⟩ := stmt_text (h.make m hm).loose
    refine ⟨b ++ (c!");" ++ (t.gap ++ (m.kw ++ (m.sp ++ '(' :: b')))), ?_, by simp [hb], ?_⟩
    · simp [TypedText.render, hm, e, e', stmtText]
    · have hl := h.line
      simp only [TypedText.render, hm, e', stmtText, List.mem_append, List.mem_cons, not_or] at hl ⊢
      replace hl := hl.2.2
      refine ⟨hn, by decide, fun hc => ?_, hl.1, hl.2.1, by decide, hn'⟩
      rcases h.gap _ hc with h | h <;> simp at h

theorem typed_find {t : TypedText} (h : t.Good) :
    parseFind t.render = .ok (some ⟨t.render, .find, t.find.first.pattern⟩) := by
  obtain ⟨b, e, hb, hn⟩ := t.text h
  have hf : (findAll.finditer t.render).map Prod.fst = [t.render] := by
    have := clause_line kwStart_find (by simp) (fun _ h => ciSpelling_noNL (by decide) (by decide) h) (ind := []) (by simp [Indent])
      (spelling_find h.find) h.find.sp hb hn
    rw [e]
    exact this
  have he : extractAllStatements t.render .find = .ok (some [t.render]) := extract_of_finditer rfl hf (by simp)
  have ha : Passes t.render := by
    refine passes_stmt_app make_mild.2.2.1 make_mild.2.2.2 h.find ?_
    cases hm : t.make with
    | none => exact passes_nil
    | some m =>
      refine passes_mild ?_ (passes_stmt make_mild.1 make_mild.2.1 (h.make m hm))
      rw [List.all_eq_true]
      intro c hc
      rcases h.gap c hc with rfl | rfl <;> simp [mildChar, isSpace, isAscii]
  have hv : validateStatement [t.render] = .ok () := validate_passes (ha)
  obtain ⟨l, hp⟩ := first_pattern h.find make_idle.2.2.1 make_idle.2.2.2 (match t.make with
    | none => []
    | some m => t.gap ++ m.render)
  have hcs : (findAllCS.matchAt t.render).isSome = true := by
    rw [e]
    exact cs_match h.find.kw h.find.sp hb hn
  have hbuild : buildParsedFind t.render = .ok ⟨t.render, .find, t.find.first.pattern⟩ := by
    rw [buildParsedFind, show statementPatterns t.render = _ from hp]
    simp only
    rw [validate_chain (h.find.chains _ (by simp [StmtText.chains])).2]
    simp only
    rw [if_pos hcs]
  simp [parseFind, he, hv, hbuild]

theorem find_avoids {t : StmtText} (h : t.Good c!"FIND" c!"find") (s : Str) : makeAll.finditer (t.render ++ s) = makeAll.finditer s := by
  obtain ⟨l, e⟩ := stmt_semi t
  rw [e]
  refine skip_opens (ks := c!"mak") (k := 'e') solid_de.2 (by decide) fun y hy => ?_
  rw [← e] at hy
  have := opens_find (s := []) h.toWritten.loose (by rw [List.append_nil]; exact hy)
  simp [opens] at this
  rcases this with rfl | rfl | rfl | rfl | rfl <;> decide

theorem typed_make {t : TypedText} (h : t.Good) : parseMake t.render = .ok (parsedMakes t.make.toList) := by
  cases hm : t.make with
  | none =>
    have := parseMake_text (l := [line (.find t.find)]) (by simpa using line_good (x := .find t.find) h.find) (by simp [line])
    simpa [TypedText.render, hm, joinLines, Line.render, line, LineText.render, makesOf] using this
  | some m =>
    have hmg := h.make m hm
    obtain ⟨b, e, hb, hn⟩ := stmt_text hmg.loose
    have hf : (makeAll.finditer t.render).map Prod.fst = [m.render] := by
      have := clause_line kwStart_make (by simp) (fun _ h => ciSpelling_noNL (by decide) (by decide) h) h.gap
        (spelling_make hmg) hmg.sp hb hn
      simp only [TypedText.render, hm]
      rw [find_avoids h.find, e]
      exact this
    have he : extractAllStatements t.render .make = .ok (some [m.render]) := extract_of_finditer rfl hf (by simp)
    have hv : validateStatement [m.render] = .ok () := validate_passes (passes_stmt make_mild.1 make_mild.2.1 hmg)
    simp [parseMake, he, hv, buildParsedMakes, build_make hmg.loose, parsedMakes]

theorem report_none {q : Str} (h : NoAnagram c!"report" q) (hs : List Str) : parseReport q hs = .ok none := by
  have hf : reportAll.finditer q = [] := noReport_nil (noReport_of fun a w b e => h a w b e _ (.refl _))
  simp only [parseReport, extractAllStatements, hf, List.map_nil, checkClauseSpelling, reportSpelling_none h, List.isEmpty_nil,
    if_true]

theorem typed_parse {t : TypedText} (h : t.Good) : parseQueryString t.render =
    .ok ⟨parsedMakes t.make.toList, some ⟨t.render, .find, t.find.first.pattern⟩, none⟩ := by
  rw [parseQueryString, typed_make h, typed_find h]
  simp only [report_none h.report]

/-! ### The MAKE before the FIND -/

theorem makeFirst_text {m f : StmtText} {gap : Str} (hm : m.Good c!"MAKE" c!"make") (hf : f.Good c!"FIND" c!"find") (hg : Indent gap)
    (hl : '\n' ∉ f.sp) :
    ∃ body, makeFirst m gap f = stmtText m.kw m.sp body ∧ body ≠ [] ∧ '\n' ∉ body := by
  obtain ⟨b, e, hb, hn⟩ := stmt_text hm.loose
  obtain ⟨b', e', hb', hn'⟩ := stmt_text hf.loose
  refine ⟨b ++ (c!");" ++ (gap ++ (f.kw ++ (f.sp ++ '(' :: b')))), ?_, by simp [hb], ?_⟩
  · simp [makeFirst, e, e', stmtText]
  · replace hl : '\n' ∉ f.kw ++ f.sp := by
      simp only [List.mem_append, not_or]
      exact ⟨by rcases hf.kw with e | e <;> rw [e] <;> decide, hl⟩
    simp only [stmtText, List.mem_append, List.mem_cons, not_or] at hl ⊢
    refine ⟨hn, by decide, fun hc => ?_, hl.1, hl.2, by decide, hn'⟩
    rcases hg _ hc with h | h <;> simp at h

/-- The whole line is taken as one MAKE. -/
theorem makeFirst_extract {m f : StmtText} {gap : Str} (hm : m.Good c!"MAKE" c!"make") (hf : f.Good c!"FIND" c!"find") (hg : Indent gap)
    (hl : '\n' ∉ f.sp) :
    extractAllStatements (makeFirst m gap f) .make = .ok (some [makeFirst m gap f]) := by
  obtain ⟨b, e, hb, hn⟩ := makeFirst_text hm hf hg hl
  refine extract_of_finditer (re := makeAll) rfl ?_ (by simp)
  rw [e]
  exact clause_line kwStart_make (by simp) (fun _ h => ciSpelling_noNL (by decide) (by decide) h) (ind := []) (by simp [Indent])
    (spelling_make hm) hm.sp hb hn

theorem list_ok {up low : Str} {t : StmtText} (h : t.Good up low) (h1 : Idle up) (h2 : Idle low) : PatternsOK t.list := by
  have hcomma : Idle c!"," := by simp [Idle, isSpace, isAscii]
  refine ⟨fun x hx => ?_, fun x hx => ?_⟩
  · rcases List.mem_cons.1 hx with rfl | hx
    · refine ⟨?_, h.sp, h.toWritten.firstOK⟩
      rcases h.kw with e | e <;> simp only [e] <;> assumption
    · obtain ⟨y, hy, rfl⟩ := List.mem_map.1 hx
      exact ⟨hcomma, h.toWritten.restOK y hy⟩
  · obtain ⟨y, hy, rfl⟩ := List.mem_map.1 (show x ∈ t.rest.map _ from hx)
    simp

theorem list_patterns (t : StmtText) : t.list.map (·.2.2.pattern) = t.chains.map ChainText.pattern := by
  simp [StmtText.list, StmtText.chains]

theorem stmt_notHead {t : StmtText} (h : t.Good c!"FIND" c!"find") : NotHead (fun c => !idleChar c) t.render := by
  have hi : Idle t.kw := by
    rcases h.kw with e | e <;> rw [e] <;> first | exact make_idle.2.2.1 | exact make_idle.2.2.2
  refine notHead_idle hi fun e => ?_
  rcases h.kw with e' | e' <;> rw [e] at e' <;> simp at e'

theorem makeFirst_patterns {m f : StmtText} {gap : Str} (hm : m.Good c!"MAKE" c!"make") (hf : f.Good c!"FIND" c!"find") (hg : Indent gap) :
    statementPatterns (makeFirst m gap f) = m.chains.map ChainText.pattern ++
      ((if gap = [] then [] else [⟨.absent, .absent, .absent, .absent, .absent⟩]) ++ f.chains.map ChainText.pattern) := by
  have hsemi : Idle c!";" := by simp [Idle, isSpace, isAscii]
  have e : makeFirst m gap f = renderPatterns m.list ++ (c!";" ++ (gap ++ f.render)) := by
    simp [makeFirst, render_list m]
  rw [e, statementPatterns_app (list_ok hm make_idle.1 make_idle.2.1) (semi_notHead _), patterns_idle (idle_iff.1 hsemi), list_patterns]
  congr 1
  by_cases h : gap = []
  · subst h
    simpa using stmt_patterns hf.loose make_idle.2.2.1 make_idle.2.2.2
  · have hsp : gap.all isSpace = true := by
      rw [List.all_eq_true]
      intro c hc
      rcases hg c hc with rfl | rfl <;> simp [isSpace, isAscii]
    rw [statementPatterns_blank hsp h (stmt_notHead hf), if_neg h, stmt_patterns hf.loose make_idle.2.2.1 make_idle.2.2.2]
    rfl

theorem makeFirst_accepted {m f : StmtText} {gap : Str} (hm : m.Good c!"MAKE" c!"make") (hf : f.Good c!"FIND" c!"find") (hg : Indent gap) :
    Passes (makeFirst m gap f) := by
  refine passes_stmt_app make_mild.1 make_mild.2.1 hm (passes_mild ?_ (passes_stmt make_mild.2.2.1 make_mild.2.2.2 hf))
  rw [List.all_eq_true]
  intro c hc
  rcases hg c hc with rfl | rfl <;> simp [mildChar, isSpace, isAscii]

theorem validatePatterns_append {l l' : List ParsedPattern} (h : validatePatterns l = .ok l) (h' : validatePatterns l' = .ok l') :
    validatePatterns (l ++ l') = .ok (l ++ l') := by
  induction l with
  | nil => exact h'
  | cons p l ih =>
    simp only [List.cons_append, validatePatterns] at h ⊢
    cases hp : p.validate with
    | error e => rw [hp] at h; simp at h
    | ok p' =>
      rw [hp] at h
      simp only at h ⊢
      cases hv : validatePatterns l with
      | error e => rw [hv] at h; simp at h
      | ok l'' =>
        rw [hv] at h
        simp only [Except.ok.injEq, List.cons.injEq] at h
        obtain ⟨rfl, rfl⟩ := h
        rw [ih hv]

theorem makeFirst_make {m f : StmtText} {gap : Str} (hm : m.Good c!"MAKE" c!"make") (hf : f.Good c!"FIND" c!"find") (hg : Indent gap)
    (hl : '\n' ∉ f.sp) :
    parseMake (makeFirst m gap f) =
      .ok (some [⟨makeFirst m gap f, .make, statementPatterns (makeFirst m gap f)⟩]) := by
  have hv : validateStatement [makeFirst m gap f] = .ok () := validate_passes (makeFirst_accepted hm hf hg)
  have hp : validatePatterns (statementPatterns (makeFirst m gap f)) = .ok (statementPatterns (makeFirst m gap f)) := by
    rw [makeFirst_patterns hm hf hg]
    refine validatePatterns_append (validatePatterns_chains fun c hc => (hm.chains c hc).2)
      (validatePatterns_append ?_ (validatePatterns_chains fun c hc => (hf.chains c hc).2))
    split
    · rfl
    · rfl
  have hcs : (makeAllCS.matchAt (makeFirst m gap f)).isSome = true := by
    obtain ⟨b, e, hb, hn⟩ := makeFirst_text hm hf hg hl
    rw [e]
    exact cs_match hm.kw hm.sp hb hn
  simp only [parseMake, makeFirst_extract hm hf hg hl, hv, buildParsedMakes, buildParsedMake, hp, hcs, if_true]

theorem make_avoids {t : StmtText} (h : t.Good c!"MAKE" c!"make") (s : Str) : findAll.finditer (t.render ++ s) = findAll.finditer s := by
  obtain ⟨l, e⟩ := stmt_semi t
  rw [e]
  refine skip_opens (ks := c!"fin") (k := 'd') solid_de.1 (by decide) fun y hy => ?_
  rw [← e] at hy
  have := opens_make (s := []) h.toWritten.loose (by rw [List.append_nil]; exact hy)
  simp [opens] at this
  rcases this with rfl | rfl | rfl | rfl | rfl <;> decide

theorem makeFirst_find {m f : StmtText} {gap : Str} (hm : m.Good c!"MAKE" c!"make") (hf : f.Good c!"FIND" c!"find") (hg : Indent gap) :
    parseFind (makeFirst m gap f) = .ok (some ⟨f.render, .find, f.first.pattern⟩) := by
  obtain ⟨b, e, hb, hn⟩ := stmt_text hf.loose
  have h1 : (findAll.finditer (makeFirst m gap f)).map Prod.fst = [f.render] := by
    have := clause_line kwStart_find (by simp) (fun _ h => ciSpelling_noNL (by decide) (by decide) h) hg
      (spelling_find hf) hf.sp hb hn
    rw [makeFirst, make_avoids hm, e]
    exact this
  have he : extractAllStatements (makeFirst m gap f) .find = .ok (some [f.render]) := extract_of_finditer rfl h1 (by simp)
  have hv : validateStatement [f.render] = .ok () := validate_passes (passes_stmt make_mild.2.2.1 make_mild.2.2.2 hf)
  simp [parseFind, he, hv, build_find hf.loose]

/-! ### Texts without one of the letters -/

theorem ciSpelling_mem {kw w : Str} {k : Char} (hk : k ∈ kw) (h : CISpelling kw w) : ∃ x ∈ w, matchCI k x = true := by
  induction kw generalizing w with
  | nil => simp at hk
  | cons k' ks ih =>
    cases w with
    | nil => simp [CISpelling] at h
    | cons c w =>
      rcases List.mem_cons.1 hk with rfl | hk
      · exact ⟨c, by simp, h.1⟩
      · obtain ⟨x, hx, h'⟩ := ih hk h.2
        exact ⟨x, List.mem_cons_of_mem _ hx, h'⟩

theorem noAnagram_of {kw t : Str} {k : Char} (hk : k ∈ kw) (h : ∀ x ∈ t, matchCI k x = false) : NoAnagram kw t := by
  rintro a w b rfl kw' hp hs
  obtain ⟨x, hx, hm⟩ := ciSpelling_mem (hp.mem_iff.2 hk) hs
  rw [h x (by simp [hx])] at hm
  simp at hm

/-! ### Sessions -/

theorem records_append {R : Int → ChainText → Dict V → Prop} {b : Int} {cs cs' : List ChainText} {x y : Dict V} (h1 : Records R b cs x)
    (h2 : Records R (b + sizeOfAll cs) cs' y) : Records R b (cs ++ cs') (x ++ y) := by
  induction cs generalizing b x with
  | nil =>
    rw [show x = [] from h1]
    simpa [sizeOfAll] using h2
  | cons c cs ih =>
    obtain ⟨u, v, rfl, h3, h4⟩ := h1
    refine ⟨u, v ++ y, by simp, h3, ih h4 ?_⟩
    have : b + (sizeOfAll (c :: cs) : Int) = b + c.size + sizeOfAll cs := by simp [sizeOfAll]; omega
    rw [← this]
    exact h2

theorem indexed_trans {cs cs' : List ChainText} {new new' : Dict V} {l n l1 n1 l2 n2 : List Str} {r r1 r2 : Dict (List Int)}
    (h1 : Indexed cs new l n r l1 n1 r1) (h2 : Indexed cs' new' l1 n1 r1 l2 n2 r2) :
    Indexed (cs ++ cs') (new ++ new') l n r l2 n2 r2 := by
  refine ⟨fun x => ?_, fun x => ?_, fun k m => ?_⟩
  · rw [h2.labels, h1.labels]
    simp only [List.mem_append, or_and_right, exists_or, or_assoc]
  · rw [h2.names, h1.names]
    simp only [List.mem_append, or_and_right, exists_or, or_assoc]
    grind
  · rw [h2.rels, h1.rels]
    simp only [List.mem_append, or_and_right, exists_or, or_assoc]

theorem sizeOfAll_append (a b : List ChainText) : sizeOfAll (a ++ b) = sizeOfAll a + sizeOfAll b := by
  simp [sizeOfAll]

end WG
