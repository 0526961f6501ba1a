/-
Lemmas: statements in a row on one line.
-/
import Verif.Spec.Row
import Verif.Proofs.Typed
set_option linter.unusedSectionVars false
set_option linter.unusedSimpArgs false

namespace WG
open Re
variable [PyRuntime]

theorem indent_space {t : Str} (h : Indent t) : t.all isSpace = true := by
  rw [List.all_eq_true]
  intro c hc
  rcases h c hc with rfl | rfl <;> simp [isSpace, isAscii]

theorem indent_mild {t : Str} (h : Indent t) : t.all mildChar = true := by
  rw [List.all_eq_true]
  intro c hc
  rcases h c hc with rfl | rfl <;> simp [mildChar, isSpace, isAscii]

theorem indent_line {t : Str} (h : Indent t) : '\n' ∉ t := fun hc => by
  rcases h _ hc with h | h <;> simp at h

theorem Between.line {t : Str} (h : Between t) : '\n' ∉ t := fun hc => by
  have := h.chars _ hc
  simp at this

theorem Between.open {t : Str} (h : Between t) : '(' ∉ t := fun hc => by
  have := h.chars _ hc
  simp at this

theorem between_char {t : Str} (h : Between t) {c : Char} (hc : c ∈ t) : isSpace c = true ∨ plainChar c = true := by
  have := h.chars c hc
  simp only [List.mem_cons, List.not_mem_nil, or_false, not_or] at this
  cases hs : isSpace c with
  | true => exact .inl rfl
  | false => exact .inr (plainChar_iff.2 (by simp [hs, this, isIllegal]))

theorem Between.mild {t : Str} (h : Between t) : t.all mildChar = true := by
  rw [List.all_eq_true]
  intro c hc
  rcases between_char h hc with h | h <;> simp [mildChar, h]

theorem between_of_indent {t : Str} (h : Indent t) : Between t where
  chars c hc := by rcases h c hc with rfl | rfl <;> decide
  make := noKeyword_of (by
    rw [List.all_eq_true]
    intro c hc
    rcases h c hc with rfl | rfl <;> decide)
  find := noKeyword_of (by
    rw [List.all_eq_true]
    intro c hc
    rcases h c hc with rfl | rfl <;> decide)

theorem notHead_head {p : Char → Bool} {c : Char} {s : Str} (h : NotHead p (c :: s)) : p c = false := h c s rfl

/-- A text without the keyword before a keyword. -/
theorem skip_between {kw gap w' s : Str} (hlen : kw.length ≤ w'.length) (hw' : ∀ c ∈ w', isSpace c = false ∧ c ≠ '(') (hg : NoKeyword kw gap) :
    (clauseAll kw).finditer (gap ++ (w' ++ s)) = (clauseAll kw).finditer (w' ++ s) := by
  refine finditer_skip fun a b e hb => fails_of fun m hm => ?_
  obtain ⟨w, sp, body, e2, -, hw, hs, -, -⟩ := clauseAll_inv hm
  have hl := ciSpelling_length hw
  have e3 : b ++ (w' ++ s) = w ++ (sp ++ '(' :: (body ++ c!");" ++ m.2.1)) := by rw [e2]; simp [stmtText]
  rw [List.append_eq_append_iff] at e3
  rcases e3 with ⟨d, rfl, h2⟩ | ⟨d, rfl, -⟩
  · by_cases hd : d = []
    · subst hd
      exact hg a b [] (by simp [e]) (by simpa using hw)
    · have hlt : d.length < w'.length := by
        have : 0 < b.length := List.length_pos_iff.2 hb
        simp at hl
        omega
      rw [List.append_eq_append_iff] at h2
      rcases h2 with ⟨x, rfl, -⟩ | ⟨x, hx, h3⟩
      · simp at hlt
        omega
      · cases x with
        | nil => simp [hx] at hlt
        | cons c x =>
          have hc := hw' c (by rw [hx]; simp)
          cases sp with
          | nil =>
            simp at h3
            exact hc.2 h3.1.symm
          | cons c' sp =>
            simp at h3
            have := List.all_eq_true.1 hs c' (by simp)
            rw [h3.1, hc.1] at this
            simp at this
  · exact hg a w d (by simp [e]) hw

/-- What holds for the statement whichever of the two it is. -/
structure RowFacts (t : StmtText) : Prop where
  kwLen : t.kw.length = 4
  kwSolid : ∀ c ∈ t.kw, isSpace c = false ∧ c ≠ '('
  kwLine : '\n' ∉ t.kw
  kwIdle : Idle t.kw
  kwNe : t.kw ≠ []
  text : ∃ body, t.render = stmtText t.kw t.sp body ∧ body ≠ [] ∧ '\n' ∉ body
  patterns : ∀ s, statementPatterns (t.render ++ s) = t.chains.map ChainText.pattern ++ statementPatterns s
  accepted : ∀ rs s, Accepted rs s → Accepted (t.rels ++ rs) (t.render ++ s)
  relsOK : ∀ r ∈ t.rels, r.OK
  chains : ∀ c ∈ t.chains, c.Loose ∧ (c.handles.filter fun h => !h.isEmpty).Nodup

theorem list_ok_loose {up low : Str} {t : StmtText} (h : t.Loose up low) (h1 : Idle up) (h2 : Idle low) : PatternsOK t.list := by
  have hcomma : Idle c!"," := by simp [Idle, isSpace, isAscii]
  refine ⟨fun x hx => ?_, fun x hx => ?_⟩
  · rcases List.mem_cons.1 hx with rfl | hx
    · refine ⟨?_, h.sp, h.firstOK⟩
      rcases h.kw with e | e <;> simp only [e] <;> assumption
    · obtain ⟨y, hy, rfl⟩ := List.mem_map.1 hx
      exact ⟨hcomma, h.restOK y hy⟩
  · obtain ⟨y, hy, rfl⟩ := List.mem_map.1 (show x ∈ t.rest.map _ from hx)
    simp

theorem facts_of {up low : Str} {t : StmtText} (h : t.Loose up low) (i1 : Idle up) (i2 : Idle low) (n1 : up ≠ []) (n2 : low ≠ [])
    (s1 : up.length = 4) (s2 : low.length = 4)
    (l1 : '\n' ∉ up) (l2 : '\n' ∉ low) (m1 : up.all mildChar = true) (m2 : low.all mildChar = true) : RowFacts t where
  kwLen := by rcases h.kw with e | e <;> rw [e] <;> assumption
  kwSolid c hc := by
    rcases h.kw with e | e <;> rw [e] at hc
    · exact ⟨(i1 c hc).1, (i1 c hc).2.1⟩
    · exact ⟨(i2 c hc).1, (i2 c hc).2.1⟩
  kwLine := by rcases h.kw with e | e <;> rw [e] <;> assumption
  kwIdle := by rcases h.kw with e | e <;> rw [e] <;> assumption
  kwNe := by rcases h.kw with e | e <;> rw [e] <;> assumption
  text := stmt_text h
  patterns s := by
    have hsemi : Idle c!";" := by simp [Idle, isSpace, isAscii]
    have e : t.render ++ s = renderPatterns t.list ++ (c!";" ++ s) := by simp [render_list t]
    rw [e, statementPatterns_app (list_ok_loose h i1 i2) (semi_notHead _), patterns_idle (idle_iff.1 hsemi), list_patterns]
  accepted rs s hs := accepted_stmt_app m1 m2 h hs
  relsOK := h.relsOK
  chains := h.chains

theorem RowStmt.Loose.facts {x : RowStmt} (h : x.Loose) : RowFacts x.stmt := by
  cases hk : x.isMake with
  | true => exact facts_of (h.make hk) make_idle.1 make_idle.2.1 (by simp) (by simp) rfl rfl (by decide) (by decide) make_mild.1 make_mild.2.1
  | false =>
    exact facts_of (h.find hk) make_idle.2.2.1 make_idle.2.2.2 (by simp) (by simp) rfl rfl (by decide) (by decide) make_mild.2.2.1 make_mild.2.2.2

theorem facts_notHead {t : StmtText} (h : RowFacts t) (s : Str) : NotHead (fun c => !idleChar c) (t.render ++ s) := by
  have := notHead_idle (rest := t.sp ++ (t.first.render ++ (renderRest t.rest ++ c!";")) ++ s) h.kwIdle fun e => absurd e h.kwNe
  simpa [StmtText.render] using this

/-- A row has the shape of one statement. -/
theorem row_text {t : StmtText} {l : List RowStmt} (ht : RowFacts t) (hl : ∀ x ∈ l, x.Loose) :
    ∃ body, t.render ++ renderRow l = stmtText t.kw t.sp body ∧ body ≠ [] ∧ '\n' ∉ body := by
  induction l generalizing t with
  | nil => simpa [renderRow] using ht.text
  | cons x l ih =>
    obtain ⟨b, e, hb, hn⟩ := ht.text
    have hx := hl x (by simp)
    obtain ⟨b', e', hb', hn'⟩ := ih hx.facts fun y hy => hl y (List.mem_cons_of_mem _ hy)
    refine ⟨b ++ (c!");" ++ (x.gap ++ (x.stmt.kw ++ (x.stmt.sp ++ '(' :: b')))), ?_, by simp [hb], ?_⟩
    · rw [renderRow, e', e]
      simp [stmtText]
    · simp only [List.mem_append, List.mem_cons, not_or]
      exact ⟨hn, by decide, hx.gap.line, hx.facts.kwLine, hx.sp, by decide, hn'⟩

/-- The number of maximal runs of white space. -/
def blankRuns : Str → Nat
  | [] => 0
  | [c] => if isSpace c then 1 else 0
  | c :: d :: s => if isSpace c && !isSpace d then blankRuns (d :: s) + 1 else blankRuns (d :: s)

/-- The blank patterns that stand for white space between statements. -/
def gapPattern (gap : Str) : List ParsedPattern := List.replicate (blankRuns gap) ⟨.absent, .absent, .absent, .absent, .absent⟩

theorem blankRuns_solid {c : Char} {s : Str} (h : isSpace c = false) : blankRuns (c :: s) = blankRuns s := by
  cases s <;> simp [blankRuns, h]

theorem blankRuns_run {sp s : Str} (h : sp.all isSpace = true) (hne : sp ≠ []) (hs : NotHead isSpace s) : blankRuns (sp ++ s) = blankRuns s + 1 := by
  induction sp with
  | nil => exact absurd rfl hne
  | cons c sp ih =>
    simp only [List.all_cons, Bool.and_eq_true] at h
    cases sp with
    | nil =>
      cases s with
      | nil => simp [blankRuns, h.1]
      | cons d s =>
        have hd : isSpace d = false := notHead_head hs
        simp [blankRuns, h.1, hd]
    | cons d sp =>
      have hd : isSpace d = true := by simpa using (List.all_eq_true.1 h.2 d (by simp))
      have := ih h.2 (by simp)
      simp only [List.cons_append, blankRuns, h.1, hd, Bool.not_true, Bool.and_false, Bool.false_eq_true, if_false] at this ⊢
      exact this

theorem blankRuns_zero {s : Str} (h : ¬ HasBlank s) : blankRuns s = 0 := by
  induction s with
  | nil => rfl
  | cons c s ih =>
    have hc : isSpace c = false := by
      cases hc : isSpace c with
      | false => rfl
      | true => exact absurd ⟨c, by simp, hc⟩ h
    rw [blankRuns_solid hc]
    exact ih fun ⟨d, hd, hs⟩ => h ⟨d, List.mem_cons_of_mem _ hd, hs⟩

theorem blankRuns_pos {s : Str} (h : HasBlank s) : 0 < blankRuns s := by
  induction s with
  | nil => obtain ⟨c, hc, -⟩ := h; simp at hc
  | cons c s ih =>
    cases s with
    | nil =>
      obtain ⟨d, hd, hs⟩ := h
      obtain rfl := List.mem_singleton.1 hd
      simp [blankRuns, hs]
    | cons d s =>
      simp only [blankRuns]
      split
      · omega
      · next hn =>
        refine ih ?_
        obtain ⟨x, hx, hs⟩ := h
        rcases List.mem_cons.1 hx with rfl | hx
        · refine ⟨d, by simp, ?_⟩
          cases hd : isSpace d with
          | true => rfl
          | false => simp [hs, hd] at hn
        · exact ⟨x, hx, hs⟩

theorem patterns_gap {gap s : Str} (hg : ∀ c ∈ gap, isSpace c = true ∨ plainChar c = true) (hs : NotHead (fun c => !idleChar c) s) :
    statementPatterns (gap ++ s) = gapPattern gap ++ statementPatterns s := by
  match hlen : gap.length with
  | n =>
  induction n using Nat.strongRecOn generalizing gap with
  | _ n ih =>
  cases gap with
  | nil => rfl
  | cons c cs =>
    cases hc : isSpace c with
    | false =>
      have hp : plainChar c = true := (hg c (by simp)).resolve_left (by simp [hc])
      have := ih cs.length (by simp at hlen; omega) (gap := cs) (fun d hd => hg d (by simp [hd])) rfl
      rw [gapPattern, blankRuns_solid hc, ← gapPattern, ← this]
      exact patterns_idle (u := [c]) (s := cs ++ s) (by simpa using idle_of_plain hp)
    | true =>
      have e : c :: cs = (c :: cs.takeWhile isSpace) ++ cs.dropWhile isSpace := by simp [List.takeWhile_append_dropWhile]
      have h1 : (c :: cs.takeWhile isSpace).all isSpace = true := by
        rw [List.all_eq_true]
        intro d hd
        rcases List.mem_cons.1 hd with rfl | hd
        · exact hc
        · exact List.all_eq_true.1 List.all_takeWhile d hd
      have hlt : (cs.dropWhile isSpace).length ≤ cs.length := (List.dropWhile_sublist _).length_le
      have ih' := ih (cs.dropWhile isSpace).length (by simp at hlen; omega) (gap := cs.dropWhile isSpace)
        (fun d hd => hg d (List.mem_cons_of_mem _ ((List.dropWhile_sublist _).subset hd))) rfl
      have hnot : NotHead isSpace (cs.dropWhile isSpace) := notHead_dropWhile _ _
      have hidle : NotHead (fun c => !idleChar c) (cs.dropWhile isSpace ++ s) := by
        cases hd : cs.dropWhile isSpace with
        | nil => simpa using hs
        | cons d ds =>
          rw [hd] at hnot
          have hds := notHead_head hnot
          have hp : plainChar d = true := (hg d (List.mem_cons_of_mem _ ((List.dropWhile_sublist isSpace).subset (by rw [hd]; simp)))).resolve_left
            (by simp [hds])
          exact notHead_cons (by simp [idle_of_plain hp])
      rw [e, gapPattern, blankRuns_run h1 (by simp) hnot, List.replicate_succ, List.append_assoc,
        statementPatterns_blank h1 (by simp) hidle, ih', gapPattern]
      rfl

/-- The patterns of a row. -/
def rowPatterns (l : List RowStmt) : List ParsedPattern := l.flatMap fun x => gapPattern x.gap ++ x.stmt.chains.map ChainText.pattern

theorem patterns_row {l : List RowStmt} (hl : ∀ x ∈ l, x.Loose) : statementPatterns (renderRow l) = rowPatterns l := by
  induction l with
  | nil => exact statementPatterns_render (l := []) ⟨by simp, by simp⟩ (tail := []) (by simp [Idle])
  | cons x l ih =>
    have hx := hl x (by simp)
    have ih := ih fun y hy => hl y (List.mem_cons_of_mem _ hy)
    simp only [rowPatterns, List.flatMap_cons] at ih ⊢
    rw [renderRow, ← ih, patterns_gap (fun c hc => between_char hx.gap hc) (facts_notHead hx.facts _), hx.facts.patterns]
    simp

theorem accepted_row {l : List RowStmt} (hl : ∀ x ∈ l, x.Loose) : Accepted (rowRels l) (renderRow l) := by
  induction l with
  | nil => exact accepted_nil
  | cons x l ih =>
    have hx := hl x (by simp)
    exact accepted_mild (hx.gap.mild) (hx.facts.accepted _ _ (ih fun y hy => hl y (List.mem_cons_of_mem _ hy)))

theorem row_relsOK {l : List RowStmt} (hl : ∀ x ∈ l, x.Loose) : ∀ r ∈ rowRels l, r.OK := fun r hr => by
  obtain ⟨x, hx, hr⟩ := List.mem_flatMap.1 hr
  exact (hl x hx).facts.relsOK r hr

/-- The checks of relationships, on one statement. -/
def checkAll (rs : List RelText) : Except PyErr Unit := checkRels [rs]

/-- The statement that begins with `t` and runs to the end of the row. -/
theorem validate_row {t : StmtText} {l : List RowStmt} (ht : RowFacts t) (hl : ∀ x ∈ l, x.Loose) :
    validateStatement [t.render ++ renderRow l] = checkAll (t.rels ++ rowRels l) := by
  have := validate_loose (l := [(t.rels ++ rowRels l, t.render ++ renderRow l)]) (by
    simp only [List.mem_singleton, forall_eq]
    refine ⟨ht.accepted _ _ (accepted_row hl), fun r hr => ?_⟩
    rcases List.mem_append.1 hr with hr | hr
    · exact ht.relsOK r hr
    · exact row_relsOK hl r hr)
  simpa [checkAll] using this

theorem validate_blanks (n : Nat) : validatePatterns (List.replicate n ⟨.absent, .absent, .absent, .absent, .absent⟩) =
    .ok (List.replicate n ⟨.absent, .absent, .absent, .absent, .absent⟩) := by
  induction n with
  | zero => rfl
  | succ n ih =>
    rw [List.replicate_succ]
    exact validatePatterns_append (l := [_]) rfl ih

theorem validate_rowPatterns {l : List RowStmt} (hl : ∀ x ∈ l, x.Loose) : validatePatterns (rowPatterns l) = .ok (rowPatterns l) := by
  induction l with
  | nil => rfl
  | cons x l ih =>
    have hx := (hl x (by simp)).facts
    refine validatePatterns_append (validatePatterns_append ?_ (validatePatterns_chains fun c hc => (hx.chains c hc).2))
      (ih fun y hy => hl y (List.mem_cons_of_mem _ hy))
    exact validate_blanks _

/-! ### Extraction -/

theorem stmt_kw (t : StmtText) (s : Str) : t.render ++ s = t.kw ++ (t.sp ++ (t.first.render ++ (renderRest t.rest ++ c!";")) ++ s) := by
  simp [StmtText.render]

theorem gap_make {x : RowStmt} (hx : x.Loose) (s : Str) :
    makeAll.finditer (x.gap ++ (x.stmt.render ++ s)) = makeAll.finditer (x.stmt.render ++ s) := by
  rw [stmt_kw]
  exact skip_between (by rw [hx.facts.kwLen]; simp) hx.facts.kwSolid hx.gap.make

theorem gap_find {x : RowStmt} (hx : x.Loose) (s : Str) :
    findAll.finditer (x.gap ++ (x.stmt.render ++ s)) = findAll.finditer (x.stmt.render ++ s) := by
  rw [stmt_kw]
  exact skip_between (by rw [hx.facts.kwLen]; simp) hx.facts.kwSolid hx.gap.find

theorem find_avoids_loose {t : StmtText} (h : t.Loose c!"FIND" c!"find") (s : Str) : makeAll.finditer (t.render ++ s) = makeAll.finditer s := by
  obtain ⟨l, e⟩ := stmt_semi t
  rw [e]
  refine skip_opens (ks := c!"mak") (k := 'e') solid_de.2 (by decide) fun y hy => ?_
  rw [← e] at hy
  have := opens_find (s := []) h.toLooselyWritten (by rw [List.append_nil]; exact hy)
  simp [opens] at this
  rcases this with rfl | rfl | rfl | rfl | rfl <;> decide

theorem make_avoids_loose {t : StmtText} (h : t.Loose c!"MAKE" c!"make") (s : Str) : findAll.finditer (t.render ++ s) = findAll.finditer s := by
  obtain ⟨l, e⟩ := stmt_semi t
  rw [e]
  refine skip_opens (ks := c!"fin") (k := 'd') solid_de.1 (by decide) fun y hy => ?_
  rw [← e] at hy
  have := opens_make (s := []) h.toLooselyWritten (by rw [List.append_nil]; exact hy)
  simp [opens] at this
  rcases this with rfl | rfl | rfl | rfl | rfl <;> decide

theorem row_makes {l : List RowStmt} (hl : ∀ x ∈ l, x.Loose) : (makeAll.finditer (renderRow l)).map Prod.fst =
    (match fromMake l with
      | [] => []
      | m :: ms => [m.stmt.render ++ renderRow ms]) := by
  induction l with
  | nil =>
    have h0 : makeAll.finditer [] = [] :=
      finditer_nil (fails_lineEnd (kw := c!"make") (by simp) (fun _ h => ciSpelling_noNL (by decide) (by decide) h) (.inl rfl))
    simp [renderRow, fromMake, h0]
  | cons x l ih =>
    have hx := hl x (by simp)
    have hl' : ∀ y ∈ l, y.Loose := fun y hy => hl y (List.mem_cons_of_mem _ hy)
    cases hk : x.isMake with
    | true =>
      have e : fromMake (x :: l) = x :: l := by simp [fromMake, hk]
      rw [e]
      obtain ⟨b, e, hb, hn⟩ := row_text hx.facts hl'
      simp only
      have hw : IsSpelling c!"make" x.stmt.kw := by rcases (hx.make hk).kw with e | e <;> rw [e] <;> rfl
      rw [renderRow, gap_make hx, e]
      exact clause_line kwStart_make (by simp) (fun _ h => ciSpelling_noNL (by decide) (by decide) h) (ind := []) (by simp [Indent]) hw (hx.make hk).sp
        hb hn
    | false =>
      have e : fromMake (x :: l) = fromMake l := by simp [fromMake, hk]
      rw [e, ← ih hl', renderRow]
      rw [gap_make hx, find_avoids_loose (hx.find hk)]

theorem row_finds {l : List RowStmt} (hl : ∀ x ∈ l, x.Loose) : (findAll.finditer (renderRow l)).map Prod.fst =
    (match fromFind l with
      | [] => []
      | m :: ms => [m.stmt.render ++ renderRow ms]) := by
  induction l with
  | nil =>
    have h0 : findAll.finditer [] = [] :=
      finditer_nil (fails_lineEnd (kw := c!"find") (by simp) (fun _ h => ciSpelling_noNL (by decide) (by decide) h) (.inl rfl))
    simp [renderRow, fromFind, h0]
  | cons x l ih =>
    have hx := hl x (by simp)
    have hl' : ∀ y ∈ l, y.Loose := fun y hy => hl y (List.mem_cons_of_mem _ hy)
    cases hk : x.isMake with
    | false =>
      have e : fromFind (x :: l) = x :: l := by simp [fromFind, hk]
      rw [e]
      obtain ⟨b, e, hb, hn⟩ := row_text hx.facts hl'
      simp only
      have hw : IsSpelling c!"find" x.stmt.kw := by rcases (hx.find hk).kw with e | e <;> rw [e] <;> rfl
      rw [renderRow, gap_find hx, e]
      exact clause_line kwStart_find (by simp) (fun _ h => ciSpelling_noNL (by decide) (by decide) h) (ind := []) (by simp [Indent]) hw (hx.find hk).sp
        hb hn
    | true =>
      have e : fromFind (x :: l) = fromFind l := by simp [fromFind, hk]
      rw [e, ← ih hl', renderRow]
      rw [gap_find hx, make_avoids_loose (hx.make hk)]

theorem mem_fromMake {l : List RowStmt} {x : RowStmt} (h : x ∈ fromMake l) : x ∈ l := (List.dropWhile_sublist _).subset h
theorem mem_fromFind {l : List RowStmt} {x : RowStmt} (h : x ∈ fromFind l) : x ∈ l := (List.dropWhile_sublist _).subset h

theorem fromMake_head {l ms : List RowStmt} {m : RowStmt} (h : fromMake l = m :: ms) : m.isMake = true := by
  have := List.head?_dropWhile_not (fun x : RowStmt => !x.isMake) l
  rw [show l.dropWhile (fun x : RowStmt => !x.isMake) = m :: ms from h] at this
  simpa using this

theorem fromFind_head {l ms : List RowStmt} {m : RowStmt} (h : fromFind l = m :: ms) : m.isMake = false := by
  have := List.head?_dropWhile_not (fun x : RowStmt => x.isMake) l
  rw [show l.dropWhile (fun x : RowStmt => x.isMake) = m :: ms from h] at this
  simpa using this

/-! ### Parsing -/

theorem opens_row {l : List RowStmt} (hl : ∀ x ∈ l, x.Loose) (hm : fromMake l = []) {cur o : Option Char}
    (ho : o ∈ opens cur (renderRow l)) : Quiet o := by
  induction l generalizing cur with
  | nil => simp [renderRow, opens] at ho
  | cons x l ih =>
    have hx := hl x (by simp)
    have hk : x.isMake = false := by
      cases hk : x.isMake with
      | false => rfl
      | true => simp [fromMake, hk] at hm
    rw [renderRow, opens_append, opens_none (hx.gap.open), List.nil_append] at ho
    rcases opens_find (hx.find hk).toLooselyWritten ho with h | h
    · simp only [List.mem_cons, List.not_mem_nil, or_false] at h
      rcases h with rfl | rfl | rfl | rfl | rfl <;> exact ⟨_, rfl, by decide⟩
    · exact ih (fun y hy => hl y (List.mem_cons_of_mem _ hy)) (by simpa [fromMake, hk] using hm) h

/-- What the MAKE of a row becomes. -/
def rowMake (l : List RowStmt) : Option (List ParsedMake) := match fromMake l with
  | [] => none
  | m :: ms => some [⟨m.stmt.render ++ renderRow ms, .make, m.stmt.chains.map ChainText.pattern ++ rowPatterns ms⟩]

theorem row_parseMake {l : List RowStmt} (hl : ∀ x ∈ l, x.Loose) :
    parseMake (renderRow l) = (match checkAll (rowRels (fromMake l)) with
      | .error e => .error e
      | .ok _ => .ok (rowMake l)) := by
  have hf := row_makes hl
  cases hm : fromMake l with
  | nil =>
    rw [hm] at hf
    have hsp : makeSpelling.finditer (renderRow l) = [] := by
      refine spelling_none (by simp) ?_ ?_
      · intro k hk x hx
        simp at hk
        rcases hk with rfl | rfl | rfl | rfl <;> simp [matchCI] at hx
        · rcases hx with rfl | rfl <;> simp [isSpace, isAscii]
        · rcases hx with rfl | rfl <;> simp [isSpace, isAscii]
        · rcases hx with (rfl | rfl) | rfl <;> simp [isSpace, isAscii, PyRuntime.uSpace_kelvin]
        · rcases hx with rfl | rfl <;> simp [isSpace, isAscii]
      · intro x hx k hk
        obtain ⟨y, e, h⟩ := opens_row hl hm hx
        rw [Option.some.injEq] at e
        subst e
        exact h k hk
    simp only at hf
    simp only [parseMake, extractAllStatements, hf, checkClauseSpelling, hsp, List.isEmpty_nil, if_true, rowMake, hm, rowRels, List.flatMap_nil,
      checkAll, checkRels]
  | cons m ms =>
    rw [hm] at hf
    have hml : m.Loose := hl m (mem_fromMake (by simp [hm]))
    have hms : ∀ x ∈ ms, x.Loose := fun x hx => hl x (mem_fromMake (by simp [hm, hx]))
    have hk := fromMake_head hm
    have he : extractAllStatements (renderRow l) .make = .ok (some [m.stmt.render ++ renderRow ms]) :=
      extract_of_finditer rfl hf (by simp)
    have hp : validatePatterns (statementPatterns (m.stmt.render ++ renderRow ms)) =
        .ok (m.stmt.chains.map ChainText.pattern ++ rowPatterns ms) := by
      rw [hml.facts.patterns, patterns_row hms]
      exact validatePatterns_append (validatePatterns_chains fun c hc => (hml.facts.chains c hc).2) (validate_rowPatterns hms)
    have hcs : (makeAllCS.matchAt (m.stmt.render ++ renderRow ms)).isSome = true := by
      obtain ⟨b, e, hb, hn⟩ := row_text hml.facts hms
      rw [e]
      exact cs_match (hml.make hk).kw (hml.make hk).sp hb hn
    simp only [parseMake, he, validate_row hml.facts hms, rowMake, hm, rowRels, List.flatMap_cons]
    cases checkAll (m.stmt.rels ++ List.flatMap (fun x => x.stmt.rels) ms) with
    | error e => rfl
    | ok u => simp only [buildParsedMakes, buildParsedMake, hp, hcs, if_true]

/-- What the FIND of a row becomes. -/
theorem row_parseFind {l fs : List RowStmt} {f : RowStmt} (hl : ∀ x ∈ l, x.Loose) (hf : fromFind l = f :: fs) :
    parseFind (renderRow l) = (match checkAll (rowRels (fromFind l)) with
      | .error e => .error e
      | .ok _ => .ok (some ⟨f.stmt.render ++ renderRow fs, .find, f.stmt.first.pattern⟩)) := by
  have h1 := row_finds hl
  rw [hf] at h1 ⊢
  have hml : f.Loose := hl f (mem_fromFind (by simp [hf]))
  have hms : ∀ x ∈ fs, x.Loose := fun x hx => hl x (mem_fromFind (by simp [hf, hx]))
  have hk := fromFind_head hf
  have he : extractAllStatements (renderRow l) .find = .ok (some [f.stmt.render ++ renderRow fs]) :=
    extract_of_finditer rfl h1 (by simp)
  have hp : statementPatterns (f.stmt.render ++ renderRow fs) =
      f.stmt.first.pattern :: ((f.stmt.rest.map Prod.snd).map ChainText.pattern ++ rowPatterns fs) := by
    rw [hml.facts.patterns, patterns_row hms]
    simp [StmtText.chains]
  have hcs : (findAllCS.matchAt (f.stmt.render ++ renderRow fs)).isSome = true := by
    obtain ⟨b, e, hb, hn⟩ := row_text hml.facts hms
    rw [e]
    exact cs_match (hml.find hk).kw (hml.find hk).sp hb hn
  have hbuild : buildParsedFind (f.stmt.render ++ renderRow fs) = .ok ⟨f.stmt.render ++ renderRow fs, .find, f.stmt.first.pattern⟩ := by
    rw [buildParsedFind, hp]
    simp only
    rw [validate_chain (hml.facts.chains _ (by simp [StmtText.chains])).2]
    simp only
    rw [if_pos hcs]
  simp only [parseFind, he, validate_row hml.facts hms, rowRels, List.flatMap_cons]
  cases checkAll (f.stmt.rels ++ List.flatMap (fun x => x.stmt.rels) fs) with
  | error e => rfl
  | ok u => simp [hbuild]

/-- A row without a FIND. -/
theorem row_noFind {l : List RowStmt} (hl : ∀ x ∈ l, x.Loose) (hf : fromFind l = []) :
    (∃ e, parseFind (renderRow l) = .error e) ∨ parseFind (renderRow l) = .ok none := by
  have h1 := row_finds hl
  rw [hf] at h1
  simp only at h1
  simp only [parseFind, extractAllStatements, h1]
  cases checkClauseSpelling (renderRow l) .find with
  | error e => exact .inl ⟨e, rfl⟩
  | ok u => exact .inr rfl

end WG
