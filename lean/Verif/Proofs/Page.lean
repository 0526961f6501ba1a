/-
Lemmas: queries of several lines with any number of statements on each line.
-/
import Verif.Spec.Page
import Verif.Proofs.Row
set_option linter.unusedSectionVars false
set_option linter.unusedSimpArgs false

namespace WG
open Re
variable [PyRuntime]

/-- The statement that a row from its first MAKE (or FIND) on is taken for. -/
def rowStmt : List RowStmt → Option Str
  | [] => none
  | m :: ms => some (m.stmt.render ++ renderRow ms)

theorem row_makes_app {l : List RowStmt} (hl : ∀ x ∈ l, x.Loose) {t s : Str} (ht : Remark t) (hs : LineEnd s) :
    (makeAll.finditer (renderRow l ++ t ++ s)).map Prod.fst = (rowStmt (fromMake l)).toList ++ (makeAll.finditer s).map Prod.fst := by
  induction l with
  | nil =>
    exact line_clauseAll kwStart_make (fun _ h => ciSpelling_noNL (by decide) (by decide) h) (.other t ht.line ht.make) hs
  | cons x l ih =>
    have hx := hl x (by simp)
    have hl' : ∀ y ∈ l, y.Loose := fun y hy => hl y (List.mem_cons_of_mem _ hy)
    cases hk : x.isMake with
    | true =>
      have e : fromMake (x :: l) = x :: l := by simp [fromMake, hk]
      obtain ⟨b, e', hb, hn⟩ := row_text hx.facts hl'
      have hw : IsSpelling c!"make" x.stmt.kw := by rcases (hx.make hk).kw with e | e <;> rw [e] <;> rfl
      have hq : QLine c!"make" ([] ++ (stmtText x.stmt.kw x.stmt.sp b ++ t)) (some (stmtText x.stmt.kw x.stmt.sp b)) :=
        .stmt [] x.stmt.kw x.stmt.sp b t (by simp [Indent]) hw (hx.make hk).sp hb hn ht.line ht.paren.2 ht.make
      have := line_clauseAll kwStart_make (fun _ h => ciSpelling_noNL (by decide) (by decide) h) hq hs
      rw [e, rowStmt, renderRow, List.append_assoc, List.append_assoc, List.append_assoc, gap_make hx, ← List.append_assoc, e', ← List.append_assoc]
      exact this
    | false =>
      have e : fromMake (x :: l) = fromMake l := by simp [fromMake, hk]
      rw [e, ← ih hl', renderRow, List.append_assoc, List.append_assoc, List.append_assoc, gap_make hx, find_avoids_loose (hx.find hk),
        ← List.append_assoc]

theorem row_finds_app {l : List RowStmt} (hl : ∀ x ∈ l, x.Loose) {t s : Str} (ht : Remark t) (hs : LineEnd s) :
    (findAll.finditer (renderRow l ++ t ++ s)).map Prod.fst = (rowStmt (fromFind l)).toList ++ (findAll.finditer s).map Prod.fst := by
  induction l with
  | nil =>
    exact line_clauseAll kwStart_find (fun _ h => ciSpelling_noNL (by decide) (by decide) h) (.other t ht.line ht.find) hs
  | cons x l ih =>
    have hx := hl x (by simp)
    have hl' : ∀ y ∈ l, y.Loose := fun y hy => hl y (List.mem_cons_of_mem _ hy)
    cases hk : x.isMake with
    | false =>
      have e : fromFind (x :: l) = x :: l := by simp [fromFind, hk]
      obtain ⟨b, e', hb, hn⟩ := row_text hx.facts hl'
      have hw : IsSpelling c!"find" x.stmt.kw := by rcases (hx.find hk).kw with e | e <;> rw [e] <;> rfl
      have hq : QLine c!"find" ([] ++ (stmtText x.stmt.kw x.stmt.sp b ++ t)) (some (stmtText x.stmt.kw x.stmt.sp b)) :=
        .stmt [] x.stmt.kw x.stmt.sp b t (by simp [Indent]) hw (hx.find hk).sp hb hn ht.line ht.paren.2 ht.find
      have := line_clauseAll kwStart_find (fun _ h => ciSpelling_noNL (by decide) (by decide) h) hq hs
      rw [e, rowStmt, renderRow, List.append_assoc, List.append_assoc, List.append_assoc, gap_find hx, ← List.append_assoc, e', ← List.append_assoc]
      exact this
    | true =>
      have e : fromFind (x :: l) = fromFind l := by simp [fromFind, hk]
      rw [e, ← ih hl', renderRow, List.append_assoc, List.append_assoc, List.append_assoc, gap_find hx, make_avoids_loose (hx.make hk),
        ← List.append_assoc]

theorem filterMap_rowStmt (ls : List (List RowStmt)) : ls.filterMap rowStmt = (ls.filter fun l => !l.isEmpty).filterMap rowStmt := by
  induction ls with
  | nil => rfl
  | cons l ls ih => cases l <;> simp [List.filterMap_cons, rowStmt, ih]

theorem mem_zipWith {α β γ : Type} {f : α → β → γ} {l : List α} {m : List β} {x : γ} (h : x ∈ List.zipWith f l m) :
    ∃ a ∈ l, ∃ b ∈ m, x = f a b := by
  induction l generalizing m with
  | nil => simp at h
  | cons a l ih => cases m with
    | nil => simp at h
    | cons b m =>
      rcases List.mem_cons.1 h with rfl | h
      · exact ⟨a, by simp, b, by simp, rfl⟩
      · obtain ⟨a', ha, b', hb, e⟩ := ih h
        exact ⟨a', by simp [ha], b', by simp [hb], e⟩

theorem filterMap_zip {f : List RowStmt → Option Str} {p : List (List RowStmt)} {ts : List Str} {g : List RowStmt → Str → Str} (h : ts.length = p.length) :
    (List.zipWith (fun l t => (g l t, f l)) p ts).filterMap Prod.snd = p.filterMap f := by
  induction p generalizing ts with
  | nil => rfl
  | cons l p ih => cases ts with
    | nil => simp at h
    | cons t ts =>
      rw [List.zipWith_cons_cons, List.filterMap_cons, List.filterMap_cons, ih (by simpa using h)]

theorem pageOf_text (p : List (List RowStmt)) : PageOf p (pageText p) := by
  refine ⟨p.map fun _ => [], by simp, ?_, ?_⟩
  · intro t ht
    obtain ⟨_, _, rfl⟩ := List.mem_map.1 ht
    exact ⟨by simp, by simp, noKeyword_nil (by simp), noKeyword_nil (by simp)⟩
  · rw [pageText]
    congr 1
    induction p with
    | nil => rfl
    | cons l p ih => rw [List.map_cons, ih]; simp

theorem page_makes {p : List (List RowStmt)} (hp : ∀ l ∈ p, ∀ x ∈ l, x.Loose) {txt : Str} (ht : PageOf p txt) :
    (makeAll.finditer txt).map Prod.fst = (makeRows p).filterMap rowStmt := by
  obtain ⟨ts, hlen, hts, rfl⟩ := ht
  have hk : ∀ w, CISpelling c!"make" w → '\n' ∉ w := fun _ h => ciSpelling_noNL (by decide) (by decide) h
  have := finditer_lines (re := makeAll) (ls := List.zipWith (fun l t => (renderRow l ++ t, rowStmt (fromMake l))) p ts)
    (fails_lineEnd (by simp) hk (.inl rfl)) (fun s => fails_lineEnd (by simp) hk (.inr ⟨s, rfl⟩)) (by
      intro x hx s hs
      obtain ⟨l, hl, t, ht, rfl⟩ := mem_zipWith hx
      exact row_makes_app (hp l hl) (hts t ht) hs)
  rw [makeRows, ← filterMap_rowStmt, List.filterMap_map]
  rw [List.map_zipWith, filterMap_zip hlen] at this
  exact this

theorem page_finds {p : List (List RowStmt)} (hp : ∀ l ∈ p, ∀ x ∈ l, x.Loose) {txt : Str} (ht : PageOf p txt) :
    (findAll.finditer txt).map Prod.fst = (findRows p).filterMap rowStmt := by
  obtain ⟨ts, hlen, hts, rfl⟩ := ht
  have hk : ∀ w, CISpelling c!"find" w → '\n' ∉ w := fun _ h => ciSpelling_noNL (by decide) (by decide) h
  have := finditer_lines (re := findAll) (ls := List.zipWith (fun l t => (renderRow l ++ t, rowStmt (fromFind l))) p ts)
    (fails_lineEnd (by simp) hk (.inl rfl)) (fun s => fails_lineEnd (by simp) hk (.inr ⟨s, rfl⟩)) (by
      intro x hx s hs
      obtain ⟨l, hl, t, ht, rfl⟩ := mem_zipWith hx
      exact row_finds_app (hp l hl) (hts t ht) hs)
  rw [findRows, ← filterMap_rowStmt, List.filterMap_map]
  rw [List.map_zipWith, filterMap_zip hlen] at this
  exact this

/-! ### Rows from the first MAKE (FIND) on -/

theorem mem_makeRows {p : List (List RowStmt)} {l : List RowStmt} (h : l ∈ makeRows p) : ∃ l' ∈ p, l = fromMake l' ∧ l ≠ [] := by
  obtain ⟨h1, h2⟩ := List.mem_filter.1 h
  obtain ⟨l', hl', rfl⟩ := List.mem_map.1 h1
  exact ⟨l', hl', rfl, by simpa using h2⟩

theorem mem_findRows {p : List (List RowStmt)} {l : List RowStmt} (h : l ∈ findRows p) : ∃ l' ∈ p, l = fromFind l' ∧ l ≠ [] := by
  obtain ⟨h1, h2⟩ := List.mem_filter.1 h
  obtain ⟨l', hl', rfl⟩ := List.mem_map.1 h1
  exact ⟨l', hl', rfl, by simpa using h2⟩

theorem makeRows_loose {p : List (List RowStmt)} (hp : ∀ l ∈ p, ∀ x ∈ l, x.Loose) {l : List RowStmt} (h : l ∈ makeRows p) :
    ∀ x ∈ l, x.Loose := by
  obtain ⟨l', hl', rfl, -⟩ := mem_makeRows h
  exact fun x hx => hp l' hl' x (mem_fromMake hx)

theorem findRows_loose {p : List (List RowStmt)} (hp : ∀ l ∈ p, ∀ x ∈ l, x.Loose) {l : List RowStmt} (h : l ∈ findRows p) :
    ∀ x ∈ l, x.Loose := by
  obtain ⟨l', hl', rfl, -⟩ := mem_findRows h
  exact fun x hx => hp l' hl' x (mem_fromFind hx)

/-- A row that starts with a MAKE. -/
def MakeRow (l : List RowStmt) : Prop := ∃ m ms, l = m :: ms ∧ m.isMake = true ∧ ∀ x ∈ l, x.Loose

theorem makeRows_makeRow {p : List (List RowStmt)} (hp : ∀ l ∈ p, ∀ x ∈ l, x.Loose) {l : List RowStmt} (h : l ∈ makeRows p) : MakeRow l := by
  have hl := makeRows_loose hp h
  obtain ⟨l', hl', e, hne⟩ := mem_makeRows h
  cases l with
  | nil => simp at hne
  | cons m ms => exact ⟨m, ms, rfl, fromMake_head e.symm, hl⟩

/-! ### Parsing -/

/-- The parsed MAKE of a row. -/
def rowParsed : List RowStmt → Option ParsedMake
  | [] => none
  | m :: ms => some ⟨m.stmt.render ++ renderRow ms, .make, m.stmt.chains.map ChainText.pattern ++ rowPatterns ms⟩

theorem build_row {m : RowStmt} {ms : List RowStmt} (hk : m.isMake = true) (hl : ∀ x ∈ m :: ms, x.Loose) :
    buildParsedMake (m.stmt.render ++ renderRow ms) =
      .ok ⟨m.stmt.render ++ renderRow ms, .make, m.stmt.chains.map ChainText.pattern ++ rowPatterns ms⟩ := by
  have hml := hl m (by simp)
  have hms : ∀ x ∈ ms, x.Loose := fun x hx => hl x (List.mem_cons_of_mem _ hx)
  have hp : validatePatterns (statementPatterns (m.stmt.render ++ renderRow ms)) =
      .ok (m.stmt.chains.map ChainText.pattern ++ rowPatterns ms) := by
    rw [hml.facts.patterns, patterns_row hms]
    exact validatePatterns_append (validatePatterns_chains fun c hc => (hml.facts.chains c hc).2) (validate_rowPatterns hms)
  have hcs : (makeAllCS.matchAt (m.stmt.render ++ renderRow ms)).isSome = true := by
    obtain ⟨b, e, hb, hn⟩ := row_text hml.facts hms
    rw [e]
    exact cs_match (hml.make hk).kw (hml.make hk).sp hb hn
  simp only [buildParsedMake, hp, hcs, if_true]

theorem build_rows {ls : List (List RowStmt)} (h : ∀ l ∈ ls, MakeRow l) :
    buildParsedMakes (ls.filterMap rowStmt) = .ok (ls.filterMap rowParsed) := by
  induction ls with
  | nil => rfl
  | cons l ls ih =>
    obtain ⟨m, ms, rfl, hk, hl⟩ := h l (by simp)
    simp only [List.filterMap_cons, rowStmt, rowParsed, buildParsedMakes, build_row hk hl, ih fun l hl => h l (List.mem_cons_of_mem _ hl)]

theorem validate_rows {ls : List (List RowStmt)} (h : ∀ l ∈ ls, l ≠ [] ∧ ∀ x ∈ l, x.Loose) :
    validateStatement (ls.filterMap rowStmt) = checkRels (ls.map rowRels) := by
  have key : ∀ ls : List (List RowStmt), (∀ l ∈ ls, l ≠ [] ∧ ∀ x ∈ l, x.Loose) →
      ∃ q : List (List RelText × Str), q.map Prod.snd = ls.filterMap rowStmt ∧ q.map Prod.fst = ls.map rowRels ∧
        ∀ x ∈ q, Accepted x.1 x.2 ∧ ∀ r ∈ x.1, r.OK := by
    intro ls
    induction ls with
    | nil => exact fun _ => ⟨[], rfl, rfl, by simp⟩
    | cons l ls ih =>
      intro h
      obtain ⟨q, h1, h2, h3⟩ := ih fun l hl => h l (List.mem_cons_of_mem _ hl)
      obtain ⟨hne, hl⟩ := h l (by simp)
      cases l with
      | nil => exact absurd rfl hne
      | cons m ms =>
        have hm := (hl m (by simp)).facts
        have hms : ∀ x ∈ ms, x.Loose := fun x hx => hl x (List.mem_cons_of_mem _ hx)
        refine ⟨(m.stmt.rels ++ rowRels ms, m.stmt.render ++ renderRow ms) :: q, by simp [rowStmt, h1], by simp [rowRels, h2], ?_⟩
        intro x hx
        rcases List.mem_cons.1 hx with rfl | hx
        · refine ⟨hm.accepted _ _ (accepted_row hms), fun r hr => ?_⟩
          rcases List.mem_append.1 hr with hr | hr
          · exact hm.relsOK r hr
          · exact row_relsOK hms r hr
        · exact h3 x hx
  obtain ⟨q, h1, h2, h3⟩ := key ls h
  rw [← h1, ← h2]
  exact validate_loose h3

theorem opens_page {p : List (List RowStmt)} (hp : ∀ l ∈ p, ∀ x ∈ l, x.Loose) {txt : Str} (ht : PageOf p txt) (hm : makeRows p = [])
    {cur o : Option Char} (ho : o ∈ opens cur txt) : Quiet o := by
  obtain ⟨ts, hlen, hts, rfl⟩ := ht
  have hno : ∀ l ∈ p, fromMake l = [] := by
    intro l hl
    cases h : fromMake l with
    | nil => rfl
    | cons m ms =>
      have : fromMake l ∈ makeRows p := List.mem_filter.2 ⟨List.mem_map.2 ⟨l, hl, rfl⟩, by simp [h]⟩
      rw [hm] at this
      simp at this
  clear hm
  induction p generalizing cur ts with
  | nil => simp [joinLines, opens] at ho
  | cons l p ih =>
    cases ts with
    | nil => simp at hlen
    | cons t ts =>
    have hl := hp l (by simp)
    have h0 := hno l (by simp)
    have hline : ∀ {cur o}, o ∈ opens cur (renderRow l ++ t) → Quiet o := by
      intro cur o ho
      rw [opens_append, opens_none (hts t (by simp)).paren.1, List.append_nil] at ho
      exact opens_row hl h0 ho
    cases p with
    | nil =>
      obtain rfl : ts = [] := by simpa using hlen
      exact hline ho
    | cons l' p =>
      cases ts with
      | nil => simp at hlen
      | cons t' ts =>
      rw [List.zipWith_cons_cons, List.zipWith_cons_cons, joinLines.eq_3 _ _ (by simp), opens_append, List.mem_append] at ho
      rcases ho with ho | ho
      · exact hline ho
      · refine ih (ts := t' :: ts) (fun l hl => hp l (List.mem_cons_of_mem _ hl)) (by simpa using hlen)
          (fun t ht => hts t (List.mem_cons_of_mem _ ht)) (cur := lastSolid cur (renderRow l ++ t)) ?_ fun l hl => hno l (List.mem_cons_of_mem _ hl)
        simpa [opens, isSpace, isAscii] using ho

/-- What the MAKE statements of a query become. -/
def pageMakes (p : List (List RowStmt)) : Option (List ParsedMake) := match (makeRows p).filterMap rowParsed with
  | [] => none
  | m :: ms => some (m :: ms)

theorem page_parseMake {p : List (List RowStmt)} (hp : ∀ l ∈ p, ∀ x ∈ l, x.Loose) {txt : Str} (ht : PageOf p txt) :
    parseMake txt = (match checkRels ((makeRows p).map rowRels) with
      | .error e => .error e
      | .ok _ => .ok (pageMakes p)) := by
  have hf := page_makes hp ht
  cases hm : makeRows p with
  | nil =>
    rw [hm] at hf
    have hsp : makeSpelling.finditer txt = [] := by
      refine spelling_none (by simp) ?_ ?_
      · intro k hk x hx
        simp at hk
        rcases hk with rfl | rfl | rfl | rfl <;> simp [matchCI] at hx
        · rcases hx with rfl | rfl <;> simp [isSpace, isAscii]
        · rcases hx with rfl | rfl <;> simp [isSpace, isAscii]
        · rcases hx with (rfl | rfl) | rfl <;> simp [isSpace, isAscii, PyRuntime.uSpace_kelvin]
        · rcases hx with rfl | rfl <;> simp [isSpace, isAscii]
      · intro x hx k hk
        obtain ⟨y, e, h⟩ := opens_page hp ht hm hx
        rw [Option.some.injEq] at e
        subst e
        exact h k hk
    simp only [List.filterMap_nil] at hf
    simp only [parseMake, extractAllStatements, hf, checkClauseSpelling, hsp, List.isEmpty_nil, if_true, pageMakes, hm, List.filterMap_nil,
      List.map_nil, checkRels]
  | cons l ls =>
    have hrow : ∀ l' ∈ l :: ls, MakeRow l' := fun l' hl' => makeRows_makeRow hp (by rw [hm]; exact hl')
    have hv := validate_rows (ls := l :: ls) fun l' hl' => by
      obtain ⟨m, ms, e, -, h⟩ := hrow l' hl'
      exact ⟨by simp [e], h⟩
    have hb := build_rows hrow
    obtain ⟨m, ms, rfl, hk, hl⟩ := hrow l (by simp)
    have he : extractAllStatements txt .make = .ok (some (((m :: ms) :: ls).filterMap rowStmt)) :=
      extract_of_finditer rfl (by rw [hf, hm]) (by simp [rowStmt])
    simp only [parseMake, he, hv, hb, pageMakes, hm]
    cases checkRels (((m :: ms) :: ls).map rowRels) with
    | error e => rfl
    | ok u => simp [rowParsed]

/-- What the FIND of a query becomes. -/
theorem page_parseFind {p : List (List RowStmt)} (hp : ∀ l ∈ p, ∀ x ∈ l, x.Loose) {txt : Str} (ht : PageOf p txt) {f : RowStmt} {fs : List RowStmt}
    (hf : findRows p = [f :: fs]) :
    parseFind txt = (match checkAll (rowRels (f :: fs)) with
      | .error e => .error e
      | .ok _ => .ok (some ⟨f.stmt.render ++ renderRow fs, .find, f.stmt.first.pattern⟩)) := by
  have h1 := page_finds hp ht
  rw [hf] at h1
  have hl : ∀ x ∈ f :: fs, x.Loose := findRows_loose hp (by simp [hf])
  have hk : f.isMake = false := by
    obtain ⟨l', -, e, -⟩ := mem_findRows (p := p) (l := f :: fs) (by simp [hf])
    exact fromFind_head e.symm
  have hml : f.Loose := hl f (by simp)
  have hms : ∀ x ∈ fs, x.Loose := fun x hx => hl x (List.mem_cons_of_mem _ hx)
  have he : extractAllStatements txt .find = .ok (some [f.stmt.render ++ renderRow fs]) :=
    extract_of_finditer rfl (by rw [h1]; rfl) (by simp)
  have hpt : statementPatterns (f.stmt.render ++ renderRow fs) =
      f.stmt.first.pattern :: ((f.stmt.rest.map Prod.snd).map ChainText.pattern ++ rowPatterns fs) := by
    rw [hml.facts.patterns, patterns_row hms]
    simp [StmtText.chains]
  have hcs : (findAllCS.matchAt (f.stmt.render ++ renderRow fs)).isSome = true := by
    obtain ⟨b, e, hb, hn⟩ := row_text hml.facts hms
    rw [e]
    exact cs_match (hml.find hk).kw (hml.find hk).sp hb hn
  have hbuild : buildParsedFind (f.stmt.render ++ renderRow fs) = .ok ⟨f.stmt.render ++ renderRow fs, .find, f.stmt.first.pattern⟩ := by
    rw [buildParsedFind, hpt]
    simp only
    rw [validate_chain (hml.facts.chains _ (by simp [StmtText.chains])).2]
    simp only
    rw [if_pos hcs]
  simp only [parseFind, he, validate_row hml.facts hms, rowRels, List.flatMap_cons]
  cases checkAll (f.stmt.rels ++ List.flatMap (fun x => x.stmt.rels) fs) with
  | error e => rfl
  | ok u => simp [hbuild]

/-- None, or more than one. -/
theorem page_notOneFind {p : List (List RowStmt)} (hp : ∀ l ∈ p, ∀ x ∈ l, x.Loose) {txt : Str} (ht : PageOf p txt) (hf : (findRows p).length ≠ 1) :
    (∃ e, parseFind txt = .error e) ∨ parseFind txt = .ok none := by
  have h1 := page_finds hp ht
  match hr : findRows p, hf with
  | [], _ =>
    rw [hr, List.filterMap_nil] at h1
    simp only [parseFind, extractAllStatements, h1]
    cases checkClauseSpelling txt .find with
    | error e => exact .inl ⟨e, rfl⟩
    | ok u => exact .inr rfl
  | [_], hf => simp at hf
  | l :: l' :: ls, _ =>
    have hne : ∀ l'' ∈ findRows p, l'' ≠ [] := fun l'' h => by
      obtain ⟨_, _, _, h⟩ := mem_findRows h
      exact h
    cases l with
    | nil => exact absurd rfl (hne [] (by simp [hr]))
    | cons x xs =>
      cases l' with
      | nil => exact absurd rfl (hne [] (by simp [hr]))
      | cons y ys =>
        rw [hr] at h1
        have he : extractAllStatements txt .find = .ok (some (((x :: xs) :: (y :: ys) :: ls).filterMap rowStmt)) :=
          extract_of_finditer rfl h1 (by simp [rowStmt])
        simp [parseFind, he, rowStmt]

end WG
