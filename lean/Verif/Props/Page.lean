/-
Queries of several lines with any number of MAKE and FIND statements on each line: C30, C39, C66, C86.
-/
import Verif.Proofs.Page
import Verif.Props.Row

set_option linter.unusedSectionVars false
set_option linter.unusedSimpArgs false

namespace WG

section
variable [PyRuntime]

theorem checkRels_lists (ls : List (List RelText)) :
    checkRels ls = (match (ls.takeWhile fun rs => !rs.isEmpty).flatten.findSome? RelText.fault with
      | some e => .error e
      | none => .ok ()) := by
  induction ls with
  | nil => rfl
  | cons rs ls ih =>
    cases rs with
    | nil => simp [checkRels]
    | cons r rs =>
      rw [checkRels, forEach_check, ih]
      simp only [List.takeWhile_cons, List.isEmpty_cons, Bool.not_false, if_true, List.flatten_cons, List.findSome?_append]
      cases (r :: rs).findSome? RelText.fault <;> simp

theorem checkedRows_rels (p : List (List RowStmt)) :
    (((makeRows p).map rowRels).takeWhile fun rs => !rs.isEmpty) = (checkedRows p).map rowRels := by
  rw [checkedRows, List.takeWhile_map]
  rfl

theorem page_check_ok {p : List (List RowStmt)} (h : ∀ l ∈ checkedRows p, ∀ r ∈ rowRels l, r.Proper) :
    checkRels ((makeRows p).map rowRels) = .ok () := by
  have : (((checkedRows p).map rowRels).flatten).findSome? RelText.fault = none := by
    simp only [List.findSome?_eq_none_iff, fault_none, List.mem_flatten, List.mem_map]
    rintro r ⟨_, ⟨l, hl, rfl⟩, hr⟩
    exact h l hl r hr
  rw [checkRels_lists, checkedRows_rels, this]

theorem page_check_bad {p : List (List RowStmt)} {l : List RowStmt} {r : RelText} (hl : l ∈ checkedRows p) (hr : r ∈ rowRels l)
    (h : ¬ r.Proper) : ∃ e, checkRels ((makeRows p).map rowRels) = .error e := by
  rw [checkRels_lists, checkedRows_rels]
  cases hf : (((checkedRows p).map rowRels).flatten).findSome? RelText.fault with
  | some e => exact ⟨e, rfl⟩
  | none =>
    simp only [List.findSome?_eq_none_iff, fault_none, List.mem_flatten, List.mem_map] at hf
    exact absurd (hf r ⟨_, ⟨l, hl, rfl⟩, hr⟩) h

theorem page_one {p : List (List RowStmt)} (h : (findRows p).length = 1) : ∃ f fs, findRows p = [f :: fs] := by
  match hr : findRows p, h with
  | [[]], _ =>
    obtain ⟨_, _, _, hne⟩ := mem_findRows (p := p) (l := []) (by simp [hr])
    exact absurd rfl hne
  | [f :: fs], _ => exact ⟨f, fs, rfl⟩

/-- C86, C66: how a query of several lines with several statements on each line is parsed.  Of every line everything from its first MAKE on
is one MAKE, with the patterns of all the statements, MAKE or FIND; the FIND is the first pattern of the first FIND of the only line that
has one. -/
theorem C86_page_parse {p : List (List RowStmt)} {f : RowStmt} {fs : List RowStmt} (hp : ∀ l ∈ p, ∀ x ∈ l, x.Loose) {txt : Str} (ht : PageOf p txt)
    (hf : findRows p = [f :: fs]) (h1 : ∀ l ∈ findRows p ++ checkedRows p, ∀ r ∈ rowRels l, r.Proper)
    (hr : NoAnagram c!"report" txt) :
    parseQueryString txt =
      .ok ⟨pageMakes p, some ⟨f.stmt.render ++ renderRow fs, .find, f.stmt.first.pattern⟩, none⟩ := by
  rw [parseQueryString, page_parseMake hp ht, page_parseFind hp ht hf, page_check_ok fun l hl => h1 l (by simp [hl]),
    checkAll_ok fun r hr => h1 (f :: fs) (by simp [hf]) r hr]
  simp only [report_none hr]

theorem rowParsed_mem {p : List (List RowStmt)} {l : List RowStmt} (hl : l ∈ makeRows p) :
    ∃ m ms, l = m :: ms ∧ (⟨m.stmt.render ++ renderRow ms, .make, m.stmt.chains.map ChainText.pattern ++ rowPatterns ms⟩ : ParsedMake) ∈
      (makeRows p).filterMap rowParsed := by
  obtain ⟨_, _, _, hne⟩ := mem_makeRows hl
  cases l with
  | nil => exact absurd rfl hne
  | cons m ms => exact ⟨m, ms, rfl, List.mem_filterMap.2 ⟨_, hl, rfl⟩⟩

theorem pageMakes_some {p : List (List RowStmt)} {l : List RowStmt} (hl : l ∈ makeRows p) :
    ∃ pm ms, pageMakes p = some (pm :: ms) ∧ pm :: ms = (makeRows p).filterMap rowParsed := by
  obtain ⟨m, ms, rfl, hmem⟩ := rowParsed_mem hl
  unfold pageMakes
  cases h : (makeRows p).filterMap rowParsed with
  | nil => rw [h] at hmem; simp at hmem
  | cons pm pms => exact ⟨pm, pms, rfl, rfl⟩

/-- C86: the queries that are refused, and that nothing is stored then. -/
theorem C86_page_refused {p : List (List RowStmt)} (hp : ∀ l ∈ p, ∀ x ∈ l, x.Loose) {txt : Str} (ht : PageOf p txt) (h : PageRefused p) (env : Env) (g : GPath) (fs : FS) :
    ∃ e, (query env txt g).run fs = (.error e, fs) := by
  cases hq : parseQueryString txt with
  | error e => exact query_parse_error hq env g fs
  | ok pq =>
    have hq' := hq
    rw [parseQueryString, page_parseMake hp ht] at hq'
    rcases h with h | ⟨l, hl, r, hr, hbad⟩ | ⟨l, hl, r, hr, hboth⟩ | ⟨l, hl, x, hx, hgap⟩
    · exfalso
      cases hc : checkRels ((makeRows p).map rowRels) with
      | error e => rw [hc] at hq'; simp at hq'
      | ok u =>
        rw [hc] at hq'
        rcases page_notOneFind hp ht h with ⟨e, he⟩ | he <;> rw [he] at hq' <;> simp at hq'
    · exfalso
      cases hc : checkRels ((makeRows p).map rowRels) with
      | error e => rw [hc] at hq'; simp at hq'
      | ok u =>
        rcases List.mem_append.1 hl with hl | hl
        · by_cases h1 : (findRows p).length = 1
          · obtain ⟨f, fs', hf⟩ := page_one h1
            rw [hf, List.mem_singleton] at hl
            subst hl
            obtain ⟨e, he⟩ := checkAll_bad hr hbad
            rw [hc, page_parseFind hp ht hf, he] at hq'
            simp at hq'
          · rw [hc] at hq'
            rcases page_notOneFind hp ht h1 with ⟨e, he⟩ | he <;> rw [he] at hq' <;> simp at hq'
        · obtain ⟨e, he⟩ := page_check_bad hl hr hbad
          rw [he] at hc
          simp at hc
    · obtain ⟨f', hf', _, hmake, _⟩ := parseQuery_ok hq
      rw [page_parseMake hp ht] at hmake
      cases hc : checkRels ((makeRows p).map rowRels) with
      | error e => rw [hc] at hmake; simp at hmake
      | ok u =>
        obtain ⟨pm, pms, e1, e2⟩ := pageMakes_some hl
        have hm : parseMake txt = .ok (some (pm :: pms)) := by rw [page_parseMake hp ht, hc, e1]
        obtain ⟨m, ms, rfl, hmem⟩ := rowParsed_mem hl
        rw [← e2] at hmem
        obtain ⟨y, hy, hr⟩ := List.mem_flatMap.1 hr
        obtain ⟨c, hc', hr⟩ := List.mem_flatMap.1 hr
        refine C38_bidirectional_raises env g fs hm (p := c.pattern) ?_ (t := r.part) ?_ (x := r.render) rfl ?_ ?_
        · refine List.mem_flatMap.2 ⟨_, hmem, ?_⟩
          rcases List.mem_cons.1 hy with rfl | hy
          · exact List.mem_append_left _ (List.mem_map.2 ⟨c, hc', rfl⟩)
          · refine List.mem_append_right _ (List.mem_flatMap.2 ⟨y, hy, List.mem_append_right _ (List.mem_map.2 ⟨c, hc', rfl⟩)⟩)
        · have ht := truthy_rel r
          have ha : truthy PartText.absent.text = false := rfl
          cases c with
          | one n => simp [ChainText.rels] at hr
          | two n r1 m =>
            simp [ChainText.rels] at hr
            subst hr
            simp [writtenRels, ChainText.pattern, ht]
          | three n r1 m r2 m' =>
            simp [ChainText.rels] at hr
            rcases hr with rfl | rfl <;> simp [writtenRels, ChainText.pattern, ht]
        · simp [RelText.render, hboth.1]
        · simp [RelText.render, hboth.2]
    · obtain ⟨f', hf', _, hmake, _⟩ := parseQuery_ok hq
      rw [page_parseMake hp ht] at hmake
      cases hc : checkRels ((makeRows p).map rowRels) with
      | error e => rw [hc] at hmake; simp at hmake
      | ok u =>
        rw [hc] at hmake
        obtain ⟨pm, pms, e1, e2⟩ := pageMakes_some hl
        obtain ⟨m, ms, rfl, hmem⟩ := rowParsed_mem hl
        rw [← e2] at hmem
        simp only [Except.ok.injEq] at hmake
        rw [query_run, hq]
        simp only
        rw [execute_run hf', ← hmake, e1]
        obtain ⟨e, he⟩ := C22_rejected_make_changes_nothing env (pm :: pms) g fs (.inr fun hok => by
          have := hok.shape ⟨.absent, .absent, .absent, .absent, .absent⟩ (by
            refine List.mem_flatMap.2 ⟨_, hmem, ?_⟩
            refine List.mem_append_right _ (List.mem_flatMap.2 ⟨x, by simpa using hx, ?_⟩)
            simp [gapPattern, Nat.ne_of_gt (blankRuns_pos hgap)])
          exact this.left rfl)
        refine ⟨e, ?_⟩
        rw [show (executeMakes env g (some (pm :: pms))).run fs = (.error e, fs) from he]

theorem page_makeOf {p : List (List RowStmt)} (hg : ∀ l ∈ makeRows p, ∀ x ∈ l.tail, ¬ HasBlank x.gap) : MakeOf (pageMakes p) (pageChains p) := by
  have key : ∀ ls : List (List RowStmt), (∀ l ∈ ls, ∀ x ∈ l.tail, ¬ HasBlank x.gap) →
      patsOf (ls.filterMap rowParsed) = (ls.flatMap rowChains).map ChainText.pattern := by
    intro ls
    induction ls with
    | nil => exact fun _ => rfl
    | cons l ls ih =>
      intro h
      have ih := ih fun l hl => h l (List.mem_cons_of_mem _ hl)
      have h0 := h l (by simp)
      cases l with
      | nil => simpa [rowParsed, rowChains, List.filterMap_cons] using ih
      | cons m ms =>
        have := rowPatterns_gapless (l := ms) (by simpa using h0)
        simp only [patsOf] at ih ⊢
        simp only [List.filterMap_cons, rowParsed, List.flatMap_cons, ih, this, rowChains, List.map_append]
  by_cases hm : makeRows p = []
  · exact .inl ⟨by simp [pageMakes, hm], by simp [pageChains, hm]⟩
  · obtain ⟨l, ls, e⟩ := List.exists_cons_of_ne_nil hm
    obtain ⟨pm, pms, e1, e2⟩ := pageMakes_some (p := p) (l := l) (by simp [e])
    refine .inr ⟨pm, pms, e1, ?_, ?_⟩
    · intro q hq
      rw [e2] at hq
      obtain ⟨l, -, hl⟩ := List.mem_filterMap.1 hq
      cases l with
      | nil => simp [rowParsed] at hl
      | cons m ms =>
        simp only [rowParsed, Option.some.injEq] at hl
        rw [← hl]
    · rw [e2, key _ hg, pageChains]

theorem page_ne {p : List (List RowStmt)} (h : makeRows p ≠ []) : pageChains p ≠ [] := by
  obtain ⟨l, ls, e⟩ := List.exists_cons_of_ne_nil h
  obtain ⟨_, _, _, hne⟩ := mem_makeRows (p := p) (l := l) (by simp [e])
  have := rowChains_ne hne
  simp [pageChains, e, this]

theorem not_pageRefused {p : List (List RowStmt)} (h : ¬ PageRefused p) :
    (∃ f fs, findRows p = [f :: fs]) ∧ (∀ l ∈ findRows p ++ checkedRows p, ∀ r ∈ rowRels l, r.Proper) ∧
      (∀ l ∈ makeRows p, ∀ r ∈ rowRels l, ¬ (r.toLeft = true ∧ r.toRight = true)) ∧ ∀ l ∈ makeRows p, ∀ x ∈ l.tail, ¬ HasBlank x.gap :=
  ⟨page_one (Classical.byContradiction fun hn => h (.inl hn)),
    fun l hl r hr => Classical.byContradiction fun hn => h (.inr (.inl ⟨l, hl, r, hr, hn⟩)),
    fun l hl r hr hn => h (.inr (.inr (.inl ⟨l, hl, r, hr, hn⟩))),
    fun l hl x hx hn => h (.inr (.inr (.inr ⟨l, hl, x, hx, hn⟩)))⟩

/-- C86: the outcome of every query of lines that is not refused.  It stores the patterns of all the statements that stand behind a MAKE
on the same line, in their order, and the result is that of the only line with a FIND; without any relationship among them it ruins the
index. -/
theorem C86_page_outcome {p : List (List RowStmt)} {f : StmtText} (hp : ∀ l ∈ p, ∀ x ∈ l, x.Loose) {txt : Str} (ht : PageOf p txt) (hn : ¬ PageRefused p)
    (hf : pageFind p = some f) (hr : NoAnagram c!"report" txt) (env : Env) (g : GPath)
    (fs : FS) (d : Dict V) (labels names : List Str) (rels : Dict (List Int)) (n : Int)
    (h : Healthy fs g d labels names rels n) (hb : BelowCounter d n) :
    (makeRows p ≠ [] ∧ (∀ c ∈ pageChains p, c.rels = []) → Ruins env txt g fs d n (pageChains p)) ∧
    (makeRows p = [] ∨ (∃ c ∈ pageChains p, c.rels ≠ []) →
      Leaves env txt g fs d labels names rels n (pageChains p) f.first.findResult) := by
  obtain ⟨⟨f', fs', hff⟩, hpr, hboth, hg⟩ := not_pageRefused hn
  obtain rfl : f'.stmt = f := by simpa [pageFind, hff] using hf
  have hparse := C86_page_parse hp ht hff hpr hr
  have hst : ∀ c ∈ pageChains p, c.Storable := by
    intro c hc
    obtain ⟨l, hl, hc⟩ := List.mem_flatMap.1 hc
    obtain ⟨x, hx, hc⟩ := List.mem_flatMap.1 hc
    refine ((makeRows_loose hp hl x hx).facts.chains c hc).1.storable fun r hr => hboth l hl r ?_
    exact List.mem_flatMap.2 ⟨x, hx, List.mem_flatMap.2 ⟨c, hc, hr⟩⟩
  have hfst : f'.stmt.first.Storable := by
    have hl : f' :: fs' ∈ findRows p := by simp [hff]
    refine ((findRows_loose hp hl f' (by simp)).facts.chains f'.stmt.first (by simp [StmtText.chains])).1.storable fun r hr => not_both ?_
    exact hpr _ (List.mem_append_left _ hl) r (List.mem_flatMap.2 ⟨f', by simp, List.mem_flatMap.2 ⟨_, by simp [StmtText.chains], hr⟩⟩)
  constructor
  · rintro ⟨hm, hrel⟩
    refine run_ruins_st hparse (page_makeOf hg) hst hrel env g fs h hb ?_
    obtain ⟨l, ls, e⟩ := List.exists_cons_of_ne_nil hm
    obtain ⟨pm, pms, e1, e2⟩ := pageMakes_some (p := p) (l := l) (by simp [e])
    simp [e1]
  · intro hrel
    refine run_leaves_st hparse (page_makeOf hg) hst hfst ?_ env g fs h hb ?_
    · exact hrel.imp_left fun e => by simp [pageChains, e]
    · by_cases hm : makeRows p = []
      · exact .inl (by simp [pageMakes, hm])
      · exact .inr (page_ne hm)

/-- C39 for any layout: several FIND statements are refused if they stand on different lines, and taken for one if they share a line. -/
theorem C39_find_lines {p : List (List RowStmt)} (hp : ∀ l ∈ p, ∀ x ∈ l, x.Loose) {txt : Str} (ht : PageOf p txt) :
    ((∃ f, parseFind txt = .ok (some f)) → (p.filter fun l => l.any fun x => !x.isMake).length = 1) ∧
    ((p.filter fun l => l.any fun x => !x.isMake).length = 1 → (∀ l ∈ findRows p, ∀ r ∈ rowRels l, r.Proper) →
      ∃ f, parseFind txt = .ok (some f)) := by
  have key : ∀ q : List (List RowStmt), (q.filter fun l => l.any fun x => !x.isMake).length = (findRows q).length := by
    intro q
    induction q with
    | nil => rfl
    | cons l q ih =>
      have e : (l.any fun x => !x.isMake) = !(fromFind l).isEmpty := by
        induction l with
        | nil => rfl
        | cons x l ihl =>
          cases hk : x.isMake with
          | false => simp [fromFind, hk]
          | true => simpa [fromFind, hk] using ihl
      rw [List.filter_cons, e]
      cases h : (fromFind l).isEmpty with
      | true => simpa [findRows, h] using ih
      | false => simpa [findRows, h] using ih
  rw [key]
  constructor
  · rintro ⟨f, hf⟩
    refine Classical.byContradiction fun hn => ?_
    rcases page_notOneFind hp ht hn with ⟨e, he⟩ | he <;> rw [he] at hf <;> simp at hf
  · intro h1 hpr
    obtain ⟨f, fs, hf⟩ := page_one h1
    refine ⟨⟨f.stmt.render ++ renderRow fs, .find, f.stmt.first.pattern⟩, ?_⟩
    rw [page_parseFind hp ht hf, checkAll_ok (hpr (f :: fs) (by simp [hf]))]

/-! ### Layout -/

theorem fromMake_last {l : List RowStmt} (h : ∀ a x b, l = a ++ x :: b → x.isMake = true → b = []) :
    fromMake l = l.filter (fun x => x.isMake) ∧ (fromMake l).tail = [] := by
  induction l with
  | nil => exact ⟨rfl, rfl⟩
  | cons x l ih =>
    cases hk : x.isMake with
    | true =>
      have := h [] x l rfl hk
      subst this
      simp [fromMake, hk]
    | false =>
      have := ih fun a y b e hy => h (x :: a) y b (by simp [e]) hy
      simpa [fromMake, hk] using this

theorem rowChains_append (a b : List RowStmt) : rowChains (a ++ b) = rowChains a ++ rowChains b := List.flatMap_append

theorem pageChains_last {p : List (List RowStmt)} (h : ∀ l ∈ p, ∀ a x b, l = a ++ x :: b → x.isMake = true → b = []) :
    pageChains p = rowChains (p.flatten.filter fun x => x.isMake) := by
  induction p with
  | nil => rfl
  | cons l p ih =>
    have ih := ih fun l hl => h l (List.mem_cons_of_mem _ hl)
    rw [List.flatten_cons, List.filter_append, rowChains_append, ← ih, ← (fromMake_last (h l (by simp))).1]
    simp only [pageChains, makeRows, List.map_cons, List.filter_cons]
    cases hm : fromMake l with
    | nil => simp [rowChains]
    | cons m ms => simp

theorem fromFind_nil {l : List RowStmt} (h : (l.filter fun x => !x.isMake) = []) : fromFind l = [] := by
  induction l with
  | nil => rfl
  | cons x l ih =>
    cases hk : x.isMake with
    | true => simpa [fromFind, hk] using ih (by simpa [hk] using h)
    | false => simp [hk] at h

theorem fromFind_one {l : List RowStmt} {f : RowStmt} (h : (l.filter fun x => !x.isMake) = [f]) : ∃ fs, fromFind l = f :: fs := by
  induction l with
  | nil => simp at h
  | cons x l ih =>
    cases hk : x.isMake with
    | true => simpa [fromFind, hk] using ih (by simpa [hk] using h)
    | false =>
      simp [hk] at h
      obtain ⟨rfl, -⟩ := h
      exact ⟨l, by simp [fromFind, hk]⟩

theorem findRows_one {p : List (List RowStmt)} {f : RowStmt} (h : (p.flatten.filter fun x => !x.isMake) = [f]) :
    ∃ fs, findRows p = [f :: fs] := by
  have none : ∀ q : List (List RowStmt), (q.flatten.filter fun x => !x.isMake) = [] → findRows q = [] := by
    intro q
    induction q with
    | nil => exact fun _ => rfl
    | cons l q ih =>
      intro h
      rw [List.flatten_cons, List.filter_append, List.append_eq_nil_iff] at h
      simpa [findRows, fromFind_nil h.1] using ih h.2
  induction p with
  | nil => simp at h
  | cons l p ih =>
    rw [List.flatten_cons, List.filter_append] at h
    rcases List.append_eq_singleton_iff.1 h with ⟨h1, h2⟩ | ⟨h1, h2⟩
    · obtain ⟨fs, e⟩ := ih h2
      exact ⟨fs, by simpa [findRows, fromFind_nil h1] using e⟩
    · obtain ⟨fs, e⟩ := fromFind_one h1
      have := none p h2
      refine ⟨fs, ?_⟩
      simp only [findRows, List.map_cons, List.filter_cons, e, List.isEmpty_cons, Bool.not_false, if_true] at this ⊢
      rw [this]

theorem rowRels_flatten {p : List (List RowStmt)} {l l' : List RowStmt} {r : RelText} (hl : l' ∈ p) (hs : ∀ x ∈ l, x ∈ l')
    (hr : r ∈ rowRels l) : r ∈ rowRels p.flatten := by
  obtain ⟨x, hx, hr⟩ := List.mem_flatMap.1 hr
  exact List.mem_flatMap.2 ⟨x, List.mem_flatten.2 ⟨l', hl, hs x hx⟩, hr⟩

/-- C86, partial: in a query with one FIND whose MAKE statements are each the last statement of their line, and with proper
relationships, it does not matter how the statements are spread over lines: what is stored and the result depend only on the statements in
their order (`p.flatten`).  Missing from the full property: a statement behind a MAKE on the same line (`C86_violated`; what happens then
is `C86_page_refused` and `C86_page_outcome`). -/
theorem C86_layout_partial {p : List (List RowStmt)} {f : RowStmt} (hp : ∀ x ∈ p.flatten, x.Loose) {txt : Str} (ht : PageOf p txt)
    (hf : (p.flatten.filter fun x => !x.isMake) = [f])
    (hlast : ∀ l ∈ p, ∀ a x b, l = a ++ x :: b → x.isMake = true → b = []) (hr : ∀ r ∈ rowRels p.flatten, r.Proper)
    (hrep : NoAnagram c!"report" txt)
    (hrel : (p.flatten.filter fun x => x.isMake) = [] ∨ ∃ c ∈ rowChains (p.flatten.filter fun x => x.isMake), c.rels ≠ [])
    (env : Env) (g : GPath) (fs : FS) (d : Dict V) (labels names : List Str) (rels : Dict (List Int)) (n : Int)
    (h : Healthy fs g d labels names rels n) (hb : BelowCounter d n) :
    Leaves env txt g fs d labels names rels n (rowChains (p.flatten.filter fun x => x.isMake)) f.stmt.first.findResult := by
  have hp' : ∀ l ∈ p, ∀ x ∈ l, x.Loose := fun l hl x hx => hp x (List.mem_flatten.2 ⟨l, hl, hx⟩)
  obtain ⟨fs', e⟩ := findRows_one hf
  have hmr : ∀ l ∈ makeRows p, ∀ r ∈ rowRels l, r.Proper := fun l hl r hr' => by
    obtain ⟨l', hl', rfl, -⟩ := mem_makeRows hl
    exact hr r (rowRels_flatten hl' (fun x hx => mem_fromMake hx) hr')
  have hn : ¬ PageRefused p := by
    rintro (h1 | ⟨l, hl, r, hr', hbad⟩ | ⟨l, hl, r, hr', hboth⟩ | ⟨l, hl, x, hx, -⟩)
    · simp [e] at h1
    · rcases List.mem_append.1 hl with hl | hl
      · obtain ⟨l', hl', rfl, -⟩ := mem_findRows hl
        exact hbad (hr r (rowRels_flatten hl' (fun x hx => mem_fromFind hx) hr'))
      · exact hbad (hmr l ((List.takeWhile_sublist _).subset hl) r hr')
    · exact not_both (hmr l hl r hr') hboth
    · obtain ⟨l', hl', rfl, -⟩ := mem_makeRows hl
      simp [(fromMake_last (hlast l' hl')).2] at hx
  have key := (C86_page_outcome hp' ht hn (f := f.stmt) (by simp [pageFind, e]) hrep env g fs d labels names rels n h hb).2
  rw [pageChains_last hlast] at key
  refine key (hrel.imp_left fun h0 => ?_)
  cases hm : makeRows p with
  | nil => rfl
  | cons l ls =>
    have := page_ne (p := p) (by simp [hm])
    rw [pageChains_last hlast, h0] at this
    exact absurd rfl this

end

section
attribute [local instance] demoRuntime

/-- A MAKE and a blank and a FIND, on one line and on two. -/
def pLine : List (List RowStmt) := [[⟨[], true, eMake⟩, ⟨c!" ", false, eFind⟩]]
def pLines : List (List RowStmt) := [[⟨[], true, eMake⟩], [⟨c!" ", false, eFind⟩]]
/-- FIND and MAKE on one line, an empty line, and another MAKE. -/
def pPage : List (List RowStmt) := [[⟨[], false, eFind⟩, ⟨c!" ", true, eMake⟩], [], [⟨c!" ", true, aOne⟩]]

theorem pStmts : ∀ x ∈ [(⟨[], true, eMake⟩ : RowStmt), ⟨c!" ", false, eFind⟩, ⟨[], false, eFind⟩, ⟨c!" ", true, eMake⟩, ⟨c!" ", true, aOne⟩], x.Loose := by
  simp only [List.mem_cons, List.not_mem_nil, or_false, forall_eq_or_imp, forall_eq]
  exact ⟨⟨between_of_indent (by simp [Indent]), by decide, fun _ => eMake_good.loose, by simp⟩, ⟨between_of_indent (by simp [Indent]), by decide, by simp, fun _ => eFind_good.loose⟩,
    ⟨between_of_indent (by simp [Indent]), by decide, by simp, fun _ => eFind_good.loose⟩, ⟨between_of_indent (by simp [Indent]), by decide, fun _ => eMake_good.loose, by simp⟩,
    ⟨between_of_indent (by simp [Indent]), by decide, fun _ => aOne_good.loose, by simp⟩⟩

theorem pLine_text : pageText pLine = c!"MAKE (a:Man{x: 5})-[r:KNOWS]->(b:Man); FIND (c:Man);" := by decide
theorem pLines_text : pageText pLines = c!"MAKE (a:Man{x: 5})-[r:KNOWS]->(b:Man);\n FIND (c:Man);" := by decide
theorem pPage_text : pageText pPage = c!"FIND (c:Man); MAKE (a:Man{x: 5})-[r:KNOWS]->(b:Man);\n\n MAKE (a:Man);" := by decide

theorem pRels {l : List RowStmt} (h : ∀ x ∈ l, x.stmt = eMake ∨ x.stmt = eFind ∨ x.stmt = aOne) : ∀ r ∈ rowRels l, r.Proper := by
  intro r hr
  obtain ⟨x, hx, hr⟩ := List.mem_flatMap.1 hr
  rcases h x hx with e | e | e <;> rw [e] at hr
  · exact eMake_good.toWritten.proper r hr
  · exact eFind_good.toWritten.proper r hr
  · exact aOne_good.toWritten.proper r hr

theorem last_of {l : List RowStmt} (h : l.dropLast.all (fun x => !x.isMake) = true) :
    ∀ a x b, l = a ++ x :: b → x.isMake = true → b = [] := by
  rintro a x b rfl hk
  cases b with
  | nil => rfl
  | cons y b =>
    rw [List.dropLast_append_of_ne_nil (by simp), List.dropLast_cons_of_ne_nil (by simp)] at h
    simp [hk] at h

/-- On two lines they store the MAKE. -/
theorem pLines_leaves : Leaves demoEnv (pageText pLines) demoG demoFresh [] [] [] [] 0 eMake.chains (.ok true) := by
  refine C86_layout_partial (f := ⟨c!" ", false, eFind⟩) ?_ (pageOf_text _) rfl ?_ (pRels (by simp [pLines])) ?_ (.inr ⟨eMake.first, ?_, ?_⟩)
    demoEnv demoG demoFresh [] [] [] [] 0 demoFresh_healthy (below_nil 0)
  · intro x hx
    exact pStmts x (by simp [pLines] at hx; rcases hx with rfl | rfl <;> simp)
  · simp only [pLines, List.mem_cons, List.not_mem_nil, or_false, forall_eq_or_imp, forall_eq]
    exact ⟨last_of rfl, last_of rfl⟩
  · rw [pLines_text]
    exact noAnagram_of (k := 't') (by decide) (by decide)
  · simp [pLines, rowChains, StmtText.chains]
  · simp [eMake, ChainText.rels]

/-- Three lines with three statements. -/
example : Leaves demoEnv (pageText pPage) demoG demoFresh [] [] [] [] 0 (eMake.chains ++ aOne.chains) (.ok true) := by
  refine C86_layout_partial (f := ⟨[], false, eFind⟩) ?_ (pageOf_text _) rfl ?_ (pRels (by simp [pPage])) ?_ (.inr ⟨eMake.first, ?_, ?_⟩)
    demoEnv demoG demoFresh [] [] [] [] 0 demoFresh_healthy (below_nil 0)
  · intro x hx
    exact pStmts x (by simp [pPage] at hx; rcases hx with rfl | rfl | rfl <;> simp)
  · simp only [pPage, List.mem_cons, List.not_mem_nil, or_false, forall_eq_or_imp, forall_eq]
    exact ⟨last_of rfl, last_of rfl, last_of rfl⟩
  · rw [pPage_text]
    exact noAnagram_of (k := 't') (by decide) (by decide)
  · simp [pPage, rowChains, StmtText.chains]
  · simp [eMake, ChainText.rels]

/-- C86 is violated: the same statements, but one query stores what it should and the other is refused. -/
theorem C86_violated : ∃ p p' : List (List RowStmt), p.flatten = p'.flatten ∧ (∀ x ∈ p.flatten, x.Loose) ∧
    (∃ fs', (query demoEnv (pageText p) demoG).run demoFresh = (.ok true, fs')) ∧
    ∃ e, (query demoEnv (pageText p') demoG).run demoFresh = (.error e, demoFresh) := by
  refine ⟨pLines, pLine, rfl, ?_, ?_, ?_⟩
  · intro x hx
    exact pStmts x (by simp [pLines] at hx; rcases hx with rfl | rfl <;> simp)
  · obtain ⟨fs', _, _, _, _, h, _⟩ := pLines_leaves
    exact ⟨fs', h⟩
  · refine C86_page_refused ?_ (pageOf_text _) (.inr (.inr (.inr ⟨[⟨[], true, eMake⟩, ⟨c!" ", false, eFind⟩], by simp [pLine, makeRows, fromMake],
      ⟨c!" ", false, eFind⟩, by simp, ⟨' ', by simp, by decide⟩⟩))) demoEnv demoG demoFresh
    intro l hl x hx
    exact pStmts x (by simp [pLine] at hl; subst hl; simp at hx; rcases hx with rfl | rfl <;> simp)

/-- C39: two FIND statements on one line are taken for one, on two lines they are refused. -/
example : (∃ f, parseFind (pageText [[⟨[], false, eFind⟩, ⟨c!" ", false, eFind⟩]]) = .ok (some f)) ∧
    ¬ ∃ f, parseFind (pageText [[⟨[], false, eFind⟩], [⟨c!" ", false, eFind⟩]]) = .ok (some f) := by
  have hl : ∀ x ∈ [(⟨[], false, eFind⟩ : RowStmt), ⟨c!" ", false, eFind⟩], x.Loose := fun x hx => pStmts x (by
    simp at hx; rcases hx with rfl | rfl <;> simp)
  refine ⟨(C39_find_lines (by simpa using hl) (pageOf_text _)).2 rfl fun l hl' => ?_, fun h => ?_⟩
  · refine pRels fun x hx => .inr (.inl ?_)
    obtain ⟨l', h1, rfl, -⟩ := mem_findRows hl'
    have := mem_fromFind hx
    simp at h1
    subst h1
    simp at this
    rcases this with rfl | rfl <;> rfl
  · have := (C39_find_lines (by simpa using hl) (pageOf_text _)).1 h
    simp at this

end

end WG
