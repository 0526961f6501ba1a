/-
Any number of MAKE and FIND statements typed on one line: C30, C67, C85.
-/
import Verif.Proofs.Row
import Verif.Props.Loose
import Verif.Props.Phantom

set_option linter.unusedSectionVars false
set_option linter.unusedSimpArgs false

namespace WG

section
variable [PyRuntime]

theorem checkAll_eq (rs : List RelText) : checkAll rs = (match rs.findSome? RelText.fault with
    | some e => .error e
    | none => .ok ()) := by
  cases rs with
  | nil => rfl
  | cons r rs =>
    rw [checkAll, checkRels, forEach_check]
    cases (r :: rs).findSome? RelText.fault <;> rfl

theorem checkAll_ok {rs : List RelText} (h : ∀ r ∈ rs, r.Proper) : checkAll rs = .ok () := by
  have : rs.findSome? RelText.fault = none := by
    simp only [List.findSome?_eq_none_iff, fault_none]
    exact h
  rw [checkAll_eq, this]

theorem checkAll_bad {rs : List RelText} {r : RelText} (hr : r ∈ rs) (h : ¬ r.Proper) : ∃ e, checkAll rs = .error e := by
  rw [checkAll_eq]
  cases hf : rs.findSome? RelText.fault with
  | some e => exact ⟨e, rfl⟩
  | none =>
    simp only [List.findSome?_eq_none_iff, fault_none] at hf
    exact absurd (hf r hr) h

theorem rowRels_fromMake {l : List RowStmt} {r : RelText} (h : r ∈ rowRels (fromMake l)) : r ∈ rowRels l := by
  obtain ⟨x, hx, hr⟩ := List.mem_flatMap.1 h
  exact List.mem_flatMap.2 ⟨x, mem_fromMake hx, hr⟩

theorem rowRels_fromFind {l : List RowStmt} {r : RelText} (h : r ∈ rowRels (fromFind l)) : r ∈ rowRels l := by
  obtain ⟨x, hx, hr⟩ := List.mem_flatMap.1 h
  exact List.mem_flatMap.2 ⟨x, mem_fromFind hx, hr⟩

/-- C85, C30: how a row of statements is parsed.  From the first MAKE on everything is one MAKE, with the patterns of all the statements,
MAKE or FIND, and a blank pattern for white space between them; the FIND is the first pattern of the first FIND. -/
theorem C85_row_parse {l fs : List RowStmt} {f : RowStmt} (hl : ∀ x ∈ l, x.Loose) (hf : fromFind l = f :: fs)
    (hp : ∀ r ∈ rowRels l, r.Proper) (hr : NoAnagram c!"report" (renderRow l)) :
    parseQueryString (renderRow l) =
      .ok ⟨rowMake l, some ⟨f.stmt.render ++ renderRow fs, .find, f.stmt.first.pattern⟩, none⟩ := by
  rw [parseQueryString, row_parseMake hl, row_parseFind hl hf, checkAll_ok fun r hr => hp r (rowRels_fromMake hr),
    checkAll_ok fun r hr => hp r (rowRels_fromFind hr)]
  simp only [report_none hr]

theorem query_parse_error {q : Str} {e : PyErr} (h : parseQueryString q = .error e) (env : Env) (g : GPath) (fs : FS) :
    ∃ e, (query env q g).run fs = (.error e, fs) := ⟨e, by rw [query_run, h]⟩

/-- C85: a row without a FIND, with a wrong relationship anywhere, or with white space between two statements behind its first MAKE is
refused, and nothing is stored. -/
theorem C85_row_refused {l : List RowStmt} (hl : ∀ x ∈ l, x.Loose) (h : RowRefused l) (env : Env) (g : GPath) (fs : FS) :
    ∃ e, (query env (renderRow l) g).run fs = (.error e, fs) := by
  have bad : (∀ p, parseQueryString (renderRow l) ≠ .ok p) → ∃ e, (query env (renderRow l) g).run fs = (.error e, fs) := by
    intro hn
    cases hp : parseQueryString (renderRow l) with
    | error e => exact query_parse_error hp env g fs
    | ok p => exact absurd hp (hn p)
  by_cases hf : fromFind l = []
  · refine bad fun p hp => ?_
    rw [parseQueryString] at hp
    cases hm : parseMake (renderRow l) with
    | error e => rw [hm] at hp; simp at hp
    | ok mk =>
      rw [hm] at hp
      rcases row_noFind hl hf with ⟨e, he⟩ | he <;> rw [he] at hp <;> simp at hp
  · obtain ⟨f, fs', hf⟩ := List.exists_cons_of_ne_nil hf
    rcases h with h | ⟨r, hr, hbad⟩ | ⟨x, hx, hgap⟩
    · have := fromFind_head hf
      rw [h f (mem_fromFind (by simp [hf]))] at this
      simp at this
    · refine bad fun p hp => ?_
      rw [parseQueryString] at hp
      cases l with
      | nil => simp [rowRels] at hr
      | cons x l =>
        cases hk : x.isMake with
        | true =>
          have e : fromMake (x :: l) = x :: l := by simp [fromMake, hk]
          obtain ⟨er, her⟩ := checkAll_bad hr hbad
          rw [row_parseMake hl, e, her] at hp
          simp at hp
        | false =>
          have e : fromFind (x :: l) = x :: l := by simp [fromFind, hk]
          obtain ⟨er, her⟩ := checkAll_bad hr hbad
          rw [row_parseFind hl hf, e, her] at hp
          cases hm : parseMake (renderRow (x :: l)) with
          | error e => rw [hm] at hp; simp at hp
          | ok mk => rw [hm] at hp; simp at hp
    · cases hp : parseQueryString (renderRow l) with
      | error e => exact query_parse_error hp env g fs
      | ok p =>
        obtain ⟨f', hf', _, hmake, _⟩ := parseQuery_ok hp
        rw [row_parseMake hl] at hmake
        cases hc : checkAll (rowRels (fromMake l)) with
        | error e => rw [hc] at hmake; simp at hmake
        | ok u =>
          rw [hc] at hmake
          cases hm : fromMake l with
          | nil => simp [hm] at hx
          | cons m ms =>
            rw [hm, List.tail_cons] at hx
            simp only [rowMake, hm, Except.ok.injEq] at hmake
            rw [query_run, hp]
            simp only
            rw [execute_run hf', ← hmake]
            obtain ⟨e, he⟩ := C22_rejected_make_changes_nothing env
              [⟨m.stmt.render ++ renderRow ms, .make, m.stmt.chains.map ChainText.pattern ++ rowPatterns ms⟩] g fs (.inr fun hok => by
                have := hok.shape ⟨.absent, .absent, .absent, .absent, .absent⟩ (by
                  simp only [patsOf, List.flatMap_cons, List.flatMap_nil, List.append_nil, List.mem_append]
                  refine .inr (List.mem_flatMap.2 ⟨x, hx, ?_⟩)
                  simp [gapPattern, Nat.ne_of_gt (blankRuns_pos hgap)])
                exact this.left rfl)
            refine ⟨e, ?_⟩
            rw [show (executeMakes env g (some [⟨m.stmt.render ++ renderRow ms, .make, m.stmt.chains.map ChainText.pattern ++ rowPatterns ms⟩])).run fs =
              (.error e, fs) from he]

theorem rowPatterns_gapless {l : List RowStmt} (h : ∀ x ∈ l, ¬ HasBlank x.gap) : rowPatterns l = (rowChains l).map ChainText.pattern := by
  induction l with
  | nil => rfl
  | cons x l ih =>
    have := ih fun y hy => h y (List.mem_cons_of_mem _ hy)
    simp only [rowPatterns, rowChains, List.flatMap_cons, List.map_append] at this ⊢
    rw [this, gapPattern, blankRuns_zero (h x (by simp))]
    simp

theorem not_refused {l : List RowStmt} (h : ¬ RowRefused l) :
    (∃ f fs, fromFind l = f :: fs) ∧ (∀ r ∈ rowRels l, r.Proper) ∧ ∀ x ∈ (fromMake l).tail, ¬ HasBlank x.gap := by
  refine ⟨?_, fun r hr => Classical.byContradiction fun hp => h (.inr (.inl ⟨r, hr, hp⟩)),
    fun x hx hp => h (.inr (.inr ⟨x, hx, hp⟩))⟩
  cases hf : fromFind l with
  | nil =>
    refine absurd (.inl fun x hx => ?_) h
    have key : ∀ l : List RowStmt, fromFind l = [] → ∀ x ∈ l, x.isMake = true := by
      intro l
      induction l with
      | nil => simp
      | cons y l ih =>
        intro h x hx
        cases hk : y.isMake with
        | false => simp [fromFind, hk] at h
        | true =>
          rcases List.mem_cons.1 hx with rfl | hx
          · exact hk
          · exact ih (by simpa [fromFind, hk] using h) x hx
    exact key l hf x hx
  | cons f fs => exact ⟨f, fs, rfl⟩

theorem rowMake_of {l : List RowStmt} (hg : ∀ x ∈ (fromMake l).tail, ¬ HasBlank x.gap) : MakeOf (rowMake l) (rowChains (fromMake l)) := by
  unfold rowMake
  cases hm : fromMake l with
  | nil => exact .inl ⟨rfl, rfl⟩
  | cons m ms =>
    rw [hm] at hg
    refine .inr ⟨_, _, rfl, by simp, ?_⟩
    simp [patsOf, rowPatterns_gapless (l := ms) (by simpa using hg), rowChains]

theorem row_storable {l : List RowStmt} (hl : ∀ x ∈ l, x.Loose) (hp : ∀ r ∈ rowRels l, r.Proper) : ∀ c ∈ rowChains l, c.Storable := by
  intro c hc
  obtain ⟨x, hx, hc⟩ := List.mem_flatMap.1 hc
  refine ((hl x hx).facts.chains c hc).1.storable fun r hr => not_both (hp r ?_)
  exact List.mem_flatMap.2 ⟨x, hx, List.mem_flatMap.2 ⟨c, hc, hr⟩⟩

theorem rowChains_fromMake {l : List RowStmt} {c : ChainText} (h : c ∈ rowChains (fromMake l)) : c ∈ rowChains l := by
  obtain ⟨x, hx, hr⟩ := List.mem_flatMap.1 h
  exact List.mem_flatMap.2 ⟨x, mem_fromMake hx, hr⟩

theorem rowChains_ne {l : List RowStmt} (h : l ≠ []) : rowChains l ≠ [] := by
  cases l with
  | nil => exact absurd rfl h
  | cons x l => simp [rowChains, StmtText.chains]

/-- C85: the outcome of a row that is not refused.  It stores the patterns of all the statements from the first MAKE on, those of the FIND
statements included, and the result is that of the first FIND; without any relationship among them it ruins the index. -/
theorem C85_row_outcome {l : List RowStmt} {f : StmtText} (hl : ∀ x ∈ l, x.Loose) (hn : ¬ RowRefused l) (hf : rowFind l = some f)
    (hr : NoAnagram c!"report" (renderRow l)) (env : Env) (g : GPath)
    (fs : FS) (d : Dict V) (labels names : List Str) (rels : Dict (List Int)) (n : Int)
    (h : Healthy fs g d labels names rels n) (hb : BelowCounter d n) :
    (fromMake l ≠ [] ∧ (∀ c ∈ rowChains (fromMake l), c.rels = []) → Ruins env (renderRow l) g fs d n (rowChains (fromMake l))) ∧
    (fromMake l = [] ∨ (∃ c ∈ rowChains (fromMake l), c.rels ≠ []) →
      Leaves env (renderRow l) g fs d labels names rels n (rowChains (fromMake l)) f.first.findResult) := by
  obtain ⟨⟨f', fs', hff⟩, hp, hg⟩ := not_refused hn
  obtain rfl : f'.stmt = f := by simpa [rowFind, hff] using hf
  have hparse := C85_row_parse hl hff hp hr
  have hst := row_storable hl hp
  constructor
  · rintro ⟨hm, hrel⟩
    refine run_ruins_st hparse (rowMake_of hg) (fun c hc => hst c (rowChains_fromMake hc)) hrel env g fs h hb ?_
    unfold rowMake
    cases hm' : fromMake l with
    | nil => exact absurd hm' hm
    | cons m ms => simp
  · intro hrel
    refine run_leaves_st hparse (rowMake_of hg) (fun c hc => hst c (rowChains_fromMake hc)) (hst _ ?_) ?_ env g fs h hb ?_
    · exact List.mem_flatMap.2 ⟨f', mem_fromFind (by simp [hff]), by simp [StmtText.chains]⟩
    · exact hrel.imp_left fun e => by simp [e, rowChains]
    · by_cases hm : fromMake l = []
      · exact .inl (by simp [rowMake, hm])
      · exact .inr (rowChains_ne hm)

end

section
attribute [local instance] demoRuntime

/-- `FIND (c:Man); MAKE` ..., and behind it without blanks another MAKE and another FIND. -/
def wRow : List RowStmt := [⟨[], false, eFind⟩, ⟨c!" ", true, eMake⟩, ⟨[], true, aOne⟩, ⟨[], false, eFind⟩]

theorem wRow_loose : ∀ x ∈ wRow, x.Loose := by
  simp only [wRow, List.mem_cons, List.not_mem_nil, or_false, forall_eq_or_imp, forall_eq]
  refine ⟨⟨between_of_indent (by simp [Indent]), by decide, by simp, fun _ => eFind_good.loose⟩, ⟨between_of_indent (by simp [Indent]), by decide, fun _ => eMake_good.loose, by simp⟩,
    ⟨between_of_indent (by simp [Indent]), by decide, fun _ => aOne_good.loose, by simp⟩, ⟨between_of_indent (by simp [Indent]), by decide, by simp, fun _ => eFind_good.loose⟩⟩

theorem wRow_runs : ¬ RowRefused wRow := by
  rintro (h | ⟨r, hr, hp⟩ | h)
  · simp [wRow] at h
  · obtain ⟨x, hx, hr⟩ := List.mem_flatMap.1 hr
    simp only [wRow, List.mem_cons, List.not_mem_nil, or_false] at hx
    rcases hx with rfl | rfl | rfl | rfl
    · exact hp (eFind_good.toWritten.proper r hr)
    · exact hp (eMake_good.toWritten.proper r hr)
    · exact hp (aOne_good.toWritten.proper r hr)
    · exact hp (eFind_good.toWritten.proper r hr)
  · simp [wRow, fromMake, HasBlank] at h

theorem wRow_text : renderRow wRow = eFind.render ++ (c!" " ++ (eMake.render ++ (aOne.render ++ eFind.render))) := rfl

theorem wRow_report : NoAnagram c!"report" (renderRow wRow) := noAnagram_of (k := 't') (by decide) (by decide)

theorem wRow_rel : ∃ c ∈ rowChains (fromMake wRow), c.rels ≠ [] :=
  ⟨eMake.first, by simp [wRow, fromMake, rowChains, StmtText.chains], by simp [eMake, ChainText.rels]⟩

/-- The patterns of both MAKE statements and of the FIND behind them are stored. -/
example : Leaves demoEnv (renderRow wRow) demoG demoFresh [] [] [] [] 0 (eMake.chains ++ (aOne.chains ++ eFind.chains)) (.ok true) :=
  (C85_row_outcome wRow_loose wRow_runs (f := eFind) rfl wRow_report demoEnv demoG demoFresh [] [] [] [] 0 demoFresh_healthy
    (below_nil 0)).2 (.inr wRow_rel)

/-- The same statements with a blank before the last one are refused. -/
example : ∃ e, (query demoEnv (renderRow (wRow.take 3 ++ [⟨c!" ", false, eFind⟩])) demoG).run demoFresh = (.error e, demoFresh) := by
  refine C85_row_refused ?_ (.inr (.inr ⟨⟨c!" ", false, eFind⟩, by simp [wRow, fromMake], ⟨' ', by simp, by decide⟩⟩)) demoEnv demoG demoFresh
  intro x hx
  rcases List.mem_append.1 hx with hx | hx
  · exact wRow_loose x (List.mem_of_mem_take hx)
  · obtain rfl := List.mem_singleton.1 hx
    exact ⟨between_of_indent (by simp [Indent]), by decide, by simp, fun _ => eFind_good.loose⟩

end

end WG
