/-
C76: what well-formed queries really do, without exceptions.
-/
import Verif.Props.World

set_option linter.unusedSectionVars false
set_option linter.unusedSimpArgs false

namespace WG

section
variable [PyRuntime]

/-- C76: the outcome of every well-formed query on a healthy GDBMS.  If it has MAKE statements but no relationship,
it raises and ruins the index; otherwise MAKE stores all its patterns, except that the third node of a pattern is lost and white
space behind an arrow turns it round, and the result is the one of FIND. -/
theorem C76_query_outcome {l : List Line} {f : StmtText} (hq : QueryGood l f) (env : Env) (g : GPath)
    (fs : FS) (d : Dict V) (labels names : List Str) (rels : Dict (List Int)) (n : Int)
    (h : Healthy fs g d labels names rels n) (hb : BelowCounter d n) :
    (makesOf l ≠ [] ∧ (∀ c ∈ makeChains l, c.rels = []) → Ruins env (queryText l) g fs d n (makeChains l)) ∧
    (makesOf l = [] ∨ (∃ c ∈ makeChains l, c.rels ≠ []) →
      Leaves env (queryText l) g fs d labels names rels n (makeChains l) f.first.findResult) := by
  have hg : ∀ c ∈ makeChains l, c.Good := fun c hc => by
    obtain ⟨t, ht, hc⟩ := List.mem_flatMap.1 hc
    exact ((makesOf_good hq.lines t ht).chains c hc).1
  constructor
  · rintro ⟨hm, hr⟩
    refine run_ruins (parseQuery_text hq) (makeOf_text _) hg hr env g fs h hb ?_
    cases e : makesOf l with
    | nil => exact absurd e hm
    | cons t ts => simp [parsedMakes]
  · intro hr
    refine run_leaves (parseQuery_text hq) (makeOf_text _) hg (findsOf_good hq).first ?_ env g fs h hb ?_
    · exact hr.imp_left fun e => by simp [e]
    · cases hm : makesOf l with
      | nil => exact .inl rfl
      | cons t ts => exact .inr (by simp [StmtText.chains])

/-- C76 for queries typed on one line. -/
theorem C76_typed_outcome {t : TypedText} (ht : t.Good) (env : Env) (g : GPath)
    (fs : FS) (d : Dict V) (labels names : List Str) (rels : Dict (List Int)) (n : Int)
    (h : Healthy fs g d labels names rels n) (hb : BelowCounter d n) :
    (t.make ≠ none ∧ (∀ c ∈ t.chains, c.rels = []) → Ruins env t.render g fs d n t.chains) ∧
    (t.make = none ∨ (∃ c ∈ t.chains, c.rels ≠ []) →
      Leaves env t.render g fs d labels names rels n t.chains t.find.first.findResult) := by
  refine ⟨fun ⟨hm, hr⟩ => ?_, fun hr => typed_leaves ht hr env g fs h hb⟩
  refine run_ruins (typed_parse ht) (makeOf_text _) ?_ hr env g fs h hb ?_
  · intro c hc
    obtain ⟨m, hm, hc⟩ := List.mem_flatMap.1 hc
    exact ((ht.make m (by simpa using hm)).chains c hc).1
  · cases e : t.make with
    | none => exact absurd e hm
    | some t => simp [parsedMakes]

/-- The records differ from what is written only where C14 and C17 say so: a pattern is stored as written iff it has fewer than three
nodes and no arrow head with white space behind it. -/
theorem C76_stored_as_written_iff {b : Int} {c : ChainText} {new : Dict V} (h : ActualRecords b c new) :
    ChainRecords b c new ↔ match c with
      | .one _ => True
      | .two _ r _ => r.toRight = true → r.sp3 = []
      | .three _ _ _ _ _ => False := by
  cases c with
  | one n => exact ⟨fun _ => trivial, fun _ => h⟩
  | two n r m =>
    obtain ⟨v, w, rfl, h1, h2, x, h3⟩ := h
    simp only
    constructor
    · rintro ⟨v', w', e, -, -, y, h4⟩ hr
      simp only [List.cons.injEq, Prod.mk.injEq, true_and, and_true] at e
      obtain ⟨rfl, rfl⟩ := e
      rw [if_pos hr] at h4
      cases hs : r.sp3 with
      | nil => rfl
      | cons a s =>
        have : r.seenRight = false := by simp [RelText.seenRight, hs]
        rw [this] at h3
        have := h3.1
        rw [h4.1] at this
        simp at this
    · intro hr
      have e : r.seenRight = r.toRight := by
        unfold RelText.seenRight
        cases ht : r.toRight with
        | false => rfl
        | true => rw [hr ht]; rfl
      rw [e] at h3
      exact ⟨v, w, rfl, h1, h2, x, h3⟩
  | three n r m r' m' =>
    obtain ⟨v, w, w1, w2, rfl, -⟩ := h
    simp only [iff_false]
    rintro ⟨_, _, _, _, _, e, -⟩
    simp at e

/-- C76 for whole runs of the program, each in a process of its own: whatever well-formed queries are typed, with any
texts that make nothing among them, every GDBMS holds what the queries really store, in their order; only a MAKE without
any relationship is excluded. -/
theorem C76_runs (rs : List (Env × ProgRun)) (w w' : World) (fs : FS) (h : Keeps ActualRecords fs w)
    (hr : LeadAll Typed.Fair w rs w') : Keeps ActualRecords (runAll rs fs) w' := by
  induction rs generalizing w fs with
  | nil => cases hr; exact h
  | cons r rs ih =>
    obtain ⟨w1, h1, h2⟩ := hr
    obtain ⟨⟨log, fs', h3, -, h4⟩, -⟩ := run_world (R := ActualRecords) (fun _ ht => ⟨ht, fun _ _ _ _ h => h⟩) r.1 r.2 w w1 fs h h1
    rw [runAll, h3]
    exact ih w1 fs' h4 h2

/-- One such run: it ends well, a query fails exactly if its FIND has two nodes. -/
theorem C76_run (env : Env) (r : ProgRun) (w w' : World) (fs : FS) (h : Keeps ActualRecords fs w) (hr : r.Leads Typed.Fair w w') :
    ∃ log fs', (startWiggleShell env r.inputs).run fs = (.ok (some log), fs') ∧ FairLog r.typed log ∧ Keeps ActualRecords fs' w' :=
  (run_world (R := ActualRecords) (fun _ ht => ⟨ht, fun _ _ _ _ h => h⟩) env r w w' fs h hr).1

end

section
attribute [local instance] demoRuntime

/-- `<-[s:KNOWS]-`. -/
def aRelL : RelText := { eRel with toLeft := true, handle := c!"s", toRight := false }
/-- `-[k:KNOWS]-> `. -/
def aRelS : RelText := { eRel with handle := c!"k", sp3 := c!" " }
/-- `MAKE (a:Man)-[k:KNOWS]-> (b:Man)<-[s:KNOWS]-(d:Dog);`. -/
def aMake : StmtText := ⟨c!"MAKE", c!" ", .three (eNode c!"a" c!"Man" none) aRelS (eNode c!"b" c!"Man" none) aRelL (eNode c!"d" c!"Dog" none), []⟩
/-- `FIND (c:Man)-[r:KNOWS]->(e:Man);`. -/
def aFind : StmtText := ⟨c!"FIND", c!" ", .two (eNode c!"c" c!"Man" none) eRel (eNode c!"e" c!"Man" none), []⟩
/-- Both on one line. -/
def aTyped : TypedText := ⟨aFind, c!" ", some aMake⟩

theorem aRelL_good : aRelL.Good :=
  ⟨⟨rfl, by decide, rfl, fun _ => rfl, by
    rintro a l b h
    simp only [aRelL, eRel, Option.some.injEq, Prod.mk.injEq] at h
    obtain ⟨rfl, rfl, rfl⟩ := h
    decide, by simp [aRelL, eRel], rfl⟩, by simp [aRelL, eRel, GoodProps], rfl, by
    rintro a l b h
    simp only [aRelL, eRel, Option.some.injEq, Prod.mk.injEq] at h
    obtain ⟨rfl, rfl, rfl⟩ := h
    intro _
    decide⟩

theorem aRelS_good : aRelS.Good :=
  ⟨⟨rfl, by decide, rfl, fun _ => rfl, by
    rintro a l b h
    simp only [aRelS, eRel, Option.some.injEq, Prod.mk.injEq] at h
    obtain ⟨rfl, rfl, rfl⟩ := h
    decide, by simp [aRelS, eRel], by decide⟩, by simp [aRelS, eRel, GoodProps], rfl, by
    rintro a l b h
    simp only [aRelS, eRel, Option.some.injEq, Prod.mk.injEq] at h
    obtain ⟨rfl, rfl, rfl⟩ := h
    intro _
    decide⟩

theorem aMake_good : aMake.Good c!"MAKE" c!"make" where
  kw := .inl rfl
  sp := by decide
  rest := by simp [aMake]
  chains := by
    simp only [aMake, StmtText.chains, List.map_nil, List.mem_singleton, forall_eq]
    exact ⟨⟨eNode_good (by decide) (by decide) (by decide), aRelS_good, eNode_good (by decide) (by decide) (by decide), aRelL_good,
      eNode_good (by decide) (by decide) (by decide)⟩, by decide⟩
  line := by decide
  close := by
    rintro c h
    simp [aMake, StmtText.chains] at h
    subst h
    rfl

theorem aFind_good : aFind.Good c!"FIND" c!"find" where
  kw := .inl rfl
  sp := by decide
  rest := by simp [aFind]
  chains := by
    simp only [aFind, StmtText.chains, List.map_nil, List.mem_singleton, forall_eq]
    exact ⟨⟨eNode_good (by decide) (by decide) (by decide), eRel_good, eNode_good (by decide) (by decide) (by decide)⟩, by decide⟩
  line := by decide
  close := by
    rintro c h
    simp [aFind, StmtText.chains] at h
    subst h
    rfl

theorem aTyped_text : aTyped.render = c!"FIND (c:Man)-[r:KNOWS]->(e:Man); MAKE (a:Man)-[k:KNOWS]-> (b:Man)<-[s:KNOWS]-(d:Dog);" := by decide

theorem aTyped_good : aTyped.Good where
  find := aFind_good
  gap := by simp [aTyped, Indent]
  make m h := by
    simp only [aTyped, Option.some.injEq] at h
    subst h
    exact aMake_good
  report := by
    rw [aTyped_text]
    exact noAnagram_of (k := 't') (by decide) (by decide)
  line := by decide

/-- C76: the dog is lost and so is the relationship that comes from it; the other one is stored the wrong way round; the counter goes up
by five; the query fails because of its FIND. -/
example : ∃ fs' v w x labels' names' rels', (query demoEnv aTyped.render demoG).run demoFresh = (.error .validation, fs') ∧
    Healthy fs' demoG [(intStr 0, v), (intStr 1, w)] labels' names' rels' 5 ∧ relationsOf v = [] ∧ relationsOf w = [x] ∧
    RelRecord x 3 aRelS 1 0 ∧ c!"Dog" ∈ labels' := by
  obtain ⟨fs', new, l', n', r', h1, h2, -, ⟨_, _, rfl, ⟨v, w, w1, w2, rfl, -, -, h3, ⟨x, h4⟩, h5⟩, h6⟩, h7, -⟩ :=
    (C76_typed_outcome aTyped_good demoEnv demoG demoFresh [] [] [] [] 0 demoFresh_healthy (below_nil 0)).2
      (.inr ⟨aMake.first, by simp [TypedText.chains, aTyped, StmtText.chains], by simp [aMake, ChainText.rels]⟩)
  rw [show _ = [] from h6] at h2
  have h5 : w2 = [] := h5
  have h4 : relationsOf v = [] ∧ w1 = [x] ∧ RelRecord x 3 aRelS 1 0 := h4
  rw [h5, h4.2.1] at h3
  exact ⟨fs', v, w, x, l', n', r', h1, h2, h4.1, h3, h4.2.2,
    (h7.labels _).2 (.inr ⟨aMake.first, by simp [TypedText.chains, aTyped, StmtText.chains], by decide⟩)⟩

/-- C76 over two runs: the first types this query twice, the second, in the same GDBMS, once. -/
example : Keeps ActualRecords (runAll [(demoEnv, ⟨c!"n", [], c!"zoo", [.query aTyped, .query aTyped]⟩),
      (demoEnv, ⟨c!"y", [], c!"A", [.query aTyped]⟩)] bareDisk) [(c!"zoo", (aTyped.chains ++ aTyped.chains) ++ aTyped.chains)] := by
  have hf : (Typed.query aTyped).Fair := by
    refine ⟨aTyped_good, .inr ⟨aMake.first, by simp [TypedText.chains, aTyped, StmtText.chains], by simp [aMake, ChainText.rels]⟩, fun h => ?_⟩
    have := (isSubstr_iff _ _).2 h
    revert this
    decide +kernel
  refine C76_runs _ [] _ bareDisk (bareDisk_keeps _) ⟨_, .new [] ?_ (.inl (by decide)) (by simp) (by decide) (by decide), _,
    .old [] [] c!"zoo" (aTyped.chains ++ aTyped.chains) ?_ (by decide) (by simp) ?_ ?_, rfl⟩
  · simpa using hf
  · simpa using hf
  · simp only [Shelf.names, List.map_cons, List.map_nil, List.nil_append]; decide
  · simp only [Shelf.names, List.map_cons, List.map_nil, List.nil_append]; decide

/-- C76: a lone node ruins the index. -/
def aOne : StmtText := ⟨c!"MAKE", c!" ", .one (eNode c!"a" c!"Man" none), []⟩

theorem aOne_good : aOne.Good c!"MAKE" c!"make" where
  kw := .inl rfl
  sp := by decide
  rest := by simp [aOne]
  chains := by
    simp only [aOne, StmtText.chains, List.map_nil, List.mem_singleton, forall_eq]
    exact ⟨eNode_good (by decide) (by decide) (by decide), by decide⟩
  line := by decide
  close := by
    rintro c h
    simp [aOne, StmtText.chains] at h
    subst h
    rfl

example : Ruins demoEnv (queryText [{ text := .make aOne }, { text := .find eFind }]) demoG demoFresh [] 0 [aOne.first] := by
  have hq : QueryGood [{ text := .make aOne }, { text := .find eFind }] eFind := {
    lines := by
      simp only [List.mem_cons, List.not_mem_nil, or_false, forall_eq_or_imp, forall_eq]
      exact ⟨line_good aOne_good, line_good eFind_good⟩
    find := rfl
    quiet := by intro h; simp [makesOf] at h
    report := .inl ⟨rfl, by
      have : joinLines (List.map Line.render [{ text := .make aOne }, { text := .find eFind }]) = c!"MAKE (a:Man);\nFIND (c:Man);" := by decide
      rw [this]
      exact noAnagram_of (k := 't') (by decide) (by decide)⟩ }
  exact (C76_query_outcome hq demoEnv demoG demoFresh [] [] [] [] 0 demoFresh_healthy (below_nil 0)).1
    ⟨by simp [makesOf], by simp [makeChains, makesOf, aOne, StmtText.chains, ChainText.rels]⟩

end

end WG
