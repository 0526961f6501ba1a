/-
Relationships with wrong arrow heads or names, in every query: C37, C38.
-/
import Verif.Props.Actual
import Verif.Props.Pattern

set_option linter.unusedSectionVars false
set_option linter.unusedSimpArgs false

namespace WG

section
variable [PyRuntime]

theorem check_fault (r : RelText) : r.check = (match r.fault with
    | some e => .error e
    | none => .ok ()) := by
  unfold RelText.check RelText.fault RelText.nm
  by_cases h : r.toLeft = r.toRight
  · simp [h]
  · simp only [if_neg h]
    rcases r.name with _ | ⟨a, l, b⟩
    · simp
    · by_cases h1 : isUpperStr l = false <;> by_cases h2 : l = [] <;> simp [h1, h2]

theorem fault_none {r : RelText} : r.fault = none ↔ r.Proper := by
  rw [← check_ok, check_fault]
  cases r.fault <;> simp

theorem forEach_check (rs : List RelText) : forEach RelText.check rs = (match rs.findSome? RelText.fault with
    | some e => .error e
    | none => .ok ()) := by
  induction rs with
  | nil => rfl
  | cons r rs ih =>
    rw [forEach, check_fault, List.findSome?_cons]
    cases r.fault with
    | some e => rfl
    | none => simp only [ih]

theorem checkRels_fault (l : List StmtText) : checkRels (l.map StmtText.rels) = (match firstFault (checkedStmts l) with
    | some e => .error e
    | none => .ok ()) := by
  induction l with
  | nil => rfl
  | cons t l ih =>
    rw [List.map_cons]
    cases h : t.rels with
    | nil => simp [checkRels, checkedStmts, h, firstFault]
    | cons r rs =>
      rw [checkRels, forEach_check, ← h, ih]
      have : checkedStmts (t :: l) = t :: checkedStmts l := by simp [checkedStmts, h]
      rw [this]
      simp only [firstFault, List.flatMap_cons, List.findSome?_append]
      cases t.rels.findSome? RelText.fault <;> simp

theorem checkRels_one (f : StmtText) : checkRels [f.rels] = (match firstFault [f] with
    | some e => .error e
    | none => .ok ()) := by
  have := checkRels_fault [f]
  rw [List.map_cons, List.map_nil] at this
  rw [this]
  cases h : f.rels with
  | nil => simp [checkedStmts, h, firstFault]
  | cons r rs => simp [checkedStmts, h]

theorem firstFault_none {l : List StmtText} : firstFault l = none ↔ ∀ t ∈ l, ∀ r ∈ t.rels, r.Proper := by
  simp only [firstFault, List.findSome?_eq_none_iff, List.mem_flatMap, fault_none]
  exact ⟨fun h t ht r hr => h r ⟨t, ht, hr⟩, fun h r ⟨t, ht, hr⟩ => h t ht r hr⟩

/-- C37, C38: what becomes of every query that is well formed but for its arrow heads and names.  Only the MAKE statements before
the first one without a relationship are checked, and the FIND; the first relationship found wrong raises, otherwise the
query is parsed as written. -/
theorem C37_parse_exact {l : List Line} {f : StmtText} (h : QueryLoose l f) :
    parseQueryString (queryText l) = (match firstFault (checkedStmts (makesOf l)), firstFault [f] with
      | some e, _ => .error e
      | none, some e => .error e
      | none, none => .ok ⟨parsedMakes (makesOf l), some ⟨f.render, .find, f.first.pattern⟩, parsedReport (reportsOf l)⟩) := by
  rw [queryText, parseQuery_loose h, checkRels_fault, checkRels_one]
  cases firstFault (checkedStmts (makesOf l)) with
  | some e => rfl
  | none => cases firstFault [f] <;> rfl

/-- C37, C38: such a query passes the parser if and only if the relationships of its FIND and of its MAKE statements before the
first one without a relationship have one arrow head and a name in upper case or none. -/
theorem C37_accepted_iff {l : List Line} {f : StmtText} (h : QueryLoose l f) :
    (∃ p, parseQueryString (queryText l) = .ok p) ↔
      (∀ t ∈ checkedStmts (makesOf l), ∀ r ∈ t.rels, r.Proper) ∧ ∀ r ∈ f.rels, r.Proper := by
  have hf : firstFault [f] = none ↔ ∀ r ∈ f.rels, r.Proper := by rw [firstFault_none]; simp
  rw [C37_parse_exact h, ← firstFault_none, ← hf]
  cases firstFault (checkedStmts (makesOf l)) with
  | some e => simp
  | none => cases firstFault [f] <;> simp

theorem ChainText.Loose.storable {c : ChainText} (h : c.Loose) (hr : ∀ r ∈ c.rels, ¬ (r.toLeft = true ∧ r.toRight = true)) : c.Storable := by
  cases c with
  | one n => exact h
  | two n r m => exact ⟨h.1, ⟨h.2.1.1, h.2.1.2, hr r (by simp [ChainText.rels])⟩, h.2.2⟩
  | three n r m r' m' =>
    exact ⟨h.1, ⟨h.2.1.1, h.2.1.2, hr r (by simp [ChainText.rels])⟩, h.2.2.1, ⟨h.2.2.2.1.1, h.2.2.2.1.2, hr r' (by simp [ChainText.rels])⟩, h.2.2.2.2⟩

theorem not_both {r : RelText} (h : r.Proper) : ¬ (r.toLeft = true ∧ r.toRight = true) := by
  rw [h.1]
  cases r.toRight <;> simp

/-- C38: the outcome of every query that is well formed but for its arrow heads and names.  It raises and changes nothing if a
relationship of the FIND or of a checked MAKE is wrong, or if any relationship of a MAKE has two arrow heads.  Otherwise the relationships
that were not checked are stored, whatever their names are; those without an arrow head are stored as if they pointed to the left. -/
theorem C38_outcome {l : List Line} {f : StmtText} (hq : QueryLoose l f) (env : Env) (g : GPath)
    (fs : FS) (d : Dict V) (labels names : List Str) (rels : Dict (List Int)) (n : Int)
    (h : Healthy fs g d labels names rels n) (hb : BelowCounter d n) :
    ((∃ t ∈ f :: checkedStmts (makesOf l), ∃ r ∈ t.rels, ¬ r.Proper) ∨
        (∃ c ∈ makeChains l, ∃ r ∈ c.rels, r.toLeft = true ∧ r.toRight = true) →
      ∃ e, (query env (queryText l) g).run fs = (.error e, fs)) ∧
    ((∀ t ∈ f :: checkedStmts (makesOf l), ∀ r ∈ t.rels, r.Proper) →
        (∀ c ∈ makeChains l, ∀ r ∈ c.rels, ¬ (r.toLeft = true ∧ r.toRight = true)) →
      (makesOf l ≠ [] ∧ (∀ c ∈ makeChains l, c.rels = []) → Ruins env (queryText l) g fs d n (makeChains l)) ∧
      (makesOf l = [] ∨ (∃ c ∈ makeChains l, c.rels ≠ []) →
        Leaves env (queryText l) g fs d labels names rels n (makeChains l) f.first.findResult)) := by
  have hfl : f.Loose c!"FIND" c!"find" := findsOf_loose hq.lines f (by simp [hq.find])
  have hcl : ∀ c ∈ makeChains l, c.Loose := fun c hc => by
    obtain ⟨t, ht, hc⟩ := List.mem_flatMap.1 hc
    exact ((makesOf_loose hq.lines t ht).chains c hc).1
  have bad : ¬ (∃ p, parseQueryString (queryText l) = .ok p) → ∃ e, (query env (queryText l) g).run fs = (.error e, fs) := by
    intro hn
    cases hp : parseQueryString (queryText l) with
    | error e => exact ⟨e, by rw [query_run, hp]⟩
    | ok p => exact absurd ⟨p, hp⟩ hn
  constructor
  · rintro (⟨t, ht, r, hr, hbad⟩ | ⟨c, hc, r, hr, hl, hr'⟩)
    · refine bad fun hp => ?_
      obtain ⟨h1, h2⟩ := (C37_accepted_iff hq).1 hp
      rcases List.mem_cons.1 ht with rfl | ht
      · exact hbad (h2 r hr)
      · exact hbad (h1 t ht r hr)
    · by_cases hp : ∃ p, parseQueryString (queryText l) = .ok p
      · obtain ⟨p, hp⟩ := hp
        obtain ⟨_, _, _, hm, _⟩ := parseQuery_ok hp
        rw [C37_parse_exact hq] at hp
        split at hp
        · simp at hp
        · simp at hp
        · obtain rfl := (Except.ok.inj hp).symm
          obtain ⟨t, ht, hc'⟩ := List.mem_flatMap.1 hc
          simp only at hm
          cases hml : makesOf l with
          | nil => rw [hml] at ht; simp at ht
          | cons t0 ts =>
            rw [hml, parsedMakes] at hm
            · refine C38_bidirectional_raises env g fs hm (p := c.pattern) ?_ (t := r.part) ?_ (x := r.render) rfl ?_ ?_
              · rw [hml] at ht
                simp only [patsOf, List.mem_flatMap, List.mem_map]
                exact ⟨_, ⟨t, ht, rfl⟩, by simpa using ⟨c, hc', rfl⟩⟩
              · have ht := truthy_rel r
                have ha : truthy PartText.absent.text = false := rfl
                cases c with
                | one n => simp [ChainText.rels] at hr
                | two n r1 m =>
                  simp [ChainText.rels] at hr
                  subst hr
                  simp [writtenRels, ChainText.pattern, ht]
                | three n r1 m r2 m' =>
                  simp [ChainText.rels] at hr
                  rcases hr with rfl | rfl <;> simp [writtenRels, ChainText.pattern, ht]
              · simp [RelText.render, hl]
              · simp [RelText.render, hr']
            · simp
      · exact bad hp
  · intro hp hboth
    have hparse : parseQueryString (queryText l) =
        .ok ⟨parsedMakes (makesOf l), some ⟨f.render, .find, f.first.pattern⟩, parsedReport (reportsOf l)⟩ := by
      have h1 : firstFault (checkedStmts (makesOf l)) = none := firstFault_none.2 fun t ht => hp t (by simp [ht])
      have h2 : firstFault [f] = none := firstFault_none.2 fun t ht => hp t (by simp at ht; simp [ht])
      rw [C37_parse_exact hq, h1, h2]
    have hg : ∀ c ∈ makeChains l, c.Storable := fun c hc => (hcl c hc).storable (hboth c hc)
    have hfs : f.first.Storable := (hfl.chains f.first (by simp [StmtText.chains])).1.storable fun r hr =>
      not_both (hp f (by simp) r (List.mem_flatMap.2 ⟨f.first, by simp [StmtText.chains], hr⟩))
    constructor
    · rintro ⟨hm, hr⟩
      refine run_ruins_st hparse (makeOf_text _) hg hr env g fs h hb ?_
      cases e : makesOf l with
      | nil => exact absurd e hm
      | cons t ts => simp [parsedMakes]
    · intro hr
      refine run_leaves_st hparse (makeOf_text _) hg hfs ?_ env g fs h hb ?_
      · exact hr.imp_left fun e => by simp [e]
      · cases hm : makesOf l with
        | nil => exact .inl rfl
        | cons t ts => exact .inr (by simp [StmtText.chains])

end

section
attribute [local instance] demoRuntime

/-- `-[r:knows]-`: no arrow head, a name in lower case. -/
def oRel : RelText := { eRel with name := some ([], c!"knows", []), toRight := false }
/-- `MAKE (a:Man)-[r:knows]-(b:Man);`. -/
def oMake : StmtText := ⟨c!"MAKE", c!" ", .two (eNode c!"a" c!"Man" none) oRel (eNode c!"b" c!"Man" none), []⟩

theorem oRel_loose : oRel.Loose :=
  ⟨⟨rfl, by decide, rfl, fun _ => rfl, by
    rintro a l b h
    simp only [oRel, Option.some.injEq, Prod.mk.injEq] at h
    obtain ⟨rfl, rfl, rfl⟩ := h
    decide, by simp [oRel, eRel], rfl⟩, by simp [oRel, eRel, GoodProps]⟩

theorem oMake_loose : oMake.Loose c!"MAKE" c!"make" where
  kw := .inl rfl
  sp := by decide
  rest := by simp [oMake]
  chains := by
    simp only [oMake, StmtText.chains, List.map_nil, List.mem_singleton, forall_eq]
    exact ⟨⟨eNode_good (by decide) (by decide) (by decide), oRel_loose, eNode_good (by decide) (by decide) (by decide)⟩, by decide⟩
  line := by decide
  close := by
    rintro c h
    simp [oMake, StmtText.chains] at h
    subst h
    rfl

theorem line_loose {x : LineText} (h : x.Loose) : (line x).Loose :=
  ⟨(line_good (x := .other []) (stray_of (noKeyword_of rfl) (noKeyword_of rfl))).ind, h,
    (line_good (x := .other []) (stray_of (noKeyword_of rfl) (noKeyword_of rfl))).tail, fun _ _ _ => by simp [line], fun _ _ => rfl⟩

/-- `MAKE (a:Man);`, `MAKE (a:Man)-[r:knows]-(b:Man);` and `FIND (c:Man);` on three lines. -/
def oQuery : List Line := [line (.make aOne), line (.make oMake), line (.find eFind)]

theorem oQuery_loose : QueryLoose oQuery eFind where
  lines := by
    simp only [oQuery, List.mem_cons, List.not_mem_nil, or_false, forall_eq_or_imp, forall_eq]
    exact ⟨line_loose aOne_good.loose, line_loose oMake_loose, line_loose eFind_good.loose⟩
  find := rfl
  quiet h := by simp [oQuery, makesOf, line] at h
  report := .inl ⟨rfl, by
    have : joinLines (oQuery.map Line.render) = c!"MAKE (a:Man);\nMAKE (a:Man)-[r:knows]-(b:Man);\nFIND (c:Man);" := by decide
    rw [this]
    exact noAnagram_of (k := 't') (by decide) (by decide)⟩

/-- It is executed: the relationship without arrow head is stored. -/
example : Leaves demoEnv (queryText oQuery) demoG demoFresh [] [] [] [] 0 [aOne.first, oMake.first] (.ok true) := by
  refine ((C38_outcome oQuery_loose demoEnv demoG demoFresh [] [] [] [] 0 demoFresh_healthy (below_nil 0)).2 ?_ ?_).2 ?_
  · intro t ht r hr
    simp [checkedStmts, oQuery, makesOf, line, aOne, StmtText.rels, StmtText.chains, ChainText.rels] at ht
    subst ht
    simp [eFind, StmtText.rels, StmtText.chains, ChainText.rels] at hr
  · simp [makeChains, oQuery, makesOf, line, aOne, oMake, StmtText.chains, ChainText.rels, oRel, eRel]
  · exact .inr ⟨oMake.first, by simp [makeChains, oQuery, makesOf, line, StmtText.chains], by simp [oMake, ChainText.rels]⟩

/-- Without the first line it is refused. -/
example : parseQueryString (queryText oQuery.tail) = .error .nonDirected := by
  have h : QueryLoose oQuery.tail eFind := {
    lines := fun x hx => oQuery_loose.lines x (List.mem_of_mem_tail hx)
    find := rfl
    quiet := fun h => by simp [oQuery, makesOf, line] at h
    report := .inl ⟨rfl, by
      have : joinLines (oQuery.tail.map Line.render) = c!"MAKE (a:Man)-[r:knows]-(b:Man);\nFIND (c:Man);" := by decide
      rw [this]
      exact noAnagram_of (k := 't') (by decide) (by decide)⟩ }
  rw [C37_parse_exact h]
  rfl

end

end WG
