/-
Properties C17 (as written), C36, C37, C38 and C42: what a pattern text means.
-/
import Verif.Proofs.Rel
import Verif.Props.Parse
import Verif.Props.Make
import Verif.Props.Query

set_option linter.unusedSectionVars false
set_option linter.unusedSimpArgs false

namespace WG

section
variable [PyRuntime]

/-! ### C42: patterns parse to what was written -/

/-- C42: a statement made of patterns (each after a keyword or comma) yields exactly these patterns: same
handles, labels, names and property texts, in the same places. -/
theorem C42_patterns_parse {l : List (Str × Str × ChainText)} (h : PatternsOK l) {tail : Str} (ht : Idle tail) :
    statementPatterns (renderPatterns l ++ tail) = l.map (·.2.2.pattern) :=
  statementPatterns_render h ht

/-- C42 for accepted MAKE statements. -/
theorem C42_accepted_make {q : Str} {ms : List ParsedMake} (h : parseMake q = .ok (some ms)) {m : ParsedMake} (hm : m ∈ ms)
    {l : List (Str × Str × ChainText)} (hl : PatternsOK l) {tail : Str} (ht : Idle tail)
    (e : m.rawStatement = renderPatterns l ++ tail) : m.patterns = l.map (·.2.2.pattern) := by
  obtain ⟨_, _, hb⟩ := parseMake_ok h
  rw [(buildParsedMake_ok (hb m hm)).2.2.1, e]
  exact statementPatterns_render hl ht

/-- C42 for accepted FIND statements: the pattern is the (first) one written. -/
theorem C42_accepted_find {q : Str} {f : ParsedFind} (h : parseFind q = .ok (some f))
    {t sp : Str} {c : ChainText} {l : List (Str × Str × ChainText)} (hl : PatternsOK ((t, sp, c) :: l)) {tail : Str}
    (ht : Idle tail) (e : f.rawStatement = renderPatterns ((t, sp, c) :: l) ++ tail) : f.pattern = c.pattern := by
  obtain ⟨_, _, hb⟩ := parseFind_ok h
  obtain ⟨ps, hp⟩ := (buildParsedFind_ok hb).2.2.1
  rw [e, statementPatterns_render hl ht] at hp
  simp at hp
  exact hp.1.symm

/-! ### Queries whose MAKE is not acceptable -/

theorem parseMake_extract {q : Str} {ss : List Str} (h : extractAllStatements q .make = .ok (some ss)) :
    (∃ e, parseMake q = .error e) ∨ ∃ ms, parseMake q = .ok (some ms) ∧ ms.map ParsedMake.rawStatement = ss := by
  cases hp : parseMake q with
  | error e => exact .inl ⟨e, rfl⟩
  | ok o =>
    right
    cases o with
    | none =>
      exfalso
      unfold parseMake at hp
      simp only [h] at hp
      split at hp
      · simp at hp
      · split at hp <;> simp at hp
    | some ms =>
      have h1 := (parseMake_ok hp).1
      rw [h] at h1
      simp at h1
      exact ⟨ms, rfl, h1.symm⟩

/-- An unacceptable MAKE raises and leaves the files alone. -/
theorem query_bad_make (env : Env) {q : Str} (g : GPath) (fs : FS) {ms : List ParsedMake} (h : parseMake q = .ok (some ms))
    (hne : ms ≠ []) (hbad : ¬ MakeOK ms) : ∃ e, (query env q g).run fs = (.error e, fs) := by
  cases hp : parseQueryString q with
  | error e => exact ⟨e, by rw [query_run, hp]⟩
  | ok p =>
    obtain ⟨f, hf, _, hm, _⟩ := parseQuery_ok hp
    rw [h] at hm
    simp only [Except.ok.injEq] at hm
    obtain ⟨m, ms', rfl⟩ : ∃ m ms', ms = m :: ms' := by
      cases ms with
      | nil => simp at hne
      | cons m ms' => exact ⟨m, ms', rfl⟩
    obtain ⟨e, he⟩ := C22_rejected_make_changes_nothing env (m :: ms') g fs (.inr hbad)
    refine ⟨e, ?_⟩
    rw [query_run, hp]
    simp only
    rw [execute_run hf, ← hm]
    simp only [executeMakes, he]

/-- A MAKE with an unparsable or unacceptable statement raises and leaves the files alone. -/
theorem query_bad_statement (env : Env) {q : Str} (g : GPath) (fs : FS) {ss : List Str}
    (h : extractAllStatements q .make = .ok (some ss)) (hne : ss ≠ [])
    (hbad : ∀ ms, parseMake q = .ok (some ms) → ms.map ParsedMake.rawStatement = ss → ¬ MakeOK ms) :
    ∃ e, (query env q g).run fs = (.error e, fs) := by
  rcases parseMake_extract h with ⟨e, he⟩ | ⟨ms, h1, h2⟩
  · exact ⟨e, by rw [query_run]; simp [parseQueryString, he]⟩
  · exact query_bad_make env g fs h1 (by rintro rfl; exact hne h2.symm) (hbad ms h1 h2)

/-! ### C36: chains of more than three nodes -/

/-- C36 for MAKE: a statement with a chain of more than three nodes raises and writes nothing, whatever stands
before and after it. -/
theorem C36_long_make_raises (env : Env) {q : Str} (g : GPath) (fs : FS) {ss : List Str}
    (h : extractAllStatements q .make = .ok (some ss)) {s : Str} (hs : s ∈ ss)
    {before : List (Str × Str × ChainText)} (hb : PatternsOK before) {t sp : Str} (ht : Idle t) (hbt : before ≠ [] → t ≠ [])
    (hsp : sp.all isSpace = true) {n : NodeText} {c : List (RelText × NodeText)} (hc : LongOK n c) (hl : 3 ≤ c.length)
    {rest : Str} (e : s = renderPatterns before ++ (t ++ (sp ++ (renderLong n c ++ rest)))) :
    ∃ er, (query env q g).run fs = (.error er, fs) := by
  refine query_bad_statement env g fs h (by rintro rfl; simp at hs) fun ms h1 h2 hok => ?_
  obtain ⟨m, hm, hms⟩ := List.mem_map.1 (h2 ▸ hs)
  obtain ⟨_, _, hbd⟩ := parseMake_ok h1
  have hp := (buildParsedMake_ok (hbd m hm)).2.2.1
  obtain ⟨_, _, _, _, _, p, ps, _, hlong, habs, _⟩ := patterns_long hc hl hsp rest
  rw [hms, e, patterns_before hb ht hbt, hlong] at hp
  have := (hok.shape p (by
    unfold patsOf
    rw [List.mem_flatMap]
    exact ⟨m, hm, by rw [hp]; simp⟩)).left
  rw [habs] at this
  exact this rfl

/-- C36, what FIND does instead: only the first three nodes of the chain are looked at. -/
theorem C36_long_find_truncated {q : Str} {f : ParsedFind} (h : parseFind q = .ok (some f)) {t sp : Str} (ht : Idle t)
    (hsp : sp.all isSpace = true) {n : NodeText} {c : List (RelText × NodeText)} (hc : LongOK n c) (hl : 3 ≤ c.length)
    {rest : Str} (e : f.rawStatement = t ++ (sp ++ (renderLong n c ++ rest))) :
    ∃ r m r' m' c', c = (r, m) :: (r', m') :: c' ∧ f.pattern = (ChainText.three n r m r' m').pattern := by
  obtain ⟨_, _, hb⟩ := parseFind_ok h
  obtain ⟨ps', hp⟩ := (buildParsedFind_ok hb).2.2.1
  obtain ⟨r, m, r', m', c', p, ps, e1, hlong, _⟩ := patterns_long hc hl hsp rest
  rw [e, patterns_idle (idle_iff.1 ht), hlong] at hp
  simp at hp
  exact ⟨r, m, r', m', c', e1, hp.1.symm⟩

/-! ### C37, C38: relationships of a MAKE -/

theorem mem_writtenRels {p : ParsedPattern} {t : PartText} :
    t ∈ writtenRels p ↔ (t = p.leftMiddle ∨ t = p.middleRight) ∧ truthy t.text = true := by
  unfold writtenRels
  constructor
  · intro h
    rcases List.mem_append.1 h with h | h <;> split at h <;> simp at h <;> subst h <;> simp_all
  · rintro ⟨rfl | rfl, h⟩ <;> simp [h]

theorem writtenRels_ne {p : ParsedPattern} (h : writtenRels p ≠ []) : HasRel p := by
  obtain ⟨t, l, e⟩ := List.exists_cons_of_ne_nil h
  obtain ⟨rfl | rfl, ht⟩ := mem_writtenRels.1 (show t ∈ writtenRels p by rw [e]; simp)
  · exact .inl ht
  · exact .inr ht

theorem good_rels {q : Str} {ms1 ms2 : List ParsedMake} {m : ParsedMake} (h : parseMake q = .ok (some (ms1 ++ m :: ms2)))
    (hok : MakeOK (ms1 ++ m :: ms2)) (h1 : ∀ m' ∈ ms1, ∃ p ∈ m'.patterns, writtenRels p ≠ []) :
    ∀ p ∈ m.patterns, ∀ t ∈ writtenRels p, GoodRel t := by
  obtain ⟨_, hv, hb⟩ := parseMake_ok h
  have hr := (validate_ok.1 hv).2.2.2
  rw [List.map_append, List.map_cons] at hr
  have hpat : ∀ m' ∈ ms1 ++ m :: ms2, ∀ p ∈ m'.patterns, p ∈ statementPatterns m'.rawStatement ∧ PatShape p := by
    intro m' hm p hp
    refine ⟨(buildParsedMake_ok (hb m' hm)).2.2.1 ▸ hp, hok.shape p ?_⟩
    unfold patsOf
    rw [List.mem_flatMap]
    exact ⟨m', hm, hp⟩
  intro p hp t ht
  obtain ⟨hp1, hp2⟩ := hpat m (by simp) p hp
  refine pattern_good hr ?_ hp1 hp2 (mem_writtenRels.1 ht)
  intro s' hs'
  obtain ⟨m', hm', rfl⟩ := List.mem_map.1 hs'
  obtain ⟨p', hp', hne⟩ := h1 m' hm'
  obtain ⟨h3, h4⟩ := hpat m' (by simp [hm']) p' hp'
  exact pattern_found h3 h4 (writtenRels_ne hne)

/-- C37, partial: if all earlier MAKE statements of the query have a relationship, the names of the relationships
that MAKE accepts are in upper case.  Missing: statements after one without relationship (`C37_violated`). -/
theorem C37_names_upper_case_partial (env : Env) {q : Str} (g : GPath) (fs fs' : FS) {r : Bool}
    (hq : (query env q g).run fs = (.ok r, fs')) {ms1 ms2 : List ParsedMake} {m : ParsedMake}
    (h : parseMake q = .ok (some (ms1 ++ m :: ms2))) (h1 : ∀ m' ∈ ms1, ∃ p ∈ m'.patterns, writtenRels p ≠ []) :
    ∀ p ∈ m.patterns, ∀ t ∈ writtenRels p, ∀ l, t.label = some l → l ≠ [] → isUpperStr l = true := by
  have hok : MakeOK (ms1 ++ m :: ms2) := Classical.byContradiction fun hn => by
    obtain ⟨e, he⟩ := query_bad_make env g fs h (by simp) hn
    rw [he] at hq
    simp at hq
  intro p hp t ht
  exact (good_rels h hok h1 p hp t ht).1

/-- C38 for relationships with two arrow heads: the query raises and writes nothing. -/
theorem C38_bidirectional_raises (env : Env) {q : Str} (g : GPath) (fs : FS) {ms : List ParsedMake}
    (h : parseMake q = .ok (some ms)) {p : ParsedPattern} (hp : p ∈ patsOf ms) {t : PartText} (ht : t ∈ writtenRels p) {x : Str}
    (hx : t.text = some x) (h1 : '<' ∈ x) (h2 : '>' ∈ x) : ∃ e, (query env q g).run fs = (.error e, fs) := by
  refine query_bad_make env g fs h (by rintro rfl; simp [patsOf] at hp) (C22_defects ms p hp ?_)
  have hb : bothHeads t := by simp [bothHeads, hx, h1, h2]
  obtain ⟨rfl | rfl, ht⟩ := mem_writtenRels.1 ht
  · exact .inr (.inr (.inr (.inr (.inr (.inl ⟨ht, hb⟩)))))
  · exact .inr (.inr (.inr (.inr (.inr (.inr (.inl ⟨ht, hb⟩))))))

/-- C38, partial, for relationships without arrow head: if all earlier MAKE statements of the query have a
relationship, the query raises and writes nothing.  Missing: statements after one without relationship
(`C38_violated`). -/
theorem C38_undirected_raises_partial (env : Env) {q : Str} (g : GPath) (fs : FS) {ms1 ms2 : List ParsedMake} {m : ParsedMake}
    (h : parseMake q = .ok (some (ms1 ++ m :: ms2))) (h1 : ∀ m' ∈ ms1, ∃ p ∈ m'.patterns, writtenRels p ≠ [])
    {p : ParsedPattern} (hp : p ∈ m.patterns) {t : PartText} (ht : t ∈ writtenRels p) {x : Str}
    (hx : t.text = some x) (h2 : '<' ∉ x) (h3 : '>' ∉ x) : ∃ e, (query env q g).run fs = (.error e, fs) := by
  refine query_bad_make env g fs h (by simp) fun hok => ?_
  have := (good_rels h hok h1 p hp t ht).2 x hx
  grind

/-! ### C17: arrows as written -/

theorem rel_last (r : RelText) (h : r.sp3 = []) :
    ∃ s, r.render = s ++ (if r.toRight then c!"->" else c!"-") := by
  refine ⟨(if r.toLeft = true then c!"<" else []) ++ (List.replicate (r.dashes1 + 1) '-' ++ '[' :: (r.content ++ ']' ::
      (List.replicate r.dashes2 '-'))), ?_⟩
  unfold RelText.render
  rw [h, show List.replicate (r.dashes2 + 1) '-' = List.replicate r.dashes2 '-' ++ ['-'] from List.replicate_succ']
  cases r.toRight <;> simp

/-- C17, partial: a relationship without white space behind it is stored from the node on its left to the node
on its right if it is written with `>`, and the other way if it is written without.  Missing: white space behind
the arrow (`C17_space_reverses`). -/
theorem C17_written_arrow_partial (env : Env) (pml : List ParsedMake) (g : GPath) (fs fs' : FS)
    (d : Dict V) (labels names : List Str) (rels : Dict (List Int)) (n : Int) (b : Bool)
    (h : Healthy fs g d labels names rels n) (hr : (make env pml g).run fs = (.ok b, fs'))
    (q : Int × ParsedPattern) (hq : q ∈ place n (patsOf pml)) (r : RelText) (ht : q.2.leftMiddle = r.part) (hsp : r.sp3 = []) :
    ∃ d', Holds fs' g.db d' ∧
      if r.toRight then StoredRel d' (lmNum q.1 q.2) (leftNum q.1) (middleNum q.1) r.part
      else StoredRel d' (lmNum q.1 q.2) (middleNum q.1) (leftNum q.1) r.part := by
  obtain ⟨s, e⟩ := rel_last r hsp
  obtain ⟨d', h1, h2, h3⟩ := C17_arrow_direction_partial env pml g fs fs' d labels names rels n b h hr q hq s
  refine ⟨d', h1, ?_⟩
  rw [ht] at h2 h3
  cases hd : r.toRight with
  | true => exact h2 (by rw [hd] at e; simpa [RelText.part] using e)
  | false => exact h3 (by rw [hd] at e; simpa [RelText.part] using e)

/-- C17, what happens instead: with white space behind the arrow the relationship is stored from right to left,
even if it is written with `>`. -/
theorem C17_space_reverses (env : Env) (pml : List ParsedMake) (g : GPath) (fs fs' : FS)
    (d : Dict V) (labels names : List Str) (rels : Dict (List Int)) (n : Int) (b : Bool)
    (h : Healthy fs g d labels names rels n) (hr : (make env pml g).run fs = (.ok b, fs'))
    (q : Int × ParsedPattern) (hq : q ∈ place n (patsOf pml)) (r : RelText) (hok : r.OK) (ht : q.2.leftMiddle = r.part)
    (hsp : r.sp3 ≠ []) :
    ∃ d', Holds fs' g.db d' ∧ StoredRel d' (lmNum q.1 q.2) (middleNum q.1) (leftNum q.1) r.part := by
  have hc := List.dropLast_concat_getLast hsp
  have hs : isSpace (r.sp3.getLast hsp) = true := List.all_eq_true.1 hok.sp3 _ (List.getLast_mem hsp)
  obtain ⟨s, e⟩ : ∃ s, r.render = s ++ [r.sp3.getLast hsp] := by
    refine ⟨(if r.toLeft then c!"<" else []) ++ (List.replicate (r.dashes1 + 1) '-' ++ '[' :: (r.content ++ ']' ::
      (List.replicate (r.dashes2 + 1) '-' ++ ((if r.toRight then c!">" else []) ++ r.sp3.dropLast)))), ?_⟩
    simp only [List.append_assoc, List.cons_append, hc]
    rfl
  obtain ⟨d', h1, _, h3⟩ := C17_last_character_decides env pml g fs fs' d labels names rels n b h hr q hq s _
    (by rw [ht]; simp only [RelText.part]; rw [e])
  rw [ht] at h3
  exact ⟨d', h1, h3 (by intro e; rw [e] at hs; simp [sp_lit] at hs)⟩

end

/-! ### Examples and counterexamples -/

section
attribute [local instance] demoRuntime

/-- `( a : A {x: 1} ) ` -/
def demoNodeText : NodeText := ⟨c!" ", c!"a", c!" ", c!" ", c!"A", c!" ", some c!"{x: 1} ", c!" "⟩
/-- `(:B)` -/
def demoNodeB : NodeText := ⟨[], [], [], [], c!"B", [], none, []⟩
/-- `--[r:KNOWS{y: [1, 2]}]->` -/
def demoRelText : RelText := ⟨false, 1, [], c!"r", [], some ([], c!"KNOWS", []), some c!"{y: [1, 2]}", 0, true, []⟩
/-- `<-[]- ` -/
def demoRelLeft : RelText := ⟨true, 0, [], [], [], none, none, 0, false, c!" "⟩

theorem demoNodeText_ok : demoNodeText.OK where
  sp1 := by decide
  handle := by decide
  sp2 := by decide
  noHandle := by decide
  sp3 := by decide
  label := by decide
  label_ne := by decide
  sp4 := by decide
  props := by rintro p ⟨⟩; exact ⟨_, rfl, by decide⟩
  sp5 := by decide

theorem demoNodeB_ok : demoNodeB.OK where
  sp1 := by decide
  handle := by decide
  sp2 := by decide
  noHandle := by decide
  sp3 := by decide
  label := by decide
  label_ne := by decide
  sp4 := by decide
  props := by rintro p ⟨⟩
  sp5 := by decide

theorem demoRelText_ok : demoRelText.OK where
  sp1 := by decide
  handle := by decide
  sp2 := by decide
  noHandle := by decide
  name := by rintro a l b ⟨⟩; decide
  props := by rintro p ⟨⟩; exact ⟨_, rfl, by decide⟩
  sp3 := by decide

theorem demoRelLeft_ok : demoRelLeft.OK where
  sp1 := by decide
  handle := by decide
  sp2 := by decide
  noHandle := by decide
  name := by rintro a l b ⟨⟩
  props := by rintro p ⟨⟩
  sp3 := by decide

/-- The patterns of the statement in the next example. -/
def demoPatterns : List (Str × Str × ChainText) :=
  [(c!"MAKE", c!" ", .three demoNodeText demoRelText demoNodeB demoRelLeft demoNodeB), (c!",", c!" ", .one demoNodeText)]

theorem demoPatterns_ok : PatternsOK demoPatterns := by
  refine ⟨fun x hx => ?_, by decide⟩
  simp only [demoPatterns, List.mem_cons, List.not_mem_nil, or_false] at hx
  rcases hx with rfl | rfl
  · exact ⟨by simp [Idle, isSpace, isAscii], by decide, demoNodeText_ok, demoRelText_ok, demoNodeB_ok, demoRelLeft_ok, demoNodeB_ok⟩
  · exact ⟨by simp [Idle, isSpace, isAscii], by decide, demoNodeText_ok⟩

/-- C42: a statement with two patterns and spaces in many places. -/
example : statementPatterns c!"MAKE ( a : A {x: 1} ) --[r:KNOWS{y: [1, 2]}]->(:B)<-[]- (:B), ( a : A {x: 1} ) ;" =
    [⟨⟨some c!"( a : A {x: 1} ) ", some c!"a", some c!"A", some c!"{x: 1} "⟩,
      ⟨some c!"--[r:KNOWS{y: [1, 2]}]->", some c!"r", some c!"KNOWS", some c!"{y: [1, 2]}"⟩,
      ⟨some c!"(:B)", some [], some c!"B", none⟩, ⟨some c!"<-[]- ", some [], some [], none⟩,
      ⟨some c!"(:B)", some [], some c!"B", none⟩⟩,
     ⟨⟨some c!"( a : A {x: 1} ) ", some c!"a", some c!"A", some c!"{x: 1} "⟩, .absent, .absent, .absent, .absent⟩] :=
  C42_patterns_parse (tail := c!";") demoPatterns_ok (by simp [Idle, isSpace, isAscii])

/-- C42: accepted statements. -/
example : (match parseMake c!"MAKE (a:A)-[:R]->(b:B);" with
    | .ok (some [m]) => decide (m.patterns.length = 1)
    | _ => false) = true := by decide +kernel

/-- A MAKE with a chain of four nodes. -/
def qLongMake : Str := c!"MAKE (:B)<-[]- (:B)<-[]- (:B)<-[]- (:B);\nFIND (a:A);"

/-- C36: that query raises and writes nothing, whatever the files are. -/
example (env : Env) (g : GPath) (fs : FS) : ∃ e, (query env qLongMake g).run fs = (.error e, fs) := by
  refine C36_long_make_raises env (q := qLongMake) g fs (ss := [c!"MAKE (:B)<-[]- (:B)<-[]- (:B)<-[]- (:B);"])
    (by decide +kernel) List.mem_cons_self (before := []) ⟨by simp, by simp⟩ (t := c!"MAKE") (sp := c!" ")
    (by simp [Idle, isSpace, isAscii]) (by simp) (by decide) (n := demoNodeB)
    (c := [(demoRelLeft, demoNodeB), (demoRelLeft, demoNodeB), (demoRelLeft, demoNodeB)]) ⟨demoNodeB_ok, ?_⟩ (by decide)
    (rest := c!";") rfl
  intro x hx
  simp at hx
  subst hx
  exact ⟨demoRelLeft_ok, demoNodeB_ok⟩

/-- A FIND with a chain of four nodes. -/
def qLongFind : Str := c!"FIND (a:A)-[:R]->(b:B)-[:R]->(c:C)-[:R]->(d:D);"

/-- C36 violated: a FIND with a chain of four nodes is executed; the fourth node is ignored. -/
theorem C36_violated : ∃ p f, parseQueryString qLongFind = .ok p ∧ p.find = some f ∧
    f.rawStatement = c!"FIND (a:A)-[:R]->(b:B)-[:R]->(c:C)-[:R]->(d:D);" ∧ f.pattern.right.label = some c!"C" ∧
    ((query demoEnv qLongFind demoG).run demoFresh).1 = .ok true := by
  have h : (match parseQueryString qLongFind with
    | .ok ⟨_, some f, none⟩ => decide (f.rawStatement = qLongFind ∧ f.pattern.right.label = some c!"C")
    | _ => false) = true := by decide +kernel
  split at h
  · next hp => exact ⟨_, _, hp, rfl, (of_decide_eq_true h).1, (of_decide_eq_true h).2, by decide +kernel⟩
  · simp at h

/-- A statement without relationship, then one with a relationship in lower case. -/
def qLower : Str := c!"MAKE (a:A);\nMAKE (a:A)-[:knows]->(b:B);\nFIND (a:A);"
/-- A statement without relationship, then one with an undirected relationship. -/
def qUndirected : Str := c!"MAKE (a:A);\nMAKE (a:A)-[:R]-(b:B);\nFIND (a:A);"

/-- C37 violated: after a statement without relationship, names are not checked. -/
theorem C37_violated : ∃ (q : Str) (fs : FS) (m1 m2 : ParsedMake) (p : ParsedPattern) (t : PartText), IsNew fs demoG ∧
    parseMake q = .ok (some [m1, m2]) ∧ p ∈ m2.patterns ∧ t ∈ writtenRels p ∧ t.label = some c!"knows" ∧
    isUpperStr c!"knows" = false ∧ ((query demoEnv q demoG).run fs).1 = .ok true := by
  have h : (match parseMake qLower with
    | .ok (some [_, m2]) => match m2.patterns with
      | [p] => decide (p.leftMiddle ∈ writtenRels p ∧ p.leftMiddle.label = some c!"knows")
      | _ => false
    | _ => false) = true := by decide +kernel
  split at h
  · next m1 m2 hms =>
    split at h
    · next p hp =>
      obtain ⟨h1, h2⟩ := of_decide_eq_true h
      exact ⟨qLower, demoFresh, m1, m2, p, p.leftMiddle, demoFresh_new, hms, by rw [hp]; simp, h1, h2, by decide +kernel,
        by decide +kernel⟩
    · simp at h
  · simp at h

/-- C38 violated: after a statement without relationship, an undirected relationship is stored. -/
theorem C38_violated : ∃ (q : Str) (fs : FS) (m1 m2 : ParsedMake) (p : ParsedPattern) (t : PartText), IsNew fs demoG ∧
    parseMake q = .ok (some [m1, m2]) ∧ p ∈ m2.patterns ∧ t ∈ writtenRels p ∧ t.text = some c!"-[:R]-" ∧
    ((query demoEnv q demoG).run fs).1 = .ok true ∧ ((query demoEnv q demoG).run fs).2 ≠ fs := by
  have h : (match parseMake qUndirected with
    | .ok (some [_, m2]) => match m2.patterns with
      | [p] => decide (p.leftMiddle ∈ writtenRels p ∧ p.leftMiddle.text = some c!"-[:R]-")
      | _ => false
    | _ => false) = true := by decide +kernel
  split at h
  · next m1 m2 hms =>
    split at h
    · next p hp =>
      obtain ⟨h1, h2⟩ := of_decide_eq_true h
      refine ⟨qUndirected, demoFresh, m1, m2, p, p.leftMiddle, demoFresh_new, hms, by rw [hp]; simp, h1, h2, by decide +kernel,
        ?_⟩
      intro e
      have h3 : ((query demoEnv qUndirected demoG).run demoFresh).2.get demoG.db ≠ demoFresh.get demoG.db := by decide +kernel
      exact h3 (by rw [e])
    · simp at h
  · simp at h

/-- C37, C38: two statements with relationships; the query is accepted. -/
example : (match parseMake c!"MAKE (a:A)-[:R]->(b:B);\nMAKE (a:A)<-[:S]-(b:B);\nFIND (a:A);" with
    | .ok (some [m1, m2]) => decide (m1.patterns.any (fun p => !(writtenRels p).isEmpty) = true ∧
        m2.patterns.all (fun p => (writtenRels p).all fun t => t.label == some c!"S") = true)
    | _ => false) = true ∧
    ((query demoEnv c!"MAKE (a:A)-[:R]->(b:B);\nMAKE (a:A)<-[:S]-(b:B);\nFIND (a:A);" demoG).run demoFresh).1 = .ok true := by
  constructor <;> decide +kernel

/-- C38: a bidirectional relationship after a statement without relationship gets past the checks of the statement,
and raises later. -/
example : (match parseMake c!"MAKE (a:A);\nMAKE (a:A)<-[:R]->(b:B);\nFIND (a:A);" with
    | .ok (some [_, m2]) => m2.patterns.any (fun p => (writtenRels p).any fun t => t.text == some c!"<-[:R]->")
    | _ => false) = true ∧
    ((query demoEnv c!"MAKE (a:A);\nMAKE (a:A)<-[:R]->(b:B);\nFIND (a:A);" demoG).run demoFresh).1 = .error .nonDirected := by
  constructor <;> decide +kernel

/-- C17: a parsed relationship. -/
example : (statementPatterns c!"MAKE (:B)<-[]- (:B);").map (·.leftMiddle) = [demoRelLeft.part] := by decide +kernel

end

end WG
