/-
C95: how MAKE statements are spread over queries does not matter.  C96: nor does how a pattern is written.
-/
import Verif.Proofs.Batch
import Verif.Props.Order
import Verif.Props.Actual
set_option linter.unusedSectionVars false
set_option linter.unusedSimpArgs false

namespace WG

section
variable [PyRuntime]

/-- C95: two lists of queries, of any text, that add the same patterns in the same order, however these are spread over statements and
over queries and however they are written, leave on a usable GDBMS the same disk, up to the order of the lists in the index.  Missing
from the full property: queries with a MAKE that passes the checks but cannot be stored on its own (`C95_violated`). -/
theorem C95_grouping_partial (g : GPath) (l l' : List (Env × Str)) (ms ms' : List ParsedMake) (fs : FS) (hu : Usable fs g)
    (ht : ∀ x ∈ l ++ l', ∀ y ∈ l ++ l', x.1.importTime = y.1.importTime) (hl : AddAll l ms) (hl' : AddAll l' ms')
    (hc : ∀ m ∈ ms ++ ms', m.clause = .make) (h : AlikeAll (patsOf ms) (patsOf ms')) :
    SameUpToOrder g (afterQueries g l fs) (afterQueries g l' fs) ∧ Usable (afterQueries g l fs) g := by
  have hnil : ∀ {ps : List ParsedPattern}, AlikeAll [] ps → ps = [] := fun {ps} h => by cases ps <;> simp_all [AlikeAll]
  have hnil' : ∀ {ps : List ParsedPattern}, AlikeAll ps [] → ps = [] := fun {ps} h => by cases ps <;> simp_all [AlikeAll]
  cases hx : l ++ l' with
  | nil =>
    obtain ⟨rfl, rfl⟩ := List.append_eq_nil_iff.1 hx
    exact ⟨sameUpToOrder_refl g fs, hu⟩
  | cons x _ =>
    have hxm : x ∈ l ++ l' := by simp [hx]
    have t1 : ∀ y ∈ l, SameBut x.1 y.1 := fun y hy => ht x hxm y (by simp [hy])
    have t2 : ∀ y ∈ l', SameBut x.1 y.1 := fun y hy => ht x hxm y (by simp [hy])
    refine ⟨?_, usable_afterQueries hu hl⟩
    rcases afterQueries_same hu t1 hl with ⟨rfl, e1⟩ | ⟨s1, e1⟩ <;> rcases afterQueries_same hu t2 hl' with ⟨rfl, e2⟩ | ⟨s2, e2⟩
    · rw [e1, e2]
      exact sameUpToOrder_refl g fs
    · obtain ⟨p, hp, -⟩ := s2.rel
      rw [hnil h] at hp
      simp at hp
    · obtain ⟨p, hp, -⟩ := s1.rel
      rw [hnil' h] at hp
      simp at hp
    · rw [(make_alike h (fun m hm => hc m (by simp [hm])) (fun m hm => hc m (by simp [hm])) fs).1] at e1
      exact e1.symm.trans e2

/-- C95 for two queries: executing them one after the other or as one query with the statements of both. -/
theorem C95_two_queries_partial (env env' env'' : Env) (g : GPath) (q q' q'' : Str) (ms ms' : List ParsedMake) (fs : FS) (hu : Usable fs g)
    (ht : env.importTime = env'.importTime ∧ env.importTime = env''.importTime)
    (h : Makes q ms) (h' : Makes q' ms') (h'' : Makes q'' (ms ++ ms')) (hs : Storable ms) (hs' : Storable ms') :
    SameUpToOrder g ((query env' q' g).run ((query env q g).run fs).2).2 ((query env'' q'' g).run fs).2 := by
  refine (C95_grouping_partial g [(env, q), (env', q')] [(env'', q'')] (ms ++ ms') (ms ++ ms') fs hu ?_ ?_ ?_ ?_ (alikeAll_refl _)).1
  · simp [ht.1 ▸ ht.2, ht.1, ht.2]
  · exact ⟨ms, ms', rfl, .inl ⟨h, hs⟩, ms', [], by simp, .inl ⟨h', hs'⟩, rfl⟩
  · exact ⟨ms ++ ms', [], by simp, .inl ⟨h'', hs.append hs'⟩, rfl⟩
  · intro m hm
    rcases List.mem_append.1 hm with hm | hm <;> rcases List.mem_append.1 hm with hm | hm
    all_goals first | exact hs.ok.clause m hm | exact hs'.ok.clause m hm

/-- C95 for queries as written: well-formed queries, each without a MAKE or with a relationship in one of its MAKE patterns, and the same
patterns spread differently. -/
theorem C95_written_grouping_partial (g : GPath) (bs bs' : List Batch) (fs : FS) (hu : Usable fs g) (hb : ∀ b ∈ bs ++ bs', b.OK)
    (ht : ∀ x ∈ bs ++ bs', ∀ y ∈ bs ++ bs', x.env.importTime = y.env.importTime)
    (h : SameChains (bs.flatMap fun b => makeChains b.lines) (bs'.flatMap fun b => makeChains b.lines)) :
    SameUpToOrder g (afterQueries g (bs.map fun b => (b.env, queryText b.lines)) fs)
      (afterQueries g (bs'.map fun b => (b.env, queryText b.lines)) fs) := by
  obtain ⟨ms, h1, h2, h3⟩ := addAll_text (bs := bs) fun b hm => hb b (by simp [hm])
  obtain ⟨ms', k1, k2, k3⟩ := addAll_text (bs := bs') fun b hm => hb b (by simp [hm])
  refine (C95_grouping_partial g _ _ ms ms' fs hu ?_ h1 k1 ?_ ?_).1
  · rw [← List.map_append]
    intro x hx y hy
    obtain ⟨x', hx', rfl⟩ := List.mem_map.1 hx
    obtain ⟨y', hy', rfl⟩ := List.mem_map.1 hy
    exact ht x' hx' y' hy'
  · intro m hm
    rcases List.mem_append.1 hm with hm | hm
    · exact h2 m hm
    · exact k2 m hm
  · rw [h3, k3]
    have hgood : ∀ {bs : List Batch}, (∀ b ∈ bs, b.OK) → ∀ c ∈ bs.flatMap (fun b => makeChains b.lines), c.Good := fun hb c hc => by
      obtain ⟨b, hm, hc⟩ := List.mem_flatMap.1 hc
      exact makeChains_good (hb b hm).good c hc
    exact h.alike (hgood fun b hm => hb b (by simp [hm])) (hgood fun b hm => hb b (by simp [hm]))

/-- C95 for the shell: after two sessions that add the same patterns, spread differently over the lines typed, every further session goes
the same way, event for event, and leaves the same disk up to the order of the lists in the index. -/
theorem C95_session_partial (env env' env2 env2' : Env) (g : GPath) (l l' rest : List Str) (ms ms' : List ParsedMake) (fs : FS) (hu : Usable fs g)
    (ht : env.importTime = env'.importTime) (ht2 : env2.importTime = env2'.importTime)
    (hq : ∀ q ∈ l ++ l', q ≠ c!"q" ∧ ¬ AsksHelp q)
    (hl : AddAll (l.map fun q => (env, q)) ms) (hl' : AddAll (l'.map fun q => (env', q)) ms')
    (hc : ∀ m ∈ ms ++ ms', m.clause = .make) (h : AlikeAll (patsOf ms) (patsOf ms')) :
    ∃ log fs1 fs2, (shellLoop env2 g rest).run ((shellLoop env g l).run fs).2 = (.ok log, fs1) ∧
      (shellLoop env2' g rest).run ((shellLoop env' g l').run fs).2 = (.ok log, fs2) ∧ SameUpToOrder g fs1 fs2 := by
  rw [session_afterQueries fun q hm => hq q (by simp [hm]), session_afterQueries fun q hm => hq q (by simp [hm])]
  obtain ⟨h0, -⟩ := C95_grouping_partial g _ _ ms ms' fs hu (by
    have k : ∀ x ∈ l.map (fun q => (env, q)) ++ l'.map (fun q => (env', q)), x.1.importTime = env.importTime := by
      intro x hx
      rcases List.mem_append.1 hx with hx | hx <;> obtain ⟨_, _, rfl⟩ := List.mem_map.1 hx
      · rfl
      · exact ht.symm
    exact fun x hx y hy => (k x hx).trans (k y hy).symm) hl hl' hc h
  obtain ⟨_, _, _, _, _, hh, _⟩ := id hu
  obtain ⟨h3, h4⟩ := sim_shell (show SameBut env2 env2' from ht2) hh.db_idx (Ne.symm hh.idx_wn) rest _ _ h0
  obtain ⟨log, fs1, h5, -⟩ := C53_shell_survives env2 g rest (afterQueries g (l.map fun q => (env, q)) fs)
  obtain ⟨log', fs2, h6, -⟩ := C53_shell_survives env2' g rest (afterQueries g (l'.map fun q => (env', q)) fs)
  rw [h5, h6] at h3 h4
  exact ⟨log, fs1, fs2, h5, by rw [h6, show log = log' from h3], h4⟩

/-- C96: MAKE statements whose patterns mean the same (labels, names, directions and properties; not handles, white space or the number of
dashes) do the same to every disk, in order or not, byte for byte; and if they pass the checks, with the same result. -/
theorem C96_make (env : Env) (g : GPath) (ms ms' : List ParsedMake) (h : AlikeAll (patsOf ms) (patsOf ms'))
    (hc : ∀ m ∈ ms ++ ms', m.clause = .make) (fs : FS) :
    ((make env ms g).run fs).2 = ((make env ms' g).run fs).2 ∧ (MakeOK ms → (make env ms g).run fs = (make env ms' g).run fs) :=
  make_alike h (fun m hm => hc m (by simp [hm])) (fun m hm => hc m (by simp [hm])) fs

/-- C96 for queries of any text: the disk is the same whatever the FIND and the REPORT are. -/
theorem C96_query (env : Env) (g : GPath) (q q' : Str) (ms ms' : List ParsedMake) (hq : Makes q ms) (hq' : Makes q' ms')
    (h : AlikeAll (patsOf ms) (patsOf ms')) (hc : ∀ m ∈ ms ++ ms', m.clause = .make) (fs : FS) :
    ((query env q g).run fs).2 = ((query env q' g).run fs).2 := by
  rcases query_cases env q g fs with ⟨m, h1, h2, -⟩ | ⟨h1, -⟩
  · rcases query_cases env q' g fs with ⟨m', k1, k2, -⟩ | ⟨k1, -⟩
    · rw [h2, k2, ← makes_unique hq h1, ← makes_unique hq' k1]
      exact (C96_make env g ms ms' h hc fs).1
    · exact absurd hq' (k1 _)
  · exact absurd hq (h1 _)

/-- C96 for queries as written: if the MAKE patterns of two well-formed queries say the same, pattern for pattern, both leave the same disk,
byte for byte.  Missing from the full property: white space behind an arrow to the right (`C96_violated`). -/
theorem C96_written_partial (env : Env) (g : GPath) (l l' : List Line) (f f' : StmtText) (hq : QueryGood l f) (hq' : QueryGood l' f')
    (h : SameChains (makeChains l) (makeChains l')) (fs : FS) :
    ((query env (queryText l) g).run fs).2 = ((query env (queryText l') g).run fs).2 := by
  have ha := h.alike (makeChains_good hq) (makeChains_good hq')
  have p1 := parseQuery_text hq
  have p2 := parseQuery_text hq'
  have nomake : ∀ {l : List Line} {f : StmtText}, QueryGood l f → parsedMakes (makesOf l) = none → ((query env (queryText l) g).run fs).2 = fs := by
    intro l f hq e
    rcases query_cases env (queryText l) g fs with ⟨m, ⟨-, x, h1, h2⟩, -⟩ | ⟨-, h2⟩
    · have := parseQuery_text hq
      rw [show queryText l = joinLines (l.map Line.render) from rfl, this] at h1
      cases h1
      rw [e] at h2
      cases h2
    · exact h2
  rcases makeOf_text (makesOf l) with ⟨e, e'⟩ | ⟨p, ps, e, hcl, hp⟩ <;>
    rcases makeOf_text (makesOf l') with ⟨k, k'⟩ | ⟨p', ps', k, hcl', hp'⟩
  · rw [nomake hq e, nomake hq' k]
  · cases hm : makesOf l' with
    | nil => simp [hm, parsedMakes] at k
    | cons t ts => simp [makeChains, e', hm, StmtText.chains, AlikeAll] at ha
  · cases hm : makesOf l with
    | nil => simp [hm, parsedMakes] at e
    | cons t ts => simp [makeChains, k', hm, StmtText.chains, AlikeAll] at ha
  · refine C96_query env g _ _ (p :: ps) (p' :: ps') ⟨by simp, _, p1, e⟩ ⟨by simp, _, p2, k⟩ (by rw [hp, hp']; exact ha) ?_ fs
    intro m hm
    rcases List.mem_append.1 hm with hm | hm
    · exact hcl m hm
    · exact hcl' m hm

end

section
attribute [local instance] demoRuntime

/-- `--[ :KNOWS]->`. -/
def bRel : RelText := { eRel with dashes1 := 1, sp1 := c!" ", handle := [] }
/-- `{ x :5 }`. -/
def bProp : PropText := ⟨c!" ", c!"x", c!" ", [], .atom (.int 0 5), c!" "⟩
/-- `( zz: Man { x :5 })`. -/
def bNode : NodeText := ⟨c!" ", c!"zz", [], c!" ", c!"Man", c!" ", some c!"{ x :5 }", []⟩
/-- `(:Man)`. -/
def bNode' : NodeText := eNode [] c!"Man" none
/-- `( zz: Man { x :5 })--[ :KNOWS]->(:Man)`. -/
def bChain : ChainText := .two bNode bRel bNode'
/-- `make ( zz: Man { x :5 })--[ :KNOWS]->(:Man), (a:Man{x: 5})-[r:KNOWS]->(b:Man);`. -/
def bMake : StmtText := ⟨c!"make", c!" ", bChain, [(c!" ", eMake.first)]⟩
/-- Two lines. -/
def bQuery : List Line := [{ text := .make bMake }, { text := .find eFind }]

theorem bQuery_text : queryText bQuery = c!"make ( zz: Man { x :5 })--[ :KNOWS]->(:Man), (a:Man{x: 5})-[r:KNOWS]->(b:Man);\nFIND (c:Man);" := by decide

theorem bProps_good : GoodProps (some c!"{ x :5 }") := by
  rintro p h
  injection h with h
  subst h
  refine ⟨[bProp], [], by decide, ?_, rfl⟩
  simp only [List.mem_singleton, forall_eq]
  exact ⟨by decide, by decide, by decide, by decide, by decide, trivial, by decide, by decide⟩

theorem bChain_good : bChain.Good :=
  ⟨⟨⟨by decide, by decide, rfl, by decide, by decide, by decide, by decide, by decide, by
      rintro p h
      injection h with h
      subst h
      exact ⟨_, rfl, by decide⟩, rfl⟩, bProps_good⟩,
    ⟨⟨by decide, by decide, rfl, fun _ => rfl, by
      rintro a l b h
      simp only [bRel, eRel, Option.some.injEq, Prod.mk.injEq] at h
      obtain ⟨rfl, rfl, rfl⟩ := h
      decide, by simp [bRel, eRel], rfl⟩, by simp [bRel, eRel, GoodProps], rfl, by
      rintro a l b h
      simp only [bRel, eRel, Option.some.injEq, Prod.mk.injEq] at h
      obtain ⟨rfl, rfl, rfl⟩ := h
      intro _
      decide⟩, eNode_good (by decide) (by decide) (by decide)⟩

theorem bMake_good : bMake.Good c!"MAKE" c!"make" where
  kw := .inr rfl
  sp := by decide
  rest := by simp [bMake]; decide
  chains := by
    simp only [bMake, StmtText.chains, List.map_cons, List.map_nil, List.mem_cons, List.not_mem_nil, or_false, forall_eq_or_imp, forall_eq]
    exact ⟨⟨bChain_good, by decide⟩, eMake_good.chains _ (by simp [StmtText.chains])⟩
  line := by decide
  close := by
    rintro c h
    simp [bMake, StmtText.chains] at h
    subst h
    rfl

theorem bQuery_good : QueryGood bQuery eFind where
  lines := by
    simp only [bQuery, List.mem_cons, List.not_mem_nil, or_false, forall_eq_or_imp, forall_eq]
    exact ⟨line_good bMake_good, line_good eFind_good⟩
  find := rfl
  quiet h := by simp [bQuery, makesOf] at h
  report := .inl ⟨rfl, by
    have := bQuery_text
    unfold queryText at this
    rw [this]
    exact noAnagram_of (k := 't') (by decide) (by decide)⟩

/-- The two ways to write the pattern say the same. -/
theorem bChain_same : SameChain eMake.first bChain :=
  ⟨⟨rfl, .inr ⟨[(eProp, .int 5)], [(bProp, .int 5)], [], [], by decide, by decide, rfl, rfl, by
    simp only [List.mem_singleton, forall_eq]
    exact ⟨⟨rfl, by decide, by decide, rfl, by decide, trivial, rfl, fun _ => rfl⟩, rfl⟩, by
    simp only [List.mem_singleton, forall_eq]
    exact ⟨⟨by decide, by decide, by decide, by decide, by decide, trivial, by decide, by decide⟩, rfl⟩, rfl⟩⟩,
    ⟨rfl, .inl ⟨rfl, rfl⟩, rfl, .rfl⟩, rfl, .inl ⟨rfl, rfl⟩⟩

theorem eChain_same : SameChain eMake.first eMake.first :=
  ⟨⟨rfl, .inr ⟨[(eProp, .int 5)], [(eProp, .int 5)], [], [], by decide, by decide, rfl, rfl, by
    simp only [List.mem_singleton, forall_eq]
    exact ⟨⟨rfl, by decide, by decide, rfl, by decide, trivial, rfl, fun _ => rfl⟩, rfl⟩, by
    simp only [List.mem_singleton, forall_eq]
    exact ⟨⟨rfl, by decide, by decide, rfl, by decide, trivial, rfl, fun _ => rfl⟩, rfl⟩, rfl⟩⟩,
    ⟨rfl, .inl ⟨rfl, rfl⟩, rfl, .rfl⟩, rfl, .inl ⟨rfl, rfl⟩⟩

/-- C95: the two-line query twice, by two processes, or once with both patterns in one statement, one of them written differently. -/
example : SameUpToOrder demoG
    (afterQueries demoG [(demoEnv, queryText eQuery), (demoEnvRev, queryText eQuery)] demoFresh)
    (afterQueries demoG [(demoEnv, queryText bQuery)] demoFresh) :=
  C95_written_grouping_partial demoG [⟨demoEnv, eQuery, eFind⟩, ⟨demoEnvRev, eQuery, eFind⟩] [⟨demoEnv, bQuery, eFind⟩] demoFresh
    demoFresh_usable (by
      simp only [List.cons_append, List.nil_append, List.mem_cons, List.not_mem_nil, or_false, forall_eq_or_imp, forall_eq]
      exact ⟨⟨eQuery_good, eQuery_runnable.rel⟩, ⟨eQuery_good, eQuery_runnable.rel⟩, bQuery_good,
        .inr ⟨bChain, by simp [makeChains, makesOf, bQuery, bMake, StmtText.chains], by simp [bChain, ChainText.rels]⟩⟩)
    (by simp [demoEnvRev]) ⟨bChain_same, eChain_same, trivial⟩

/-- C96: so do the two ways of writing the pattern, on a broken disk as well. -/
example (fs : FS) : ∃ l : List Line, makeChains l = [bChain] ∧
    ((query demoEnv (queryText eQuery) demoG).run fs).2 = ((query demoEnv (queryText l) demoG).run fs).2 := by
  refine ⟨[{ text := .make { bMake with rest := [] } }, { text := .find eFind }], rfl, ?_⟩
  refine C96_written_partial demoEnv demoG _ [{ text := .make { bMake with rest := [] } }, { text := .find eFind }] eFind eFind eQuery_good ?_
    ⟨bChain_same, trivial⟩ fs
  have hm : StmtText.Good c!"MAKE" c!"make" { bMake with rest := [] } := {
    kw := .inr rfl
    sp := by decide
    rest := by simp
    chains := by
      simp only [bMake, StmtText.chains, List.map_nil, List.mem_singleton, forall_eq]
      exact ⟨bChain_good, by decide⟩
    line := by decide
    close := by
      rintro c h
      simp [bMake, StmtText.chains] at h
      subst h
      rfl }
  exact {
    lines := by
      simp only [List.mem_cons, List.not_mem_nil, or_false, forall_eq_or_imp, forall_eq]
      exact ⟨line_good hm, line_good eFind_good⟩
    find := rfl
    quiet := by intro h; simp [makesOf] at h
    report := .inl ⟨rfl, by
      have : joinLines (List.map Line.render [{ text := .make { bMake with rest := [] } }, { text := .find eFind }]) =
        c!"make ( zz: Man { x :5 })--[ :KNOWS]->(:Man);\nFIND (c:Man);" := by decide
      rw [this]
      exact noAnagram_of (k := 't') (by decide) (by decide)⟩ }

/-- `MAKE (a:Man);` and `FIND (c:Man);`. -/
def bOne : List Line := [{ text := .make aOne }, { text := .find eFind }]
/-- The same behind another MAKE. -/
def bBoth : List Line := [{ text := .make eMake }, { text := .make aOne }, { text := .find eFind }]

theorem bOne_good : QueryGood bOne eFind where
  lines := by
    simp only [bOne, List.mem_cons, List.not_mem_nil, or_false, forall_eq_or_imp, forall_eq]
    exact ⟨line_good aOne_good, line_good eFind_good⟩
  find := rfl
  quiet h := by simp [bOne, makesOf] at h
  report := .inl ⟨rfl, by
    have : joinLines (List.map Line.render bOne) = c!"MAKE (a:Man);\nFIND (c:Man);" := by decide
    rw [this]
    exact noAnagram_of (k := 't') (by decide) (by decide)⟩

theorem bBoth_good : QueryGood bBoth eFind where
  lines := by
    simp only [bBoth, List.mem_cons, List.not_mem_nil, or_false, forall_eq_or_imp, forall_eq]
    exact ⟨line_good eMake_good, line_good aOne_good, line_good eFind_good⟩
  find := rfl
  quiet h := by simp [bBoth, makesOf] at h
  report := .inl ⟨rfl, by
    have : joinLines (List.map Line.render bBoth) = c!"MAKE (a:Man{x: 5})-[r:KNOWS]->(b:Man);\nMAKE (a:Man);\nFIND (c:Man);" := by decide
    rw [this]
    exact noAnagram_of (k := 't') (by decide) (by decide)⟩

/-- The code violates C95: a statement without a relationship can be stored together with another one, but the same two statements one
query after the other leave a GDBMS that is broken for good. -/
theorem C95_violated : ∃ (env : Env) (g : GPath) (l l' l'' : List Line) (f : StmtText) (fs : FS), Usable fs g ∧
    QueryGood l f ∧ QueryGood l' f ∧ QueryGood l'' f ∧ makeChains l'' = makeChains l ++ makeChains l' ∧
    Usable ((query env (queryText l'') g).run fs).2 g ∧
    Broken ((query env (queryText l') g).run ((query env (queryText l) g).run fs).2).2 g := by
  refine ⟨demoEnv, demoG, eQuery, bOne, bBoth, eFind, demoFresh, demoFresh_usable, eQuery_good, bOne_good, bBoth_good, rfl, ?_, ?_⟩
  · refine C69_stays_usable_partial demoEnv _ demoG _ demoFresh_usable fun ms h1 h2 => ?_
    have := (C69_written_query_breaks_iff bBoth_good demoEnv demoG _ demoFresh_usable).1
      (C69_poison_breaks demoEnv _ demoG _ ms demoFresh_usable h1 h2).2
    have := this.2 eMake.first (by simp [makeChains, makesOf, bBoth, StmtText.chains])
    simp [eMake, ChainText.rels] at this
  · have hu : Usable ((query demoEnv (queryText eQuery) demoG).run demoFresh).2 demoG := by
      refine C69_stays_usable_partial demoEnv _ demoG _ demoFresh_usable fun ms h1 h2 => ?_
      have := (C69_written_query_breaks_iff eQuery_good demoEnv demoG _ demoFresh_usable).1
        (C69_poison_breaks demoEnv _ demoG _ ms demoFresh_usable h1 h2).2
      have := this.2 eMake.first (by simp [makeChains, makesOf, eQuery, StmtText.chains])
      simp [eMake, ChainText.rels] at this
    exact (C69_written_query_breaks_iff bOne_good demoEnv demoG _ hu).2
      ⟨by simp [makesOf, bOne], by simp [makeChains, makesOf, bOne, aOne, StmtText.chains, ChainText.rels]⟩

/-- `MAKE (a:Man)-[k:KNOWS]->(b:Man);`, with or without a space behind the arrow. -/
def bArrow (sp : Str) : StmtText := ⟨c!"MAKE", c!" ", .two (eNode c!"a" c!"Man" none) { aRelS with sp3 := sp } (eNode c!"b" c!"Man" none), []⟩

/-- The code violates C96: white space behind an arrow turns the relationship round. -/
theorem C96_violated : ∃ (env : Env) (g : GPath) (sp : Str) (fs : FS), sp.all isSpace = true ∧
    ((query env (queryText [{ text := .make (bArrow []) }, { text := .find eFind }]) g).run fs).1 = .ok true ∧
    ((query env (queryText [{ text := .make (bArrow sp) }, { text := .find eFind }]) g).run fs).1 = .ok true ∧
    ((query env (queryText [{ text := .make (bArrow []) }, { text := .find eFind }]) g).run fs).2.get g.db ≠
      ((query env (queryText [{ text := .make (bArrow sp) }, { text := .find eFind }]) g).run fs).2.get g.db :=
  ⟨demoEnv, demoG, c!" ", demoFresh, by decide, by decide +kernel, by decide +kernel, by decide +kernel⟩

/-- Two MAKEs and a FIND. -/
def bTwice : List Line := [{ text := .make eMake }, { text := .make eMake }, { text := .find eFind }]

theorem bTwice_good : QueryGood bTwice eFind where
  lines := by
    simp only [bTwice, List.mem_cons, List.not_mem_nil, or_false, forall_eq_or_imp, forall_eq]
    exact ⟨line_good eMake_good, line_good eMake_good, line_good eFind_good⟩
  find := rfl
  quiet h := by simp [bTwice, makesOf] at h
  report := .inl ⟨rfl, by
    have : joinLines (List.map Line.render bTwice) =
      c!"MAKE (a:Man{x: 5})-[r:KNOWS]->(b:Man);\nMAKE (a:Man{x: 5})-[r:KNOWS]->(b:Man);\nFIND (c:Man);" := by decide
    rw [this]
    exact noAnagram_of (k := 't') (by decide) (by decide)⟩

/-- The statement as parsed. -/
def eParsed : ParsedMake := ⟨eMake.render, .make, [eMake.first.pattern]⟩

theorem eParsed_storable : Storable [eParsed] where
  ok := makes_ok (cs := [eMake.first]) (by simp [eParsed]) rfl (by simpa using (eMake_good.chains _ (by simp [StmtText.chains])).1)
  values := by
    simp only [patsOf, eParsed, List.flatMap_cons, List.flatMap_nil, List.append_nil, List.mem_singleton, forall_eq]
    exact chain_patSer (eMake_good.chains _ (by simp [StmtText.chains])).1
  rel := ⟨eMake.first.pattern, by simp [patsOf, eParsed], chain_storesRel (by simp [eMake, ChainText.rels])⟩

/-- C95 for two queries. -/
example : SameUpToOrder demoG
    ((query demoEnvRev (queryText eQuery) demoG).run ((query demoEnv (queryText eQuery) demoG).run demoFresh).2).2
    ((query demoEnv (queryText bTwice) demoG).run demoFresh).2 :=
  C95_two_queries_partial demoEnv demoEnvRev demoEnv demoG _ _ _ [eParsed] [eParsed] demoFresh demoFresh_usable ⟨rfl, rfl⟩
    ⟨by simp, _, parseQuery_text eQuery_good, rfl⟩ ⟨by simp, _, parseQuery_text eQuery_good, rfl⟩
    ⟨by simp, _, parseQuery_text bTwice_good, rfl⟩ eParsed_storable eParsed_storable

/-- C95 for the shell: whatever is typed afterwards. -/
example (rest : List Str) : ∃ log fs1 fs2,
    (shellLoop demoEnvRev demoG rest).run ((shellLoop demoEnv demoG [queryText eQuery, queryText eQuery]).run demoFresh).2 = (.ok log, fs1) ∧
    (shellLoop demoEnv demoG rest).run ((shellLoop demoEnvRev demoG [queryText bTwice]).run demoFresh).2 = (.ok log, fs2) ∧
    SameUpToOrder demoG fs1 fs2 := by
  have ha : Adds (queryText eQuery) [eParsed] := .inl ⟨⟨by simp, _, parseQuery_text eQuery_good, rfl⟩, eParsed_storable⟩
  have hb : Adds (queryText bTwice) [eParsed, eParsed] :=
    .inl ⟨⟨by simp, _, parseQuery_text bTwice_good, rfl⟩, eParsed_storable.append eParsed_storable⟩
  refine C95_session_partial demoEnv demoEnvRev demoEnvRev demoEnv demoG _ _ rest [eParsed, eParsed] [eParsed, eParsed] demoFresh
    demoFresh_usable rfl rfl ?_ ⟨[eParsed], [eParsed], rfl, ha, [eParsed], [], rfl, ha, rfl⟩ ⟨_, [], rfl, hb, rfl⟩ (by simp [eParsed]) (alikeAll_refl _)
  have hh : ∀ {q : Str}, isSubstr c!"help" (lower q) = false → ¬ AsksHelp q := fun h k => by
    rw [(isSubstr_iff _ _).2 k] at h
    simp at h
  simp only [List.cons_append, List.nil_append, List.mem_cons, List.not_mem_nil, or_false, forall_eq_or_imp, forall_eq]
  exact ⟨⟨by decide, hh (by decide +kernel)⟩, ⟨by decide, hh (by decide +kernel)⟩, by decide, hh (by decide +kernel)⟩

/-- The same with another handle. -/
def eOther : ParsedMake := ⟨[], .make, [{ eMake.first.pattern with left := ⟨some c!"(", some c!"other", some c!"Man", some c!"{x: 5}"⟩ }]⟩

theorem eOther_alike : AlikeAll (patsOf [eParsed]) (patsOf [eOther]) :=
  ⟨⟨⟨rfl, rfl, rfl⟩, .refl _, .refl _, .refl _, .refl _, rfl, rfl, .rfl, .rfl⟩, trivial⟩

/-- C96 for statements. -/
example (fs : FS) : (make demoEnv [eParsed] demoG).run fs = (make demoEnv [eOther] demoG).run fs :=
  (C96_make demoEnv demoG _ _ eOther_alike (by simp [eParsed, eOther]) fs).2 eParsed_storable.ok

/-- C96 for queries of any text: with another FIND and a REPORT. -/
example (fs : FS) : ((query demoEnv (queryText eQuery) demoG).run fs).2 = ((query demoEnv (queryText eFive) demoG).run fs).2 :=
  C96_query demoEnv demoG _ _ [eParsed] [eParsed] ⟨by simp, _, parseQuery_text eQuery_good, rfl⟩
    ⟨by simp, _, parseQuery_text eFive_runnable.good, rfl⟩ (alikeAll_refl _) (by simp [eParsed]) fs

end

end WG
