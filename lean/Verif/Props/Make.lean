/-
Properties of one MAKE: C02, C08, C14, C15, C22, C23, C24.
-/
import Verif.Proofs.Crash
import Verif.Proofs.MakeStored
import Verif.Spec.DemoMake

set_option linter.unusedSectionVars false

namespace WG

section
variable [PyRuntime]

/-! ### C02 -/

/-- A MAKE that returns advances the counter by exactly the number of nodes and relationships
written in its patterns — whatever is in the database and index files. -/
theorem C02_counter_advances_exactly (env : Env) (pml : List ParsedMake) (g : GPath) (fs fs' : FS)
    (r : Bool) (h : (make env pml g).run fs = (.ok r, fs')) :
    ∃ n, (getCurrentWiggleNumber g.wn).run fs = (.ok n, fs) ∧
      (getCurrentWiggleNumber g.wn).run fs' = (.ok (n + totalSize (patsOf pml)), fs') := by
  rcases counter_cases g.wn fs with ⟨n, hn⟩ | ⟨e, he⟩
  · refine ⟨n, hn, ?_⟩
    rw [run_make_counter hn] at h
    by_cases hok : MakeOK pml
    · rw [afterCounter_ok hok, commit_eq] at h
      obtain ⟨_, fs1, _, h⟩ := run_ok_bind h
      obtain ⟨_, fs2, _, h⟩ := run_ok_bind h
      obtain ⟨_, fs3, hu, h⟩ := run_ok_bind h
      obtain rfl := run_ok_update hu
      simp at h
      rw [← h.2]
      exact run_getCurrentWiggleNumber_int (FS.get_set_self _ _ _)
    · obtain ⟨e, he⟩ := afterCounter_bad (env := env) (g := g) (n := n) hok
      rw [he] at h
      simp at h
  · rw [run_make_noCounter he] at h
    simp at h

/-- A MAKE that raises, at whatever point, leaves the counter file as it was. -/
theorem C02_failed_make_keeps_counter (env : Env) (pml : List ParsedMake) (g : GPath) (fs fs' : FS)
    (e : PyErr) (h1 : g.db ≠ g.wn) (h2 : g.idx ≠ g.wn)
    (h : (make env pml g).run fs = (.error e, fs')) : fs'.get g.wn = fs.get g.wn := by
  rcases counter_cases g.wn fs with ⟨n, hn⟩ | ⟨e', he⟩
  · rw [run_make_counter hn] at h
    by_cases hok : MakeOK pml
    · rw [afterCounter_ok hok, commit_eq, run_bind] at h
      have f1 := run_only (q := g.wn) (only_addItem g.db (dbBatch env n (patsOf pml))) (by simpa using Ne.symm h1) fs
      cases hr : (addItemToDatabase g.db (dbBatch env n (patsOf pml))).run fs with
      | mk r fs1 =>
        rw [hr] at h f1
        cases r with
        | error e => simp at h; rw [← h.2]; exact f1
        | ok a =>
          simp only at h f1
          rw [run_bind] at h
          have f2 := run_only (q := g.wn) (only_commitIndexes env n (patsOf pml) g) (by simpa using Ne.symm h2) fs1
          cases hr : (commitIndexes env n (patsOf pml) g).run fs1 with
          | mk r fs2 =>
            rw [hr] at h f2
            cases r with
            | error e => simp at h; rw [← h.2]; rw [f2, f1]
            | ok a =>
              simp only at h f2
              by_cases hd : DirOK fs2 g.wn
              · rw [run_bind_ok (run_updateWiggleNumber hd)] at h
                simp at h
              · rw [run_bind_err (run_updateWiggleNumber_fail hd)] at h
                simp at h
                rw [← h.2, f2, f1]
    · obtain ⟨e, he⟩ := afterCounter_bad (env := env) (g := g) (n := n) hok
      rw [he] at h
      simp at h
      rw [h.2]
  · rw [run_make_noCounter he] at h
    simp at h
    rw [h.2]

/-! ### C22 -/

/-- A MAKE whose counter is unreadable or whose statements are not acceptable raises, and the disk
stays exactly as it was, whatever is on it. -/
theorem C22_rejected_make_changes_nothing (env : Env) (pml : List ParsedMake) (g : GPath) (fs : FS)
    (h : (∀ n, (getCurrentWiggleNumber g.wn).run fs ≠ (.ok n, fs)) ∨ ¬ MakeOK pml) :
    ∃ e, (make env pml g).run fs = (.error e, fs) := by
  rcases counter_cases g.wn fs with ⟨n, hn⟩ | ⟨e, he⟩
  · have hok : ¬ MakeOK pml := by
      rcases h with h | h
      · exact absurd hn (h n)
      · exact h
    obtain ⟨e, he⟩ := afterCounter_bad (env := env) (g := g) (n := n) hok
    exact ⟨e, by rw [run_make_counter hn, he]; rfl⟩
  · exact ⟨e, run_make_noCounter he⟩

/-- The defects listed in the property are defects: a node without label, a relationship without
node on one side, a relationship with both arrow heads, an unreadable property list, a clause other
than MAKE. -/
theorem C22_defects (pml : List ParsedMake) (p : ParsedPattern) (hp : p ∈ patsOf pml)
    (h : p.left.label = none ∨
      (truthy p.middle.text = true ∧ p.middle.label = none) ∨
      (truthy p.right.text = true ∧ p.right.label = none) ∨
      (truthy p.leftMiddle.text = true ∧ truthy p.middle.text = false) ∨
      (truthy p.middleRight.text = true ∧ truthy p.right.text = false) ∨
      (truthy p.leftMiddle.text = true ∧ bothHeads p.leftMiddle) ∨
      (truthy p.middleRight.text = true ∧ bothHeads p.middleRight) ∨
      (∃ e, getPropertyDict p.left.props = .error e) ∨
      (truthy p.middle.text = true ∧ ∃ e, getPropertyDict p.middle.props = .error e) ∨
      (truthy p.leftMiddle.text = true ∧ ∃ e, getPropertyDict p.leftMiddle.props = .error e) ∨
      (truthy p.middleRight.text = true ∧ pointsRight p.middleRight = true ∧
        ∃ e, getPropertyDict p.middleRight.props = .error e)) : ¬ MakeOK pml := by
  intro hok
  have hs := hok.shape p hp
  have hq := hok.props p hp
  have no : ∀ {t : PartText}, PropsOK t → ¬ ∃ e, getPropertyDict t.props = .error e := by
    rintro t ⟨x, hx⟩ ⟨e, he⟩; rw [hx] at he; simp at he
  rcases h with h | ⟨h1, h2⟩ | ⟨h1, h2⟩ | ⟨h1, h2⟩ | ⟨h1, h2⟩ | ⟨h1, h2⟩ | ⟨h1, h2⟩ | h | ⟨h1, h2⟩ |
    ⟨h1, h2⟩ | ⟨h1, h2, h3⟩
  · exact hs.left h
  · exact hs.middle h1 h2
  · exact hs.right h1 h2
  · rw [(hs.lm h1).1] at h2; simp at h2
  · rw [(hs.mr h1).2.1] at h2; simp at h2
  · exact (hs.lm h1).2 h2
  · exact (hs.mr h1).2.2 h2
  · exact no hq.left h
  · exact no (hq.middle h1) h2
  · exact no (hq.lm h1) h2
  · exact no (hq.mr h1 h2) h3

/-! ### C23 -/

/-- On a healthy GDBMS whose counter is above all keys, a MAKE with acceptable statements,
JSON-representable properties and at least one relationship that gets stored returns True,
advances the counter, and leaves the GDBMS healthy.
Missing from the full property: statements without such a relationship
(`C23_relationless_make_fails`). -/
theorem C23_valid_make_succeeds_partial (env : Env) (pml : List ParsedMake) (g : GPath) (fs : FS)
    (d : Dict V) (labels names : List Str) (rels : Dict (List Int)) (n : Int)
    (h : Healthy fs g d labels names rels n) (hb : BelowCounter d n) (hok : MakeOK pml)
    (hs : ∀ p ∈ patsOf pml, PatSer p) (hr : ∃ p ∈ patsOf pml, StoresRel p) :
    ((make env pml g).run fs).1 = .ok true ∧
    ∃ d' labels' names' rels', Healthy ((make env pml g).run fs).2 g d' labels' names' rels'
      (n + totalSize (patsOf pml)) := by
  have hf := fresh_batch (env := env) (pats := patsOf pml) fun w h1 _ => hb w h1
  have hser := (dbBatch_ser (env := env) (b := n) hok.props hok.shape).2 hs
  have hne := (relBatch_ne (b := n) hok.shape).2 hr
  rw [run_make_counter h.counter, afterCounter_ok hok]
  obtain ⟨h1, _, l, m, r, h2, _⟩ := commit_ok h hf hser hne
  exact ⟨h1, _, l, m, r, h2⟩

/-- On a healthy GDBMS every acceptable MAKE without a relationship to store raises JSONDecodeError:
its nodes are in the database, the index file is no longer JSON, and the counter is not
advanced. -/
theorem C23_relationless_make_fails (env : Env) (pml : List ParsedMake) (g : GPath) (fs : FS)
    (d : Dict V) (labels names : List Str) (rels : Dict (List Int)) (n : Int)
    (h : Healthy fs g d labels names rels n) (hb : BelowCounter d n) (hok : MakeOK pml)
    (hs : ∀ p ∈ patsOf pml, PatSer p) (hr : ¬ ∃ p ∈ patsOf pml, StoresRel p) :
    ((make env pml g).run fs).1 = .error .jsonDecode ∧
    Unreadable ((make env pml g).run fs).2 g.idx ∧
    (getCurrentWiggleNumber g.wn).run ((make env pml g).run fs).2 =
      (.ok n, ((make env pml g).run fs).2) ∧
    ∃ d', Holds ((make env pml g).run fs).2 g.db (d ++ d') ∧
      (patsOf pml ≠ [] → intStr n ∈ d'.map Prod.fst) := by
  have hf := fresh_batch (env := env) (pats := patsOf pml) fun w h1 _ => hb w h1
  have hser := (dbBatch_ser (env := env) (b := n) hok.props hok.shape).2 hs
  have hne : relBatch n (patsOf pml) = [] := by
    apply Classical.byContradiction
    intro hne
    exact hr ((relBatch_ne (b := n) hok.shape).1 hne)
  rw [run_make_counter h.counter, afterCounter_ok hok]
  obtain ⟨bad, hbad, e⟩ := commit_relationless h hf hser hne
  rw [e]
  refine ⟨rfl, ⟨bad, FS.get_set_self _ _ _, hbad⟩, ?_, dbBatch env n (patsOf pml), ⟨_, ?_, jsonLoad_dump _
    (ser_append h.ser hf hser)⟩, ?_⟩
  · obtain ⟨t, h1, h2, h3⟩ := h.wn
    have : ((fs.set g.db (dumpText (.dict (d ++ dbBatch env n (patsOf pml))))).set g.idx bad).get g.wn = some t := by
      rw [FS.get_set_ne h.idx_wn, FS.get_set_ne h.db_wn, h1]
    rw [run_getCurrentWiggleNumber this, h3]
    simp [h2]
  · simp only
    rw [FS.get_set_ne (Ne.symm h.db_idx), FS.get_set_self]
  · intro hp
    cases hpats : patsOf pml with
    | nil => exact absurd hpats hp
    | cons p ps => simp [dbBatch, allStored, place, storedNodes, dbEntry, nodeData, nodePre]

/-! ### C24 -/

/-- The layout used below is the documented one: the entities of all patterns, pattern by pattern
and in each pattern left, middle, right node, left-middle, middle-right relationship, have the
consecutive numbers from the counter on. -/
theorem C24_layout_is_consecutive (b : Int) (pats : List ParsedPattern) :
    (place b pats).flatMap (fun q => layout q.1 q.2) =
      (List.range (totalSize pats)).map fun i : Nat => b + (i : Int) := by
  induction pats generalizing b with
  | nil => rfl
  | cons p ps ih =>
    have e : totalSize (p :: ps) = patSize p + totalSize ps := by simp [totalSize]
    rw [e, List.range_add, List.map_append, place, List.flatMap_cons, ih]
    congr 1
    · simp only [layout, leftNum, middleNum, rightNum, lmNum, mrNum, patSize, writtenNodes, writtenRels]
      cases truthy p.middle.text <;> cases truthy p.right.text <;> cases truthy p.leftMiddle.text <;>
        cases truthy p.middleRight.text <;> simp [List.range_succ] <;> omega
    · simp only [List.map_map]
      apply List.map_congr_left
      intro i _
      simp only [Function.comp, Int.natCast_add]
      omega

/-! ### C14 -/

/-- After a successful MAKE the left and the middle node of every pattern are stored under their own
number with label and properties, and every record stored before is still there.
Missing from the full property: the right node (`C14_right_node_lost`). -/
theorem C14_nodes_stored_partial (env : Env) (pml : List ParsedMake) (g : GPath) (fs fs' : FS)
    (d : Dict V) (labels names : List Str) (rels : Dict (List Int)) (n : Int) (r : Bool)
    (h : Healthy fs g d labels names rels n) (hr : (make env pml g).run fs = (.ok r, fs')) :
    ∃ d', Holds fs' g.db d' ∧ (∀ k v, dictGet k d = some v → dictGet k d' = some v) ∧
      ∀ q ∈ place n (patsOf pml), StoredNode d' (leftNum q.1) q.2.left ∧
        (truthy q.2.middle.text = true → StoredNode d' (middleNum q.1) q.2.middle) := by
  obtain ⟨hok, hf, hs, hb, _, l, m, rl, hh, _⟩ := make_success h hr
  refine ⟨_, hh.db, fun k v hk => dictGet_append_left hk, ?_⟩
  intro q hq
  have hshape := hok.shape _ (place_mem hq)
  have hprops := hok.props _ (place_mem hq)
  exact ⟨storedNode_of hf hq (left_stored _ _) hshape.left hprops.left, fun hm =>
    storedNode_of hf hq (middle_stored hm) (hshape.middle hm) (hprops.middle hm)⟩

/-- Nothing else is stored: every new key is the number of a left or middle node. -/
theorem C14_nothing_else_stored (env : Env) (pml : List ParsedMake) (g : GPath) (fs fs' : FS)
    (d : Dict V) (labels names : List Str) (rels : Dict (List Int)) (n : Int) (r : Bool)
    (h : Healthy fs g d labels names rels n) (hr : (make env pml g).run fs = (.ok r, fs'))
    (d' : Dict V) (hd' : Holds fs' g.db d') (k : Str) (hk : k ∈ d'.map Prod.fst) :
    k ∈ d.map Prod.fst ∨ ∃ q ∈ place n (patsOf pml), k = intStr (leftNum q.1) ∨
      (truthy q.2.middle.text = true ∧ k = intStr (middleNum q.1)) := by
  obtain ⟨hok, hf, hs, hb, _, l, m, rl, hh, _⟩ := make_success h hr
  obtain rfl := Holds.unique hd' hh.db
  rw [List.map_append, List.mem_append] at hk
  rcases hk with hk | hk
  · exact Or.inl hk
  · right
    obtain ⟨x, hx, rfl⟩ := List.mem_map.1 hk
    obtain ⟨q, hq, m, hm, rfl⟩ := dbBatch_mem.1 hx
    refine ⟨q, hq, ?_⟩
    unfold storedNodes at hm
    simp only [List.mem_cons] at hm
    rcases hm with rfl | hm
    · left; rfl
    · split at hm
      · next hmid => right; simp at hm; subst hm; exact ⟨hmid, rfl⟩
      · simp at hm

/-- The right node of a pattern is never stored (it is built from the left node, make.py 46): its
number is not a key unless it was one before. -/
theorem C14_right_node_lost (env : Env) (pml : List ParsedMake) (g : GPath) (fs fs' : FS)
    (d : Dict V) (labels names : List Str) (rels : Dict (List Int)) (n : Int) (r : Bool)
    (h : Healthy fs g d labels names rels n) (hr : (make env pml g).run fs = (.ok r, fs'))
    (d' : Dict V) (hd' : Holds fs' g.db d') (q : Int × ParsedPattern) (hq : q ∈ place n (patsOf pml))
    (hright : truthy q.2.right.text = true) (hold : intStr (rightNum q.1 q.2) ∉ d.map Prod.fst) :
    intStr (rightNum q.1 q.2) ∉ d'.map Prod.fst := by
  intro hk
  rcases C14_nothing_else_stored env pml g fs fs' d labels names rels n r h hr d' hd' _ hk with hk | ⟨q', hq', hk⟩
  · exact hold hk
  · have hnum : rightNum q.1 q.2 ∈ layout q.1 q.2 := by simp [layout, hright]
    have hnodup : ((place n (patsOf pml)).flatMap fun q => layout q.1 q.2).Nodup := by
      rw [C24_layout_is_consecutive]
      exact List.Pairwise.map _ (fun a b e => by omega) List.nodup_range
    by_cases e : q' = q
    · subst e
      rcases hk with hk | ⟨hm, hk⟩
      · have := intStr_inj hk
        simp only [rightNum, leftNum] at this
        split at this <;> omega
      · have := intStr_inj hk
        simp only [rightNum, middleNum, hm, if_true] at this
        omega
    · have hne : ∀ x ∈ layout q'.1 q'.2, x ≠ rightNum q.1 q.2 := by
        intro x hx ex
        subst ex
        exact (pairwise_flatMap_disjoint hnodup hq' hq e) hx hnum
      rcases hk with hk | ⟨hm, hk⟩
      · exact hne (leftNum q'.1) (by simp [layout]) (intStr_inj hk).symm
      · exact hne (middleNum q'.1) (by simp [layout, hm]) (intStr_inj hk).symm

/-! ### C15 -/

/-- After a successful MAKE every relationship between left and middle node is stored under its
source, and both its end points are stored nodes; every relationship pointing from the middle to the
right node is stored under the middle node.
Missing from the full property: the end point of the latter is not a stored node, and a relationship
from the right to the middle node is not stored at all (`C15_right_relationship_dangles`,
`C15_right_relationship_lost`). -/
theorem C15_relationships_stored_partial (env : Env) (pml : List ParsedMake) (g : GPath) (fs fs' : FS)
    (d : Dict V) (labels names : List Str) (rels : Dict (List Int)) (n : Int) (r : Bool)
    (h : Healthy fs g d labels names rels n) (hr : (make env pml g).run fs = (.ok r, fs')) :
    ∃ d', Holds fs' g.db d' ∧ ∀ q ∈ place n (patsOf pml),
      (truthy q.2.leftMiddle.text = true →
        (if pointsRight q.2.leftMiddle then
          StoredRel d' (lmNum q.1 q.2) (leftNum q.1) (middleNum q.1) q.2.leftMiddle
        else StoredRel d' (lmNum q.1 q.2) (middleNum q.1) (leftNum q.1) q.2.leftMiddle) ∧
        intStr (leftNum q.1) ∈ d'.map Prod.fst ∧ intStr (middleNum q.1) ∈ d'.map Prod.fst) ∧
      (truthy q.2.middleRight.text = true → pointsRight q.2.middleRight = true →
        StoredRel d' (mrNum q.1 q.2) (middleNum q.1) (rightNum q.1 q.2) q.2.middleRight) := by
  obtain ⟨hok, hf, hs, hb, _, l, m, rl, hh, _⟩ := make_success h hr
  refine ⟨_, hh.db, ?_⟩
  intro q hq
  have hshape := hok.shape _ (place_mem hq)
  have hprops := hok.props _ (place_mem hq)
  constructor
  · intro hlm
    have hmid := (hshape.lm hlm).1
    refine ⟨?_, ?_, ?_⟩
    · cases hp : pointsRight q.2.leftMiddle with
      | true =>
        have := storedRel_of (t' := q.2.leftMiddle) (r := relLM q.1 q.2) hf hq (left_stored _ _)
          (by simp [leftRels, hlm, hp]) (hprops.lm hlm) (by simp [relLM, hp]) rfl rfl
        simp only [relLM, hp, if_true] at this
        exact this
      | false =>
        have := storedRel_of (t' := q.2.leftMiddle) (r := relLM q.1 q.2) hf hq (middle_stored hmid)
          (by simp [middleRels, hlm, hp]) (hprops.lm hlm) (by simp [relLM, hp]) rfl rfl
        simp only [relLM, hp] at this
        exact this
    · exact mem_keys_of_dictGet (stored_get hf hq (left_stored _ _))
    · exact mem_keys_of_dictGet (stored_get hf hq (middle_stored hmid))
  · intro hmr hp
    have hmid := (hshape.mr hmr).1
    have := storedRel_of (t' := q.2.middleRight) (r := relMR q.1 q.2) hf hq (middle_stored hmid)
      (by simp [middleRels, hmr, hp]) (hprops.mr hmr hp) (by simp [relMR, hp]) rfl rfl
    simp only [relMR, hp, if_true] at this
    rw [show rightNum q.1 q.2 = q.1 + 2 by simp [rightNum, hmid]]
    exact this

/-- A relationship pointing to the right node is stored with an end point that is not stored. -/
theorem C15_right_relationship_dangles (env : Env) (pml : List ParsedMake) (g : GPath) (fs fs' : FS)
    (d : Dict V) (labels names : List Str) (rels : Dict (List Int)) (n : Int) (r : Bool)
    (h : Healthy fs g d labels names rels n) (hr : (make env pml g).run fs = (.ok r, fs'))
    (hb : BelowCounter d n)
    (q : Int × ParsedPattern) (hq : q ∈ place n (patsOf pml)) (hmr : truthy q.2.middleRight.text = true)
    (hp : pointsRight q.2.middleRight = true) :
    ∃ d', Holds fs' g.db d' ∧
      StoredRel d' (mrNum q.1 q.2) (middleNum q.1) (rightNum q.1 q.2) q.2.middleRight ∧
      intStr (rightNum q.1 q.2) ∉ d'.map Prod.fst := by
  obtain ⟨d', h1, h2⟩ := C15_relationships_stored_partial env pml g fs fs' d labels names rels n r h hr
  refine ⟨d', h1, (h2 q hq).2 hmr hp, ?_⟩
  have hok := (make_success h hr).1
  have hright := (hok.shape _ (place_mem hq)).mr hmr
  refine C14_right_node_lost env pml g fs fs' d labels names rels n r h hr d' h1 q hq hright.2.1 (hb _ ?_)
  have := (place_bounds hq).1
  simp only [rightNum]; split <;> omega

/-- A relationship pointing from the right to the middle node is not stored at all: its number
occurs nowhere in the graph. -/
theorem C15_right_relationship_lost (env : Env) (pml : List ParsedMake) (g : GPath) (fs fs' : FS)
    (d : Dict V) (labels names : List Str) (rels : Dict (List Int)) (n : Int) (r : Bool)
    (h : Healthy fs g d labels names rels n) (hr : (make env pml g).run fs = (.ok r, fs'))
    (d' : Dict V) (hd' : Holds fs' g.db d') (q : Int × ParsedPattern) (hq : q ∈ place n (patsOf pml))
    (hmr : truthy q.2.middleRight.text = true) (hp : pointsRight q.2.middleRight = false)
    (hold : some (mrNum q.1 q.2) ∉ allNumbers d) :
    some (mrNum q.1 q.2) ∉ allNumbers d' := by
  obtain ⟨hok, hf, hs, hb, _, l, m, rl, hh, _⟩ := make_success h hr
  obtain rfl := Holds.unique hd' hh.db
  rw [allNumbers_append, List.mem_append]
  rintro (hk | hk)
  · exact hold hk
  · unfold dbBatch at hk
    rw [allNumbers_batch] at hk
    simp only [List.mem_map, Option.some.injEq, exists_eq_right, allStored, List.mem_flatMap] at hk
    obtain ⟨m, ⟨q', hq', hm⟩, hk⟩ := hk
    have hnum : mrNum q.1 q.2 ∈ layout q.1 q.2 := by simp [layout, hmr]
    have hnodup : ((place n (patsOf pml)).flatMap fun q => layout q.1 q.2).Nodup := by
      rw [C24_layout_is_consecutive]
      exact List.Pairwise.map _ (fun a b e => by omega) List.nodup_range
    have hsub := nums_layout (hok.shape _ (place_mem hq')) hm hk
    by_cases e : q' = q
    · subst e
      exact hsub.2 hp hmr rfl
    · exact pairwise_flatMap_disjoint hnodup hq' hq e hsub.1 hnum

/-! ### C08 -/

/-- A MAKE with a property value that `json` cannot write raises TypeError and destroys the database
file: the graph stored before can no longer be loaded. -/
theorem C08_unserialisable_make_destroys (env : Env) (pml : List ParsedMake) (g : GPath) (fs : FS)
    (d : Dict V) (labels names : List Str) (rels : Dict (List Int)) (n : Int)
    (h : Healthy fs g d labels names rels n) (hb : BelowCounter d n) (hok : MakeOK pml)
    (hs : ¬ ∀ p ∈ patsOf pml, PatSer p) :
    ((make env pml g).run fs).1 = .error .type ∧ Unreadable ((make env pml g).run fs).2 g.db := by
  have hf := fresh_batch (env := env) (pats := patsOf pml) fun w h1 _ => hb w h1
  have hser := mt (dbBatch_ser (env := env) (b := n) hok.props hok.shape).1 hs
  rw [run_make_counter h.counter, afterCounter_ok hok]
  obtain ⟨t, h1, h2⟩ := commit_opq h.dbText h.ser hf hser
  rw [h2]
  exact ⟨rfl, t, FS.get_set_self _ _ _, h1⟩

/-- If the property values are JSON-representable, the graph stored before can be loaded after the
MAKE, whatever its outcome, and holds every old record.
Missing from the full property: values that are not JSON-representable
(`C08_unserialisable_make_destroys`). -/
theorem C08_graph_survives_make_partial (env : Env) (pml : List ParsedMake) (g : GPath) (fs : FS)
    (d : Dict V) (labels names : List Str) (rels : Dict (List Int)) (n : Int)
    (h : Healthy fs g d labels names rels n) (hs : ∀ p ∈ patsOf pml, PatSer p) :
    ∃ d', Holds ((make env pml g).run fs).2 g.db d' ∧
      ∀ k v, dictGet k d = some v → dictGet k d' = some v := by
  rcases make_cases (env := env) pml h with ⟨_, e, h'⟩ | ⟨_, _, h'⟩ | ⟨hok, _, hn, _⟩ |
    ⟨_, hf, hser, _, t, _, h'⟩ | ⟨hok, hf, hser, hb, hr⟩
  · rw [h']; exact ⟨d, h.db, fun _ _ h => h⟩
  · rw [h']; exact ⟨d, h.db, fun _ _ h => h⟩
  · exact absurd ((dbBatch_ser (env := env) (b := n) hok.props hok.shape).2 hs) hn
  · rw [h']
    refine ⟨_, ⟨_, ?_, jsonLoad_dump _ (ser_append h.ser hf hser)⟩, fun k v hk => dictGet_append_left hk⟩
    rw [FS.get_set_ne (Ne.symm h.db_idx), FS.get_set_self]
  · obtain ⟨_, _, _, _, _, _, _, _, hh, _⟩ := make_success (fs' := ((make env pml g).run fs).2) h
      (Prod.ext hr rfl)
    exact ⟨_, hh.db, fun k v hk => dictGet_append_left hk⟩

/-! ### C17 -/

/-- The direction of a stored relationship is decided by the last character of its text alone:
`>` stores it from the node on its left to the node on its right, anything else the other way. -/
theorem C17_last_character_decides (env : Env) (pml : List ParsedMake) (g : GPath) (fs fs' : FS)
    (d : Dict V) (labels names : List Str) (rels : Dict (List Int)) (n : Int) (r : Bool)
    (h : Healthy fs g d labels names rels n) (hr : (make env pml g).run fs = (.ok r, fs'))
    (q : Int × ParsedPattern) (hq : q ∈ place n (patsOf pml)) (s : Str) (c : Char)
    (ht : q.2.leftMiddle.text = some (s ++ [c])) :
    ∃ d', Holds fs' g.db d' ∧
      (c = '>' → StoredRel d' (lmNum q.1 q.2) (leftNum q.1) (middleNum q.1) q.2.leftMiddle) ∧
      (c ≠ '>' → StoredRel d' (lmNum q.1 q.2) (middleNum q.1) (leftNum q.1) q.2.leftMiddle) := by
  obtain ⟨d', h1, h2⟩ := C15_relationships_stored_partial env pml g fs fs' d labels names rels n r h hr
  have htr : truthy q.2.leftMiddle.text = true := by rw [ht]; cases s <;> rfl
  have := ((h2 q hq).1 htr).1
  refine ⟨d', h1, fun hc => ?_, fun hc => ?_⟩
  · rwa [if_pos (by simp [pointsRight, ht, hc])] at this
  · rwa [if_neg (by simp [pointsRight, ht, hc])] at this

/-- `-[..]->` without white space behind it goes from left to right, `<-[..]-` from right to left.
Missing from the full property: white space behind the arrow (`C17_trailing_space_reverses`). -/
theorem C17_arrow_direction_partial (env : Env) (pml : List ParsedMake) (g : GPath) (fs fs' : FS)
    (d : Dict V) (labels names : List Str) (rels : Dict (List Int)) (n : Int) (r : Bool)
    (h : Healthy fs g d labels names rels n) (hr : (make env pml g).run fs = (.ok r, fs'))
    (q : Int × ParsedPattern) (hq : q ∈ place n (patsOf pml)) (s : Str) :
    ∃ d', Holds fs' g.db d' ∧
      (q.2.leftMiddle.text = some (s ++ c!"->") →
        StoredRel d' (lmNum q.1 q.2) (leftNum q.1) (middleNum q.1) q.2.leftMiddle) ∧
      (q.2.leftMiddle.text = some (s ++ c!"-") →
        StoredRel d' (lmNum q.1 q.2) (middleNum q.1) (leftNum q.1) q.2.leftMiddle) := by
  obtain ⟨d', h1, -⟩ := C15_relationships_stored_partial env pml g fs fs' d labels names rels n r h hr
  refine ⟨d', h1, fun ht => ?_, fun ht => ?_⟩
  · obtain ⟨d2, h3, h4, -⟩ := C17_last_character_decides env pml g fs fs' d labels names rels n r h hr q hq
      (s ++ ['-']) '>' (by rw [ht]; simp)
    obtain rfl := Holds.unique h1 h3
    exact h4 rfl
  · obtain ⟨d2, h3, -, h4⟩ := C17_last_character_decides env pml g fs fs' d labels names rels n r h hr q hq
      s '-' ht
    obtain rfl := Holds.unique h1 h3
    exact h4 (by decide)

/-- White space behind the arrow stores `-[..]->` from right to left. -/
theorem C17_trailing_space_reverses (env : Env) (pml : List ParsedMake) (g : GPath) (fs fs' : FS)
    (d : Dict V) (labels names : List Str) (rels : Dict (List Int)) (n : Int) (r : Bool)
    (h : Healthy fs g d labels names rels n) (hr : (make env pml g).run fs = (.ok r, fs'))
    (q : Int × ParsedPattern) (hq : q ∈ place n (patsOf pml)) (s : Str)
    (ht : q.2.leftMiddle.text = some (s ++ c!"-> ")) :
    ∃ d', Holds fs' g.db d' ∧
      StoredRel d' (lmNum q.1 q.2) (middleNum q.1) (leftNum q.1) q.2.leftMiddle := by
  obtain ⟨d', h1, -, h2⟩ := C17_last_character_decides env pml g fs fs' d labels names rels n r h hr q hq
    (s ++ ['-', '>']) ' ' (by rw [ht]; simp)
  exact ⟨d', h1, h2 (by decide)⟩

end

/-! ### Examples and counterexamples -/

section
attribute [local instance] demoRuntime

/-- A new GDBMS is healthy. -/
theorem demoFresh_healthy : Healthy demoFresh demoG [] [] [] [] 0 :=
  ⟨by decide +kernel, ⟨_, rfl, by decide +kernel⟩,
    ⟨[(c!"node_relationships", .dict []), (c!"node_labels", .list []), (c!"relationship_names", .list [])],
      ⟨_, rfl, by decide +kernel⟩, rfl, rfl, rfl⟩,
    ⟨_, rfl, by decide, by decide +kernel⟩, by decide +kernel, by decide, by decide, by decide⟩

theorem below_nil (n : Int) : BelowCounter [] n := by intro w _; simp

/-- The result of a program on a disk. -/
theorem run_of {α : Type} {p : Prog α} {fs : FS} {a : α} (h : (p.run fs).1 = .ok a) :
    p.run fs = (.ok a, (p.run fs).2) := Prod.ext h rfl

/-- MAKE (:A{x:1})-[:R]->(:B), (:A)<-[:R{y:true}]-(:B) on a new GDBMS returns. -/
theorem demo_two_ok : ((make demoEnv (demoMake [demoRight, demoLeft]) demoG).run demoFresh).1 = .ok true := by
  decide +kernel
/-- MAKE (:A)-[:R]->(:B)-[:S]->(:C) -/
theorem demo_three_ok : ((make demoEnv (demoMake [demoThree]) demoG).run demoFresh).1 = .ok true := by
  decide +kernel
/-- MAKE (:A)-[:R]->(:B)<-[:S]-(:C) -/
theorem demo_threeL_ok : ((make demoEnv (demoMake [demoThreeL]) demoG).run demoFresh).1 = .ok true := by
  decide +kernel

/-- C02: two patterns of three entities each. -/
example : ∃ n, (getCurrentWiggleNumber demoG.wn).run demoFresh = (.ok n, demoFresh) ∧
    ((getCurrentWiggleNumber demoG.wn).run
      ((make demoEnv (demoMake [demoRight, demoLeft]) demoG).run demoFresh).2).1 = .ok (n + (6 : Nat)) := by
  obtain ⟨n, h1, h2⟩ := C02_counter_advances_exactly _ _ _ _ _ _ (run_of demo_two_ok)
  rw [show totalSize (patsOf (demoMake [demoRight, demoLeft])) = 6 by decide +kernel] at h2
  exact ⟨n, h1, congrArg Prod.fst h2⟩
/-- C02: a MAKE that raises (no relationship). -/
example : ∃ e fs', (make demoEnv (demoMake [demoSingle]) demoG).run demoFresh = (.error e, fs') ∧
    fs'.get demoG.wn = demoFresh.get demoG.wn := by
  have h : ((make demoEnv (demoMake [demoSingle]) demoG).run demoFresh).1 = .error .jsonDecode := by
    decide +kernel
  have h' : (make demoEnv (demoMake [demoSingle]) demoG).run demoFresh =
      (.error .jsonDecode, ((make demoEnv (demoMake [demoSingle]) demoG).run demoFresh).2) := by rw [← h]
  exact ⟨_, _, h', C02_failed_make_keeps_counter _ _ _ _ _ _ (by decide) (by decide) h'⟩

/-- C22: a pattern with an unlabelled node is refused. -/
example : ∃ e, (make demoEnv (demoMake [demoRight, { demoRight with left := ⟨some c!"(a)", some c!"a", none, none⟩ }])
    demoG).run demoFresh = (.error e, demoFresh) :=
  C22_rejected_make_changes_nothing _ _ _ _ (Or.inr (C22_defects _
    { demoRight with left := ⟨some c!"(a)", some c!"a", none, none⟩ } (by simp [patsOf, demoMake]) (Or.inl rfl)))
/-- C22: an empty counter file. -/
example : ∃ e, (make demoEnv (demoMake [demoRight]) demoG).run (demoFS c!"{}" emptyIndexText []) =
    (.error e, demoFS c!"{}" emptyIndexText []) :=
  C22_rejected_make_changes_nothing _ _ _ _ (Or.inl fun n h => by
    rw [C03_empty_counter_raises demoG.wn _ rfl] at h; simp at h)

/-- Acceptance of the example statements follows from their success. -/
theorem demo_ok {ps : List ParsedPattern}
    (h : ((make demoEnv (demoMake ps) demoG).run demoFresh).1 = .ok true) : MakeOK (demoMake ps) ∧
      (∀ p ∈ patsOf (demoMake ps), PatSer p) ∧ ∃ p ∈ patsOf (demoMake ps), StoresRel p := by
  obtain ⟨h1, _, h2, h3, _⟩ := make_success demoFresh_healthy (run_of h)
  exact ⟨h1, (dbBatch_ser h1.props h1.shape).1 h2, (relBatch_ne h1.shape).1 h3⟩

/-- C23: the hypotheses hold for a MAKE with properties in both directions. -/
example : ((make demoEnv (demoMake [demoRight, demoLeft]) demoG).run demoFresh).1 = .ok true :=
  (C23_valid_make_succeeds_partial demoEnv _ demoG demoFresh [] [] [] [] 0 demoFresh_healthy
    (below_nil 0) (demo_ok demo_two_ok).1 (demo_ok demo_two_ok).2.1 (demo_ok demo_two_ok).2.2).1

theorem single_ok : MakeOK (demoMake [demoSingle]) := by
  refine ⟨by simp [demoMake], ?_, ?_⟩
  · simp only [patsOf, demoMake, List.flatMap_cons, List.flatMap_nil, List.append_nil,
      List.mem_singleton, forall_eq]
    refine ⟨by simp [demoSingle, demoNode], ?_, ?_, ?_, ?_⟩ <;>
      simp [demoSingle, PartText.absent, truthy]
  · simp only [patsOf, demoMake, List.flatMap_cons, List.flatMap_nil, List.append_nil,
      List.mem_singleton, forall_eq]
    refine ⟨⟨none, rfl⟩, ?_, ?_, ?_⟩ <;> simp [demoSingle, PartText.absent, truthy]

/-- C23 violated: on a new GDBMS `MAKE (:A);` is acceptable and raises JSONDecodeError, leaving an
unreadable index. -/
theorem C23_violated : ∃ (fs : FS) (pml : List ParsedMake), Healthy fs demoG [] [] [] [] 0 ∧ MakeOK pml ∧
    (∀ p ∈ patsOf pml, PatSer p) ∧
    ((make demoEnv pml demoG).run fs).1 = .error .jsonDecode ∧
    Unreadable ((make demoEnv pml demoG).run fs).2 demoG.idx := by
  have hs : ∀ p ∈ patsOf (demoMake [demoSingle]), PatSer p := by
    simp only [patsOf, demoMake, List.flatMap_cons, List.flatMap_nil, List.append_nil,
      List.mem_singleton, forall_eq]
    refine ⟨⟨none, rfl, by simp⟩, ?_, ?_, ?_⟩ <;> simp [demoSingle, PartText.absent, truthy]
  obtain ⟨h1, h2, _⟩ := C23_relationless_make_fails demoEnv (demoMake [demoSingle]) demoG demoFresh [] [] []
    [] 0 demoFresh_healthy (below_nil 0) single_ok hs (by
      simp [patsOf, demoMake, StoresRel, demoSingle, PartText.absent, truthy])
  exact ⟨demoFresh, demoMake [demoSingle], demoFresh_healthy, single_ok, hs, h1, h2⟩

/-- C24: the layout of two patterns. -/
example : (place 7 [demoThree, demoLeft]).flatMap (fun q => layout q.1 q.2) = [7, 8, 9, 10, 11, 12, 13, 14] := by
  decide +kernel

/-- C14: the two patterns of the example. -/
example : ∃ d', Holds ((make demoEnv (demoMake [demoRight, demoLeft]) demoG).run demoFresh).2 demoG.db d' ∧
    StoredNode d' 4 demoLeft.middle := by
  obtain ⟨d', h1, _, h2⟩ := C14_nodes_stored_partial _ _ _ _ _ _ _ _ _ _ _ demoFresh_healthy (run_of demo_two_ok)
  exact ⟨d', h1, (h2 (3, demoLeft) (by decide)).2 rfl⟩
/-- C14: the keys after the two patterns of the example. -/
example : ∀ d', Holds ((make demoEnv (demoMake [demoRight, demoLeft]) demoG).run demoFresh).2 demoG.db d' →
    ∀ k ∈ d'.map Prod.fst, k = c!"0" ∨ k = c!"1" ∨ k = c!"3" ∨ k = c!"4" := by
  intro d' hd k hk
  rcases C14_nothing_else_stored _ _ _ _ _ _ _ _ _ _ _ demoFresh_healthy (run_of demo_two_ok) d' hd k hk with
    h | ⟨q, hq, h⟩
  · simp at h
  · have : q = (0, demoRight) ∨ q = (3, demoLeft) := by
      have e : place 0 (patsOf (demoMake [demoRight, demoLeft])) = [(0, demoRight), (3, demoLeft)] := by decide +kernel
      rw [e] at hq; simpa using hq
    rcases this with rfl | rfl <;> rcases h with rfl | ⟨_, rfl⟩ <;> decide +kernel

/-- C14 violated: after `MAKE (:A)-[:R]->(:B)-[:S]->(:C);` the node C is not stored. -/
theorem C14_violated : ∃ (fs : FS) (pml : List ParsedMake), Healthy fs demoG [] [] [] [] 0 ∧
    ((make demoEnv pml demoG).run fs).1 = .ok true ∧
    ∃ q ∈ place 0 (patsOf pml), truthy q.2.right.text = true ∧
      ∀ d', Holds ((make demoEnv pml demoG).run fs).2 demoG.db d' →
        ¬ StoredNode d' (rightNum q.1 q.2) q.2.right := by
  refine ⟨demoFresh, demoMake [demoThree], demoFresh_healthy, demo_three_ok, (0, demoThree), by decide, rfl, ?_⟩
  rintro d' hd ⟨v, _, _, hv, _⟩
  exact C14_right_node_lost _ _ _ _ _ _ _ _ _ _ _ demoFresh_healthy (run_of demo_three_ok) d' hd
    (0, demoThree) (by decide) rfl (by simp) (mem_keys_of_dictGet hv)

/-- C15: the second relationship of the example, written from right to left. -/
example : ∃ d', Holds ((make demoEnv (demoMake [demoRight, demoLeft]) demoG).run demoFresh).2 demoG.db d' ∧
    StoredRel d' 5 4 3 demoLeft.leftMiddle := by
  obtain ⟨d', h1, h2⟩ := C15_relationships_stored_partial _ _ _ _ _ _ _ _ _ _ _ demoFresh_healthy
    (run_of demo_two_ok)
  exact ⟨d', h1, ((h2 (3, demoLeft) (by decide)).1 rfl).1⟩
/-- C15 violated: in `MAKE (:A)-[:R]->(:B)-[:S]->(:C);` the relationship S is stored with an end point
that is not a key. -/
theorem C15_violated : ∃ (fs : FS) (pml : List ParsedMake), Healthy fs demoG [] [] [] [] 0 ∧
    ((make demoEnv pml demoG).run fs).1 = .ok true ∧
    ∃ q ∈ place 0 (patsOf pml), ∃ d', Holds ((make demoEnv pml demoG).run fs).2 demoG.db d' ∧
      StoredRel d' (mrNum q.1 q.2) (middleNum q.1) (rightNum q.1 q.2) q.2.middleRight ∧
      intStr (rightNum q.1 q.2) ∉ d'.map Prod.fst :=
  ⟨demoFresh, demoMake [demoThree], demoFresh_healthy, demo_three_ok, (0, demoThree), by decide,
    C15_right_relationship_dangles _ _ _ _ _ _ _ _ _ _ _ demoFresh_healthy (run_of demo_three_ok)
      (below_nil 0) _ (by decide) rfl rfl⟩
/-- C15 violated: in `MAKE (:A)-[:R]->(:B)<-[:S]-(:C);` the relationship S (number 4) is lost. -/
theorem C15_violated_lost : ∃ (fs : FS) (pml : List ParsedMake), Healthy fs demoG [] [] [] [] 0 ∧
    ((make demoEnv pml demoG).run fs).1 = .ok true ∧ ∃ q ∈ place 0 (patsOf pml),
      truthy q.2.middleRight.text = true ∧
      ∀ d', Holds ((make demoEnv pml demoG).run fs).2 demoG.db d' → some (mrNum q.1 q.2) ∉ allNumbers d' :=
  ⟨demoFresh, demoMake [demoThreeL], demoFresh_healthy, demo_threeL_ok, (0, demoThreeL), by decide, rfl,
    fun d' hd => C15_right_relationship_lost _ _ _ _ _ _ _ _ _ _ _ demoFresh_healthy
      (run_of demo_threeL_ok) d' hd _ (by decide) rfl rfl (by simp [allNumbers])⟩

/-- C08 violated: `MAKE (:A{x: [1j]})-[:R]->(:B);` raises TypeError and the database file no longer
loads. -/
theorem C08_violated : ∃ (fs : FS) (pml : List ParsedMake), Healthy fs demoG [] [] [] [] 0 ∧
    ((make demoEnv pml demoG).run fs).1 = .error .type ∧
    Unreadable ((make demoEnv pml demoG).run fs).2 demoG.db := by
  have e : ((make demoEnv (demoMake [demoOpq]) demoG).run demoFresh).1 = .error .type := by decide +kernel
  refine ⟨demoFresh, demoMake [demoOpq], demoFresh_healthy, e, ?_⟩
  rcases make_cases (env := demoEnv) (demoMake [demoOpq]) demoFresh_healthy with
    ⟨_, x, h'⟩ | ⟨_, _, h'⟩ | ⟨_, _, _, t, ht, h'⟩ | ⟨_, _, _, _, t, _, h'⟩ | ⟨hok, _, hser, _, hr⟩
  · exact ⟨_, rfl, by decide +kernel⟩
  · rw [h'] at e; simp at e
  · rw [h']; exact ⟨t, FS.get_set_self _ _ _, ht⟩
  · rw [h'] at e; simp at e
  · rw [hr] at e; simp at e
/-- C08: the hypotheses of the general theorem hold for that statement. -/
example : MakeOK (demoMake [demoOpq]) ∧ ¬ ∀ p ∈ patsOf (demoMake [demoOpq]), PatSer p := by
  have e : ((make demoEnv (demoMake [demoOpq]) demoG).run demoFresh).1 = .error .type := by decide +kernel
  have e2 : ((make demoEnv (demoMake [demoOpq]) demoG).run demoFresh).2 ≠ demoFresh := by decide +kernel
  rcases make_cases (env := demoEnv) (demoMake [demoOpq]) demoFresh_healthy with
    ⟨_, x, h'⟩ | ⟨_, _, h'⟩ | ⟨hok, _, hn, _⟩ | ⟨_, _, _, _, t, _, h'⟩ | ⟨hok, _, hser, _, hr⟩
  · rw [h'] at e2; exact absurd rfl e2
  · rw [h'] at e; simp at e
  · exact ⟨hok, fun h => hn ((dbBatch_ser hok.props hok.shape).2 h)⟩
  · rw [h'] at e; simp at e
  · rw [hr] at e; simp at e

/-- C17: `-[:R]->` and `<-[:R{y:true}]-` in the example. -/
example : ∃ d', Holds ((make demoEnv (demoMake [demoRight, demoLeft]) demoG).run demoFresh).2 demoG.db d' ∧
    StoredRel d' 2 0 1 demoRight.leftMiddle := by
  obtain ⟨d', h1, h2, _⟩ := C17_arrow_direction_partial _ _ _ _ _ _ _ _ _ _ _ demoFresh_healthy
    (run_of demo_two_ok) (0, demoRight) (by decide) c!"-[:R]"
  exact ⟨d', h1, h2 rfl⟩
/-- C17 violated: with a space behind the arrow `-[:R]-> ` is stored from right to left. -/
theorem C17_violated : ∃ (fs : FS) (pml : List ParsedMake) (p : ParsedPattern),
    Healthy fs demoG [] [] [] [] 0 ∧ patsOf pml = [p] ∧ p.leftMiddle.text = some c!"-[:R]-> " ∧
    ((make demoEnv pml demoG).run fs).1 = .ok true ∧
    ∃ d', Holds ((make demoEnv pml demoG).run fs).2 demoG.db d' ∧ StoredRel d' 2 1 0 p.leftMiddle := by
  have ok : ((make demoEnv (demoMake [{ demoRight with leftMiddle := demoRel c!"-[:R]-> " c!"R" none }])
      demoG).run demoFresh).1 = .ok true := by decide +kernel
  exact ⟨demoFresh, demoMake [{ demoRight with leftMiddle := demoRel c!"-[:R]-> " c!"R" none }], _,
    demoFresh_healthy, rfl, rfl, ok,
    C17_trailing_space_reverses _ _ _ _ _ _ _ _ _ _ _ demoFresh_healthy (run_of ok) (0, _) (by decide)
      c!"-[:R]" rfl⟩

end

end WG
