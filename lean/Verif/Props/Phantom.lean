/-
Labels and names that a MAKE indexes although nothing it stores has them, in every case: C21 and C84.
-/
import Verif.Props.Index

set_option linter.unusedSectionVars false
set_option linter.unusedSimpArgs false

namespace WG

section
variable [PyRuntime]

/-- The nodes of a pattern that end up in the database: the left and the middle one. -/
def keptNodes (p : ParsedPattern) : List PartText := [p.left] ++ (if truthy p.middle.text then [p.middle] else [])

theorem labelD_iff {p : ParsedPattern} (h : PatShape p) {t : PartText} (ht : t ∈ writtenNodes p) {s : Str} :
    labelD t = s ↔ t.label = some s := by
  have : t.label ≠ none := by
    simp only [writtenNodes, List.mem_append, List.mem_singleton] at ht
    rcases ht with (rfl | ht) | ht
    · exact h.left
    · split at ht
      · next hm => simp at ht; subst ht; exact h.middle hm
      · simp at ht
    · split at ht
      · next hm => simp at ht; subst ht; exact h.right hm
      · simp at ht
  cases hl : t.label with
  | none => exact absurd hl this
  | some l => simp [labelD, hl]

/-- C21, every successful MAKE: the labels index gains the labels of all nodes written, the database only gains nodes with the
labels of the left and middle ones. -/
theorem C21_labels_exact (env : Env) (pml : List ParsedMake) (g : GPath) (fs fs' : FS) (d : Dict V) (labels names : List Str)
    (rels : Dict (List Int)) (n : Int) (r : Bool) (h : Healthy fs g d labels names rels n) (hr : (make env pml g).run fs = (.ok r, fs')) :
    ∃ d' D labels' names' rels', Holds fs' g.db d' ∧ Holds fs' g.idx D ∧ IndexShape D labels' names' rels' ∧
      (∀ s, s ∈ labels' ↔ s ∈ labels ∨ ∃ p ∈ patsOf pml, ∃ t ∈ writtenNodes p, t.label = some s) ∧
      ∀ s, (∃ x ∈ d', field c!"node_label" x.2 = some (.str s)) ↔
        (∃ x ∈ d, field c!"node_label" x.2 = some (.str s)) ∨ ∃ p ∈ patsOf pml, ∃ t ∈ keptNodes p, t.label = some s := by
  obtain ⟨hok, hf, hs, hb, _, labels', names', rels', hh, hl, _⟩ := make_success h hr
  obtain ⟨D, h1, h2⟩ := hh.idx
  refine ⟨_, D, labels', names', rels', hh.db, h1, h2, fun s => ?_, fun s => ?_⟩
  · rw [hl]
    refine or_congr Iff.rfl ?_
    simp only [wantLabels, List.mem_flatMap, List.mem_map]
    constructor
    · rintro ⟨p, hp, t, ht, e⟩
      exact ⟨p, hp, t, ht, (labelD_iff (hok.shape p hp) ht).1 e⟩
    · rintro ⟨p, hp, t, ht, e⟩
      exact ⟨p, hp, t, ht, (labelD_iff (hok.shape p hp) ht).2 e⟩
  · have hsub : ∀ {p : ParsedPattern} {t}, t ∈ keptNodes p → t ∈ writtenNodes p := by
      intro p t ht
      exact List.mem_append_left _ ht
    constructor
    · rintro ⟨x, hx, e⟩
      rcases List.mem_append.1 hx with hx | hx
      · exact .inl ⟨x, hx, e⟩
      · obtain ⟨q, hq, m, hm, rfl⟩ := dbBatch_mem.1 hx
        have hp := place_mem hq
        simp only [dbEntry, label_nodeVal, Option.some.injEq, Val.str.injEq] at e
        right
        rcases stored_cases hm with rfl | ⟨hmid, rfl⟩
        · exact ⟨q.2, hp, q.2.left, by simp [keptNodes], (labelD_iff (hok.shape _ hp) (hsub (by simp [keptNodes]))).1 e⟩
        · exact ⟨q.2, hp, q.2.middle, by simp [keptNodes, hmid], (labelD_iff (hok.shape _ hp) (hsub (by simp [keptNodes, hmid]))).1 e⟩
    · rintro (⟨x, hx, e⟩ | ⟨p, hp, t, ht, e⟩)
      · exact ⟨x, List.mem_append_left _ hx, e⟩
      · obtain ⟨w, hw⟩ := mem_place (b := n) hp
        have e' := (labelD_iff (hok.shape p hp) (hsub ht)).2 e
        have : ∃ m ∈ storedNodes w p, m.label = s := by
          simp only [keptNodes, List.mem_append, List.mem_singleton] at ht
          rcases ht with rfl | ht
          · exact ⟨_, left_stored w p, e'⟩
          · split at ht
            · next hm =>
              simp at ht
              subst ht
              exact ⟨nodeData (nodePre (w + 1) p.middle (middleRels w p)), by simp [storedNodes, hm], e'⟩
            · simp at ht
        obtain ⟨m, hm, e2⟩ := this
        refine ⟨dbEntry env m, List.mem_append_right _ (dbBatch_mem.2 ⟨_, hw, m, hm, rfl⟩), ?_⟩
        simp [dbEntry, label_nodeVal, e2]

/-- C21 fails for every successful MAKE with a pattern of three nodes whose right label is neither stored nor written at a left
or middle node: afterwards the label is indexed and no stored node has it. -/
theorem C21_right_label_is_phantom (env : Env) (pml : List ParsedMake) (g : GPath) (fs fs' : FS) (d : Dict V) (labels names : List Str)
    (rels : Dict (List Int)) (n : Int) (r : Bool) (h : Healthy fs g d labels names rels n) (hr : (make env pml g).run fs = (.ok r, fs'))
    (p : ParsedPattern) (hp : p ∈ patsOf pml) (hright : truthy p.right.text = true) (s : Str) (hs : p.right.label = some s)
    (hnew : ∀ x ∈ d, field c!"node_label" x.2 ≠ some (.str s)) (hother : ∀ q ∈ patsOf pml, ∀ t ∈ keptNodes q, t.label ≠ some s) :
    ∃ d' D labels' names' rels', Holds fs' g.db d' ∧ Holds fs' g.idx D ∧ IndexShape D labels' names' rels' ∧ s ∈ labels' ∧
      ∀ x ∈ d', field c!"node_label" x.2 ≠ some (.str s) := by
  obtain ⟨d', D, labels', names', rels', h1, h2, h3, h4, h5⟩ := C21_labels_exact env pml g fs fs' d labels names rels n r h hr
  refine ⟨d', D, labels', names', rels', h1, h2, h3, (h4 s).2 (.inr ⟨p, hp, p.right, by simp [writtenNodes, hright], hs⟩), fun x hx e => ?_⟩
  rcases (h5 s).1 ⟨x, hx, e⟩ with ⟨y, hy, e⟩ | ⟨q, hq, t, ht, e⟩
  · exact hnew y hy e
  · exact hother q hq t ht e

/-! ### C84: names -/

/-- The relationships of a pattern that end up in the database: the first one, and the second one if it points to the right. -/
def keptRels (p : ParsedPattern) : List PartText :=
  (if truthy p.leftMiddle.text then [p.leftMiddle] else []) ++
    (if truthy p.middleRight.text && pointsRight p.middleRight then [p.middleRight] else [])

/-- A stored relationship has this name. -/
def NameStored (d : Dict V) (s : Str) : Prop :=
  ∃ x ∈ d, ∃ r ∈ relationsOf x.2, field c!"relationship_name" r = some (.str s)

theorem mem_relNameOf_iff {t : PartText} {s : Str} : s ∈ relNameOf t ↔ t.label = some s ∧ s ≠ [] := by
  unfold relNameOf addRelName
  split
  · next c cs h =>
    rw [h]
    simp only [List.nil_append, List.mem_singleton, Option.some.injEq]
    exact ⟨fun e => by subst e; simp, fun e => e.1.symm⟩
  · next h =>
    constructor
    · simp
    · rintro ⟨e, hne⟩
      cases s with
      | nil => exact absurd rfl hne
      | cons c cs => exact absurd e (h c cs)

theorem name_relVal (env : Env) (r : RelData) (s : Str) :
    field c!"relationship_name" (relVal env r) = some (.str s) ↔ r.name = some s := by
  have := (isRel_relVal env r).name
  rw [this]
  cases r.name <;> simp

theorem batch_names {env : Env} {n : Int} {pml : List ParsedMake} (hok : MakeOK pml) (s : Str) :
    NameStored (dbBatch env n (patsOf pml)) s ↔ ∃ p ∈ patsOf pml, ∃ t ∈ keptRels p, t.label = some s := by
  constructor
  · rintro ⟨x, hx, r, hr, e⟩
    obtain ⟨q, hq, m, hm, rfl⟩ := dbBatch_mem.1 hx
    simp only [dbEntry, relationsOf_nodeVal, List.mem_map] at hr
    obtain ⟨rd, hrd, rfl⟩ := hr
    rw [name_relVal] at e
    refine ⟨q.2, place_mem hq, ?_⟩
    rcases stored_cases hm with rfl | ⟨h, rfl⟩
    · rw [relsD_nodeData] at hrd
      obtain ⟨rp, hrp, rfl⟩ := List.mem_map.1 hrd
      simp only [nodePre, leftRels] at hrp
      split at hrp
      · next h => simp at h hrp; subst hrp; exact ⟨q.2.leftMiddle, by simp [keptRels, h], by simpa [relData, relLM] using e⟩
      · simp at hrp
    · rw [relsD_nodeData] at hrd
      obtain ⟨rp, hrp, rfl⟩ := List.mem_map.1 hrd
      simp only [nodePre, middleRels, List.mem_append] at hrp
      rcases hrp with hrp | hrp
      · split at hrp
        · next h => simp at h hrp; subst hrp; exact ⟨q.2.leftMiddle, by simp [keptRels, h], by simpa [relData, relLM] using e⟩
        · simp at hrp
      · split at hrp
        · next h => simp at h hrp; subst hrp; exact ⟨q.2.middleRight, by simp [keptRels, h], by simpa [relData, relMR] using e⟩
        · simp at hrp
  · rintro ⟨p, hp, t, ht, e⟩
    obtain ⟨w, hw⟩ := mem_place (b := n) hp
    have key : ∀ m ∈ storedNodes w p, ∀ rp ∈ relsD m, rp.name = some s → NameStored (dbBatch env n (patsOf pml)) s := by
      intro m hm rp hrp e
      refine ⟨dbEntry env m, dbBatch_mem.2 ⟨_, hw, m, hm, rfl⟩, relVal env rp, ?_, (name_relVal env rp s).2 e⟩
      simp only [dbEntry, relationsOf_nodeVal, List.mem_map]
      exact ⟨rp, hrp, rfl⟩
    simp only [keptRels, List.mem_append] at ht
    rcases ht with ht | ht
    · split at ht
      · next h =>
        simp only [List.mem_singleton] at ht
        subst ht
        cases hpr : pointsRight p.leftMiddle with
        | true => exact key _ (left_stored w p) (relData (relLM w p)) (by simp [relsD_nodeData, nodePre, leftRels, h, hpr]) e
        | false =>
          exact key _ (middle_stored ((hok.shape p hp).lm h).1) (relData (relLM w p))
            (by simp [relsD_nodeData, nodePre, middleRels, h, hpr]) e
      · simp at ht
    · split at ht
      · next h =>
        simp only [List.mem_singleton] at ht
        subst ht
        simp only [Bool.and_eq_true] at h
        exact key _ (middle_stored ((hok.shape p hp).mr h.1).1) (relData (relMR w p))
          (by simp [relsD_nodeData, nodePre, middleRels, h]) e
      · simp at ht

theorem nameStored_append {d e : Dict V} {s : Str} : NameStored (d ++ e) s ↔ NameStored d s ∨ NameStored e s := by
  constructor
  · rintro ⟨x, hx, h⟩
    rcases List.mem_append.1 hx with hx | hx
    · exact .inl ⟨x, hx, h⟩
    · exact .inr ⟨x, hx, h⟩
  · rintro (⟨x, hx, h⟩ | ⟨x, hx, h⟩)
    · exact ⟨x, List.mem_append_left _ hx, h⟩
    · exact ⟨x, List.mem_append_right _ hx, h⟩

theorem mem_wantNames {pats : List ParsedPattern} {s : Str} :
    s ∈ wantNames pats ↔ ∃ p ∈ pats, ∃ t ∈ writtenRels p, t.label = some s ∧ s ≠ [] := by
  simp only [wantNames, List.mem_flatMap, mem_relNameOf_iff]

/-- C84, every successful MAKE: the names index gains the names of all relationships written, the database only those of the
relationships that are kept. -/
theorem C84_names_exact (env : Env) (pml : List ParsedMake) (g : GPath) (fs fs' : FS) (d : Dict V) (labels names : List Str)
    (rels : Dict (List Int)) (n : Int) (r : Bool) (h : Healthy fs g d labels names rels n) (hr : (make env pml g).run fs = (.ok r, fs')) :
    ∃ d' D labels' names' rels', Holds fs' g.db d' ∧ Holds fs' g.idx D ∧ IndexShape D labels' names' rels' ∧
      (∀ s, s ∈ names' ↔ s ∈ names ∨ ∃ p ∈ patsOf pml, ∃ t ∈ writtenRels p, t.label = some s ∧ s ≠ []) ∧
      ∀ s, NameStored d' s ↔ NameStored d s ∨ ∃ p ∈ patsOf pml, ∃ t ∈ keptRels p, t.label = some s := by
  obtain ⟨hok, hf, hs, hb, _, labels', names', rels', hh, _, hl, _⟩ := make_success h hr
  obtain ⟨D, h1, h2⟩ := hh.idx
  refine ⟨_, D, labels', names', rels', hh.db, h1, h2, fun s => ?_, fun s => ?_⟩
  · rw [hl, mem_wantNames]
  · rw [nameStored_append, batch_names hok]

/-- C84 fails for every successful MAKE with a pattern of three nodes whose second relationship points to the left, if its name
is neither stored nor written at a relationship that is kept: afterwards the name is indexed and no stored relationship has
it. -/
theorem C84_lost_name_is_phantom (env : Env) (pml : List ParsedMake) (g : GPath) (fs fs' : FS) (d : Dict V) (labels names : List Str)
    (rels : Dict (List Int)) (n : Int) (r : Bool) (h : Healthy fs g d labels names rels n) (hr : (make env pml g).run fs = (.ok r, fs'))
    (p : ParsedPattern) (hp : p ∈ patsOf pml) (hmr : truthy p.middleRight.text = true) (s : Str) (hs : p.middleRight.label = some s)
    (hne : s ≠ []) (hnew : ¬ NameStored d s) (hother : ∀ q ∈ patsOf pml, ∀ t ∈ keptRels q, t.label ≠ some s) :
    ∃ d' D labels' names' rels', Holds fs' g.db d' ∧ Holds fs' g.idx D ∧ IndexShape D labels' names' rels' ∧ s ∈ names' ∧
      ¬ NameStored d' s := by
  obtain ⟨d', D, labels', names', rels', h1, h2, h3, h4, h5⟩ := C84_names_exact env pml g fs fs' d labels names rels n r h hr
  refine ⟨d', D, labels', names', rels', h1, h2, h3, (h4 s).2 (.inr ⟨p, hp, _, by simp [writtenRels, hmr], hs, hne⟩), fun e => ?_⟩
  rcases (h5 s).1 e with e | ⟨q, hq, t, ht, e⟩
  · exact hnew e
  · exact hother q hq t ht e

theorem unreadable_make {fs : FS} {g : GPath} (hne : g.db ≠ g.idx) (env : Env) (pml : List ParsedMake)
    (h : Unreadable fs g.db ∨ Unreadable fs g.idx) :
    Unreadable ((make env pml g).run fs).2 g.db ∨ Unreadable ((make env pml g).run fs).2 g.idx := by
  have hc : CrashAt (fun _ => True) (make env pml g) fs ((make env pml g).run fs).2 := crash_run _ _ _
  rcases h with ⟨t, h1, h2⟩ | ⟨t, h1, h2⟩
  · refine .inl ⟨t, ?_, h2⟩
    rcases crash_make hc with e | ⟨n, hn, hok, hcm⟩
    · rw [e]; exact h1
    · rw [run_make_counter hn, afterCounter_ok hok, commit_eq, run_bind_err (run_add_bad h1 h2)]
      exact h1
  · refine .inr ⟨t, ?_, h2⟩
    rcases crash_make hc with e | ⟨n, hn, hok, hcm⟩
    · rw [e]; exact h1
    · rw [run_make_counter hn, afterCounter_ok hok]
      unfold commit
      have e1 := run_only (only_addItem g.db (dbBatch env n (patsOf pml))) (q := g.idx) (by simpa using Ne.symm hne) fs
      rw [h1] at e1
      cases hrun : (addItemToDatabase g.db (dbBatch env n (patsOf pml))).run fs with
      | mk res fs1 =>
        rw [hrun] at e1
        cases res with
        | error e => rw [run_bind_err hrun]; exact e1
        | ok b => rw [run_bind_ok hrun, run_bind_err (run_addRelIndex_bad e1 h2)]; exact e1

theorem noPhantomNames_inv {P : ParsedPattern → Prop} {g : GPath} {fs : FS} (h : MakeHist P g fs)
    (hP : ∀ p, P p → truthy p.middleRight.text = true → pointsRight p.middleRight = true) :
    (∃ d labels names rels n, Healthy fs g d labels names rels n ∧ ∀ s ∈ names, NameStored d s) ∨
    Unreadable fs g.db ∨ Unreadable fs g.idx := by
  have hne := makeHist_ne h
  induction h with
  | new fs h => exact .inl ⟨_, _, _, _, _, (consistent_new h).healthy, by simp⟩
  | make fs env pml h hPp ih =>
    rcases ih with ⟨d, labels, names, rels, n, hc, hph⟩ | hun
    · rcases make_cases (env := env) pml hc with ⟨_, e, h'⟩ | ⟨_, _, h'⟩ | ⟨_, _, _, t, ht, h'⟩ |
        ⟨_, _, _, _, t, ht, h'⟩ | ⟨hok, hf, hs, hb, hr⟩
      · rw [h']; exact .inl ⟨_, _, _, _, _, hc, hph⟩
      · rw [h']; exact .inl ⟨_, _, _, _, _, hc, hph⟩
      · rw [h']; exact .inr (.inl ⟨t, FS.get_set_self _ _ _, ht⟩)
      · rw [h']; exact .inr (.inr ⟨t, FS.get_set_self _ _ _, ht⟩)
      · left
        obtain ⟨_, _, _, _, _, labels', names', rels', hh, _, hl, _⟩ := make_success (fs' := ((make env pml g).run fs).2) hc (Prod.ext hr rfl)
        refine ⟨_, _, _, _, _, hh, fun s hs => nameStored_append.2 ?_⟩
        rcases (hl s).1 hs with hs | hs
        · exact .inl (hph s hs)
        · right
          obtain ⟨p, hp, t, ht, e, -⟩ := mem_wantNames.1 hs
          refine (batch_names hok s).2 ⟨p, hp, t, ?_, e⟩
          have := hP p (hPp p hp)
          simp only [writtenRels, keptRels, List.mem_append] at ht ⊢
          rcases ht with ht | ht
          · exact .inl ht
          · right
            split at ht
            · next hm => simp [hm, this hm]; simpa using ht
            · simp at ht
    · exact .inr (unreadable_make hne.1 env pml hun)

/-- C84, partial: after any history of MAKEs in which no second relationship points to the left, every name in the index belongs
to a stored relationship. -/
theorem C84_no_phantom_names_partial (g : GPath) (fs : FS)
    (h : MakeHist (fun p => truthy p.middleRight.text = true → pointsRight p.middleRight = true) g fs) (d D : Dict V)
    (hd : Holds fs g.db d) (hD : Holds fs g.idx D) :
    ∃ labels names rels, IndexShape D labels names rels ∧ ∀ s ∈ names, NameStored d s := by
  rcases noPhantomNames_inv h (fun _ h => h) with ⟨d', labels, names, rels, n, hh, hph⟩ | ⟨t, h1, h2⟩ | ⟨t, h1, h2⟩
  · obtain rfl := Holds.unique hd hh.db
    obtain ⟨D', h1, h2⟩ := hh.idx
    obtain rfl := Holds.unique hD h1
    exact ⟨labels, names, rels, h2, hph⟩
  · obtain ⟨t', h3, h4⟩ := hd
    rw [h1] at h3
    obtain rfl := Option.some.inj h3
    rw [h2] at h4; simp at h4
  · obtain ⟨t', h3, h4⟩ := hD
    rw [h1] at h3
    obtain rfl := Option.some.inj h3
    rw [h2] at h4; simp at h4
end

theorem pair_eq {α β : Type} {x : α × β} {a : α} (h : x.1 = a) : x = (a, x.2) := Prod.ext h rfl

section
attribute [local instance] demoRuntime

/-- `MAKE (:A)-[:R]->(:B)-[:S]->(:C)` on a new GDBMS succeeds; the label C is then indexed and no node has it. -/
example : ∃ d' D labels' names' rels', Holds ((make demoEnv (demoMake [demoThree]) demoG).run demoFresh).2 demoG.db d' ∧
    Holds ((make demoEnv (demoMake [demoThree]) demoG).run demoFresh).2 demoG.idx D ∧ IndexShape D labels' names' rels' ∧
    c!"C" ∈ labels' ∧ ∀ x ∈ d', field c!"node_label" x.2 ≠ some (.str c!"C") :=
  C21_right_label_is_phantom demoEnv (demoMake [demoThree]) demoG demoFresh _ [] [] [] [] 0 true demoFresh_healthy
    (pair_eq (by decide +kernel)) demoThree (by simp [demoMake, patsOf]) (by decide) c!"C" rfl (by simp)
    (by simp [demoMake, patsOf, keptNodes, demoThree, demoNode, truthy])

/-- With `<-[:S]-` instead the name S is indexed, too, and no stored relationship has it. -/
example : ∃ d' D labels' names' rels', Holds ((make demoEnv (demoMake [demoThreeL]) demoG).run demoFresh).2 demoG.db d' ∧
    Holds ((make demoEnv (demoMake [demoThreeL]) demoG).run demoFresh).2 demoG.idx D ∧ IndexShape D labels' names' rels' ∧
    c!"S" ∈ names' ∧ ¬ NameStored d' c!"S" :=
  C84_lost_name_is_phantom demoEnv (demoMake [demoThreeL]) demoG demoFresh _ [] [] [] [] 0 true demoFresh_healthy
    (pair_eq (by decide +kernel)) demoThreeL (by simp [demoMake, patsOf]) (by decide) c!"S" rfl (by simp)
    (by simp [NameStored])
    (by
      have h : keptRels demoThreeL = [demoThreeL.leftMiddle] := by decide
      simp [demoMake, patsOf, h]
      decide)

/-- C84 is violated: a name is indexed although no stored relationship has it. -/
theorem C84_violated : ∃ (fs : FS) (d D : Dict V) (labels names : List Str) (rels : Dict (List Int)),
    MakeHist (fun _ => True) demoG fs ∧ Holds fs demoG.db d ∧ Holds fs demoG.idx D ∧ IndexShape D labels names rels ∧
      ∃ s ∈ names, ¬ NameStored d s := by
  obtain ⟨d, D, labels, names, rels, h1, h2, h3, h4, h5⟩ :=
    C84_lost_name_is_phantom demoEnv (demoMake [demoThreeL]) demoG demoFresh _ [] [] [] [] 0 true demoFresh_healthy
      (pair_eq (by decide +kernel)) demoThreeL (by simp [demoMake, patsOf]) (by decide) c!"S" rfl (by simp)
      (by simp [NameStored])
      (by
        have h : keptRels demoThreeL = [demoThreeL.leftMiddle] := by decide
        simp [demoMake, patsOf, h]
        decide)
  exact ⟨_, d, D, labels, names, rels, .make _ demoEnv (demoMake [demoThreeL]) (.new _ demoFresh_new) (by simp), h1, h2, h3, _, h4, h5⟩

/-- The history of `MAKE (:A)-[:R]->(:B)-[:S]->(:C)` meets the hypotheses of the partial theorem; R and S are indexed. -/
example : MakeHist (fun p => truthy p.middleRight.text = true → pointsRight p.middleRight = true) demoG
      ((make demoEnv (demoMake [demoThree]) demoG).run demoFresh).2 ∧
    ∃ d' D labels' names' rels', Holds ((make demoEnv (demoMake [demoThree]) demoG).run demoFresh).2 demoG.db d' ∧
      Holds ((make demoEnv (demoMake [demoThree]) demoG).run demoFresh).2 demoG.idx D ∧ IndexShape D labels' names' rels' ∧
      c!"R" ∈ names' ∧ c!"S" ∈ names' := by
  refine ⟨.make _ demoEnv (demoMake [demoThree]) (.new _ demoFresh_new) (by simp [demoMake, patsOf]; decide), ?_⟩
  obtain ⟨d', D, labels', names', rels', h1, h2, h3, h4, h5⟩ :=
    C84_names_exact demoEnv (demoMake [demoThree]) demoG demoFresh _ [] [] [] [] 0 true demoFresh_healthy (pair_eq (by decide +kernel))
  refine ⟨d', D, labels', names', rels', h1, h2, h3, (h4 _).2 (.inr ?_), (h4 _).2 (.inr ?_)⟩
  · exact ⟨demoThree, by simp [demoMake, patsOf], demoThree.leftMiddle, by decide, by decide⟩
  · exact ⟨demoThree, by simp [demoMake, patsOf], demoThree.middleRight, by decide, by decide⟩

end

end WG
