import Verif.Props.Make
/-! # C64: creation times -/
set_option linter.unusedSectionVars false
set_option linter.unusedSimpArgs false
namespace WG

section
variable [PyRuntime]

/-- C64, what the code does: every node and relationship stored by a MAKE carries the time at which the
process imported the module, whenever the MAKE runs. -/
theorem C64_created_at_is_import_time (env : Env) (pml : List ParsedMake) (g : GPath) (fs fs' : FS)
    (d : Dict V) (labels names : List Str) (rels : Dict (List Int)) (n : Int) (r : Bool)
    (h : Healthy fs g d labels names rels n) (hr : (make env pml g).run fs = (.ok r, fs'))
    (d' : Dict V) (hd' : Holds fs' g.db d') (k : Str) (v : V) (hk : dictGet k d' = some v) (hnew : dictGet k d = none) :
    nodeCreatedAt v = some (.flt (.fin env.importTime)) ∧
    ∀ x ∈ relationsOf v, relCreatedAt x = some (.flt (.fin env.importTime)) := by
  obtain ⟨hok, hf, hs, hb, _, l, m, rl, hh, _⟩ := make_success h hr
  obtain rfl := Holds.unique hd' hh.db
  have hm : (k, v) ∈ dbBatch env n (patsOf pml) := by
    rcases List.mem_append.1 (dictGet_some_mem hk) with h1 | h1
    · exact absurd (List.mem_map.2 ⟨_, h1, rfl⟩) (dictGet_none_iff.1 hnew)
    · exact h1
  obtain ⟨q, hq, m, hm, e⟩ := dbBatch_mem.1 hm
  simp only [dbEntry, Prod.mk.injEq] at e
  obtain ⟨_, rfl⟩ := e
  refine ⟨by simp [nodeCreatedAt, nodeVal, field, dictGet, metaVal], ?_⟩
  intro x hx
  rw [relationsOf_nodeVal] at hx
  obtain ⟨y, _, rfl⟩ := List.mem_map.1 hx
  simp [relCreatedAt, relVal, field, dictGet, metaVal]

/-- C64 for a MAKE at the very time of the import.  Missing from the full property: every later MAKE
(`C64_violated`). -/
theorem C64_created_now_partial (env : Env) (hnow : env.now = env.importTime) (pml : List ParsedMake) (g : GPath)
    (fs fs' : FS) (d : Dict V) (labels names : List Str) (rels : Dict (List Int)) (n : Int) (r : Bool)
    (h : Healthy fs g d labels names rels n) (hr : (make env pml g).run fs = (.ok r, fs'))
    (d' : Dict V) (hd' : Holds fs' g.db d') (k : Str) (v : V) (hk : dictGet k d' = some v) (hnew : dictGet k d = none) :
    nodeCreatedAt v = some (.flt (.fin env.now)) := by
  rw [hnow]
  exact (C64_created_at_is_import_time env pml g fs fs' d labels names rels n r h hr d' hd' k v hk hnew).1

/-- C64 violated, by every MAKE: if the clock has moved since the import, no new node carries the time of
its creation. -/
theorem C64_violated_by_all (env : Env) (hnow : env.now ≠ env.importTime) (pml : List ParsedMake) (g : GPath)
    (fs fs' : FS) (d : Dict V) (labels names : List Str) (rels : Dict (List Int)) (n : Int) (r : Bool)
    (h : Healthy fs g d labels names rels n) (hr : (make env pml g).run fs = (.ok r, fs'))
    (d' : Dict V) (hd' : Holds fs' g.db d') (k : Str) (v : V) (hk : dictGet k d' = some v) (hnew : dictGet k d = none) :
    nodeCreatedAt v ≠ some (.flt (.fin env.now)) := by
  rw [(C64_created_at_is_import_time env pml g fs fs' d labels names rels n r h hr d' hd' k v hk hnew).1]
  simpa using fun e => hnow e.symm

end

section
attribute [local instance] demoRuntime

/-- C64 violated: a concrete MAKE after the import. -/
theorem C64_violated : ∃ (fs fs' : FS) (pml : List ParsedMake) (d' : Dict V) (v : V),
    (make demoEnv pml demoG).run fs = (.ok true, fs') ∧ Holds fs' demoG.db d' ∧ dictGet c!"0" d' = some v ∧
    nodeCreatedAt v ≠ some (.flt (.fin demoEnv.now)) := by
  have h1 : ((make demoEnv (demoMake [demoRight]) demoG).run demoFresh).1 = .ok true := by decide +kernel
  obtain ⟨d', hd', _, hn⟩ := C14_nodes_stored_partial demoEnv _ demoG demoFresh _ _ _ _ _ _ _ demoFresh_healthy (run_of h1)
  obtain ⟨v, _, _, hv, _⟩ := (hn (0, demoRight) (by simp [patsOf, demoMake, place])).1
  refine ⟨demoFresh, _, _, d', v, run_of h1, hd', hv, ?_⟩
  exact C64_violated_by_all demoEnv (by decide) _ demoG demoFresh _ _ _ _ _ _ _ demoFresh_healthy (run_of h1) d' hd' _ v hv rfl

/-- C64: the hypotheses hold for a MAKE at import time. -/
example : ∃ v, nodeCreatedAt v = some (.flt (.fin demoTime)) := by
  have h1 : ((make ⟨demoOrd, demoTime, demoTime⟩ (demoMake [demoRight]) demoG).run demoFresh).1 = .ok true := by
    decide +kernel
  obtain ⟨d', hd', _, hn⟩ := C14_nodes_stored_partial _ _ demoG demoFresh _ _ _ _ _ _ _ demoFresh_healthy (run_of h1)
  obtain ⟨v, _, _, hv, _⟩ := (hn (0, demoRight) (by simp [patsOf, demoMake, place])).1
  exact ⟨v, C64_created_now_partial ⟨demoOrd, demoTime, demoTime⟩ rfl _ demoG demoFresh _ _ _ _ _ _ _ demoFresh_healthy (run_of h1) d' hd' _ v hv rfl⟩

end

end WG
