/- Invariants of histories. -/
import Verif.Proofs.Crash
import Verif.Proofs.MakeStored
import Verif.Spec.History

set_option linter.unusedSectionVars false

namespace WG
variable [PyRuntime]

/-! ### Crash states of MAKE -/

theorem exec_write_get {fs : FS} {p : Path} {old s : Str} {pos : Nat} (h : fs.get p = some old) :
    (exec (.write p pos s) fs).2 = fs.set p (overlay old pos s) := by simp [exec, h]

/-- Crash states of an add to a database whose file is a JSON object. -/
theorem crash_addItem {tear : Path → Prop} {p : Path} {items d : Dict V} {text : Str} {fs fs' : FS}
    (h : fs.get p = some text) (hl : jsonLoad text = some (.dict d))
    (hc : CrashAt tear (addItemToDatabase p items) fs fs') :
    fs' = fs ∨ (Fresh d items ∧
      ∃ m, fs' = fs.set p (overlay text 0 ((jsonDump (.dict (d ++ items))).1.take m))) := by
  unfold addItemToDatabase at hc
  rcases crash_bind hc with hc | ⟨_, fs1, h1, hc⟩
  · exact Or.inl (crash_readFile hc)
  rw [run_readFile_some h] at h1
  simp only [Prod.mk.injEq, Except.ok.injEq] at h1
  obtain ⟨rfl, rfl⟩ := h1
  rcases crash_bind hc with hc | ⟨_, fs1, h1, hc⟩
  · exact Or.inl (crash_liftE hc)
  rw [run_liftE, loads_some hl] at h1
  simp only [Prod.mk.injEq, Except.ok.injEq] at h1
  obtain ⟨rfl, rfl⟩ := h1
  rcases crash_bind hc with hc | ⟨_, fs1, h1, hc⟩
  · exact Or.inl (crash_liftE hc)
  rw [run_liftE] at h1
  simp only [Prod.mk.injEq] at h1
  obtain ⟨h1, rfl⟩ := h1
  by_cases hf : Fresh d items
  · rw [addLoop_fresh hf] at h1
    simp only [Except.ok.injEq] at h1
    subst h1
    have full : (exec (.write p 0 (jsonDump (.dict (d ++ items))).1) fs).2 =
        fs.set p (overlay text 0 ((jsonDump (.dict (d ++ items))).1.take (jsonDump (.dict (d ++ items))).1.length)) := by
      rw [exec_write_get h, List.take_length]
    rcases crash_bind hc with hc | ⟨_, fs1, h1, hc⟩
    · rcases crash_dumpTo hc with hc | hc | ⟨m, _, hc⟩
      · exact Or.inl hc
      · exact Or.inr ⟨hf, _, hc.trans full⟩
      · exact Or.inr ⟨hf, m, by rw [hc, exec_write_get h]⟩
    · have := crash_pure hc
      subst this
      right
      refine ⟨hf, (jsonDump (.dict (d ++ items))).1.length, ?_⟩
      rw [List.take_length]
      unfold dumpTo at h1
      rw [run_bind_ok (run_write h)] at h1
      split at h1 <;> simp at h1
      exact h1.2.symm.trans (by simp)
  · rw [addLoop_collision hf] at h1
    simp at h1

/-- Crash states of an add to a database file that does not load. -/
theorem crash_addItem_bad {tear : Path → Prop} {p : Path} {items : Dict V} {fs fs' : FS}
    (h : ∀ text, fs.get p = some text → jsonLoad text = none)
    (hc : CrashAt tear (addItemToDatabase p items) fs fs') : fs' = fs := by
  unfold addItemToDatabase at hc
  rcases crash_bind hc with hc | ⟨_, fs1, h1, hc⟩
  · exact crash_readFile hc
  cases ht : fs.get p with
  | none => rw [run_readFile_none ht] at h1; simp at h1
  | some text =>
    rw [run_readFile_some ht] at h1
    simp only [Prod.mk.injEq, Except.ok.injEq] at h1
    obtain ⟨rfl, rfl⟩ := h1
    rcases crash_bind hc with hc | ⟨_, fs1, h1, hc⟩
    · exact crash_liftE hc
    rw [run_liftE, loads_none (h _ ht)] at h1
    simp at h1

/-- Crash states of MAKE. -/
theorem crash_make {tear : Path → Prop} {env : Env} {pml : List ParsedMake} {g : GPath} {fs fs' : FS}
    (h : CrashAt tear (make env pml g) fs fs') :
    fs' = fs ∨ ∃ n, (getCurrentWiggleNumber g.wn).run fs = (.ok n, fs) ∧ MakeOK pml ∧
      CrashAt tear (commit env n (patsOf pml) g) fs fs' := by
  rw [make_eq] at h
  rcases crash_bind h with h | ⟨n, fs1, h1, h'⟩
  · left
    refine crash_readOnly ?_ h
    unfold getCurrentWiggleNumber
    refine .bind (.readFile rfl) fun s => ?_
    split
    · exact .raise _
    · split
      · exact .ret _
      · exact .raise _
  · have := getCurrentWiggleNumber_fs g.wn fs
    rw [h1] at this
    simp only at this
    subst this
    by_cases hok : MakeOK pml
    · rw [afterCounter_ok hok] at h'
      exact Or.inr ⟨n, h1, hok, h'⟩
    · obtain ⟨e, he⟩ := afterCounter_bad (env := env) (g := g) (n := n) hok
      rw [he] at h'
      exact Or.inl (crash_raise h')

/-- Crash states of the commit phase. -/
theorem crash_commit {tear : Path → Prop} {env : Env} {n : Int} {pats : List ParsedPattern} {g : GPath}
    {fs fs' : FS} (h : CrashAt tear (commit env n pats g) fs fs') :
    CrashAt tear (addItemToDatabase g.db (dbBatch env n pats)) fs fs' ∨
    ∃ fs1, (addItemToDatabase g.db (dbBatch env n pats)).run fs = (.ok true, fs1) ∧
      (CrashAt tear (commitIndexes env n pats g) fs1 fs' ∨
        ∃ r fs2, (commitIndexes env n pats g).run fs1 = (.ok r, fs2) ∧
          CrashAt tear (updateWiggleNumber g.wn (n + totalSize pats)) fs2 fs') := by
  rw [commit_eq] at h
  rcases crash_bind h with h | ⟨b, fs1, h1, h⟩
  · exact Or.inl h
  · have hb : b = true := by
      unfold addItemToDatabase at h1
      obtain ⟨_, _, _, h1⟩ := run_ok_bind h1
      obtain ⟨_, _, _, h1⟩ := run_ok_bind h1
      obtain ⟨_, _, _, h1⟩ := run_ok_bind h1
      obtain ⟨_, _, _, h1⟩ := run_ok_bind h1
      simp at h1
      exact h1.1
    subst hb
    refine Or.inr ⟨fs1, h1, ?_⟩
    rcases crash_bind h with h | ⟨r, fs2, h2, h⟩
    · exact Or.inl h
    · refine Or.inr ⟨r, fs2, h2, ?_⟩
      rcases crash_bind h with h | ⟨m, fs3, h3, h⟩
      · exact h
      · obtain rfl := crash_pure h
        have := crash_run tear (updateWiggleNumber g.wn (n + totalSize pats)) fs2
        rw [h3] at this
        exact this

/-! ### The graph invariant -/

/-- What every stored graph satisfies. -/
structure GraphOK (d : Dict V) : Prop where
  unique : NumbersUnique d
  keys : KeysAreNumbers d
  rels : RelsAtSource d

/-- All numbers are below `n`. -/
def NumsBelow (d : Dict V) (n : Int) : Prop := ∀ w : Int, some w ∈ allNumbers d → w < n

/-- The counter is above all numbers, or the next node's key is already used (so that every MAKE
with a pattern is refused). -/
def CounterOK (d : Dict V) (n : Int) : Prop := NumsBelow d n ∨ intStr n ∈ keys d

theorem numsBelow_below {d : Dict V} {n : Int} (hg : GraphOK d) (h : NumsBelow d n) : BelowCounter d n := by
  intro w hw hk
  obtain ⟨x, hx, e⟩ := List.mem_map.1 hk
  obtain ⟨w', h1, h2⟩ := hg.keys x hx
  rw [e] at h2
  have := intStr_inj h2
  subst this
  have := h w (by unfold allNumbers; rw [List.mem_flatMap]; exact ⟨x, hx, by simp [numbersOf, h1]⟩)
  omega

theorem graphOK_nil : GraphOK [] :=
  ⟨⟨by simp [allNumbers], by simp [allNumbers]⟩, by simp [KeysAreNumbers], by simp [RelsAtSource]⟩

theorem keysAreNumbers_batch (env : Env) (n : Int) (pats : List ParsedPattern) :
    KeysAreNumbers (dbBatch env n pats) := by
  intro x hx
  obtain ⟨q, _, m, _, rfl⟩ := dbBatch_mem.1 hx
  exact ⟨m.wn, nodeWn_nodeVal env m, rfl⟩

theorem relsAtSource_batch (env : Env) (n : Int) (pats : List ParsedPattern) :
    RelsAtSource (dbBatch env n pats) := by
  intro x hx r hr
  obtain ⟨q, _, m, hm, rfl⟩ := dbBatch_mem.1 hx
  simp only [dbEntry, relationsOf_nodeVal, List.mem_map] at hr
  obtain ⟨rd, hrd, rfl⟩ := hr
  refine ⟨_, _, _, _, _, isRel_relVal env rd, ?_, ?_⟩
  all_goals
    unfold storedNodes at hm
    simp only [List.mem_cons] at hm
    rcases hm with rfl | hm
  · rw [relsD_nodeData] at hrd
    obtain ⟨rp, hrp, rfl⟩ := List.mem_map.1 hrd
    obtain ⟨_, h1, h2⟩ := leftRels_wn rp hrp
    simp [dbEntry, nodeWn_nodeVal, nodeData, nodePre, relData, h1]
  · split at hm
    · simp at hm; subst hm
      rw [relsD_nodeData] at hrd
      obtain ⟨rp, hrp, rfl⟩ := List.mem_map.1 hrd
      rcases middleRels_wn rp hrp with ⟨_, h1, h2⟩ | ⟨_, h1, h2⟩ <;>
        simp [dbEntry, nodeWn_nodeVal, nodeData, nodePre, relData, h1]
    · simp at hm
  · rw [relsD_nodeData] at hrd
    obtain ⟨rp, hrp, rfl⟩ := List.mem_map.1 hrd
    exact leftRels_ne rp hrp
  · split at hm
    · simp at hm; subst hm
      rw [relsD_nodeData] at hrd
      obtain ⟨rp, hrp, rfl⟩ := List.mem_map.1 hrd
      exact middleRels_ne rp hrp
    · simp at hm

theorem nums_dbBatch (env : Env) (n : Int) (pats : List ParsedPattern) :
    (allNumbers (dbBatch env n pats)).Nodup ∧
      ∀ o ∈ allNumbers (dbBatch env n pats), ∃ w : Int, o = some w ∧ n ≤ w ∧ w < n + totalSize pats := by
  unfold dbBatch
  rw [allNumbers_batch]
  obtain ⟨h1, h2⟩ := nums_all n pats
  refine ⟨List.Pairwise.map _ (fun a b e => by simpa using e) h1, ?_⟩
  intro o ho
  obtain ⟨w, hw, rfl⟩ := List.mem_map.1 ho
  exact ⟨w, rfl, h2 w hw⟩

theorem graphOK_append {env : Env} {d : Dict V} {n : Int} {pats : List ParsedPattern} (hg : GraphOK d)
    (hn : NumsBelow d n) : GraphOK (d ++ dbBatch env n pats) ∧
      NumsBelow (d ++ dbBatch env n pats) (n + totalSize pats) := by
  obtain ⟨h1, h2⟩ := nums_dbBatch env n pats
  refine ⟨⟨⟨?_, ?_⟩, ?_, ?_⟩, ?_⟩
  · rw [allNumbers_append, List.nodup_append]
    refine ⟨hg.unique.nodup, h1, ?_⟩
    intro a ha b hb e
    subst e
    obtain ⟨w, rfl, h3, _⟩ := h2 a hb
    have := hn w ha
    omega
  · rw [allNumbers_append, List.mem_append]
    rintro (h | h)
    · exact hg.unique.some h
    · obtain ⟨w, e, _⟩ := h2 _ h
      simp at e
  · intro x hx
    rcases List.mem_append.1 hx with hx | hx
    · exact hg.keys x hx
    · exact keysAreNumbers_batch env n pats x hx
  · intro x hx
    rcases List.mem_append.1 hx with hx | hx
    · exact hg.rels x hx
    · exact relsAtSource_batch env n pats x hx
  · intro w hw
    rw [allNumbers_append, List.mem_append] at hw
    rcases hw with hw | hw
    · have := hn w hw; omega
    · obtain ⟨w', e, h3, h4⟩ := h2 _ hw
      simp at e; omega

theorem first_key {env : Env} {n : Int} {pats : List ParsedPattern} (h : pats ≠ []) :
    intStr n ∈ keys (dbBatch env n pats) := by
  cases pats with
  | nil => exact absurd rfl h
  | cons p ps => simp [dbBatch, allStored, place, storedNodes, dbEntry, nodeData, nodePre, keys]

/-- The invariant of all histories. -/
structure HistInv (g : GPath) (fs : FS) : Prop where
  db_idx : g.db ≠ g.idx
  db_wn : g.db ≠ g.wn
  idx_wn : g.idx ≠ g.wn
  graph : ∀ text, fs.get g.db = some text → jsonLoad text = none ∨
    ∃ d, text = dumpText (.dict d) ∧ (Val.dict d).Ser ∧ GraphOK d ∧
      ∀ n, (getCurrentWiggleNumber g.wn).run fs = (.ok n, fs) → CounterOK d n

theorem counter_congr {p : Path} {fs fs' : FS} {n : Int} (h : fs'.get p = fs.get p)
    (hn : (getCurrentWiggleNumber p).run fs' = (.ok n, fs')) :
    (getCurrentWiggleNumber p).run fs = (.ok n, fs) := by
  cases ht : fs.get p with
  | none => rw [ht] at h; rw [run_getCurrentWiggleNumber_none h] at hn; simp at hn
  | some t =>
    rw [ht] at h
    rw [run_getCurrentWiggleNumber h] at hn
    rw [run_getCurrentWiggleNumber ht]
    simp only [Prod.mk.injEq, and_true] at hn ⊢
    exact hn

theorem counter_det {p : Path} {fs : FS} {n m : Int} (h : (getCurrentWiggleNumber p).run fs = (.ok n, fs))
    (h' : (getCurrentWiggleNumber p).run fs = (.ok m, fs)) : n = m := by
  rw [h] at h'; simpa using h'

/-- The invariant depends on the database and counter file only. -/
theorem histInv_congr {g : GPath} {fs fs' : FS} (h : HistInv g fs) (h1 : fs'.get g.db = fs.get g.db)
    (h2 : fs'.get g.wn = fs.get g.wn) : HistInv g fs' := by
  refine ⟨h.db_idx, h.db_wn, h.idx_wn, ?_⟩
  intro text ht
  rw [h1] at ht
  rcases h.graph text ht with h | ⟨d, a, b, c, hn⟩
  · exact Or.inl h
  · exact Or.inr ⟨d, a, b, c, fun n hn' => hn n (counter_congr h2 hn')⟩

/-- The new graph was written; the counter is the old one, empty, or advanced. -/
theorem histInv_written {env : Env} {g : GPath} {fs fs' : FS} {d : Dict V} {n : Int}
    {pats : List ParsedPattern} (h : HistInv g fs)
    (hc : (getCurrentWiggleNumber g.wn).run fs = (.ok n, fs)) (hg : GraphOK d) (hn : CounterOK d n)
    (hf : Fresh d (dbBatch env n pats)) (hser : (Val.dict (d ++ dbBatch env n pats)).Ser)
    (hdb : fs'.get g.db = some (dumpText (.dict (d ++ dbBatch env n pats))))
    (hwn : fs'.get g.wn = fs.get g.wn ∨ fs'.get g.wn = some [] ∨
      fs'.get g.wn = some (intStr (n + totalSize pats))) : HistInv g fs' := by
  refine ⟨h.db_idx, h.db_wn, h.idx_wn, ?_⟩
  intro text ht
  rw [hdb] at ht
  obtain rfl := Option.some.inj ht
  right
  refine ⟨_, rfl, hser, ?_⟩
  by_cases hp : pats = []
  · subst hp
    have e : d ++ dbBatch env n [] = d := by simp [dbBatch, allStored, place]
    rw [e]
    refine ⟨hg, fun m hm => ?_⟩
    have : m = n := by
      rcases hwn with hw | hw | hw
      · exact counter_det (counter_congr hw hm) hc
      · rw [run_getCurrentWiggleNumber hw] at hm; simp at hm
      · rw [run_getCurrentWiggleNumber_int hw] at hm; simp [totalSize] at hm; exact hm.symm
    rw [this]; exact hn
  · have hb : NumsBelow d n := by
      rcases hn with hn | hn
      · exact hn
      · exact absurd hn (hf.2 _ (first_key hp))
    obtain ⟨h1, h2⟩ := graphOK_append (env := env) (pats := pats) hg hb
    refine ⟨h1, fun m hm => ?_⟩
    rcases hwn with hw | hw | hw
    · rw [counter_det (counter_congr hw hm) hc]
      right
      have := first_key (env := env) (n := n) hp
      simp only [keys, List.map_append, List.mem_append] at this ⊢
      exact Or.inr this
    · rw [run_getCurrentWiggleNumber hw] at hm; simp at hm
    · rw [run_getCurrentWiggleNumber_int hw] at hm
      simp at hm
      rw [← hm]
      exact Or.inl h2

theorem serDict_of_ser {d : Dict V} (h : (Val.dict d).Ser) : Val.SerDict d := by
  rw [Val.Ser] at h; exact h.2

theorem wf_append {d : Dict V} {env : Env} {n : Int} {pats : List ParsedPattern} (hd : (Val.dict d).Ser)
    (hf : Fresh d (dbBatch env n pats)) : (Val.dict (d ++ dbBatch env n pats)).WF := by
  have hw := hd.wf
  rw [Val.WF] at hw ⊢
  refine ⟨?_, ?_⟩
  · rw [List.map_append, List.nodup_append]
    exact ⟨hw.1, hf.1, fun a ha b hb e => hf.2 b hb (e ▸ ha)⟩
  · rw [wfDict_iff]
    intro x hx
    rcases List.mem_append.1 hx with hx | hx
    · exact wfDict_iff.1 hw.2 x hx
    · exact wfDict_iff.1 (dbBatch_wf env n pats) x hx

/-- Every crash state of MAKE (counter write atomic) satisfies the invariant. -/
theorem histInv_make {env : Env} {pml : List ParsedMake} {g : GPath} {fs fs' : FS} (h : HistInv g fs)
    (hc : CrashAt (fun p => p ≠ g.wn) (make env pml g) fs fs') : HistInv g fs' := by
  rcases crash_make hc with rfl | ⟨n, hn, hok, hc⟩
  · exact h
  have hcut : ∀ {fs'}, CrashAt (fun p => p ≠ g.wn) (addItemToDatabase g.db (dbBatch env n (patsOf pml))) fs fs' →
      fs'.get g.wn = fs.get g.wn := fun hc =>
    crash_frame (only_addItem _ _) (by simpa using Ne.symm h.db_wn) hc
  by_cases hbad : ∀ text, fs.get g.db = some text → jsonLoad text = none
  · rcases crash_commit hc with hc | ⟨fs1, h1, _⟩
    · rw [crash_addItem_bad hbad hc]; exact h
    · cases ht : fs.get g.db with
      | none => rw [run_add_none ht] at h1; simp at h1
      | some t => rw [run_add_bad ht (hbad t ht)] at h1; simp at h1
  · have : ∃ text, fs.get g.db = some text ∧ jsonLoad text ≠ none := by
      simp only [Classical.not_forall] at hbad
      obtain ⟨t, h1, h2⟩ := hbad
      exact ⟨t, h1, h2⟩
    obtain ⟨text, ht, hne⟩ := this
    rcases h.graph text ht with hl | ⟨d, rfl, hser, hg, hcnt⟩
    · exact absurd hl hne
    have hl := jsonLoad_dump _ hser
    have hcn := hcnt n hn
    rcases crash_commit hc with hc | ⟨fs1, h1, hc⟩
    · rcases crash_addItem ht hl hc with rfl | ⟨hf, m, rfl⟩
      · exact h
      · have hw := hcut hc
        have := torn_append (serDict_of_ser hser) (wf_append hser hf) m
        rw [overlay_zero]
        simp only at this
        rcases this with e | ⟨e, hs⟩ | e
        · rw [e]
          exact histInv_congr h (by rw [FS.get_set_self, ht]) (by rw [FS.get_set_ne h.db_wn])
        · refine histInv_written h hn hg hcn hf ((jsonDump_complete (wf_append hser hf)).1 hs) (by
            rw [FS.get_set_self, e]; rfl) (Or.inl ?_)
          rw [FS.get_set_ne h.db_wn]
        · refine ⟨h.db_idx, h.db_wn, h.idx_wn, ?_⟩
          intro text' ht'
          rw [FS.get_set_self] at ht'
          obtain rfl := Option.some.inj ht'
          exact Or.inl e
    · have hf : Fresh d (dbBatch env n (patsOf pml)) := by
        apply Classical.byContradiction
        intro hf
        rw [run_add_collision ht hl hf] at h1
        simp at h1
      have hs : Val.SerDict (dbBatch env n (patsOf pml)) := by
        apply Classical.byContradiction
        intro hs
        obtain ⟨t, _, e⟩ := run_add_opq ht hser hf (dbBatch_wf env n (patsOf pml)) hs
        rw [e] at h1
        simp at h1
      rw [run_add_ok ht hser hf hs] at h1
      simp only [Prod.mk.injEq, true_and] at h1
      subst h1
      have hser' := ser_append hser hf hs
      have idx_db : g.db ∉ [g.idx] := by simpa using h.db_idx
      have idx_wn : g.wn ∉ [g.idx] := by simpa using Ne.symm h.idx_wn
      rcases hc with hc | ⟨r, fs2, h2, hc⟩
      · refine histInv_written h hn hg hcn hf hser' ?_ (Or.inl ?_)
        · rw [crash_frame (only_commitIndexes ..) idx_db hc, FS.get_set_self]
        · rw [crash_frame (only_commitIndexes ..) idx_wn hc, FS.get_set_ne h.db_wn]
      · have d2 := run_only (only_commitIndexes env n (patsOf pml) g) idx_db
          (fs.set g.db (dumpText (.dict (d ++ dbBatch env n (patsOf pml)))))
        have w2 := run_only (only_commitIndexes env n (patsOf pml) g) idx_wn
          (fs.set g.db (dumpText (.dict (d ++ dbBatch env n (patsOf pml)))))
        rw [h2] at d2 w2
        simp only [FS.get_set_self, FS.get_set_ne h.db_wn] at d2 w2
        rcases crash_updateCounter (by simp) hc with rfl | rfl | rfl
        · exact histInv_written h hn hg hcn hf hser' d2 (Or.inl w2)
        · exact histInv_written h hn hg hcn hf hser' (by rw [FS.get_set_ne (Ne.symm h.db_wn)]; exact d2)
            (Or.inr (Or.inl (FS.get_set_self _ _ _)))
        · exact histInv_written h hn hg hcn hf hser' (by rw [FS.get_set_ne (Ne.symm h.db_wn)]; exact d2)
            (Or.inr (Or.inr (FS.get_set_self _ _ _)))

theorem jsonDump_empty : jsonDump (.dict [] : V) = (c!"{}", true) := rfl

theorem ser_nil : (Val.dict [] : V).Ser := by simp [Val.Ser, Val.SerDict]

/-- Crash states of wiping the database. -/
theorem crash_wipeDatabase {tear : Path → Prop} {p : Path} {b : Bool} {fs fs' : FS}
    (h : CrashAt tear (wipeDatabase p b) fs fs') :
    fs' = fs ∨ ∃ text, fs' = fs.set p text ∧ (jsonLoad text = none ∨ text = c!"{}") := by
  unfold wipeDatabase at h
  cases b with
  | false => exact Or.inl (crash_pure h)
  | true =>
    simp only [if_true] at h
    have nil_bad : jsonLoad ([] : Str) = none := by simp [jsonLoad, skipWs, parseVal]
    have open_bad : jsonLoad c!"{" = none := by
      simp [jsonLoad, skipWs, isJsonWs, parseVal]
    rcases crash_bind h with h | ⟨_, fs1, h1, h⟩
    · rcases crash_unitOp h with h | h | ⟨_, _, _, _, e, _⟩
      · exact Or.inl h
      · by_cases hd : (p.folder, p.dir) ∈ fs.dirs
        · simp [exec, hd] at h; exact Or.inr ⟨[], h, Or.inl nil_bad⟩
        · simp [exec, hd] at h; exact Or.inl h
      · cases e
    · have hfs1 : fs1 = fs.set p [] := by
        by_cases hd : (p.folder, p.dir) ∈ fs.dirs
        · rw [run_openW hd] at h1; simp at h1; exact h1.symm
        · rw [run_openW_fail hd] at h1; simp at h1
      subst hfs1
      right
      have wr : ∀ s, (exec (.write p 0 s) (fs.set p [])).2 = fs.set p s := by
        intro s; simp [exec]
      rcases crash_bind h with h | ⟨pos, fs2, h2, h⟩
      · rcases crash_dumpTo h with h | h | ⟨m, _, h⟩
        · exact ⟨[], h, Or.inl nil_bad⟩
        · rw [wr, jsonDump_empty] at h; exact ⟨_, h, Or.inr rfl⟩
        · rw [wr, jsonDump_empty] at h
          refine ⟨_, h, ?_⟩
          match m with
          | 0 => exact Or.inl nil_bad
          | 1 => exact Or.inl open_bad
          | m + 2 => exact Or.inr (by simp)
      · have hdump : (dumpTo p 0 (.dict [] : V)).run (fs.set p []) = (.ok 2, fs.set p c!"{}") := by
          unfold dumpTo
          rw [run_bind_ok (run_write (FS.get_set_self _ _ _)), jsonDump_empty]
          simp
        rw [hdump] at h2
        simp only [Prod.mk.injEq, Except.ok.injEq] at h2
        obtain ⟨rfl, rfl⟩ := h2
        have tr : (exec (.truncate p 2) (fs.set p c!"{}")).2 = fs.set p c!"{}" := by simp [exec]
        rcases crash_bind h with h | ⟨_, fs3, h3, h⟩
        · rcases crash_unitOp h with h | h | ⟨_, _, _, _, e, _⟩
          · exact ⟨_, h, Or.inr rfl⟩
          · rw [tr] at h; exact ⟨_, h, Or.inr rfl⟩
          · cases e
        · obtain rfl := crash_pure h
          rw [run_truncate (FS.get_set_self _ _ _)] at h3
          simp at h3
          exact ⟨_, h3.symm, Or.inr rfl⟩

theorem histInv_wipe {g : GPath} {b : Bool} {fs fs' : FS} (h : HistInv g fs)
    (hc : CrashAt (fun p => p ≠ g.wn) (wipeDatabase g.db b) fs fs') : HistInv g fs' := by
  rcases crash_wipeDatabase hc with rfl | ⟨text, rfl, ht⟩
  · exact h
  · refine ⟨h.db_idx, h.db_wn, h.idx_wn, ?_⟩
    intro text' ht'
    rw [FS.get_set_self] at ht'
    obtain rfl := Option.some.inj ht'
    rcases ht with ht | rfl
    · exact Or.inl ht
    · exact Or.inr ⟨[], dumpText_empty.symm, ser_nil, graphOK_nil,
        fun n _ => Or.inl (by intro w hw; simp [allNumbers] at hw)⟩

theorem histInv_idx {g : GPath} {p : Prog Bool} {fs fs' : FS} (h : HistInv g fs)
    (hp : p.AllOps (Op.only [g.idx])) (hc : CrashAt (fun p => p ≠ g.wn) p fs fs') : HistInv g fs' :=
  histInv_congr h (crash_frame hp (by simpa using h.db_idx) hc)
    (crash_frame hp (by simpa using Ne.symm h.idx_wn) hc)

theorem histInv_crash {g : GPath} {o : GOp} {fs fs' : FS} (h : HistInv g fs)
    (hc : CrashAt (fun p => p ≠ g.wn) (o.prog g) fs fs') : HistInv g fs' := by
  cases o with
  | make env pml => exact histInv_make h hc
  | wipeDatabase b => exact histInv_wipe h hc
  | wipeLabels b => exact histInv_idx h (only_wipeIndex ..) hc
  | wipeNames b => exact histInv_idx h (only_wipeIndex ..) hc
  | wipeRels b => exact histInv_idx h (only_wipeIndex ..) hc

theorem reach_inv {g : GPath} {fs : FS} (h : Reach g fs) : HistInv g fs := by
  induction h with
  | new fs h =>
    refine ⟨h.db_idx, h.db_wn, h.idx_wn, ?_⟩
    intro text ht
    rw [h.db] at ht
    obtain rfl := Option.some.inj ht
    exact Or.inr ⟨[], dumpText_empty.symm, ser_nil, graphOK_nil,
      fun n _ => Or.inl (by intro w hw; simp [allNumbers] at hw)⟩
  | op fs o _ ih => exact histInv_crash ih (crash_run _ _ _)
  | crash fs fs' o _ hc ih => exact histInv_crash ih hc

end WG

namespace WG
variable [PyRuntime]

theorem emitMembers_cons_start' (p : Str × V) (e : List (Str × V)) :
    ∃ t, (emitMembers 1 (p :: e)).1 = ',' :: '\n' :: ' ' :: t := by
  obtain ⟨key, x⟩ := p
  refine ⟨?_, ?_⟩
  rotate_left
  · simp [emitMembers, emitText, Emitted.andThen, nl, List.replicate]
    rfl

theorem dump_append_length_lt {d e : List (Str × V)} (hd : Val.SerDict d) (he : e ≠ []) :
    (dumpText (.dict d)).length < (jsonDump (.dict (d ++ e))).1.length := by
  cases e with
  | nil => exact absurd rfl he
  | cons p e =>
    by_cases hne : d = []
    · subst hne
      obtain ⟨key, x⟩ := p
      simp only [List.nil_append, dumpText_empty]
      simp [jsonDump, emit, emitText, Emitted.andThen, nl]
    · rw [dumpText_body hd hne, jsonDump_append hd hne]
      obtain ⟨t, ht⟩ := emitMembers_cons_start' p e
      simp [ht, nl]

theorem crash_bind_left {α β : Type} {tear : Path → Prop} {p : Prog α} {f : α → Prog β} {fs fs' : FS}
    (h : CrashAt tear p fs fs') : CrashAt tear (p >>= f) fs fs' := by
  induction h with
  | here => exact .here _ _
  | torn p pos s n k fs ht => exact .torn p pos s n _ fs ht
  | step op k fs fs' h ih => exact .step op _ fs fs' ih

theorem crash_bind_right {α β : Type} {tear : Path → Prop} {p : Prog α} {f : α → Prog β} {fs fs1 fs' : FS}
    {a : α} (hp : p.run fs = (.ok a, fs1)) (h : CrashAt tear (f a) fs1 fs') :
    CrashAt tear (p >>= f) fs fs' := by
  induction p generalizing fs with
  | ret b => simp at hp; obtain ⟨rfl, rfl⟩ := hp; exact h
  | raise e => simp at hp
  | act op k ih => exact .step op _ fs fs' (ih _ hp)

theorem crash_addItem_atomic {p : Path} {items : Dict V} {fs fs' : FS}
    (h : CrashAt (fun _ => False) (addItemToDatabase p items) fs fs') :
    fs' = fs ∨ fs' = ((addItemToDatabase p items).run fs).2 := by
  unfold addItemToDatabase at h ⊢
  rcases crash_bind h with ha | ⟨t, fs1, h1, hb⟩
  · exact Or.inl (crash_readFile ha)
  clear h
  have e1 : fs1 = fs := by
    have := run_readOnly (p := readFile p) (.readFile rfl) fs
    rw [h1] at this; exact this
  subst e1
  rw [run_bind_ok h1]
  rcases crash_bind hb with ha | ⟨v, fs2, h2, hc⟩
  · exact Or.inl (crash_liftE ha)
  clear hb
  have e2 : fs2 = fs1 := by rw [run_liftE] at h2; simp at h2; exact h2.2.symm
  subst e2
  rw [run_bind_ok h2]
  rcases crash_bind hc with ha | ⟨v', fs3, h3, hd⟩
  · exact Or.inl (crash_liftE ha)
  clear hc
  have e3 : fs3 = fs2 := by rw [run_liftE] at h3; simp at h3; exact h3.2.symm
  subst e3
  rw [run_bind_ok h3]
  rcases crash_bind hd with ha | ⟨pos, fs4, h4, hd⟩
  · rcases crash_dumpTo ha with ha | ha | ⟨_, hf, _⟩
    · exact Or.inl ha
    · right
      rw [ha]
      unfold dumpTo
      cases ht : fs3.get p with
      | some t =>
        rw [bind_assoc', run_bind_ok (run_write ht), exec_write_get ht]
        split <;> rfl
      | none =>
        have : (unitOp (.write p 0 (jsonDump v').1) .osError).run fs3 = (.error .osError, fs3) := by
          simp [unitOp, Prog.run, exec, ht]
        rw [bind_assoc', run_bind_err this]
        simp [exec, ht]
    · exact absurd hf id
  · right
    rw [run_bind_ok h4]
    exact crash_pure hd

/-- The database write of a MAKE may be torn at any position. -/
theorem crash_make_torn_db {env : Env} {pml : List ParsedMake} {g : GPath} {fs : FS} {n : Int} {text : Str}
    {d : Dict V} {tear : Path → Prop} (ht : tear g.db)
    (hc : (getCurrentWiggleNumber g.wn).run fs = (.ok n, fs)) (hok : MakeOK pml)
    (h : fs.get g.db = some text) (hl : jsonLoad text = some (.dict d))
    (hf : Fresh d (dbBatch env n (patsOf pml))) (m : Nat) :
    CrashAt tear (make env pml g) fs
      (fs.set g.db (overlay text 0 ((jsonDump (.dict (d ++ dbBatch env n (patsOf pml)))).1.take m))) := by
  rw [make_eq]
  refine crash_bind_right hc ?_
  rw [afterCounter_ok hok, commit_eq]
  refine crash_bind_left ?_
  unfold addItemToDatabase
  refine crash_bind_right (run_readFile_some h) ?_
  rw [loads_some hl]
  refine crash_bind_right (run_liftE_ok _ _) ?_
  rw [addLoop_fresh hf]
  refine crash_bind_right (run_liftE_ok _ _) (crash_bind_left ?_)
  unfold dumpTo
  refine crash_bind_left ?_
  rw [← exec_write_get h]
  exact .torn _ _ _ _ _ _ ht

/-- The counter write of a MAKE may be torn at any position. -/
theorem crash_make_torn_counter {env : Env} {pml : List ParsedMake} {g : GPath} {fs fs' : FS} {n : Int}
    {r : Bool} {tear : Path → Prop} (ht : tear g.wn)
    (hc : (getCurrentWiggleNumber g.wn).run fs = (.ok n, fs))
    (h : (make env pml g).run fs = (.ok r, fs')) (m : Nat) :
    CrashAt tear (make env pml g) fs (fs'.set g.wn ((intStr (n + totalSize (patsOf pml))).take m)) := by
  have hok : MakeOK pml := by
    apply Classical.byContradiction
    intro hok
    obtain ⟨e, he⟩ := afterCounter_bad (env := env) (g := g) (n := n) hok
    rw [run_make_counter hc, he] at h
    simp at h
  rw [run_make_counter hc, afterCounter_ok hok, commit_eq] at h
  obtain ⟨_, fs1, h1, h⟩ := run_ok_bind h
  obtain ⟨_, fs2, h2, h⟩ := run_ok_bind h
  obtain ⟨_, fs3, h3, h⟩ := run_ok_bind h
  simp at h
  obtain ⟨_, rfl⟩ := h
  rw [make_eq]
  refine crash_bind_right hc ?_
  rw [afterCounter_ok hok, commit_eq]
  refine crash_bind_right h1 (crash_bind_right h2 (crash_bind_left ?_))
  have hfs3 := run_ok_update h3
  have hd : DirOK fs2 g.wn := by
    apply Classical.byContradiction
    intro hd
    rw [run_updateWiggleNumber_fail hd] at h3
    simp at h3
  unfold updateWiggleNumber
  refine crash_bind_right (run_openW hd) (crash_bind_left ?_)
  have := exec_write_get (s := (intStr (n + totalSize (patsOf pml))).take m) (pos := 0)
    (FS.get_set_self fs2 g.wn [])
  rw [overlay_nil, FS.set_set] at this
  rw [hfs3, FS.set_set, ← this]
  exact .torn _ _ _ _ _ _ ht

end WG
