/-
What of the log can be seen in the shell.
-/
import Verif.Proofs.Log
import Verif.Proofs.Damage
import Verif.Proofs.Usable
import Verif.Proofs.Query

set_option linter.unusedSectionVars false
set_option linter.unusedSimpArgs false

namespace WG

variable [PyRuntime]

/-! ### Programs that log nothing above INFO -/

section
variable {α β : Type}

/-- Nothing above INFO is logged. -/
def Lg.Low (s : Lg α) : Prop :=
  ∀ fs, ∃ r out fs', s.prog.run fs = (.ok (r, out), fs') ∧ ∀ e ∈ out, e.level = .debug ∨ e.level = .info

theorem Lg.low_pure (a : α) : (pure a : Lg α).Low := fun fs => ⟨_, _, _, lg_pure_run a fs, by simp⟩

theorem Lg.low_raise (e : PyErr) : (Lg.raise e : Lg α).Low := fun fs => ⟨.error e, [], fs, rfl, by simp⟩

theorem Lg.low_lift (p : Prog α) : (Lg.lift p).Low := fun fs => ⟨_, _, _, lg_lift_run p fs, by simp⟩

theorem Lg.low_put {e : LogEntry} (h : e.level = .debug ∨ e.level = .info) : (Lg.put e).Low :=
  fun fs => ⟨.ok (), [e], fs, rfl, by simpa using h⟩

theorem Lg.low_bind {s : Lg α} {f : α → Lg β} (h : s.Low) (h' : ∀ a, (f a).Low) : (s >>= f).Low := by
  intro fs
  obtain ⟨r, out, fs1, h1, h2⟩ := h fs
  cases r with
  | error e => exact ⟨_, _, _, lg_bind_run_err h1, h2⟩
  | ok a =>
    obtain ⟨r, out', fs2, h3, h4⟩ := h' a fs1
    refine ⟨_, _, _, lg_bind_run_ok h1 h3, fun e he => ?_⟩
    rcases List.mem_append.1 he with he | he
    · exact h2 e he
    · exact h4 e he

theorem logs_bind_silent {s : Lg α} {p : Prog α} {f : α → Lg β} {k : α → Prog β} (h : s.Agrees p) (h' : ∀ a, (f a).Agrees (k a))
    (hf : ∀ a fs, (f a).logs fs = []) (fs : FS) : (s >>= f).logs fs = s.logs fs := by
  rw [logs_bind h h']
  cases p.run fs with
  | mk r fs' => cases r <;> simp [hf]

theorem low_debug (s : Str) : (logDebug s).Low := Lg.low_put (.inl rfl)
theorem low_info (s : Str) : (logInfo s).Low := Lg.low_put (.inr rfl)
theorem low_value (s : Str) (v : V) : (logValue s v).Low := Lg.low_put (.inl rfl)

theorem visible_append (l : Level) (a b : List LogEntry) : visible l (a ++ b) = visible l a ++ visible l b := by
  simp [visible]

theorem Lg.Low.unseen {s : Lg α} (h : s.Low) (fs : FS) : visible SHELL_LEVEL (s.logs fs) = [] := by
  obtain ⟨r, out, fs', h1, h2⟩ := h fs
  rw [Lg.logs_of h1, visible, List.filter_eq_nil_iff]
  intro e he
  rcases h2 e he with h | h <;> simp [h, Level.num, SHELL_LEVEL]

end

theorem low_loggedValue (s : Str) (x : Except PyErr V) : (loggedValue s x).Low :=
  Lg.low_bind (Lg.low_lift _) fun _ => Lg.low_bind (low_value _ _) fun _ => Lg.low_pure _

theorem low_handleExtracted (value : Str) (caps : Caps) : (handleExtractedL value caps).Low := by
  refine Lg.low_bind (Lg.low_lift _) fun t => ?_
  cases t <;> first | exact low_loggedValue _ _ | exact Lg.low_lift _

theorem low_parseOneProp (caps : Caps) : (parseOnePropL caps).Low := by
  unfold parseOnePropL
  split
  · split
    · exact Lg.low_raise _
    · exact Lg.low_bind (low_handleExtracted _ _) fun _ => Lg.low_pure _
  · exact Lg.low_raise _

theorem low_parsePropsLoop (ms : List (Str × Caps)) (d : Dict V) : (parsePropsLoopL ms d).Low := by
  induction ms generalizing d with
  | nil => exact Lg.low_pure _
  | cons m ms ih => exact Lg.low_bind (low_parseOneProp _) fun _ => ih _

theorem low_getPropertyDict (s : Option Str) : (getPropertyDictL s).Low := by
  unfold getPropertyDictL
  split
  · exact Lg.low_pure _
  · split
    · exact Lg.low_pure _
    · exact Lg.low_bind (low_parsePropsLoop _ _) fun _ => Lg.low_pure _

theorem low_makeRelationship (r : RelPre) : (makeRelationshipL r).Low := by
  refine Lg.low_bind (low_getPropertyDict _) fun _ => ?_
  split
  · exact Lg.low_raise _
  · exact Lg.low_pure _

theorem low_makeRelationships (rs : List RelPre) : (makeRelationshipsL rs).Low := by
  induction rs with
  | nil => exact Lg.low_pure _
  | cons r rs ih => exact Lg.low_bind (low_makeRelationship _) fun _ => Lg.low_bind ih fun _ => Lg.low_pure _

theorem low_makeNode (n : NodePre) : (makeNodeL n).Low := by
  refine Lg.low_bind (low_getPropertyDict _) fun _ => ?_
  split
  · exact Lg.low_lift _
  · exact Lg.low_bind (low_makeRelationships _) fun _ => Lg.low_lift _

theorem low_makeNodes (mp : MakePre) : (makeNodesL mp).Low := by
  unfold makeNodesL
  refine Lg.low_bind (low_makeNode _) fun l => ?_
  have right : ∀ nodes : List NodeData, Lg.Low (match mp.right with
      | none => pure nodes
      | some _ => makeNodeL mp.left >>= fun r => pure (nodes ++ [r])) := by
    intro nodes
    split
    · exact Lg.low_pure _
    · exact Lg.low_bind (low_makeNode _) fun _ => Lg.low_pure _
  cases mp.middle with
  | none => exact Lg.low_bind (Lg.low_pure _) right
  | some m => exact Lg.low_bind (low_makeNode _) fun _ => Lg.low_bind (Lg.low_pure _) right

theorem low_makeAllNodes (mps : List MakePre) : (makeAllNodesL mps).Low := by
  induction mps with
  | nil => exact Lg.low_pure _
  | cons r rs ih => exact Lg.low_bind (low_makeNodes _) fun _ => Lg.low_bind ih fun _ => Lg.low_pure _

theorem low_counter (p : Path) : (getCurrentWiggleNumberL p).Low := by
  refine Lg.low_bind (low_debug _) fun _ => Lg.low_bind (Lg.low_lift _) fun s => ?_
  split
  · exact Lg.low_raise _
  · refine Lg.low_bind (low_debug _) fun _ => ?_
    cases pyInt s with
    | none => exact Lg.low_raise _
    | some n => exact Lg.low_bind (low_info _) fun _ => Lg.low_pure _

theorem low_add (p : Path) (items : List (Str × V)) : (addItemToDatabaseL p items).Low :=
  Lg.low_bind (Lg.low_lift _) fun _ => Lg.low_bind (Lg.low_lift _) fun _ => Lg.low_bind (low_info _) fun _ =>
    Lg.low_bind (Lg.low_lift _) fun _ => Lg.low_bind (Lg.low_lift _) fun _ => Lg.low_bind (low_info _) fun _ => Lg.low_pure _

theorem low_update (p : Path) (n : Int) : (updateWiggleNumberL p n).Low :=
  Lg.low_bind (low_debug _) fun _ => Lg.low_bind (Lg.low_lift _) fun _ => Lg.low_bind (Lg.low_lift _) fun _ =>
    Lg.low_bind (low_debug _) fun _ => Lg.low_pure _

theorem low_make (env : Env) (pml : List ParsedMake) (g : GPath) : (makeL env pml g).Low :=
  Lg.low_bind (low_counter _) fun _ => Lg.low_bind (Lg.low_lift _) fun _ => Lg.low_bind (low_makeAllNodes _) fun _ =>
    Lg.low_bind (low_add _ _) fun _ => Lg.low_bind (Lg.low_lift _) fun _ => Lg.low_bind (low_update _ _) fun _ => Lg.low_pure _

theorem low_findNode (t : PartText) (c : Option Criteria) : (findNodeL t c).Low :=
  Lg.low_bind (low_getPropertyDict _) fun _ => Lg.low_bind (Lg.low_lift _) fun _ => Lg.low_lift _

theorem low_findRel (t : PartText) (c : Option Criteria) : (findRelL t c).Low :=
  Lg.low_bind (low_getPropertyDict _) fun _ => Lg.low_lift _

theorem low_findMiddle (p : ParsedPattern) (c : Option Criteria) (f : FindPre) : (findMiddleL p c f).Low := by
  unfold findMiddleL
  split
  · exact Lg.low_bind (low_findNode _ _) fun _ => Lg.low_pure _
  · exact Lg.low_pure _

theorem low_findRight (p : ParsedPattern) (c : Option Criteria) (f : FindPre) : (findRightL p c f).Low := by
  unfold findRightL
  split
  · exact Lg.low_bind (low_getPropertyDict _) fun _ => Lg.low_bind (Lg.low_lift _) fun _ => Lg.low_bind (Lg.low_lift _) fun _ =>
      Lg.low_bind (Lg.low_lift _) fun _ => Lg.low_pure _
  · exact Lg.low_pure _

theorem low_findLM (p : ParsedPattern) (c : Option Criteria) (f : FindPre) : (findLML p c f).Low := by
  unfold findLML
  split
  · refine Lg.low_bind (low_findRel _ _) fun _ => Lg.low_bind (Lg.low_lift _) fun b => ?_
    split
    · exact Lg.low_pure _
    · split
      · exact Lg.low_raise _
      · exact Lg.low_pure _
  · exact Lg.low_pure _

theorem low_findMR (p : ParsedPattern) (c : Option Criteria) (f : FindPre) : (findMRL p c f).Low := by
  unfold findMRL
  split
  · refine Lg.low_bind (low_findRel _ _) fun _ => Lg.low_bind (Lg.low_lift _) fun b => ?_
    split
    · split
      · exact Lg.low_raise _
      · exact Lg.low_pure _
    · split
      · exact Lg.low_raise _
      · exact Lg.low_pure _
  · exact Lg.low_pure _

theorem low_processParsedFind (pf : ParsedFind) (c : Option Criteria) : (processParsedFindL pf c).Low := by
  unfold processParsedFindL
  split
  · exact Lg.low_raise _
  · exact Lg.low_bind (low_findNode _ _) fun _ => Lg.low_bind (low_findMiddle _ _ _) fun _ => Lg.low_bind (low_findRight _ _ _) fun _ =>
      Lg.low_bind (low_findLM _ _ _) fun _ => low_findMR _ _ _

theorem low_executeMakes (env : Env) (g : GPath) (m : Option (List ParsedMake)) : (executeMakesL env g m).Low := by
  unfold executeMakesL
  split
  · exact low_make _ _ _
  · exact Lg.low_pure _

/-! ### Loading an index -/

theorem lg_bind_prog {α β : Type} (s : Lg α) (f : α → Lg β) : (s >>= f).prog = s.prog >>= fun x => match x with
    | (.ok a, out) => (f a).prog >>= fun y => pure (y.1, out ++ y.2)
    | (.error e, out) => pure (.error e, out) := rfl

theorem lg_try_prog {α : Type} (s : Lg α) (h : PyErr → Lg α) : (s.tryCatch h).prog = s.prog >>= fun x => match x with
    | (.ok a, out) => pure (.ok a, out)
    | (.error e, out) => (h e).prog >>= fun y => pure (y.1, out ++ y.2) := rfl

theorem lg_put_run (e : LogEntry) (fs : FS) : (Lg.put e).prog.run fs = (.ok (.ok (), [e]), fs) := rfl

theorem lg_raise_run {α : Type} (e : PyErr) (fs : FS) : (Lg.raise e : Lg α).prog.run fs = (.ok (.error e, []), fs) := rfl

theorem prog_pure_run {α : Type} (a : α) (fs : FS) : (pure a : Prog α).run fs = (.ok a, fs) := rfl

/-- The entry of a failed attempt to read an index. -/
theorem loadIndex_unreadable {fs : FS} {p : Path} (name : Str) (h : Unreadable fs p) :
    (loadIndexSetL p name).logs fs = [told (c!"Attempting to loading " ++ name ++ c!" indexes"),
      warned (c!"Empty " ++ name ++ c!" indexes, returning a new one")] := by
  obtain ⟨t, h1, h2⟩ := h
  simp [Lg.logs, loadIndexSetL, logInfo, logException, lg_bind_prog, lg_try_prog, run_bind, lg_lift_run, lg_put_run, lg_raise_run, lg_pure_run,
    prog_pure_run, run_readFile_some h1, run_liftE, loads_none h2, told, warned]

theorem loadIndex_seen (p : Path) (name : Str) (fs : FS) :
    (Unreadable fs p → visible SHELL_LEVEL ((loadIndexSetL p name).logs fs) = [warned (c!"Empty " ++ name ++ c!" indexes, returning a new one")]) ∧
      (¬ Unreadable fs p → visible SHELL_LEVEL ((loadIndexSetL p name).logs fs) = []) := by
  refine ⟨fun h => by rw [loadIndex_unreadable name h]; rfl, fun h => ?_⟩
  cases h1 : fs.get p with
  | none =>
    simp [Lg.logs, loadIndexSetL, logInfo, logException, lg_bind_prog, lg_try_prog, run_bind, lg_lift_run, lg_put_run, lg_raise_run, lg_pure_run,
      prog_pure_run, run_readFile_none h1, run_liftE, visible, SHELL_LEVEL, Level.num]
  | some t =>
    cases h2 : jsonLoad t with
    | none => exact absurd ⟨t, h1, h2⟩ h
    | some v =>
      have hg : ∀ e, getItem v name = .error e → e ≠ .jsonDecode := by
        intro e he
        unfold getItem at he
        intro hx
        subst hx
        split at he
        · split at he <;> simp at he
        all_goals simp at he
      have hs : ∀ v : V, ∀ e, pySet v = .error e → e ≠ .jsonDecode := by
        intro v e he hx
        subst hx
        unfold pySet at he
        split at he
        · split at he <;> simp at he
        all_goals simp at he
      cases h3 : getItem v name with
      | error e =>
        simp [Lg.logs, loadIndexSetL, logInfo, logException, lg_bind_prog, lg_try_prog, run_bind, lg_lift_run, lg_put_run, lg_raise_run, lg_pure_run,
          prog_pure_run, run_readFile_some h1, run_liftE, loads_some h2, h3, hg e h3, visible, SHELL_LEVEL, Level.num]
      | ok w =>
        cases h4 : pySet w with
        | error e =>
          simp [Lg.logs, loadIndexSetL, logInfo, logException, lg_bind_prog, lg_try_prog, run_bind, lg_lift_run, lg_put_run, lg_raise_run, lg_pure_run,
            prog_pure_run, run_readFile_some h1, run_liftE, loads_some h2, h3, h4, hs w e h4, visible, SHELL_LEVEL, Level.num]
        | ok s =>
          simp [Lg.logs, loadIndexSetL, logInfo, logException, lg_bind_prog, lg_try_prog, run_bind, lg_lift_run, lg_put_run, lg_raise_run, lg_pure_run,
            prog_pure_run, run_readFile_some h1, run_liftE, loads_some h2, h3, h4, visible, SHELL_LEVEL, Level.num]

theorem shortCircuit_seen (f : FindPre) (g : GPath) (fs : FS) :
    (Unreadable fs g.idx → visible SHELL_LEVEL ((findShortCircuitL f g).logs fs) = indexWarnings) ∧
      (¬ Unreadable fs g.idx → visible SHELL_LEVEL ((findShortCircuitL f g).logs fs) = []) := by
  have tail : ∀ (l n : List V), Lg.Agrees (if ¬ nodeLabelIsInIndex f.labels l = true then pure false
      else if relationshipNameIsInIndex f.relNames n = true then pure false else pure true)
      (if ¬ nodeLabelIsInIndex f.labels l = true then pure false
      else if relationshipNameIsInIndex f.relNames n = true then pure false else pure true) := by
    intro l n
    split
    · exact Lg.agrees_pure _
    · split <;> exact Lg.agrees_pure _
  have none : ∀ (l n : List V) (fs : FS), Lg.logs (if ¬ nodeLabelIsInIndex f.labels l = true then pure false
      else if relationshipNameIsInIndex f.relNames n = true then pure false else pure true) fs = [] := by
    intro l n fs
    split
    · rfl
    · split <;> rfl
  unfold findShortCircuitL
  rw [logs_bind (agreesL_loadIndexSet _ _) (k := fun l => loadIndexSet g.idx RELATIONSHIP_NAMES_INDEX_NAME >>= fun n =>
    if ¬ nodeLabelIsInIndex f.labels l = true then pure false
      else if relationshipNameIsInIndex f.relNames n = true then pure false else pure true)
    fun l => Lg.agrees_bind (agreesL_loadIndexSet _ _) fun n => tail l n]
  have h2 : ∀ l fs, Lg.logs (loadIndexSetL g.idx RELATIONSHIP_NAMES_INDEX_NAME >>= fun n =>
      if ¬ nodeLabelIsInIndex f.labels l = true then pure false
      else if relationshipNameIsInIndex f.relNames n = true then pure false else pure true) fs =
      (loadIndexSetL g.idx RELATIONSHIP_NAMES_INDEX_NAME).logs fs := by
    intro l fs
    rw [logs_bind (agreesL_loadIndexSet _ _) (tail l)]
    simp only [none]
    split <;> simp
  simp only [h2]
  obtain ⟨a1, a2⟩ := loadIndex_seen g.idx NODE_LABELS_INDEX_NAME fs
  obtain ⟨b1, b2⟩ := loadIndex_seen g.idx RELATIONSHIP_NAMES_INDEX_NAME fs
  rcases loadSet_outcome g.idx NODE_LABELS_INDEX_NAME fs with ⟨e, h, hn, hr⟩ | ⟨h, hr⟩ | ⟨v, s, h, -, hr, -⟩
  · rw [hr]
    simp only [List.append_nil]
    refine ⟨fun hu => ?_, a2⟩
    obtain ⟨t, t1, t2⟩ := hu
    have := (loadSet_outcome g.idx NODE_LABELS_INDEX_NAME fs)
    exfalso
    have hr' : (loadIndexSet g.idx NODE_LABELS_INDEX_NAME).run fs = (.ok [], fs) := by
      unfold loadIndexSet
      rw [run_tryCatch, run_bind, run_readFile_some t1]
      simp only
      rw [run_bind, loads_none t2]
      rfl
    rw [hr] at hr'
    cases hr'
  · rw [hr]
    simp only [visible_append]
    exact ⟨fun hu => by rw [a1 hu, b1 hu]; rfl, fun hu => absurd h hu⟩
  · rw [hr]
    simp only [visible_append]
    exact ⟨fun hu => by rw [a1 hu, b1 hu]; rfl, fun hu => by rw [a2 hu, b2 hu]; rfl⟩

/-! ### Queries -/

theorem find_seen (f : ParsedFind) (g : GPath) (fs : FS) :
    visible SHELL_LEVEL ((findL f g none).logs fs) = match processParsedFind f none with
      | .error _ => []
      | .ok fp => visible SHELL_LEVEL ((findShortCircuitL fp g).logs fs) := by
  unfold findL
  have tail : ∀ b : Bool, Lg.Agrees (if ¬ b = true then pure Found.noResults else pure .placeholder)
      (if ¬ b = true then pure Found.noResults else pure .placeholder) := by
    intro b
    split <;> exact Lg.agrees_pure _
  rw [logs_bind (does_processParsedFind _ _) (k := fun f => findShortCircuit f g >>= fun b =>
    if ¬ b = true then pure Found.noResults else pure .placeholder) fun fp => Lg.agrees_bind (agreesL_shortCircuit _ _) tail,
    visible_append, (low_processParsedFind f none).unseen, run_liftE, List.nil_append]
  cases processParsedFind f none with
  | error e => rfl
  | ok fp =>
    simp only
    rw [logs_bind (agreesL_shortCircuit _ _) tail]
    have none : ∀ (b : Bool) fs, Lg.logs (if ¬ b = true then pure Found.noResults else pure .placeholder) fs = [] := by
      intro b fs
      split <;> rfl
    simp only [none]
    cases (findShortCircuit fp g).run fs with
    | mk r fs' => cases r <;> simp

theorem query_seen (env : Env) (q : Str) (g : GPath) (fs : FS) :
    visible SHELL_LEVEL ((queryL env q g).logs fs) = match parseQueryString q with
      | .error _ => []
      | .ok p => match (executeMakes env g p.make).run fs with
        | (.error _, _) => []
        | (.ok _, fs') => match p.find with
          | none => []
          | some f => visible SHELL_LEVEL ((findL f g none).logs fs') := by
  unfold queryL
  simp only [Bool.and_false, Bool.false_eq_true, if_false]
  rw [logs_bind (Lg.agrees_lift _) (k := fun p => executeQuery env p g >>= fun _ => pure true)
    (fun p => Lg.agrees_bind (agreesL_execute env p g) fun _ => Lg.agrees_pure _), logs_lift, run_liftE, List.nil_append]
  cases parseQueryString q with
  | error e => rfl
  | ok p =>
    simp only
    rw [logs_bind_silent (agreesL_execute env p g) (k := fun _ => pure true) (fun _ => Lg.agrees_pure _) fun _ _ => rfl]
    unfold executeQueryL
    rw [logs_bind (agreesL_executeMakes env g p.make) (k := fun _ => match p.find with
      | none => .raise .exception
      | some f => find f g none >>= fun found => executeReport found g p.report >>= fun _ => pure true) (fun _ => by
        cases p.find with
        | none => exact Lg.agrees_raise _
        | some f => exact Lg.agrees_bind (agreesL_find _ _ _) fun _ => Lg.agrees_bind (Lg.agrees_lift _) fun _ => Lg.agrees_pure _),
      visible_append, (low_executeMakes env g p.make).unseen, List.nil_append]
    cases (executeMakes env g p.make).run fs with
    | mk r fs1 =>
      cases r with
      | error e => rfl
      | ok b =>
        simp only
        cases p.find with
        | none => rfl
        | some f =>
          simp only
          rw [logs_bind_silent (agreesL_find f g none) (k := fun found => executeReport found g p.report >>= fun _ => pure true)
            (fun _ => Lg.agrees_bind (Lg.agrees_lift _) fun _ => Lg.agrees_pure _) fun a fs' => by
              rw [logs_bind_silent (Lg.agrees_lift _) (k := fun _ => pure true) (fun _ => Lg.agrees_pure _) fun _ _ => rfl, logs_lift]]

/-! ### MAKE and the index -/

/-- MAKE on an index that is not JSON raises and leaves the index alone. -/
theorem make_unreadable {env : Env} {fs : FS} {g : GPath} (ms : List ParsedMake) (hg : g.db ≠ g.idx) (h : Unreadable fs g.idx) :
    (∃ e, ((make env ms g).run fs).1 = .error e) ∧ Unreadable ((make env ms g).run fs).2 g.idx := by
  obtain ⟨t, h1, h2⟩ := id h
  rcases counter_cases g.wn fs with ⟨n, hn⟩ | ⟨e, he⟩
  · rw [run_make_counter hn]
    by_cases hok : MakeOK ms
    · rw [afterCounter_ok hok]
      unfold commit
      have f1 := run_only (q := g.idx) (only_addItem g.db (dbBatch env n (patsOf ms))) (by simpa using Ne.symm hg) fs
      rw [run_bind]
      cases h3 : (addItemToDatabase g.db (dbBatch env n (patsOf ms))).run fs with
      | mk r fs1 =>
        rw [h3] at f1
        have h4 : fs1.get g.idx = some t := f1.trans h1
        cases r with
        | error e => exact ⟨⟨_, rfl⟩, ⟨t, h4, h2⟩⟩
        | ok b =>
          simp only
          rw [run_bind_err (run_addRelIndex_bad h4 h2)]
          exact ⟨⟨_, rfl⟩, ⟨t, h4, h2⟩⟩
    · obtain ⟨e, he⟩ := afterCounter_bad (env := env) (g := g) (n := n) hok
      rw [he]
      exact ⟨⟨e, rfl⟩, h⟩
  · rw [run_make_noCounter he]
    exact ⟨⟨e, rfl⟩, h⟩

/-- After a MAKE that ended normally the index is JSON. -/
theorem make_ok_readable {env : Env} {fs fs' : FS} {g : GPath} {ms : List ParsedMake} {b : Bool} (hw : g.wn ≠ g.idx)
    (h : (make env ms g).run fs = (.ok b, fs')) : ¬ Unreadable fs' g.idx := by
  have step : ∀ {α β : Type} {p : Prog α} {k : α → Prog β} {fs : FS} {b : β} {fs' : FS}, (p >>= k).run fs = (.ok b, fs') →
      ∃ a fs1, p.run fs = (.ok a, fs1) ∧ (k a).run fs1 = (.ok b, fs') := by
    intro α β p k fs b fs' h
    rw [run_bind] at h
    cases hp : p.run fs with
    | mk r fs1 =>
      rw [hp] at h
      cases r with
      | error e => cases h
      | ok a => exact ⟨a, fs1, rfl, h⟩
  unfold make at h
  obtain ⟨n, fs1, -, h⟩ := step h
  obtain ⟨r, fs2, -, h⟩ := step h
  obtain ⟨nodes, fs3, -, h⟩ := step h
  obtain ⟨_, fs4, -, h⟩ := step h
  obtain ⟨_, fs5, hi, h⟩ := step h
  obtain ⟨_, fs6, hu, h⟩ := step h
  cases h
  unfold addIndexes at hi
  obtain ⟨_, fs7, -, hi⟩ := step hi
  obtain ⟨_, fs8, -, hi⟩ := step hi
  obtain ⟨_, fs9, ha, hi⟩ := step hi
  cases hi
  have h5 : ∃ d, Holds fs5 g.idx d := by
    rcases addSet_outcome env.ord g.idx (r.2.flatMap (·.relNames)) RELATIONSHIP_NAMES_INDEX_NAME fs8 with ⟨e', -, hr⟩ | ⟨d, v, l, f', -, -, -, hr, h4, -⟩
    · rw [show addItemsToRelationshipNamesIndex env.ord g.idx (r.2.flatMap (·.relNames)) = addItemsSetToIndex env.ord g.idx
        (r.2.flatMap (·.relNames)) RELATIONSHIP_NAMES_INDEX_NAME from rfl, hr] at ha
      cases ha
    · rw [show addItemsToRelationshipNamesIndex env.ord g.idx (r.2.flatMap (·.relNames)) = addItemsSetToIndex env.ord g.idx
        (r.2.flatMap (·.relNames)) RELATIONSHIP_NAMES_INDEX_NAME from rfl, hr] at ha
      cases ha
      exact ⟨_, h4⟩
  obtain ⟨d, t, t1, t2⟩ := h5
  have h6 := run_only (q := g.idx) (only_updateCounter g.wn r.1) (by simpa using Ne.symm hw) fs5
  rw [hu] at h6
  rintro ⟨t', u1, u2⟩
  rw [show fs'.get g.idx = fs5.get g.idx from h6, t1] at u1
  cases u1
  rw [t2] at u2
  cases u2

end WG
