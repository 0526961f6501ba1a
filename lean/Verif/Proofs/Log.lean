/-
Logging does not change what is done; and what is logged.
-/
import Verif.Spec.Log
import Verif.Proofs.Files

set_option linter.unusedSectionVars false
set_option linter.unusedSimpArgs false

namespace WG

variable [PyRuntime]

/-! ### Programs that log -/

section
variable {α β : Type}

theorem Lg.agrees_of {s : Lg α} {p : Prog α} (h : ∀ fs, ∃ out, s.prog.run fs = (.ok ((p.run fs).1, out), (p.run fs).2)) :
    s.Agrees p := by
  intro fs
  obtain ⟨out, h⟩ := h fs
  rw [h]
  simp [Lg.logs, h]

theorem Lg.logs_of {s : Lg α} {fs fs' : FS} {x : Except PyErr α} {out : List LogEntry} (h : s.prog.run fs = (.ok (x, out), fs')) :
    s.logs fs = out := by simp [Lg.logs, h]

theorem lg_pure_run (a : α) (fs : FS) : (pure a : Lg α).prog.run fs = (.ok (.ok a, []), fs) := rfl

theorem lg_lift_run (p : Prog α) (fs : FS) : (Lg.lift p).prog.run fs = (.ok ((p.run fs).1, []), (p.run fs).2) := by
  simp only [Lg.lift, run_tryCatch, run_bind]
  cases p.run fs with
  | mk r fs' => cases r <;> rfl

theorem lg_bind_run_ok {s : Lg α} {f : α → Lg β} {fs fs' : FS} {a : α} {out : List LogEntry} (h : s.prog.run fs = (.ok (.ok a, out), fs'))
    {y : Except PyErr β} {out' : List LogEntry} {fs'' : FS} (h' : (f a).prog.run fs' = (.ok (y, out'), fs'')) :
    (s >>= f).prog.run fs = (.ok (y, out ++ out'), fs'') := by
  show ((s.prog >>= _).run fs) = _
  rw [run_bind_ok h]
  simp only
  rw [run_bind_ok h']
  rfl

theorem lg_bind_run_err {s : Lg α} {f : α → Lg β} {fs fs' : FS} {e : PyErr} {out : List LogEntry}
    (h : s.prog.run fs = (.ok (.error e, out), fs')) : (s >>= f).prog.run fs = (.ok (.error e, out), fs') := by
  show ((s.prog >>= _).run fs) = _
  rw [run_bind_ok h]
  rfl

theorem lg_try_run_ok {s : Lg α} {f : PyErr → Lg α} {fs fs' : FS} {a : α} {out : List LogEntry} (h : s.prog.run fs = (.ok (.ok a, out), fs')) :
    (s.tryCatch f).prog.run fs = (.ok (.ok a, out), fs') := by
  show ((s.prog >>= _).run fs) = _
  rw [run_bind_ok h]
  rfl

theorem lg_try_run_err {s : Lg α} {f : PyErr → Lg α} {fs fs' : FS} {e : PyErr} {out : List LogEntry}
    (h : s.prog.run fs = (.ok (.error e, out), fs')) {y : Except PyErr α} {out' : List LogEntry} {fs'' : FS}
    (h' : (f e).prog.run fs' = (.ok (y, out'), fs'')) : (s.tryCatch f).prog.run fs = (.ok (y, out ++ out'), fs'') := by
  show ((s.prog >>= _).run fs) = _
  rw [run_bind_ok h]
  simp only
  rw [run_bind_ok h']
  rfl

theorem Lg.agrees_pure (a : α) : (pure a : Lg α).Agrees (pure a) := Lg.agrees_of fun _ => ⟨[], rfl⟩

theorem Lg.agrees_raise (e : PyErr) : (Lg.raise e : Lg α).Agrees (.raise e) := Lg.agrees_of fun _ => ⟨[], rfl⟩

theorem Lg.agrees_lift (p : Prog α) : (Lg.lift p).Agrees p := Lg.agrees_of fun fs => ⟨[], lg_lift_run p fs⟩

theorem Lg.agrees_bind {s : Lg α} {p : Prog α} {f : α → Lg β} {k : α → Prog β} (h : s.Agrees p) (h' : ∀ a, (f a).Agrees (k a)) :
    (s >>= f).Agrees (p >>= k) := by
  refine Lg.agrees_of fun fs => ?_
  have h1 := h fs
  rw [run_bind]
  cases hp : p.run fs with
  | mk r fs1 =>
    rw [hp] at h1
    cases r with
    | error e => exact ⟨_, lg_bind_run_err h1⟩
    | ok a => exact ⟨_, lg_bind_run_ok h1 (h' a fs1)⟩

theorem Lg.agrees_put {x : LogEntry} {f : Unit → Lg β} {p : Prog β} (h : (f ()).Agrees p) : (Lg.put x >>= f).Agrees p :=
  Lg.agrees_of fun fs => ⟨_, lg_bind_run_ok (s := Lg.put x) (fs' := fs) (a := ()) (out := [x]) rfl (h fs)⟩

theorem Lg.agrees_try {s : Lg α} {p : Prog α} {f : PyErr → Lg α} {k : PyErr → Prog α} (h : s.Agrees p) (h' : ∀ e, (f e).Agrees (k e)) :
    (s.tryCatch f).Agrees (p.tryCatch k) := by
  refine Lg.agrees_of fun fs => ?_
  have h1 := h fs
  rw [run_tryCatch]
  cases hp : p.run fs with
  | mk r fs1 =>
    rw [hp] at h1
    cases r with
    | error e => exact ⟨_, lg_try_run_err h1 (h' e fs1)⟩
    | ok a => exact ⟨_, lg_try_run_ok h1⟩

theorem Lg.Agrees.out {s : Lg α} {p : Prog α} (h : s.Agrees p) {fs fs' : FS} {r : Except PyErr α} (e : p.run fs = (r, fs')) :
    s.prog.run fs = (.ok (r, s.logs fs), fs') := by
  have := h fs
  rw [e] at this
  exact this

theorem Lg.Agrees.run_congr {s : Lg α} {p p' : Prog α} (h : s.Agrees p) (e : ∀ fs, p.run fs = p'.run fs) : s.Agrees p' := by
  intro fs
  rw [← e]
  exact h fs

theorem logs_bind {s : Lg α} {p : Prog α} {f : α → Lg β} {k : α → Prog β} (h : s.Agrees p) (h' : ∀ a, (f a).Agrees (k a)) (fs : FS) :
    (s >>= f).logs fs = s.logs fs ++ match p.run fs with
      | (.ok a, fs') => (f a).logs fs'
      | (.error _, _) => [] := by
  cases hp : p.run fs with
  | mk r fs1 =>
    cases r with
    | error e => rw [Lg.logs_of (lg_bind_run_err (h.out hp))]; simp
    | ok a => rw [Lg.logs_of (lg_bind_run_ok (h.out hp) (h' a fs1))]

theorem logs_try {s : Lg α} {p : Prog α} {f : PyErr → Lg α} {k : PyErr → Prog α} (h : s.Agrees p) (h' : ∀ e, (f e).Agrees (k e)) (fs : FS) :
    (s.tryCatch f).logs fs = s.logs fs ++ match p.run fs with
      | (.ok _, _) => []
      | (.error e, fs') => (f e).logs fs' := by
  cases hp : p.run fs with
  | mk r fs1 =>
    cases r with
    | error e => rw [Lg.logs_of (lg_try_run_err (h.out hp) (h' e fs1))]
    | ok a => rw [Lg.logs_of (lg_try_run_ok (h.out hp))]; simp

theorem logs_pure (a : α) (fs : FS) : (pure a : Lg α).logs fs = [] := rfl

theorem logs_raise (e : PyErr) (fs : FS) : (Lg.raise e : Lg α).logs fs = [] := rfl

theorem logs_lift (p : Prog α) (fs : FS) : (Lg.lift p).logs fs = [] := Lg.logs_of (lg_lift_run p fs)

theorem logs_put {x : LogEntry} {f : Unit → Lg β} {p : Prog β} (h : (f ()).Agrees p) (fs : FS) :
    (Lg.put x >>= f).logs fs = x :: (f ()).logs fs :=
  Lg.logs_of (lg_bind_run_ok (s := Lg.put x) (fs' := fs) (a := ()) (out := [x]) rfl (h fs))

/-! ### A program is known by its runs: `liftE` and `>>=` -/

/-- `s` does what the pure computation `x` does. -/
abbrev Lg.Does (s : Lg α) (x : Except PyErr α) : Prop := s.Agrees (liftE x)

theorem Lg.does_pure (a : α) : (pure a : Lg α).Does (.ok a) := Lg.agrees_of fun _ => ⟨[], rfl⟩

theorem Lg.does_raise (e : PyErr) : (Lg.raise e : Lg α).Does (.error e) := Lg.agrees_of fun _ => ⟨[], rfl⟩

theorem Lg.does_lift (x : Except PyErr α) : (Lg.lift (liftE x)).Does x := Lg.agrees_lift _

theorem Lg.does_bind {s : Lg α} {x : Except PyErr α} {f : α → Lg β} {y : Except PyErr β} (h : s.Does x)
    (h' : ∀ a, x = .ok a → (f a).Does y) (he : ∀ e, x = .error e → y = .error e) : (s >>= f).Does y := by
  refine Lg.agrees_of fun fs => ?_
  cases x with
  | error e => rw [he e rfl]; exact ⟨_, lg_bind_run_err (h fs)⟩
  | ok a => exact ⟨_, lg_bind_run_ok (h fs) (h' a rfl fs)⟩

theorem Lg.does_put {x : LogEntry} {f : Unit → Lg β} {y : Except PyErr β} (h : (f ()).Does y) : (Lg.put x >>= f).Does y :=
  Lg.agrees_put h

end

/-! ### The same behaviour -/

theorem agreesL_loadDatabase (p : Path) : (loadDatabaseL p).Agrees (loadDatabase p) := by
  unfold loadDatabaseL loadDatabase logInfo
  refine Lg.agrees_put (Lg.agrees_try (Lg.Agrees.run_congr (p := readFile p >>= fun t => liftE (loads t) >>= fun d => pure d)
    (Lg.agrees_bind (Lg.agrees_lift _) fun _ => Lg.agrees_bind (Lg.agrees_lift _) fun _ => Lg.agrees_put (Lg.agrees_pure _)) ?_)
    fun e => ?_)
  · intro fs
    rw [run_bind, run_bind]
    cases (readFile p).run fs with
    | mk r fs' =>
      cases r with
      | error e => rfl
      | ok t =>
        simp only
        cases loads t <;> rfl
  · split
    · exact Lg.agrees_put (Lg.agrees_pure _)
    · exact Lg.agrees_raise _

theorem agreesL_add (p : Path) (items : List (Str × V)) : (addItemToDatabaseL p items).Agrees (addItemToDatabase p items) := by
  unfold addItemToDatabaseL addItemToDatabase logInfo
  exact Lg.agrees_bind (Lg.agrees_lift _) fun _ => Lg.agrees_bind (Lg.agrees_lift _) fun _ => Lg.agrees_put <|
    Lg.agrees_bind (Lg.agrees_lift _) fun _ => Lg.agrees_bind (Lg.agrees_lift _) fun _ => Lg.agrees_put (Lg.agrees_pure _)

theorem agreesL_wipeDatabase (p : Path) (b : Bool) : (wipeDatabaseL p b).Agrees (wipeDatabase p b) := by
  unfold wipeDatabaseL wipeDatabase logInfo logDebug
  cases b
  · exact Lg.agrees_put (Lg.agrees_pure _)
  · exact Lg.agrees_put <| Lg.agrees_bind (Lg.agrees_lift _) fun _ => Lg.agrees_bind (Lg.agrees_lift _) fun _ =>
      Lg.agrees_bind (Lg.agrees_lift _) fun _ => Lg.agrees_put (Lg.agrees_pure _)

theorem agreesL_loadIndexSet (p : Path) (name : Str) : (loadIndexSetL p name).Agrees (loadIndexSet p name) := by
  unfold loadIndexSetL loadIndexSet logInfo
  refine Lg.agrees_put (Lg.agrees_try (Lg.agrees_bind (Lg.agrees_lift _) fun _ => Lg.agrees_bind (Lg.agrees_lift _) fun _ =>
    Lg.agrees_bind (Lg.agrees_lift _) fun _ => Lg.agrees_put (Lg.agrees_lift _)) fun e => ?_)
  split
  · exact Lg.agrees_put (Lg.agrees_pure _)
  · exact Lg.agrees_raise _

theorem agreesL_wipeIndexSet (p : Path) (name : Str) (b : Bool) : (wipeIndexSetL p name b).Agrees (wipeIndexSet p name b) := by
  unfold wipeIndexSetL wipeIndexSet wipeIndexWith logInfo logDebug
  cases b
  · exact Lg.agrees_put (Lg.agrees_pure _)
  · exact Lg.agrees_put <| Lg.agrees_bind (Lg.agrees_lift _) fun _ => Lg.agrees_bind (Lg.agrees_lift _) fun _ =>
      Lg.agrees_bind (Lg.agrees_lift _) fun _ => Lg.agrees_bind (Lg.agrees_lift _) fun _ =>
      Lg.agrees_bind (Lg.agrees_lift _) fun _ => Lg.agrees_put (Lg.agrees_pure _)

theorem agreesL_loadNodeRel (p : Path) : (loadNodeRelationshipsIndexL p).Agrees (loadNodeRelationshipsIndex p) := by
  unfold loadNodeRelationshipsIndexL loadNodeRelationshipsIndex logInfo
  refine Lg.agrees_put (Lg.agrees_try (Lg.agrees_bind (Lg.agrees_lift _) fun _ => Lg.agrees_bind (Lg.agrees_lift _) fun _ =>
    Lg.agrees_bind (Lg.agrees_lift _) fun v => Lg.agrees_put ?_) fun e => ?_)
  · cases v <;> first | exact Lg.agrees_lift _ | exact Lg.agrees_raise _
  split
  · exact Lg.agrees_put (Lg.agrees_pure _)
  · exact Lg.agrees_raise _

theorem agreesL_wipeNodeRel (p : Path) (b : Bool) : (wipeNodeRelationshipsIndexL p b).Agrees (wipeNodeRelationshipsIndex p b) := by
  unfold wipeNodeRelationshipsIndexL wipeNodeRelationshipsIndex wipeIndexWith logInfo logDebug
  cases b
  · exact Lg.agrees_put (Lg.agrees_pure _)
  · exact Lg.agrees_put <| Lg.agrees_bind (Lg.agrees_lift _) fun _ => Lg.agrees_bind (Lg.agrees_lift _) fun _ =>
      Lg.agrees_bind (Lg.agrees_lift _) fun _ => Lg.agrees_bind (Lg.agrees_lift _) fun _ =>
      Lg.agrees_bind (Lg.agrees_lift _) fun _ => Lg.agrees_put (Lg.agrees_pure _)

theorem agreesL_counter (p : Path) : (getCurrentWiggleNumberL p).Agrees (getCurrentWiggleNumber p) := by
  unfold getCurrentWiggleNumberL getCurrentWiggleNumber logInfo logDebug
  refine Lg.agrees_put (Lg.agrees_bind (Lg.agrees_lift _) fun s => ?_)
  split
  · exact Lg.agrees_raise _
  · refine Lg.agrees_put ?_
    cases pyInt s with
    | some n => exact Lg.agrees_put (Lg.agrees_pure _)
    | none => exact Lg.agrees_raise _

theorem agreesL_update (p : Path) (n : Int) : (updateWiggleNumberL p n).Agrees (updateWiggleNumber p n) := by
  unfold updateWiggleNumberL updateWiggleNumber logDebug
  exact Lg.agrees_put <| Lg.agrees_bind (Lg.agrees_lift _) fun _ => Lg.agrees_bind (Lg.agrees_lift _) fun _ =>
    Lg.agrees_put (Lg.agrees_pure _)

theorem does_loggedValue (s : Str) (x : Except PyErr V) : (loggedValue s x).Does x := by
  unfold loggedValue logValue
  refine Lg.does_bind (Lg.does_lift x) (fun a h => ?_) fun e h => h
  rw [h]
  exact Lg.does_put (Lg.does_pure _)

theorem does_handleExtracted (value : Str) (caps : Caps) : (handleExtractedL value caps).Does (handleExtracted value caps) := by
  unfold handleExtractedL handleExtracted
  refine Lg.does_bind (Lg.does_lift _) (fun t h => ?_) fun e h => by rw [h]
  rw [h]
  cases t <;> first | exact does_loggedValue _ _ | exact Lg.does_lift _

theorem does_parseOneProp (caps : Caps) : (parseOnePropL caps).Does (parseOneProp caps) := by
  unfold parseOnePropL parseOneProp
  cases capGet gName caps with
  | none => exact Lg.does_raise _
  | some name =>
    cases capGet gValue caps with
    | none => exact Lg.does_raise _
    | some value =>
      simp only
      split
      · exact Lg.does_raise _
      · refine Lg.does_bind (does_handleExtracted _ _) (fun v h => ?_) fun e h => by rw [h]
        rw [h]
        exact Lg.does_pure _

theorem does_parsePropsLoop (ms : List (Str × Caps)) (d : Dict V) : (parsePropsLoopL ms d).Does (parsePropsLoop ms d) := by
  induction ms generalizing d with
  | nil => exact Lg.does_pure _
  | cons m ms ih =>
    unfold parsePropsLoopL parsePropsLoop
    refine Lg.does_bind (does_parseOneProp _) (fun v h => ?_) fun e h => by rw [h]
    rw [h]
    exact ih _

theorem does_getPropertyDict (s : Option Str) : (getPropertyDictL s).Does (getPropertyDict s) := by
  unfold getPropertyDictL getPropertyDict
  cases s with
  | none => exact Lg.does_pure _
  | some s =>
    simp only
    split
    · exact Lg.does_pure _
    · refine Lg.does_bind (does_parsePropsLoop _ _) (fun v h => ?_) fun e h => by rw [parseProperties, h]
      rw [parseProperties, h]
      exact Lg.does_pure _

theorem does_makeRelationship (r : RelPre) : (makeRelationshipL r).Does (makeRelationship r) := by
  unfold makeRelationshipL makeRelationship
  refine Lg.does_bind (does_getPropertyDict _) (fun v h => ?_) fun e h => by rw [h]
  rw [h]
  simp only
  split
  · exact Lg.does_raise _
  · exact Lg.does_pure _

theorem does_makeRelationships (rs : List RelPre) : (makeRelationshipsL rs).Does (makeRelationships rs) := by
  induction rs with
  | nil => exact Lg.does_pure _
  | cons r rs ih =>
    unfold makeRelationshipsL makeRelationships
    refine Lg.does_bind (does_makeRelationship _) (fun v h => ?_) fun e h => by rw [h]
    rw [h]
    refine Lg.does_bind ih (fun v h => ?_) fun e h => by simp only [h]
    simp only [h]
    exact Lg.does_pure _

theorem does_makeNode (n : NodePre) : (makeNodeL n).Does (makeNode n) := by
  unfold makeNodeL makeNode
  refine Lg.does_bind (does_getPropertyDict _) (fun v h => ?_) fun e h => by rw [h]
  rw [h]
  simp only
  split
  · exact Lg.does_lift _
  · refine Lg.does_bind (does_makeRelationships _) (fun v h => ?_) fun e h => by simp only [h]
    simp only [h]
    exact Lg.does_lift _

theorem does_makeNodes (mp : MakePre) : (makeNodesL mp).Does (makeNodes mp) := by
  unfold makeNodesL makeNodes
  refine Lg.does_bind (does_makeNode _) (fun l h => ?_) fun e h => by rw [h]
  rw [h]
  simp only
  have right : ∀ nodes : List NodeData, Lg.Does (match mp.right with
      | none => pure nodes
      | some _ => makeNodeL mp.left >>= fun r => pure (nodes ++ [r])) (match mp.right with
      | none => .ok nodes
      | some _ => match makeNode mp.left with
        | .error e => .error e
        | .ok r => .ok (nodes ++ [r])) := by
    intro nodes
    cases mp.right with
    | none => exact Lg.does_pure _
    | some _ =>
      refine Lg.does_bind (does_makeNode _) (fun l h => ?_) fun e h => by simp only [h]
      simp only [h]
      exact Lg.does_pure _
  rw [h] at right
  cases mp.middle with
  | none => exact Lg.does_bind (x := .ok [l]) (Lg.does_pure _) (fun a e => by cases e; exact right _) fun e h => nomatch h
  | some m =>
    refine Lg.does_bind (does_makeNode _) (fun m h => ?_) fun e h => by simp only [h]
    simp only [h]
    exact Lg.does_bind (x := .ok [l, m]) (Lg.does_pure _) (fun a e => by cases e; exact right _) fun e h => nomatch h

theorem does_makeAllNodes (mps : List MakePre) : (makeAllNodesL mps).Does (makeAllNodes mps) := by
  induction mps with
  | nil => exact Lg.does_pure _
  | cons r rs ih =>
    unfold makeAllNodesL makeAllNodes
    refine Lg.does_bind (does_makeNodes _) (fun v h => ?_) fun e h => by rw [h]
    rw [h]
    refine Lg.does_bind ih (fun v h => ?_) fun e h => by simp only [h]
    simp only [h]
    exact Lg.does_pure _

theorem agreesL_make (env : Env) (pml : List ParsedMake) (g : GPath) : (makeL env pml g).Agrees (make env pml g) := by
  unfold makeL make
  refine Lg.agrees_bind (agreesL_counter _) fun n => Lg.agrees_bind (Lg.agrees_lift _) fun r =>
    Lg.agrees_bind (does_makeAllNodes _) fun nodes => ?_
  refine Lg.Agrees.run_congr (p := addItemToDatabase g.db (nodesToAdd env nodes) >>= fun _ => addIndexes env nodes r.2 g >>= fun _ =>
    updateWiggleNumber g.wn r.1 >>= fun _ => pure true) ?_ ?_
  · exact Lg.agrees_bind (agreesL_add _ _) fun _ => Lg.agrees_bind (Lg.agrees_lift _) fun _ =>
      Lg.agrees_bind (agreesL_update _ _) fun _ => Lg.agrees_pure _
  · intro fs
    unfold addNodesToGraph
    rw [run_bind, run_bind, run_bind]
    cases (addItemToDatabase g.db (nodesToAdd env nodes)).run fs with
    | mk r fs' => cases r <;> rfl

theorem does_findNode (t : PartText) (c : Option Criteria) : (findNodeL t c).Does (findNode t c) := by
  unfold findNodeL findNode
  refine Lg.does_bind (does_getPropertyDict _) (fun v h => ?_) fun e h => by rw [h]
  rw [h]
  refine Lg.does_bind (Lg.does_lift _) (fun v h => ?_) fun e h => by simp only [h]
  simp only [h]
  exact Lg.does_lift _

theorem does_findMiddle (p : ParsedPattern) (c : Option Criteria) (f : FindPre) : (findMiddleL p c f).Does (findMiddle p c f) := by
  unfold findMiddleL findMiddle
  split
  · refine Lg.does_bind (does_findNode _ _) (fun v h => ?_) fun e h => by rw [h]
    rw [h]
    exact Lg.does_pure _
  · exact Lg.does_pure _

theorem does_findRight (p : ParsedPattern) (c : Option Criteria) (f : FindPre) : (findRightL p c f).Does (findRight p c f) := by
  unfold findRightL findRight
  split
  · refine Lg.does_bind (does_getPropertyDict _) (fun v h => ?_) fun e h => by rw [h]
    rw [h]
    refine Lg.does_bind (Lg.does_lift _) (fun v h => ?_) fun e h => by simp only [h]
    simp only [h]
    refine Lg.does_bind (Lg.does_lift _) (fun v h => ?_) fun e h => by simp only [h]
    simp only [h]
    refine Lg.does_bind (Lg.does_lift _) (fun v h => ?_) fun e h => by simp only [h]
    simp only [h]
    exact Lg.does_pure _
  · exact Lg.does_pure _

theorem does_findRel (t : PartText) (c : Option Criteria) : (findRelL t c).Does (findRel t c) := by
  unfold findRelL findRel
  refine Lg.does_bind (does_getPropertyDict _) (fun v h => ?_) fun e h => by rw [h]
  rw [h]
  exact Lg.does_lift _

theorem does_findLM (p : ParsedPattern) (c : Option Criteria) (f : FindPre) : (findLML p c f).Does (findLM p c f) := by
  unfold findLML findLM
  rcases p.leftMiddle.text with _ | (_ | ⟨ch, cs⟩)
  · exact Lg.does_pure _
  · exact Lg.does_pure _
  · refine Lg.does_bind (does_findRel _ _) (fun v h => ?_) fun e h => by simp only [h]
    simp only [h]
    refine Lg.does_bind (Lg.does_lift _) (fun b h => ?_) fun e h => by simp only [h]
    simp only [h]
    cases b
    · simp only [Bool.false_eq_true, if_false]
      cases f.middle with
      | none => exact Lg.does_raise _
      | some m => exact Lg.does_pure _
    · exact Lg.does_pure _

theorem does_findMR (p : ParsedPattern) (c : Option Criteria) (f : FindPre) : (findMRL p c f).Does (findMR p c f) := by
  unfold findMRL findMR
  rcases p.middleRight.text with _ | (_ | ⟨ch, cs⟩)
  · exact Lg.does_pure _
  · exact Lg.does_pure _
  · refine Lg.does_bind (does_findRel _ _) (fun v h => ?_) fun e h => by simp only [h]
    simp only [h]
    refine Lg.does_bind (Lg.does_lift _) (fun b h => ?_) fun e h => by simp only [h]
    simp only [h]
    cases b
    · simp only [Bool.false_eq_true, if_false]
      cases f.right with
      | none => exact Lg.does_raise _
      | some m => exact Lg.does_pure _
    · simp only [if_true]
      cases f.middle with
      | none => exact Lg.does_raise _
      | some m => exact Lg.does_pure _

theorem does_processParsedFind (pf : ParsedFind) (c : Option Criteria) : (processParsedFindL pf c).Does (processParsedFind pf c) := by
  unfold processParsedFindL processParsedFind
  split
  · exact Lg.does_raise _
  · refine Lg.does_bind (does_findNode _ _) (fun v h => ?_) fun e h => by simp only [h]
    simp only [h]
    refine Lg.does_bind (does_findMiddle _ _ _) (fun v h => ?_) fun e h => by simp only [h]
    simp only [h]
    refine Lg.does_bind (does_findRight _ _ _) (fun v h => ?_) fun e h => by simp only [h]
    simp only [h]
    refine Lg.does_bind (does_findLM _ _ _) (fun v h => ?_) fun e h => by simp only [h]
    simp only [h]
    exact does_findMR _ _ _

theorem agreesL_shortCircuit (f : FindPre) (g : GPath) : (findShortCircuitL f g).Agrees (findShortCircuit f g) := by
  unfold findShortCircuitL findShortCircuit
  refine Lg.agrees_bind (agreesL_loadIndexSet _ _) fun l => Lg.agrees_bind (agreesL_loadIndexSet _ _) fun n => ?_
  split
  · exact Lg.agrees_pure _
  · split <;> exact Lg.agrees_pure _

theorem agreesL_find (pf : ParsedFind) (g : GPath) (c : Option Criteria) : (findL pf g c).Agrees (find pf g c) := by
  unfold findL find
  refine Lg.agrees_bind (does_processParsedFind _ _) fun f => Lg.agrees_bind (agreesL_shortCircuit _ _) fun b => ?_
  split <;> exact Lg.agrees_pure _

theorem agreesL_executeMakes (env : Env) (g : GPath) (m : Option (List ParsedMake)) : (executeMakesL env g m).Agrees (executeMakes env g m) := by
  unfold executeMakesL executeMakes
  rcases m with _ | (_ | ⟨m, ms⟩)
  · exact Lg.agrees_pure _
  · exact Lg.agrees_pure _
  · exact agreesL_make _ _ _

theorem agreesL_execute (env : Env) (q : ParsedQuery) (g : GPath) : (executeQueryL env q g).Agrees (executeQuery env q g) := by
  unfold executeQueryL executeQuery
  refine Lg.agrees_bind (agreesL_executeMakes _ _ _) fun _ => ?_
  cases q.find with
  | none => exact Lg.agrees_raise _
  | some f => exact Lg.agrees_bind (agreesL_find _ _ _) fun _ => Lg.agrees_bind (Lg.agrees_lift _) fun _ => Lg.agrees_pure _

theorem agreesL_query (env : Env) (q : Str) (g : GPath) : (queryL env q g).Agrees (query env q g) := by
  unfold queryL query
  split
  · exact Lg.agrees_raise _
  · exact Lg.agrees_bind (Lg.agrees_lift _) fun _ => Lg.agrees_bind (agreesL_execute _ _ _) fun _ => Lg.agrees_pure _

theorem agreesL_shell (env : Env) (g : GPath) (inputs : List Str) : (shellLoopL env g inputs).Agrees (shellLoop env g inputs) := by
  induction inputs with
  | nil => exact Lg.agrees_pure _
  | cons q rest ih =>
    unfold shellLoopL shellLoop
    split
    · exact Lg.agrees_pure _
    · split
      · exact Lg.agrees_bind ih fun _ => Lg.agrees_pure _
      · exact Lg.agrees_bind (Lg.agrees_try (Lg.agrees_bind (agreesL_query _ _ _) fun _ => Lg.agrees_pure _)
          fun e => Lg.agrees_pure _) fun _ => Lg.agrees_bind ih fun _ => Lg.agrees_pure _

theorem agreesL_start (env : Env) (inputs : List Str) : (startWiggleShellL env inputs).Agrees (startWiggleShell env inputs) := by
  unfold startWiggleShellL startWiggleShell
  refine Lg.agrees_bind (Lg.agrees_lift _) fun c => ?_
  split
  · exact Lg.agrees_pure _
  · exact Lg.agrees_bind (agreesL_shell _ _ _) fun _ => Lg.agrees_pure _

end WG
