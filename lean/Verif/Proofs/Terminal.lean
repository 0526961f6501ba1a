/-
The terminal joins the screen and the log.
-/
import Verif.Spec.Terminal
import Verif.Proofs.Screen
import Verif.Proofs.LogSeen
set_option linter.unusedSectionVars false
set_option linter.unusedSimpArgs false

namespace WG
variable [PyRuntime] {α β : Type}

/-- What is shown. -/
def shownOf (os : List Out) : List Shown := os.filterMap fun o => match o with
  | .shown x => some x
  | .logged _ => none

/-- What is logged. -/
def loggedOf (os : List Out) : List LogEntry := os.filterMap fun o => match o with
  | .shown _ => none
  | .logged x => some x

theorem shownOf_append (a b : List Out) : shownOf (a ++ b) = shownOf a ++ shownOf b := List.filterMap_append
theorem loggedOf_append (a b : List Out) : loggedOf (a ++ b) = loggedOf a ++ loggedOf b := List.filterMap_append

theorem shownOf_shown (l : List Shown) : shownOf (l.map .shown) = l := by
  induction l with
  | nil => rfl
  | cons x l ih => exact congrArg (x :: ·) ih

theorem loggedOf_shown (l : List Shown) : loggedOf (l.map .shown) = [] := by
  induction l with
  | nil => rfl
  | cons x l ih => exact ih

theorem loggedOf_logged (l : List LogEntry) : loggedOf (l.map .logged) = l := by
  induction l with
  | nil => rfl
  | cons x l ih => exact congrArg (x :: ·) ih

theorem shownOf_logged (l : List LogEntry) : shownOf (l.map .logged) = [] := by
  induction l with
  | nil => rfl
  | cons x l ih => exact ih

theorem Term.outs_of {t : Term α} {fs fs' : FS} {x : Except PyErr α} {out : List Out} (h : t.prog.run fs = (.ok (x, out), fs')) :
    t.outs fs = out := by simp [Term.outs, h]

theorem Term.joins_of {t : Term α} {s : Scr α} {l : Lg α} {p : Prog α}
    (h : ∀ fs, ∃ out, t.prog.run fs = (.ok ((p.run fs).1, out), (p.run fs).2) ∧ shownOf out = s.shows fs ∧ loggedOf out = l.logs fs) :
    t.Joins s l p := by
  intro fs
  obtain ⟨out, h1, h2, h3⟩ := h fs
  rw [Term.outs_of h1]
  exact ⟨h1, h2, h3⟩

theorem t_bind_ok {s : Term α} {f : α → Term β} {fs fs' : FS} {a : α} {out : List Out} (h : s.prog.run fs = (.ok (.ok a, out), fs'))
    {y : Except PyErr β} {out' : List Out} {fs'' : FS} (h' : (f a).prog.run fs' = (.ok (y, out'), fs'')) :
    (s >>= f).prog.run fs = (.ok (y, out ++ out'), fs'') := by
  show ((s.prog >>= _).run fs) = _
  rw [run_bind_ok h]
  simp only
  rw [run_bind_ok h']
  rfl

theorem t_bind_err {s : Term α} {f : α → Term β} {fs fs' : FS} {e : PyErr} {out : List Out}
    (h : s.prog.run fs = (.ok (.error e, out), fs')) : (s >>= f).prog.run fs = (.ok (.error e, out), fs') := by
  show ((s.prog >>= _).run fs) = _
  rw [run_bind_ok h]
  rfl

theorem t_try_ok {s : Term α} {f : PyErr → Term α} {fs fs' : FS} {a : α} {out : List Out} (h : s.prog.run fs = (.ok (.ok a, out), fs')) :
    (s.tryCatch f).prog.run fs = (.ok (.ok a, out), fs') := by
  show ((s.prog >>= _).run fs) = _
  rw [run_bind_ok h]
  rfl

theorem t_try_err {s : Term α} {f : PyErr → Term α} {fs fs' : FS} {e : PyErr} {out : List Out}
    (h : s.prog.run fs = (.ok (.error e, out), fs')) {y : Except PyErr α} {out' : List Out} {fs'' : FS}
    (h' : (f e).prog.run fs' = (.ok (y, out'), fs'')) : (s.tryCatch f).prog.run fs = (.ok (y, out ++ out'), fs'') := by
  show ((s.prog >>= _).run fs) = _
  rw [run_bind_ok h]
  simp only
  rw [run_bind_ok h']
  rfl

theorem t_scr_run {s : Scr α} {fs fs' : FS} {r : Except PyErr α} {out : List Shown} (h : s.prog.run fs = (.ok (r, out), fs')) :
    (Term.ofScr s).prog.run fs = (.ok (r, out.map .shown), fs') := by
  show ((s.prog >>= _).run fs) = _
  rw [run_bind_ok h]
  rfl

theorem t_lg_run {s : Lg α} {fs fs' : FS} {r : Except PyErr α} {out : List LogEntry} (h : s.prog.run fs = (.ok (r, out), fs')) :
    (Term.ofLg s).prog.run fs = (.ok (r, out.map .logged), fs') := by
  show ((s.prog >>= _).run fs) = _
  rw [run_bind_ok h]
  rfl

theorem t_put_run {x : Shown} {f : Unit → Term β} {fs fs' : FS} {y : Except PyErr β} {out : List Out}
    (h : (f ()).prog.run fs = (.ok (y, out), fs')) : (putT x >>= f).prog.run fs = (.ok (y, .shown x :: out), fs') :=
  t_bind_ok (t_scr_run (put_run x fs)) h

/-! ### Joining -/

theorem joins_pure (a : α) : (pure a : Term α).Joins (pure a) (pure a) (pure a) := Term.joins_of fun _ => ⟨[], rfl, rfl, rfl⟩

theorem joins_raise (e : PyErr) : (Term.raise e : Term α).Joins (Scr.raise e) (Lg.raise e) (.raise e) :=
  Term.joins_of fun _ => ⟨[], rfl, rfl, rfl⟩

theorem joins_scr {s : Scr α} {p : Prog α} (h : s.Agrees p) : (Term.ofScr s).Joins s (Lg.lift p) p :=
  Term.joins_of fun fs => ⟨_, t_scr_run (h fs), shownOf_shown _, by rw [loggedOf_shown, logs_lift]⟩

theorem joins_lg {l : Lg α} {p : Prog α} (h : l.Agrees p) : (Term.ofLg l).Joins (Scr.lift p) l p :=
  Term.joins_of fun fs => ⟨_, t_lg_run (h fs), by rw [shownOf_logged, shows_lift], loggedOf_logged _⟩

theorem joins_bind {t : Term α} {s : Scr α} {l : Lg α} {p : Prog α} {ft : α → Term β} {fs' : α → Scr β} {fl : α → Lg β} {k : α → Prog β}
    (h : t.Joins s l p) (hs : s.Agrees p) (hl : l.Agrees p) (h' : ∀ a, (ft a).Joins (fs' a) (fl a) (k a))
    (hs' : ∀ a, (fs' a).Agrees (k a)) (hl' : ∀ a, (fl a).Agrees (k a)) : (t >>= ft).Joins (s >>= fs') (l >>= fl) (p >>= k) := by
  refine Term.joins_of fun fs => ?_
  obtain ⟨h1, h2, h3⟩ := h fs
  rw [run_bind, shows_bind hs hs', logs_bind hl hl']
  cases hp : p.run fs with
  | mk r fs1 =>
    rw [hp] at h1
    cases r with
    | error e => exact ⟨_, t_bind_err h1, h2.trans (List.append_nil _).symm, h3.trans (List.append_nil _).symm⟩
    | ok a =>
      obtain ⟨h4, h5, h6⟩ := h' a fs1
      refine ⟨_, t_bind_ok h1 h4, ?_, ?_⟩
      · rw [shownOf_append]
        exact congr (congrArg _ h2) h5
      · rw [loggedOf_append]
        exact congr (congrArg _ h3) h6

theorem joins_put {x : Shown} {ft : Unit → Term β} {fs' : Unit → Scr β} {fl : Lg β} {p : Prog β}
    (h' : (ft ()).Joins (fs' ()) fl p) (hs' : (fs' ()).Agrees p) : (putT x >>= ft).Joins (Scr.put x >>= fs') fl p := by
  refine Term.joins_of fun fs => ?_
  obtain ⟨h4, h5, h6⟩ := h' fs
  refine ⟨_, t_put_run h4, ?_, h6⟩
  rw [shows_put hs', ← h5]
  rfl

theorem joins_try {t : Term α} {s : Scr α} {l : Lg α} {p : Prog α} {ft : PyErr → Term α} {fs' : PyErr → Scr α} {fl : PyErr → Lg α}
    {k : PyErr → Prog α} (h : t.Joins s l p) (hs : s.Agrees p) (hl : l.Agrees p) (h' : ∀ a, (ft a).Joins (fs' a) (fl a) (k a))
    (hs' : ∀ a, (fs' a).Agrees (k a)) (hl' : ∀ a, (fl a).Agrees (k a)) :
    (t.tryCatch ft).Joins (s.tryCatch fs') (l.tryCatch fl) (p.tryCatch k) := by
  refine Term.joins_of fun fs => ?_
  obtain ⟨h1, h2, h3⟩ := h fs
  rw [run_tryCatch, shows_try hs hs', logs_try hl hl']
  cases hp : p.run fs with
  | mk r fs1 =>
    rw [hp] at h1
    cases r with
    | ok a => exact ⟨_, t_try_ok h1, h2.trans (List.append_nil _).symm, h3.trans (List.append_nil _).symm⟩
    | error e =>
      obtain ⟨h4, h5, h6⟩ := h' e fs1
      refine ⟨_, t_try_err h1 h4, ?_, ?_⟩
      · rw [shownOf_append]
        exact congr (congrArg _ h2) h5
      · rw [loggedOf_append]
        exact congr (congrArg _ h3) h6

theorem joins_find (pf : ParsedFind) (g : GPath) (c : Option Criteria) : (findT pf g c).Joins (findS pf g c) (findL pf g c) (find pf g c) := by
  unfold findT findS findL find
  have tS : ∀ b : Bool, Scr.Agrees (if ¬ b = true then (do Scr.put noResultsLine; pure Found.noResults) else pure .placeholder)
      (if ¬ b = true then pure .noResults else pure .placeholder) := by
    intro b
    split
    · exact Scr.agrees_put (Scr.agrees_pure _)
    · exact Scr.agrees_pure _
  have tL : ∀ b : Bool, Lg.Agrees (if ¬ b = true then pure Found.noResults else pure .placeholder)
      (if ¬ b = true then pure .noResults else pure .placeholder) := by
    intro b
    split <;> exact Lg.agrees_pure _
  refine joins_bind (joins_lg (does_processParsedFind _ _)) (Scr.agrees_lift _) (does_processParsedFind _ _) (fun f => ?_)
    (fun f => Scr.agrees_bind (Scr.agrees_lift _) tS) fun f => Lg.agrees_bind (agreesL_shortCircuit _ _) tL
  refine joins_bind (joins_lg (agreesL_shortCircuit _ _)) (Scr.agrees_lift _) (agreesL_shortCircuit _ _) (fun b => ?_) tS tL
  by_cases hb : b = true
  · simp only [hb, not_true_eq_false, if_false]
    exact joins_pure _
  · simp only [hb, if_true]
    exact joins_put (joins_pure _) (Scr.agrees_pure _)

theorem joins_execute (env : Env) (q : ParsedQuery) (g : GPath) :
    (executeQueryT env q g).Joins (executeQueryS env q g) (executeQueryL env q g) (executeQuery env q g) := by
  unfold executeQueryT executeQueryS executeQueryL executeQuery
  cases q.find with
  | none =>
    exact joins_bind (joins_lg (agreesL_executeMakes _ _ _)) (Scr.agrees_lift _) (agreesL_executeMakes _ _ _) (fun _ => joins_raise _)
      (fun _ => Scr.agrees_raise _) fun _ => Lg.agrees_raise _
  | some f =>
    have tS : ∀ found, Scr.Agrees (do let _ ← Scr.lift (executeReport found g q.report); pure true)
        (do let _ ← executeReport found g q.report; pure true) := fun found => Scr.agrees_bind (Scr.agrees_lift _) fun _ => Scr.agrees_pure _
    have tL : ∀ found, Lg.Agrees (do let _ ← Lg.lift (executeReport found g q.report); pure true)
        (do let _ ← executeReport found g q.report; pure true) := fun found => Lg.agrees_bind (Lg.agrees_lift _) fun _ => Lg.agrees_pure _
    exact joins_bind (joins_lg (agreesL_executeMakes _ _ _)) (Scr.agrees_lift _) (agreesL_executeMakes _ _ _)
      (fun _ => joins_bind (joins_find _ _ _) (agrees_find _ _ _) (agreesL_find _ _ _)
        (fun found => joins_bind (joins_lg (Lg.agrees_lift _)) (Scr.agrees_lift _) (Lg.agrees_lift _) (fun _ => joins_pure _)
          (fun _ => Scr.agrees_pure _) fun _ => Lg.agrees_pure _) tS tL)
      (fun _ => Scr.agrees_bind (agrees_find _ _ _) tS) fun _ => Lg.agrees_bind (agreesL_find _ _ _) tL

theorem joins_query (env : Env) (q : Str) (g : GPath) : (queryT env q g).Joins (queryS env q g) (queryL env q g) (query env q g) := by
  unfold queryT queryS queryL query
  simp only [Bool.and_false, Bool.false_eq_true, if_false]
  exact joins_bind (joins_lg (Lg.agrees_lift _)) (Scr.agrees_lift _) (Lg.agrees_lift _)
    (fun p => joins_bind (joins_execute env p g) (agrees_execute _ _ _) (agreesL_execute _ _ _) (fun _ => joins_pure _)
      (fun _ => Scr.agrees_pure _) fun _ => Lg.agrees_pure _)
    (fun p => Scr.agrees_bind (agrees_execute env p g) fun _ => Scr.agrees_pure _)
    fun p => Lg.agrees_bind (agreesL_execute env p g) fun _ => Lg.agrees_pure _

theorem joins_shell (env : Env) (g : GPath) (inputs : List Str) :
    (shellLoopT env g inputs).Joins (shellLoopS env g inputs) (shellLoopL env g inputs) (shellLoop env g inputs) := by
  induction inputs with
  | nil => exact joins_put (joins_pure _) (Scr.agrees_pure _)
  | cons q rest ih =>
    have hS := agrees_shell env g (q :: rest)
    unfold shellLoopT shellLoopS shellLoopL shellLoop
    by_cases hq : q = c!"q"
    · simp only [if_pos hq]
      exact joins_put (joins_put (joins_put (joins_pure _) (Scr.agrees_pure _)) (Scr.agrees_put (Scr.agrees_pure _)))
        (Scr.agrees_put (Scr.agrees_put (Scr.agrees_pure _)))
    · simp only [if_neg hq]
      by_cases hh : isSubstr c!"help" (lower q) = true
      · simp only [if_pos hh]
        have t := Scr.agrees_bind (f := fun l => pure (Event.help :: l)) (agrees_shell env g rest) fun l => Scr.agrees_pure (Event.help :: l)
        exact joins_put (joins_put (joins_put (joins_bind ih (agrees_shell _ _ _) (agreesL_shell _ _ _) (fun _ => joins_pure _)
          (fun _ => Scr.agrees_pure _) fun _ => Lg.agrees_pure _) t) (Scr.agrees_put t)) (Scr.agrees_put (Scr.agrees_put t))
      · simp only [if_neg hh]
        have hb := joins_bind (joins_query env q g) (agrees_query _ _ _) (agreesL_query _ _ _) (ft := fun _ => pure Event.done)
          (fun _ => joins_pure _) (fun _ => Scr.agrees_pure _) fun _ => Lg.agrees_pure _
        have hbS := Scr.agrees_bind (f := fun _ => pure Event.done) (agrees_query env q g) fun _ => Scr.agrees_pure _
        have hbL := Lg.agrees_bind (f := fun _ => pure Event.done) (agreesL_query env q g) fun _ => Lg.agrees_pure _
        have ht := joins_try hb hbS hbL (ft := fun e => putT (.error e) >>= fun _ => pure (Event.failed e))
          (fun e => joins_put (fs' := fun _ => pure (Event.failed e)) (joins_pure _) (Scr.agrees_pure _))
          (fun e => Scr.agrees_put (Scr.agrees_pure _)) fun e => Lg.agrees_pure _
        have htS := Scr.agrees_try hbS (f := fun e => Scr.put (.error e) >>= fun _ => pure (Event.failed e))
          fun e => Scr.agrees_put (Scr.agrees_pure _)
        have htL := Lg.agrees_try hbL (f := fun e => pure (Event.failed e)) fun e => Lg.agrees_pure _
        have tS : ∀ ev : Event, Scr.Agrees (do let l ← shellLoopS env g rest; pure (ev :: l)) (do let l ← shellLoop env g rest; pure (ev :: l)) :=
          fun ev => Scr.agrees_bind (agrees_shell _ _ _) fun _ => Scr.agrees_pure _
        have tL : ∀ ev : Event, Lg.Agrees (do let l ← shellLoopL env g rest; pure (ev :: l)) (do let l ← shellLoop env g rest; pure (ev :: l)) :=
          fun ev => Lg.agrees_bind (agreesL_shell _ _ _) fun _ => Lg.agrees_pure _
        exact joins_put (joins_put (joins_bind ht htS htL (fun ev => joins_bind ih (agrees_shell _ _ _) (agreesL_shell _ _ _)
          (fun _ => joins_pure _) (fun _ => Scr.agrees_pure _) fun _ => Lg.agrees_pure _) tS tL) (Scr.agrees_bind htS tS))
          (Scr.agrees_put (Scr.agrees_bind htS tS))

theorem joins_start (env : Env) (inputs : List Str) :
    (startWiggleShellT env inputs).Joins (startWiggleShellS env inputs) (startWiggleShellL env inputs) (startWiggleShell env inputs) := by
  unfold startWiggleShellT startWiggleShellS startWiggleShellL startWiggleShell
  have tS : ∀ sel : Option (GPath × List Str), Scr.Agrees (match sel with
      | none => pure none
      | some (g, rest) => Scr.put (.using g) >>= fun _ => shellLoopS env g rest >>= fun l => pure (some l)) (match sel with
      | none => pure none
      | some (g, rest) => shellLoop env g rest >>= fun l => pure (some l)) := by
    intro sel
    cases sel with
    | none => exact Scr.agrees_pure _
    | some x => exact Scr.agrees_put (Scr.agrees_bind (agrees_shell _ _ _) fun _ => Scr.agrees_pure _)
  have tL : ∀ sel : Option (GPath × List Str), Lg.Agrees (match sel with
      | none => pure none
      | some (g, rest) => shellLoopL env g rest >>= fun l => pure (some l)) (match sel with
      | none => pure none
      | some (g, rest) => shellLoop env g rest >>= fun l => pure (some l)) := by
    intro sel
    cases sel with
    | none => exact Lg.agrees_pure _
    | some x => exact Lg.agrees_bind (agreesL_shell _ _ _) fun _ => Lg.agrees_pure _
  have hj := joins_bind (joins_scr (agrees_select inputs)) (agrees_select inputs) (Lg.agrees_lift _) (ft := fun sel => match sel with
      | none => pure none
      | some (g, rest) => putT (.using g) >>= fun _ => shellLoopT env g rest >>= fun l => pure (some l)) (fun sel => by
    cases sel with
    | none => exact joins_pure _
    | some x => exact joins_put (joins_bind (joins_shell _ _ _) (agrees_shell _ _ _) (agreesL_shell _ _ _) (fun _ => joins_pure _)
        (fun _ => Scr.agrees_pure _) fun _ => Lg.agrees_pure _) (Scr.agrees_bind (agrees_shell _ _ _) fun _ => Scr.agrees_pure _)) tS tL
  have hjS := Scr.agrees_bind (agrees_select inputs) tS
  refine Term.joins_of fun fs => ?_
  obtain ⟨h4, h5, h6⟩ := hj fs
  refine ⟨_, t_bind_ok (t_scr_run (putAll_run _ fs)) h4, ?_, ?_⟩
  · rw [shows_putAll hjS, shownOf_append, shownOf_shown]
    exact congrArg _ h5
  · rw [loggedOf_append, loggedOf_shown, List.nil_append]
    exact h6

/-! ### The log comes first -/

/-- Everything logged appears before everything shown. -/
def Term.Ordered (t : Term α) (s : Scr α) (l : Lg α) (p : Prog α) : Prop :=
  ∀ fs, t.prog.run fs = (.ok ((p.run fs).1, (l.logs fs).map .logged ++ (s.shows fs).map .shown), (p.run fs).2)

theorem ordered_lg_bind {l : Lg α} {p : Prog α} {ft : α → Term β} {fs' : α → Scr β} {fl : α → Lg β} {k : α → Prog β}
    (hl : l.Agrees p) (h' : ∀ a, (ft a).Ordered (fs' a) (fl a) (k a))
    (hs' : ∀ a, (fs' a).Agrees (k a)) (hl' : ∀ a, (fl a).Agrees (k a)) :
    (Term.ofLg l >>= ft).Ordered (Scr.lift p >>= fs') (l >>= fl) (p >>= k) := by
  intro fs
  rw [run_bind, shows_bind (Scr.agrees_lift p) hs', logs_bind hl hl', shows_lift]
  have h1 := t_lg_run (hl fs)
  cases hp : p.run fs with
  | mk r fs1 =>
    rw [hp] at h1
    cases r with
    | error e => simpa using t_bind_err (f := ft) h1
    | ok a => simpa using t_bind_ok h1 (h' a fs1)

theorem ordered_bind_silent {t : Term α} {s : Scr α} {l : Lg α} {p : Prog α} {ft : α → Term β} {fs' : α → Scr β} {fl : α → Lg β}
    {k : α → Prog β} (h : t.Ordered s l p) (hs : s.Agrees p) (hl : l.Agrees p)
    (h' : ∀ a fs, (ft a).prog.run fs = (.ok (((k a).run fs).1, []), ((k a).run fs).2))
    (hs' : ∀ a, (fs' a).Agrees (k a)) (hl' : ∀ a, (fl a).Agrees (k a)) (qs : ∀ a fs, (fs' a).shows fs = [])
    (ql : ∀ a fs, (fl a).logs fs = []) : (t >>= ft).Ordered (s >>= fs') (l >>= fl) (p >>= k) := by
  intro fs
  rw [run_bind, shows_bind hs hs', logs_bind hl hl']
  have h1 := h fs
  cases hp : p.run fs with
  | mk r fs1 =>
    rw [hp] at h1
    cases r with
    | error e => simpa using t_bind_err (f := ft) h1
    | ok a => simpa [qs, ql] using t_bind_ok h1 (h' a fs1)

theorem ordered_pure (a : α) : (pure a : Term α).Ordered (pure a) (pure a) (pure a) := fun _ => rfl

theorem ordered_raise (e : PyErr) : (Term.raise e : Term α).Ordered (Scr.raise e) (Lg.raise e) (.raise e) := fun _ => rfl

theorem ordered_find (pf : ParsedFind) (g : GPath) (c : Option Criteria) : (findT pf g c).Ordered (findS pf g c) (findL pf g c) (find pf g c) := by
  unfold findT findS findL find
  have tS : ∀ b : Bool, Scr.Agrees (if ¬ b = true then (do Scr.put noResultsLine; pure Found.noResults) else pure .placeholder)
      (if ¬ b = true then pure .noResults else pure .placeholder) := by
    intro b
    split
    · exact Scr.agrees_put (Scr.agrees_pure _)
    · exact Scr.agrees_pure _
  have tL : ∀ b : Bool, Lg.Agrees (if ¬ b = true then pure Found.noResults else pure .placeholder)
      (if ¬ b = true then pure .noResults else pure .placeholder) := by
    intro b
    split <;> exact Lg.agrees_pure _
  refine ordered_lg_bind (does_processParsedFind _ _) (fun f => ?_)
    (fun f => Scr.agrees_bind (Scr.agrees_lift _) tS) fun f => Lg.agrees_bind (agreesL_shortCircuit _ _) tL
  refine ordered_lg_bind (agreesL_shortCircuit _ _) (fun b => ?_) tS tL
  by_cases hb : b = true
  · simp only [hb, not_true_eq_false, if_false]
    exact ordered_pure _
  · simp only [hb, if_true]
    exact fun _ => rfl

theorem ordered_execute (env : Env) (q : ParsedQuery) (g : GPath) :
    (executeQueryT env q g).Ordered (executeQueryS env q g) (executeQueryL env q g) (executeQuery env q g) := by
  unfold executeQueryT executeQueryS executeQueryL executeQuery
  cases q.find with
  | none => exact ordered_lg_bind (agreesL_executeMakes _ _ _) (fun _ => ordered_raise _) (fun _ => Scr.agrees_raise _) fun _ => Lg.agrees_raise _
  | some f =>
    have tS : ∀ found, Scr.Agrees (do let _ ← Scr.lift (executeReport found g q.report); pure true)
        (do let _ ← executeReport found g q.report; pure true) := fun found => Scr.agrees_bind (Scr.agrees_lift _) fun _ => Scr.agrees_pure _
    have tL : ∀ found, Lg.Agrees (do let _ ← Lg.lift (executeReport found g q.report); pure true)
        (do let _ ← executeReport found g q.report; pure true) := fun found => Lg.agrees_bind (Lg.agrees_lift _) fun _ => Lg.agrees_pure _
    refine ordered_lg_bind (agreesL_executeMakes _ _ _) (fun _ => ?_) (fun _ => Scr.agrees_bind (agrees_find _ _ _) tS)
      fun _ => Lg.agrees_bind (agreesL_find _ _ _) tL
    refine ordered_bind_silent (ordered_find _ _ _) (agrees_find _ _ _) (agreesL_find _ _ _) (fun found fs => ?_) tS tL
      (fun found fs => ?_) fun found fs => ?_
    · rw [run_bind]
      have h1 := t_lg_run (lg_lift_run (executeReport found g q.report) fs)
      cases hp : (executeReport found g q.report).run fs with
      | mk r fs1 =>
        rw [hp] at h1
        cases r with
        | error e => exact t_bind_err h1
        | ok a => exact t_bind_ok h1 rfl
    · exact shows_bind_pure (Scr.agrees_lift _) _ fs |>.trans (shows_lift _ _)
    · exact (logs_bind_silent (Lg.agrees_lift _) (fun _ => Lg.agrees_pure _) (fun _ _ => rfl) fs).trans (logs_lift _ _)

theorem ordered_query (env : Env) (q : Str) (g : GPath) : (queryT env q g).Ordered (queryS env q g) (queryL env q g) (query env q g) := by
  unfold queryT queryS queryL query
  simp only [Bool.and_false, Bool.false_eq_true, if_false]
  exact ordered_lg_bind (Lg.agrees_lift _)
    (fun p => ordered_bind_silent (ordered_execute env p g) (agrees_execute _ _ _) (agreesL_execute _ _ _) (fun _ _ => rfl)
      (fun _ => Scr.agrees_pure _) (fun _ => Lg.agrees_pure _) (fun _ _ => rfl) fun _ _ => rfl)
    (fun p => Scr.agrees_bind (agrees_execute env p g) fun _ => Scr.agrees_pure _)
    fun p => Lg.agrees_bind (agreesL_execute env p g) fun _ => Lg.agrees_pure _

/-! ### The shell, text by text -/

theorem onTerminal_append (l : Level) (a b : List Out) : onTerminal l (a ++ b) = onTerminal l a ++ onTerminal l b := List.filter_append ..

theorem onTerminal_shown (l : Level) (a : List Shown) : onTerminal l (a.map .shown) = a.map .shown := by
  unfold onTerminal
  rw [List.filter_eq_self]
  intro o ho
  obtain ⟨x, -, rfl⟩ := List.mem_map.1 ho
  rfl

theorem onTerminal_logged (l : Level) (a : List LogEntry) : onTerminal l (a.map .logged) = (visible l a).map .logged := by
  unfold onTerminal visible
  rw [List.filter_map]
  rfl

theorem shellT_outs (env : Env) (g : GPath) (q : Str) (rest : List Str) (fs : FS) (hq : q ≠ c!"q") (hh : isSubstr c!"help" (lower q) ≠ true) :
    (shellLoopT env g (q :: rest)).outs fs = .shown askQuery :: .shown (echoLine q) :: ((queryL env q g).logs fs).map .logged ++
      ((queryS env q g).shows fs ++ (match ((query env q g).run fs).1 with
        | .ok _ => []
        | .error e => [Shown.error e])).map .shown ++ (shellLoopT env g rest).outs ((query env q g).run fs).2 := by
  have ho := ordered_query env q g fs
  have hj := (joins_shell env g rest ((query env q g).run fs).2).1
  conv => lhs; unfold shellLoopT
  rw [if_neg hq, if_neg hh]
  cases h1 : (query env q g).run fs with
  | mk r fs1 =>
    rw [h1] at ho hj
    have last : ∀ ev : Event, ∃ x fs2, (shellLoopT env g rest >>= fun l => pure (ev :: l)).prog.run fs1 =
        (.ok (x, (shellLoopT env g rest).outs fs1), fs2) := by
      intro ev
      cases h2 : (shellLoop env g rest).run fs1 with
      | mk r2 fs2 =>
        rw [h2] at hj
        cases r2 with
        | error e => exact ⟨_, _, t_bind_err hj⟩
        | ok a => exact ⟨_, _, by simpa using t_bind_ok (f := fun l => pure (ev :: l)) hj rfl⟩
    cases r with
    | ok a =>
      obtain ⟨x, fs2, h⟩ := last .done
      refine Term.outs_of (x := x) (fs' := fs2) (t_put_run (t_put_run ?_))
      have := t_bind_ok (f := fun ev => shellLoopT env g rest >>= fun l => pure (ev :: l))
        (t_try_ok (f := fun e => putT (.error e) >>= fun _ => pure (Event.failed e))
        (t_bind_ok (f := fun _ => pure Event.done) ho rfl)) h
      simpa using this
    | error e =>
      obtain ⟨x, fs2, h⟩ := last (.failed e)
      refine Term.outs_of (x := x) (fs' := fs2) (t_put_run (t_put_run ?_))
      have := t_bind_ok (f := fun ev => shellLoopT env g rest >>= fun l => pure (ev :: l))
        (t_try_err (f := fun e => putT (.error e) >>= fun _ => pure (Event.failed e))
        (t_bind_err (f := fun _ => pure Event.done) ho) (t_put_run (f := fun _ => pure (Event.failed e)) rfl)) h
      simpa using this

theorem shellT_help (env : Env) (g : GPath) (q : Str) (rest : List Str) (fs : FS) (hq : q ≠ c!"q") (hh : isSubstr c!"help" (lower q) = true) :
    (shellLoopT env g (q :: rest)).outs fs =
      .shown askQuery :: .shown (echoLine q) :: .shown helpLine :: (shellLoopT env g rest).outs fs := by
  have hj := (joins_shell env g rest fs).1
  conv => lhs; unfold shellLoopT
  rw [if_neg hq, if_pos hh]
  cases h2 : (shellLoop env g rest).run fs with
  | mk r2 fs2 =>
    rw [h2] at hj
    cases r2 with
    | error e => exact Term.outs_of (t_put_run (t_put_run (t_put_run (t_bind_err hj))))
    | ok a =>
      have := t_bind_ok (f := fun l => pure (Event.help :: l)) hj rfl
      exact (Term.outs_of (t_put_run (t_put_run (t_put_run this)))).trans (by simp)

end WG
