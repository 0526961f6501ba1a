/-
What is shown does not change what is done; and what is shown.
-/
import Verif.Spec.Screen
import Verif.Props.World

set_option linter.unusedSectionVars false
set_option linter.unusedSimpArgs false

namespace WG

/-! ### Programs that show something -/

section
variable {α β : Type}

theorem Scr.agrees_of {s : Scr α} {p : Prog α} (h : ∀ fs, ∃ out, s.prog.run fs = (.ok ((p.run fs).1, out), (p.run fs).2)) :
    s.Agrees p := by
  intro fs
  obtain ⟨out, h⟩ := h fs
  rw [h]
  simp [Scr.shows, h]

theorem Scr.shows_of {s : Scr α} {fs fs' : FS} {x : Except PyErr α} {out : List Shown} (h : s.prog.run fs = (.ok (x, out), fs')) :
    s.shows fs = out := by simp [Scr.shows, h]

theorem pure_run (a : α) (fs : FS) : (pure a : Scr α).prog.run fs = (.ok (.ok a, []), fs) := rfl

theorem raise_run (e : PyErr) (fs : FS) : (Scr.raise e : Scr α).prog.run fs = (.ok (.error e, []), fs) := rfl

theorem put_run (s : Shown) (fs : FS) : (Scr.put s).prog.run fs = (.ok (.ok (), [s]), fs) := rfl

theorem lift_run (p : Prog α) (fs : FS) : (Scr.lift p).prog.run fs = (.ok ((p.run fs).1, []), (p.run fs).2) := by
  simp only [Scr.lift, run_tryCatch, run_bind]
  cases p.run fs with
  | mk r fs' => cases r <;> rfl

theorem bind_run_ok {s : Scr α} {f : α → Scr β} {fs fs' : FS} {a : α} {out : List Shown} (h : s.prog.run fs = (.ok (.ok a, out), fs'))
    {y : Except PyErr β} {out' : List Shown} {fs'' : FS} (h' : (f a).prog.run fs' = (.ok (y, out'), fs'')) :
    (s >>= f).prog.run fs = (.ok (y, out ++ out'), fs'') := by
  show ((s.prog >>= _).run fs) = _
  rw [run_bind_ok h]
  simp only
  rw [run_bind_ok h']
  rfl

theorem bind_run_err {s : Scr α} {f : α → Scr β} {fs fs' : FS} {e : PyErr} {out : List Shown}
    (h : s.prog.run fs = (.ok (.error e, out), fs')) : (s >>= f).prog.run fs = (.ok (.error e, out), fs') := by
  show ((s.prog >>= _).run fs) = _
  rw [run_bind_ok h]
  rfl

theorem try_run_ok {s : Scr α} {f : PyErr → Scr α} {fs fs' : FS} {a : α} {out : List Shown} (h : s.prog.run fs = (.ok (.ok a, out), fs')) :
    (s.tryCatch f).prog.run fs = (.ok (.ok a, out), fs') := by
  show ((s.prog >>= _).run fs) = _
  rw [run_bind_ok h]
  rfl

theorem try_run_err {s : Scr α} {f : PyErr → Scr α} {fs fs' : FS} {e : PyErr} {out : List Shown}
    (h : s.prog.run fs = (.ok (.error e, out), fs')) {y : Except PyErr α} {out' : List Shown} {fs'' : FS}
    (h' : (f e).prog.run fs' = (.ok (y, out'), fs'')) : (s.tryCatch f).prog.run fs = (.ok (y, out ++ out'), fs'') := by
  show ((s.prog >>= _).run fs) = _
  rw [run_bind_ok h]
  simp only
  rw [run_bind_ok h']
  rfl

theorem put_bind_run {x : Shown} {f : Unit → Scr β} {fs fs' : FS} {y : Except PyErr β} {out : List Shown}
    (h : (f ()).prog.run fs = (.ok (y, out), fs')) : (Scr.put x >>= f).prog.run fs = (.ok (y, x :: out), fs') :=
  bind_run_ok (put_run x fs) h

theorem Scr.agrees_pure (a : α) : (pure a : Scr α).Agrees (pure a) := Scr.agrees_of fun _ => ⟨[], rfl⟩

theorem Scr.agrees_raise (e : PyErr) : (Scr.raise e : Scr α).Agrees (.raise e) := Scr.agrees_of fun _ => ⟨[], rfl⟩

theorem Scr.agrees_lift (p : Prog α) : (Scr.lift p).Agrees p := Scr.agrees_of fun fs => ⟨[], lift_run p fs⟩

theorem Scr.agrees_bind {s : Scr α} {p : Prog α} {f : α → Scr β} {k : α → Prog β} (h : s.Agrees p) (h' : ∀ a, (f a).Agrees (k a)) :
    (s >>= f).Agrees (p >>= k) := by
  refine Scr.agrees_of fun fs => ?_
  have h1 := h fs
  rw [run_bind]
  cases hp : p.run fs with
  | mk r fs1 =>
    rw [hp] at h1
    cases r with
    | error e => exact ⟨_, bind_run_err h1⟩
    | ok a => exact ⟨_, bind_run_ok h1 (h' a fs1)⟩

theorem Scr.agrees_put {x : Shown} {f : Unit → Scr β} {p : Prog β} (h : (f ()).Agrees p) : (Scr.put x >>= f).Agrees p :=
  Scr.agrees_of fun fs => ⟨_, put_bind_run (h fs)⟩

theorem Scr.agrees_try {s : Scr α} {p : Prog α} {f : PyErr → Scr α} {k : PyErr → Prog α} (h : s.Agrees p) (h' : ∀ e, (f e).Agrees (k e)) :
    (s.tryCatch f).Agrees (p.tryCatch k) := by
  refine Scr.agrees_of fun fs => ?_
  have h1 := h fs
  rw [run_tryCatch]
  cases hp : p.run fs with
  | mk r fs1 =>
    rw [hp] at h1
    cases r with
    | error e => exact ⟨_, try_run_err h1 (h' e fs1)⟩
    | ok a => exact ⟨_, try_run_ok h1⟩

theorem putAll_run (l : List Shown) (fs : FS) : (putAll l).prog.run fs = (.ok (.ok (), l), fs) := by
  induction l with
  | nil => rfl
  | cons x l ih => exact put_bind_run ih

theorem Scr.agrees_putAll {l : List Shown} {f : Unit → Scr β} {p : Prog β} (h : (f ()).Agrees p) : (putAll l >>= f).Agrees p :=
  Scr.agrees_of fun fs => ⟨_, bind_run_ok (putAll_run l fs) (h fs)⟩

theorem Scr.Agrees.out {s : Scr α} {p : Prog α} (h : s.Agrees p) {fs fs' : FS} {r : Except PyErr α} (e : p.run fs = (r, fs')) :
    s.prog.run fs = (.ok (r, s.shows fs), fs') := by
  have := h fs
  rw [e] at this
  exact this

theorem shows_bind {s : Scr α} {p : Prog α} {f : α → Scr β} {k : α → Prog β} (h : s.Agrees p) (h' : ∀ a, (f a).Agrees (k a)) (fs : FS) :
    (s >>= f).shows fs = s.shows fs ++ match p.run fs with
      | (.ok a, fs') => (f a).shows fs'
      | (.error _, _) => [] := by
  cases hp : p.run fs with
  | mk r fs1 =>
    cases r with
    | error e => rw [Scr.shows_of (bind_run_err (h.out hp))]; simp
    | ok a => rw [Scr.shows_of (bind_run_ok (h.out hp) (h' a fs1))]

theorem shows_try {s : Scr α} {p : Prog α} {f : PyErr → Scr α} {k : PyErr → Prog α} (h : s.Agrees p) (h' : ∀ e, (f e).Agrees (k e)) (fs : FS) :
    (s.tryCatch f).shows fs = s.shows fs ++ match p.run fs with
      | (.ok _, _) => []
      | (.error e, fs') => (f e).shows fs' := by
  cases hp : p.run fs with
  | mk r fs1 =>
    cases r with
    | error e => rw [Scr.shows_of (try_run_err (h.out hp) (h' e fs1))]
    | ok a => rw [Scr.shows_of (try_run_ok (h.out hp))]; simp

theorem shows_pure (a : α) (fs : FS) : (pure a : Scr α).shows fs = [] := rfl

theorem shows_bind_pure {s : Scr α} {p : Prog α} (h : s.Agrees p) (f : α → β) (fs : FS) :
    (s >>= fun a => pure (f a)).shows fs = s.shows fs := by
  rw [shows_bind h (k := fun a => pure (f a)) fun _ => Scr.agrees_pure _]
  cases p.run fs with
  | mk r fs' => cases r <;> exact List.append_nil _

theorem shows_raise (e : PyErr) (fs : FS) : (Scr.raise e : Scr α).shows fs = [] := rfl

theorem shows_lift (p : Prog α) (fs : FS) : (Scr.lift p).shows fs = [] := Scr.shows_of (lift_run p fs)

theorem shows_put {x : Shown} {f : Unit → Scr β} {p : Prog β} (h : (f ()).Agrees p) (fs : FS) :
    (Scr.put x >>= f).shows fs = x :: (f ()).shows fs := Scr.shows_of (put_bind_run (h fs))

theorem shows_putAll {l : List Shown} {f : Unit → Scr β} {p : Prog β} (h : (f ()).Agrees p) (fs : FS) :
    (putAll l >>= f).shows fs = l ++ (f ()).shows fs := Scr.shows_of (bind_run_ok (putAll_run l fs) (h fs))

/-! ### The same behaviour -/

theorem Scr.Agrees.run_congr {s : Scr α} {p p' : Prog α} (h : s.Agrees p) (e : ∀ fs, p.run fs = p'.run fs) : s.Agrees p' := by
  intro fs
  rw [← e]
  exact h fs

end

theorem agrees_newPaths (name folder : Str) : (getNewGdbmsFilePathsS name folder).Agrees (getNewGdbmsFilePaths name folder) := by
  have h : (getNewGdbmsFilePathsS name folder).Agrees (Prog.tryCatch (getNewGdbmsFilePaths name folder) fun e =>
      if e.isValueError then .raise e else .raise e) := by
    refine Scr.agrees_try ?_ fun e => ?_
    · exact Scr.agrees_bind (Scr.agrees_lift _) fun _ => Scr.agrees_bind (Scr.agrees_lift _) fun _ =>
        Scr.agrees_bind (Scr.agrees_lift _) fun _ => Scr.agrees_put (Scr.agrees_pure _)
    · split
      · exact Scr.agrees_put (Scr.agrees_raise _)
      · exact Scr.agrees_raise _
  refine h.run_congr fun fs => ?_
  rw [run_tryCatch]
  cases (getNewGdbmsFilePaths name folder).run fs with
  | mk r fs' => cases r <;> simp

theorem agrees_createNewDbms (folder : Str) (inputs : List Str) : (createNewDbmsS folder inputs).Agrees (createNewDbms folder inputs) := by
  induction inputs with
  | nil => exact Scr.agrees_put (Scr.agrees_pure _)
  | cons name rest ih =>
    unfold createNewDbmsS createNewDbms
    refine Scr.agrees_put (Scr.agrees_try (Scr.agrees_bind (agrees_newPaths _ _) fun _ => Scr.agrees_pure _) fun e => ?_)
    split
    · exact Scr.agrees_put ih
    · exact Scr.agrees_raise _

theorem agrees_menu (folder : Str) : (getAndDisplayAvailableDbmsS folder).Agrees (getAndDisplayAvailableDbms folder) := by
  have h : (getAndDisplayAvailableDbmsS folder).Agrees (getAndDisplayAvailableDbms folder >>= fun c => match c with
      | none => pure none
      | some d => pure (some d)) := by
    refine Scr.agrees_bind (Scr.agrees_lift _) fun c => ?_
    cases c with
    | none => exact Scr.agrees_pure _
    | some d => exact Scr.agrees_putAll (Scr.agrees_pure _)
  refine h.run_congr fun fs => ?_
  rw [run_bind]
  cases (getAndDisplayAvailableDbms folder).run fs with
  | mk r fs' =>
    cases r with
    | error e => rfl
    | ok c => cases c <;> rfl

theorem agrees_existing (folder : Str) (inputs : List Str) : (getExistingGdbmsS folder inputs).Agrees (getExistingGdbms folder inputs) := by
  induction inputs with
  | nil =>
    unfold getExistingGdbmsS getExistingGdbms
    refine Scr.agrees_bind (agrees_menu _) fun c => ?_
    split
    · exact Scr.agrees_put (agrees_createNewDbms _ _)
    · exact Scr.agrees_put (agrees_createNewDbms _ _)
    · next h1 h2 => split <;> first | exact Scr.agrees_put (Scr.agrees_pure _) | contradiction
  | cons letter rest ih =>
    unfold getExistingGdbmsS getExistingGdbms
    refine Scr.agrees_bind (agrees_menu _) fun c => ?_
    split
    · exact Scr.agrees_put (agrees_createNewDbms _ _)
    · exact Scr.agrees_put (agrees_createNewDbms _ _)
    · refine Scr.agrees_put ?_
      split
      · next h => simp only [h]; exact Scr.agrees_put ih
      · next h =>
        simp only [h]
        refine Scr.agrees_try (Scr.agrees_bind (Scr.agrees_lift _) fun _ => Scr.agrees_pure _) fun e => ?_
        split
        · exact Scr.agrees_put ih
        · exact Scr.agrees_raise _

theorem agrees_select (inputs : List Str) : (selectGdbmsS inputs).Agrees (selectGdbms inputs) := by
  cases inputs with
  | nil => exact Scr.agrees_put (Scr.agrees_pure _)
  | cons choice rest =>
    rw [selectGdbmsS, selectGdbms]
    refine Scr.agrees_put ?_
    by_cases h : choice = c!"y" ∨ choice = c!"yes"
    · rw [if_pos h, if_pos h]
      exact agrees_existing _ _
    · rw [if_neg h, if_neg h]
      exact agrees_createNewDbms _ _

section
variable [PyRuntime]

theorem agrees_find (pf : ParsedFind) (g : GPath) (c : Option Criteria) : (findS pf g c).Agrees (find pf g c) := by
  unfold findS find
  refine Scr.agrees_bind (Scr.agrees_lift _) fun f => Scr.agrees_bind (Scr.agrees_lift _) fun b => ?_
  split
  · exact Scr.agrees_put (Scr.agrees_pure _)
  · exact Scr.agrees_pure _

theorem agrees_execute (env : Env) (q : ParsedQuery) (g : GPath) : (executeQueryS env q g).Agrees (executeQuery env q g) := by
  unfold executeQueryS executeQuery
  refine Scr.agrees_bind (Scr.agrees_lift _) fun _ => ?_
  cases q.find with
  | none => exact Scr.agrees_raise _
  | some f => exact Scr.agrees_bind (agrees_find _ _ _) fun _ => Scr.agrees_bind (Scr.agrees_lift _) fun _ => Scr.agrees_pure _

theorem agrees_query (env : Env) (q : Str) (g : GPath) : (queryS env q g).Agrees (query env q g) := by
  unfold queryS query
  split
  · exact Scr.agrees_raise _
  · exact Scr.agrees_bind (Scr.agrees_lift _) fun _ => Scr.agrees_bind (agrees_execute _ _ _) fun _ => Scr.agrees_pure _

theorem agrees_shell (env : Env) (g : GPath) (inputs : List Str) : (shellLoopS env g inputs).Agrees (shellLoop env g inputs) := by
  induction inputs with
  | nil => exact Scr.agrees_put (Scr.agrees_pure _)
  | cons q rest ih =>
    unfold shellLoopS shellLoop
    refine Scr.agrees_put (Scr.agrees_put ?_)
    split
    · exact Scr.agrees_put (Scr.agrees_pure _)
    · split
      · exact Scr.agrees_put (Scr.agrees_bind ih fun _ => Scr.agrees_pure _)
      · exact Scr.agrees_bind (Scr.agrees_try (Scr.agrees_bind (agrees_query _ _ _) fun _ => Scr.agrees_pure _)
          fun e => Scr.agrees_put (Scr.agrees_pure _)) fun _ => Scr.agrees_bind ih fun _ => Scr.agrees_pure _

theorem agrees_start (env : Env) (inputs : List Str) : (startWiggleShellS env inputs).Agrees (startWiggleShell env inputs) := by
  unfold startWiggleShellS startWiggleShell
  refine Scr.agrees_putAll (Scr.agrees_bind (agrees_select _) fun c => ?_)
  split
  · exact Scr.agrees_pure _
  · exact Scr.agrees_put (Scr.agrees_bind (agrees_shell _ _ _) fun _ => Scr.agrees_pure _)

/-! ### What FIND shows -/

/-- What is shown for a result of FIND. -/
def foundShown : Except PyErr Found → List Shown
  | .ok .noResults => [noResultsLine]
  | _ => []

theorem find_shows (pf : ParsedFind) (g : GPath) (c : Option Criteria) (fs : FS) :
    (findS pf g c).shows fs = foundShown ((find pf g c).run fs).1 := by
  unfold findS find
  rw [shows_bind (Scr.agrees_lift _) (k := fun f => findShortCircuit f g >>= fun b => if ¬ b = true then pure .noResults else pure .placeholder)
    (fun f => Scr.agrees_bind (Scr.agrees_lift _) fun b => by
      split
      · exact Scr.agrees_put (Scr.agrees_pure _)
      · exact Scr.agrees_pure _), shows_lift, run_liftE, run_bind, run_liftE]
  cases processParsedFind pf c with
  | error e => rfl
  | ok f =>
    simp only [List.nil_append]
    rw [shows_bind (Scr.agrees_lift _) (k := fun b => if ¬ b = true then pure .noResults else pure .placeholder) (fun b => by
      split
      · exact Scr.agrees_put (Scr.agrees_pure _)
      · exact Scr.agrees_pure _), shows_lift, run_bind]
    cases (findShortCircuit f g).run fs with
    | mk r fs1 =>
      cases r with
      | error e => rfl
      | ok b => cases b <;> rfl

/-- What a query shows. -/
theorem query_shows_eq (env : Env) (q : Str) (g : GPath) (fs : FS) :
    (queryS env q g).shows fs = match parseQueryString q with
      | .error _ => []
      | .ok p => match p.find with
        | none => []
        | some f => match (executeMakes env g p.make).run fs with
          | (.ok _, fs') => (findS f g none).shows fs'
          | _ => [] := by
  unfold queryS
  simp only [Bool.and_false, Bool.false_eq_true, if_false]
  rw [shows_bind (Scr.agrees_lift _) (k := fun p => executeQuery env p g >>= fun _ => pure true)
    (fun p => Scr.agrees_bind (agrees_execute env p g) fun _ => Scr.agrees_pure _), shows_lift, run_liftE]
  cases parseQueryString q with
  | error e => rfl
  | ok p =>
    simp only [List.nil_append]
    rw [shows_bind_pure (agrees_execute env p g)]
    unfold executeQueryS
    cases hf : p.find with
    | none =>
      rw [shows_bind (Scr.agrees_lift _) (k := fun _ => Prog.raise .exception) fun _ => Scr.agrees_raise _, shows_lift]
      cases (executeMakes env g p.make).run fs with
      | mk r fs' => cases r <;> rfl
    | some f =>
      have ha : (findS f g none >>= fun found => Scr.lift (executeReport found g p.report) >>= fun _ => pure true).Agrees
        (find f g none >>= fun found => executeReport found g p.report >>= fun _ => pure true) :=
          Scr.agrees_bind (agrees_find _ _ _) fun _ => Scr.agrees_bind (Scr.agrees_lift _) fun _ => Scr.agrees_pure _
      rw [shows_bind (Scr.agrees_lift _) (fun _ => ha), shows_lift]
      cases (executeMakes env g p.make).run fs with
      | mk r fs' =>
        cases r with
        | error e => rfl
        | ok b =>
          simp only [List.nil_append]
          rw [shows_bind (agrees_find f g none) (k := fun found => executeReport found g p.report >>= fun _ => pure true)
            fun _ => Scr.agrees_bind (Scr.agrees_lift _) fun _ => Scr.agrees_pure _]
          cases (find f g none).run fs' with
          | mk r fs2 =>
            cases r with
            | error e => exact List.append_nil _
            | ok b =>
              simp only
              rw [shows_bind_pure (Scr.agrees_lift _), shows_lift, List.append_nil]

/-- A query that was parsed and went well shows what its FIND shows at the end. -/
theorem query_shows_parsed {q : Str} {mk : Option (List ParsedMake)} {f : ParsedFind} {rep : Option ParsedReport}
    (hq : parseQueryString q = .ok ⟨mk, some f, rep⟩) (env : Env) (g : GPath) (fs fs' : FS) (b : Bool)
    (h : (query env q g).run fs = (.ok b, fs')) : (queryS env q g).shows fs =
      foundShown ((find f g none).run fs').1 := by
  rw [query_shows_eq, hq]
  rw [query_parsed_run hq] at h
  simp only
  cases hm : (executeMakes env g mk).run fs with
  | mk r fs1 =>
    rw [hm] at h
    cases r with
    | error e => simp at h
    | ok b' =>
      simp only at h ⊢
      have h2 := (C49_find_reads_only (fun _ => True) f g none fs1).1
      cases hf : (find f g none).run fs1 with
      | mk r fs2 =>
        rw [hf] at h h2
        simp only at h2
        subst h2
        cases r with
        | error e => simp at h
        | ok r =>
          simp only [Prod.mk.injEq] at h
          rw [find_shows, ← h.2]

/-- A query that raises shows nothing (the shell shows the exception). -/
theorem query_shows_error {env : Env} {q : Str} {g : GPath} {fs fs' : FS} {e : PyErr} (h : (query env q g).run fs = (.error e, fs')) :
    (queryS env q g).shows fs = [] := by
  rw [query_shows_eq]
  cases hq : parseQueryString q with
  | error e => rfl
  | ok p =>
    obtain ⟨mk, fo, rep⟩ := p
    cases fo with
    | none => rfl
    | some f =>
      rw [query_parsed_run hq] at h
      simp only
      cases hm : (executeMakes env g mk).run fs with
      | mk r fs1 =>
        cases r with
        | error e => rfl
        | ok b' =>
          rw [hm] at h
          simp only at h ⊢
          rw [find_shows]
          cases hf : (find f g none).run fs1 with
          | mk r fs2 =>
            rw [hf] at h
            cases r with
            | error e => rfl
            | ok r => simp at h

/-- Whatever the query, it shows "No results" or nothing. -/
theorem query_shows_any (env : Env) (q : Str) (g : GPath) (fs : FS) :
    (queryS env q g).shows fs = [] ∨ (queryS env q g).shows fs = [noResultsLine] := by
  rw [query_shows_eq]
  cases parseQueryString q with
  | error e => exact .inl rfl
  | ok p =>
    simp only
    cases p.find with
    | none => exact .inl rfl
    | some f =>
      simp only
      cases (executeMakes env g p.make).run fs with
      | mk r fs1 =>
        cases r with
        | error e => exact .inl rfl
        | ok b =>
          simp only
          rw [find_shows]
          unfold foundShown
          split
          · exact .inr rfl
          · exact .inl rfl

/-- One step of the shell. -/
theorem shell_shows (env : Env) (g : GPath) (q : Str) (rest : List Str) (fs : FS) (hq : q ≠ c!"q") (hh : ¬ AsksHelp q) :
    (shellLoopS env g (q :: rest)).shows fs = askQuery :: echoLine q :: ((queryS env q g).shows fs ++
      ((match ((query env q g).run fs).1 with
        | .ok _ => []
        | .error e => [.error e]) ++ (shellLoopS env g rest).shows ((query env q g).run fs).2)) := by
  have hn : ¬ isSubstr c!"help" (lower q) = true := fun h => hh ((isSubstr_iff _ _).1 h)
  rw [shellLoopS]
  have hb : ∀ ev, (shellLoopS env g rest >>= fun l => pure (ev :: l)).Agrees (shellLoop env g rest >>= fun l => pure (ev :: l)) :=
    fun ev => Scr.agrees_bind (agrees_shell _ _ _) fun _ => Scr.agrees_pure _
  have ht1 : (do let _ ← queryS env q g; pure Event.done : Scr Event).Agrees (do let _ ← query env q g; pure Event.done) :=
    Scr.agrees_bind (agrees_query _ _ _) fun _ => Scr.agrees_pure _
  have ht2 : ∀ e, (do Scr.put (.error e); pure (Event.failed e) : Scr Event).Agrees (pure (Event.failed e)) :=
    fun e => Scr.agrees_put (Scr.agrees_pure _)
  have ht : (Scr.tryCatch (do let _ ← queryS env q g; pure Event.done) fun e => do Scr.put (.error e); pure (Event.failed e)).Agrees
      (Prog.tryCatch (do let _ ← query env q g; pure Event.done) fun e => pure (Event.failed e)) :=
    Scr.agrees_try ht1 ht2
  have ha := Scr.agrees_bind ht hb
  rw [if_neg hq, if_neg hn, shows_put (Scr.agrees_put ha), shows_put ha, shows_bind ht hb,
    shows_try ht1 ht2, shows_bind_pure (agrees_query _ _ _) (fun _ => Event.done), run_tryCatch, run_bind]
  have hl : ∀ ev fs, (shellLoopS env g rest >>= fun l => pure (ev :: l)).shows fs = (shellLoopS env g rest).shows fs := by
    intro ev fs
    exact shows_bind_pure (agrees_shell _ _ _) _ _
  cases hr : (query env q g).run fs with
  | mk r fs1 =>
    cases r with
    | ok b =>
      simp only [run_pure, hl, shows_pure, List.append_nil, List.nil_append]
    | error e =>
      simp only [run_pure, hl, List.append_nil, List.append_assoc]
      rfl

/-! ### What FIND looks for -/

theorem findLM_names {p : ParsedPattern} {c : Option Criteria} {f f' : FindPre} (h : findLM p c f = .ok f') :
    f'.labels = f.labels ∧ f'.relNames = f.relNames ++ if truthy p.leftMiddle.text then relNameOf p.leftMiddle else [] := by
  unfold findLM at h
  split at h
  · next ch cs ht =>
    have e : truthy p.leftMiddle.text = true := by rw [ht]; rfl
    rw [if_pos e, relNameOf, ← addRelName_eq]
    split at h
    · simp at h
    · split at h
      · simp at h
      · injection h with h; subst h; exact ⟨rfl, rfl⟩
      · split at h
        · simp at h
        · injection h with h; subst h; exact ⟨rfl, rfl⟩
  · next hn =>
    injection h with h
    subst h
    have e : truthy p.leftMiddle.text = false := by
      rcases text_cases p.leftMiddle.text with ⟨c, cs, ht⟩ | ⟨hf, -⟩
      · exact absurd ht (hn c cs)
      · exact hf
    simp [e]

theorem findMR_names {p : ParsedPattern} {c : Option Criteria} {f f' : FindPre} (h : findMR p c f = .ok f') :
    f'.labels = f.labels ∧ f'.relNames = f.relNames ++ if truthy p.middleRight.text then relNameOf p.middleRight else [] := by
  unfold findMR at h
  split at h
  · next ch cs ht =>
    have e : truthy p.middleRight.text = true := by rw [ht]; rfl
    rw [if_pos e, relNameOf, ← addRelName_eq]
    split at h
    · simp at h
    · split at h
      · simp at h
      · split at h
        · simp at h
        · injection h with h; subst h; exact ⟨rfl, rfl⟩
      · split at h
        · simp at h
        · injection h with h; subst h; exact ⟨rfl, rfl⟩
  · next hn =>
    injection h with h
    subst h
    have e : truthy p.middleRight.text = false := by
      rcases text_cases p.middleRight.text with ⟨c, cs, ht⟩ | ⟨hf, -⟩
      · exact absurd ht (hn c cs)
      · exact hf
    simp [e]

theorem find_looks {raw : Str} {c : ChainText} (hc : c.Storable) (hf : c.Findable) :
    ∃ f, processParsedFind ⟨raw, .find, c.pattern⟩ none = .ok f ∧ f.labels = c.labels ∧
      ∀ x, x ∈ f.relNames ↔ x ≠ [] ∧ ∃ r ∈ c.rels, r.nameStr = x := by
  obtain ⟨f, h⟩ := find_ok (raw := raw) hc hf
  refine ⟨f, h, ?_⟩
  have hn : ∀ r : RelText, ∀ x, x ∈ relNameOf r.part ↔ x ≠ [] ∧ r.nameStr = x := by
    intro r x
    rw [relNameOf_part]
    split
    · next e => rw [e]; simp
    · next e => simp; exact ⟨fun h => ⟨h ▸ e, h.symm⟩, fun h => h.2.symm⟩
  cases c with
  | one n =>
    obtain ⟨a, ha, -⟩ := goodProps_mean hc.2
    have e1 : n.part.props = n.props := rfl
    have e3 : n.part.label = some n.label := rfl
    have e6 : truthy none = false := rfl
    have e7 : PartText.absent.text = none := rfl
    simp [processParsedFind, findNode, findMiddle, findRight, findLM, findMR, ChainText.pattern, e1, e3, e6, e7, ha, mkFindNode, addCriteriaNode] at h
    subst h
    simp [ChainText.labels, ChainText.rels]
  | two n r m => exact hf.elim
  | three n r m r' m' =>
    obtain ⟨a, ha, -⟩ := goodProps_mean hc.1.2
    obtain ⟨b, hb, -⟩ := goodProps_mean hc.2.2.1.2
    have e1 : n.part.props = n.props := rfl
    have e2 : m.part.props = m.props := rfl
    have e3 : n.part.label = some n.label := rfl
    have e4 : m.part.label = some m.label := rfl
    have e5 : m'.part.label = some m'.label := rfl
    simp only [processParsedFind, findNode, findMiddle, findRight, ChainText.pattern, truthy_node, e1, e2, e3, e4, e5, ha, hb, mkFindNode, addCriteriaNode,
      updateWithModel, ne_eq, not_true_eq_false, if_false, if_true] at h
    split at h
    · simp at h
    · next f3 h3 =>
      obtain ⟨l3, n3⟩ := findLM_names h3
      obtain ⟨l4, n4⟩ := findMR_names h
      rw [l4, l3, n4, n3]
      simp only [truthy_rel, if_true, List.nil_append, List.mem_append, hn]
      refine ⟨rfl, fun x => ?_⟩
      simp only [ChainText.rels, List.mem_cons, List.not_mem_nil, or_false, exists_eq_or_imp, exists_eq_left]
      exact and_or_left.symm

/-- The outcome of a FIND on a healthy GDBMS. -/
theorem find_outcome {raw : Str} {c : ChainText} (hc : c.Storable) (hf : c.Findable) {fs : FS} {g : GPath} {d : Dict V}
    {labels names : List Str} {rels : Dict (List Int)} {n : Int} (h : Healthy fs g d labels names rels n) :
    ∃ r, (find ⟨raw, .find, c.pattern⟩ g none).run fs = (.ok r, fs) ∧
      (r = .noResults ↔ (∀ l ∈ c.labels, l ∉ labels) ∨ ∃ r ∈ c.rels, r.nameStr ≠ [] ∧ r.nameStr ∈ names) := by
  obtain ⟨f, hp, hl, hn⟩ := find_looks (raw := raw) hc hf
  obtain ⟨D, hD, hs⟩ := h.idx
  obtain ⟨r, hr, e⟩ := C50_actual_behaviour _ none g fs f D labels names rels hD hs hp
  refine ⟨r, hr, e.trans (or_congr (by rw [hl]) ?_)⟩
  constructor
  · rintro ⟨x, h1, h2⟩
    obtain ⟨h3, r, h4, rfl⟩ := (hn x).1 h1
    exact ⟨r, h4, h3, h2⟩
  · rintro ⟨r, h4, h3, h2⟩
    exact ⟨r.nameStr, (hn _).2 ⟨h3, r, h4, rfl⟩, h2⟩

/-! ### The screen of a session -/

theorem shell_shows_help (env : Env) (g : GPath) (q : Str) (rest : List Str) (fs : FS) (hq : q ≠ c!"q") (hh : AsksHelp q) :
    (shellLoopS env g (q :: rest)).shows fs = askQuery :: echoLine q :: helpLine :: (shellLoopS env g rest).shows fs := by
  rw [shellLoopS, if_neg hq, if_pos ((isSubstr_iff _ _).2 hh)]
  have h1 : (do let l ← shellLoopS env g rest; pure (Event.help :: l) : Scr (List Event)).Agrees
      (do let l ← shellLoop env g rest; pure (Event.help :: l)) := Scr.agrees_bind (agrees_shell _ _ _) fun _ => Scr.agrees_pure _
  rw [shows_put (Scr.agrees_put (Scr.agrees_put h1)), shows_put (Scr.agrees_put h1), shows_put h1, shows_bind_pure (agrees_shell _ _ _)]

/-- What the FIND of a query shows, by the patterns that the index knows. -/
theorem answered_of {raw : Str} {c : ChainText} (hc : c.Storable) (hf : c.Findable) {fs : FS} {g : GPath} {d new : Dict V}
    {labels names : List Str} {rels : Dict (List Int)} {n : Int} {cs : List ChainText} (h : Healthy fs g d labels names rels n)
    (hi : Indexed cs new [] [] [] labels names rels) :
    Answered cs c (foundShown ((find ⟨raw, .find, c.pattern⟩ g none).run fs).1) := by
  obtain ⟨r, hr, e⟩ := find_outcome (raw := raw) hc hf h
  have e' : r = .noResults ↔ SaysNoResults cs c := by
    rw [e]
    refine or_congr ?_ ?_
    · simp only [hi.labels, List.not_mem_nil, false_or]
      rfl
    · simp only [hi.names, List.not_mem_nil, false_or]
      constructor
      · rintro ⟨r, h1, h2, h3⟩
        exact ⟨r, h1, h3⟩
      · rintro ⟨r, h1, h3⟩
        exact ⟨r, h1, h3.1, h3⟩
  have ef : c.findResult = .ok true := by cases c <;> first | rfl | exact hf.elim
  rw [hr]
  unfold Answered
  rw [ef]
  simp only
  cases r with
  | noResults => exact .inl ⟨e'.1 rfl, rfl⟩
  | placeholder => exact .inr ⟨fun h => (by simpa using e'.2 h), rfl⟩

variable {R : Int → ChainText → Dict V → Prop}

theorem session_shown {env : Env} {g : GPath} {ts : List Typed} (ht : ∀ t ∈ ts, t.Fair ∧ t.Counts R) {fs : FS} {cs : List ChainText}
    (h : Stock R fs g cs) : SessionShown cs ts ((shellLoopS env g (ts.map Typed.text ++ [c!"q"])).shows fs) := by
  induction ts generalizing fs cs with
  | nil => exact .quit cs
  | cons t ts ih =>
    have ht' : ∀ t ∈ ts, t.Fair ∧ t.Counts R := fun t hm => ht t (by simp [hm])
    obtain ⟨h1, hR⟩ := ht t (by simp)
    cases t with
    | query t =>
      obtain ⟨h1, hrel, h2⟩ := h1
      obtain ⟨d, labels, names, rels, hh, hb, ha, hi⟩ := h
      obtain ⟨fs1, new, l1, n1, r1, hr, hh1, hb1, ha1, hi1, -⟩ := typed_leaves h1 hrel env g fs hh hb
      have es : (sizeOfAll cs : Int) + sizeOfAll t.chains = (sizeOfAll (cs ++ t.chains) : Int) := by
        rw [sizeOfAll_append]; omega
      rw [es] at hh1 hb1
      have hst : Stock R fs1 g (cs ++ t.chains) := ⟨d ++ new, l1, n1, r1, hh1, hb1,
        records_append ha (by simpa [Typed.chains] using records_mono hR ha1), indexed_trans hi hi1⟩
      have hs := shell_shows env g t.render (ts.map Typed.text ++ [c!"q"]) fs (typed_not_q h1) h2
      rw [hr] at hs
      have : (shellLoopS env g ((Typed.query t :: ts).map Typed.text ++ [c!"q"])).shows fs = _ := hs
      rw [this, ← List.append_assoc]
      refine .query cs t ts _ _ ?_ (ih ht' hst)
      cases hf : t.find.first.findResult with
      | error e =>
        rw [hf] at hr
        rw [query_shows_error hr]
        simp only [Answered, hf, List.nil_append]
      | ok b =>
        have hff : t.find.first.Findable := by
          cases hc : t.find.first <;> rw [hc] at hf <;> first | trivial | simp [ChainText.findResult] at hf
        rw [hf] at hr
        rw [query_shows_parsed (typed_parse h1) env g fs fs1 b hr]
        simp only [List.append_nil]
        exact answered_of h1.find.first.storable hff hh1 (indexed_trans hi hi1)
    | other s =>
      obtain ⟨h1, h2⟩ := h1
      by_cases hh : AsksHelp s
      · have hs := shell_shows_help env g s (ts.map Typed.text ++ [c!"q"]) fs h1 hh
        have : (shellLoopS env g ((Typed.other s :: ts).map Typed.text ++ [c!"q"])).shows fs = _ := hs
        rw [this]
        exact .help cs s ts _ hh (ih ht' h)
      · have h2 := h2.resolve_left hh
        have hs := shell_shows env g s (ts.map Typed.text ++ [c!"q"]) fs h1 hh
        have : (shellLoopS env g ((Typed.other s :: ts).map Typed.text ++ [c!"q"])).shows fs = _ := hs
        rw [this, ← List.append_assoc]
        rcases query_cases env s g fs with ⟨ms, hm, -⟩ | ⟨-, h6⟩
        · exact absurd hm (h2 ms)
        · rw [h6]
          refine .other cs s ts _ _ hh ?_ (ih ht' h)
          cases hr : (query env s g).run fs with
          | mk r fs' =>
            cases r with
            | error e =>
              rw [query_shows_error hr]
              exact .inr (.inr ⟨e, rfl⟩)
            | ok b =>
              simp only [List.append_nil]
              rcases query_shows_any env s g fs with e | e
              · exact .inl e
              · exact .inr (.inl e)

/-! ### The screen while a GDBMS is selected -/

theorem newPaths_shows (name folder : Str) (fs : FS) : (getNewGdbmsFilePathsS name folder).shows fs =
    match ((getNewGdbmsFilePaths name folder).run fs).1 with
      | .ok _ => [usingLine name]
      | .error e => if e.isValueError then [takenLine name] else [] := by
  unfold getNewGdbmsFilePathsS
  rw [shows_try (p := getNewGdbmsFilePaths name folder) (k := fun e => if e.isValueError then .raise e else .raise e)
    (Scr.agrees_bind (Scr.agrees_lift _) fun _ => Scr.agrees_bind (Scr.agrees_lift _) fun _ =>
        Scr.agrees_bind (Scr.agrees_lift _) fun _ => Scr.agrees_put (Scr.agrees_pure _)) (fun e => by
      split
      · exact Scr.agrees_put (Scr.agrees_raise _)
      · exact Scr.agrees_raise _)]
  have h3 : ∀ db idx wn, (do Scr.put (usingLine name); pure ⟨db, idx, wn⟩ : Scr GPath).Agrees (pure ⟨db, idx, wn⟩) :=
    fun _ _ _ => Scr.agrees_put (Scr.agrees_pure _)
  have h2 := fun db idx => Scr.agrees_bind (Scr.agrees_lift (createNewWiggleNumberFile name folder)) (h3 db idx)
  have h1 := fun db => Scr.agrees_bind (Scr.agrees_lift (createNewIndexesFile name folder)) (h2 db)
  have hs : ∀ e : PyErr, ∀ fs, (if e.isValueError = true then do
        Scr.put (takenLine name)
        Scr.raise e
      else Scr.raise e : Scr GPath).shows fs = if e.isValueError = true then [takenLine name] else [] := by
    intro e fs
    split <;> rfl
  rw [shows_bind (Scr.agrees_lift _) h1, shows_lift]
  unfold getNewGdbmsFilePaths
  rw [run_bind]
  cases (createNewDatabase name folder).run fs with
  | mk r fs1 =>
    cases r with
    | error e => simp only [List.nil_append, hs]
    | ok db =>
      simp only [List.nil_append]
      rw [shows_bind (Scr.agrees_lift _) (h2 db), shows_lift, run_bind]
      cases (createNewIndexesFile name folder).run fs1 with
      | mk r fs2 =>
        cases r with
        | error e => simp only [List.nil_append, hs]
        | ok idx =>
          simp only [List.nil_append]
          rw [shows_bind (Scr.agrees_lift _) (h3 db idx), shows_lift, run_bind]
          cases (createNewWiggleNumberFile name folder).run fs2 with
          | mk r fs3 =>
            cases r with
            | error e => simp only [List.nil_append, hs]
            | ok wn => rfl

theorem newDbms_shows (folder name : Str) (rest : List Str) (fs : FS) : (createNewDbmsS folder (name :: rest)).shows fs =
    askName :: match (getNewGdbmsFilePaths name folder).run fs with
      | (.ok _, _) => [usingLine name]
      | (.error e, fs') => if e.isValueError then takenLine name :: takenLine name :: (createNewDbmsS folder rest).shows fs' else [] := by
  have h1 : (do let g ← getNewGdbmsFilePathsS name folder; pure (some (g, rest)) : Scr _).Agrees
      (do let g ← getNewGdbmsFilePaths name folder; pure (some (g, rest))) := Scr.agrees_bind (agrees_newPaths _ _) fun _ => Scr.agrees_pure _
  have h2 : ∀ e : PyErr, (if e.isValueError = true then do
          Scr.put (takenLine name)
          createNewDbmsS folder rest
        else Scr.raise e : Scr (Option (GPath × List Str))).Agrees (if e.isValueError then createNewDbms folder rest else .raise e) := by
    intro e
    split
    · exact Scr.agrees_put (agrees_createNewDbms _ _)
    · exact Scr.agrees_raise _
  rw [createNewDbmsS, shows_put (Scr.agrees_try h1 h2), shows_try h1 h2, shows_bind_pure (agrees_newPaths _ _), newPaths_shows, run_bind]
  cases (getNewGdbmsFilePaths name folder).run fs with
  | mk r fs' =>
    cases r with
    | ok g => rfl
    | error e =>
      simp only
      cases he : e.isValueError with
      | false => simp [shows_raise]
      | true =>
        simp only [if_true]
        rw [shows_put (agrees_createNewDbms _ _)]
        rfl

theorem menu_shows {folder : Str} {fs : FS} (h : folder ∈ fs.folders) : (getAndDisplayAvailableDbmsS folder).shows fs =
    if menuNames fs folder = [] then [] else menuLines (menuOf (menuNames fs folder)) := by
  unfold getAndDisplayAvailableDbmsS
  rw [shows_bind (Scr.agrees_lift _) (k := fun c => match c with
      | none => pure none
      | some d => pure (some d)) (fun c => by
        cases c with
        | none => exact Scr.agrees_pure _
        | some d => exact Scr.agrees_putAll (Scr.agrees_pure _)), shows_lift, menu_run h]
  simp only [List.nil_append]
  by_cases e : menuNames fs folder = []
  · rw [if_pos e, if_pos e]
    rfl
  · rw [if_neg e, if_neg e]
    simp only
    exact (shows_putAll (f := fun _ => pure (some _)) (Scr.agrees_pure _) fs).trans (List.append_nil _)

theorem menuLines_eq (names : List Str) : menuLines (menuOf names) = menuShown names := by
  unfold menuLines menuShown
  congr 2
  simp only [menuOf, List.map_map]
  refine List.ext_getElem ?_ fun i h1 h2 => ?_
  · simp [upper_length]
  · simp only [List.length_mapIdx, List.length_take] at h2
    have hu := upper_get i (by omega)
    rw [List.getElem?_eq_getElem (by rw [upper_length]; omega)] at hu
    simp only [Option.some.injEq] at hu
    simp [menuLine, menuLetter, hu]

theorem shows_bind_ok {α β : Type} {s : Scr α} {p : Prog α} {f : α → Scr β} {k : Prog β} {fs fs' : FS} {a : α} (h : s.Agrees p)
    (hr : p.run fs = (.ok a, fs')) (h' : (f a).Agrees k) : (s >>= f).shows fs = s.shows fs ++ (f a).shows fs' :=
  Scr.shows_of (bind_run_ok (h.out hr) (h' fs'))

theorem existing_shows {folder letter : Str} {rest : List Str} {fs : FS} (h : DBMS_FOLDER ∈ fs.folders)
    (hn : menuNames fs DBMS_FOLDER ≠ []) : (getExistingGdbmsS folder (letter :: rest)).shows fs =
      menuShown (menuNames fs DBMS_FOLDER) ++ askLetter :: match dictGet letter (menuOf (menuNames fs DBMS_FOLDER)) with
      | none => missingLine letter :: (getExistingGdbmsS folder rest).shows fs
      | some name =>
        if (fs.get (dbPath folder name)).isSome ∧ (fs.get (idxPath folder name)).isSome ∧
          (fs.get (wnPath folder name)).isSome then []
        else .notFound .fileNotFound :: (getExistingGdbmsS folder rest).shows fs := by
  have hr := menu_run h
  rw [if_neg hn] at hr
  rw [getExistingGdbmsS]
  obtain ⟨c, cs, hc⟩ := List.exists_cons_of_ne_nil (menuOf_ne hn)
  rw [hc] at hr ⊢
  have hm := (agrees_menu DBMS_FOLDER).out hr
  rw [menu_shows h, if_neg hn, hc] at hm
  rw [← menuLines_eq, hc]
  refine Scr.shows_of (bind_run_ok hm ?_) (x := ((getExistingGdbms folder (letter :: rest)).run fs).1) (fs' := ((getExistingGdbms folder (letter :: rest)).run fs).2)
  rw [select_round h hn, hc]
  refine put_bind_run ?_
  cases hg : dictGet letter (c :: cs) with
  | none => exact put_bind_run (agrees_existing folder rest fs)
  | some name =>
    simp only
    have e := lift_run (getExistingFiles folder name) fs
    rw [existing_run] at e
    by_cases h' : (fs.get (dbPath folder name)).isSome ∧ (fs.get (idxPath folder name)).isSome ∧ (fs.get (wnPath folder name)).isSome
    · rw [if_pos h'] at e
      rw [if_pos h', if_pos h']
      exact try_run_ok (bind_run_ok e (pure_run _ _))
    · rw [if_neg h'] at e
      rw [if_neg h', if_neg h']
      exact try_run_err (bind_run_err e) (put_bind_run (agrees_existing folder rest fs))

theorem select_new_shown {fs : FS} {w : World} (h : Keeps R fs w) {tries rest : List Str} {name : Str}
    (ht : ∀ s ∈ tries, s ∈ w.names) (hn : name ∉ w.names) (hs : name ∉ notGdbms) :
    (createNewDbmsS DBMS_FOLDER (tries ++ name :: rest)).shows fs =
      tries.flatMap (fun x => [askName, takenLine x, takenLine x]) ++ [askName, usingLine name] := by
  induction tries with
  | nil =>
    have hf := h.free name hn hs
    rw [List.nil_append, newDbms_shows, create_new hf.mkdir hf.db hf.idx hf.wn]
    rfl
  | cons s tries ih =>
    have hm := ht s (by simp)
    obtain ⟨x, hx, rfl⟩ := List.mem_map.1 hm
    have hd := ((h.names x.1).1 hm).1
    have h1 : fs.get (dbPath DBMS_FOLDER x.1) ≠ none := Option.isSome_iff_ne_none.1 (h.stock x hx).files.1
    rw [List.cons_append, newDbms_shows, create_db_taken (Or.inl hd) h1, withDir_of_mem hd]
    simp only [PyErr.isValueError, if_true, List.flatMap_cons]
    rw [ih fun s hs => ht s (by simp [hs])]
    rfl

theorem select_old_shown {fs : FS} {w : World} (h : Keeps R fs w) {x : Str × List ChainText} (hx : x ∈ w) {tries rest : List Str}
    (ht : ∀ s ∈ tries, ∀ i, i < 26 → i < w.length → s ≠ menuLetter i) (hi : w.names.countP (· < x.1) < 26) :
    (getExistingGdbmsS DBMS_FOLDER (tries ++ menuLetter (w.names.countP (· < x.1)) :: rest)).shows fs =
      tries.flatMap (fun y => menuShown (menuNames fs DBMS_FOLDER) ++ [askLetter, missingLine y]) ++
        (menuShown (menuNames fs DBMS_FOLDER) ++ [askLetter]) := by
  have hp := h.menu
  have hxn : x.1 ∈ menuNames fs DBMS_FOLDER := hp.mem_iff.2 (List.mem_map.2 ⟨x, hx, rfl⟩)
  have hne : menuNames fs DBMS_FOLDER ≠ [] := by intro e; rw [e] at hxn; simp at hxn
  induction tries with
  | nil =>
    obtain ⟨i, hi', e⟩ := List.mem_iff_getElem.1 hxn
    have e' : (menuNames fs DBMS_FOLDER)[i]? = some x.1 := by rw [List.getElem?_eq_getElem hi', e]
    have : (menuNames fs DBMS_FOLDER).countP (· < x.1) = i := sorted_position (sortStrs_sorted _) (menuNames_nodup h.dirs) e'
    rw [List.Perm.countP_eq _ hp] at this
    rw [List.nil_append, existing_shows h.folder hne, this, menu_at e' (by omega)]
    simp only
    have hfiles : (fs.get (dbPath DBMS_FOLDER x.1)).isSome ∧ (fs.get (idxPath DBMS_FOLDER x.1)).isSome ∧
        (fs.get (wnPath DBMS_FOLDER x.1)).isSome := (h.stock x hx).files
    rw [if_pos hfiles]
    rfl
  | cons s tries ih =>
    rw [List.cons_append, existing_shows h.folder hne]
    have : dictGet s (menuOf (menuNames fs DBMS_FOLDER)) = none := by
      cases e : dictGet s (menuOf (menuNames fs DBMS_FOLDER)) with
      | none => rfl
      | some n =>
        obtain ⟨i, h1, h2, h3⟩ := menu_get_index e
        obtain ⟨h4, -⟩ := List.getElem?_eq_some_iff.1 h1
        rw [hp.length_eq] at h4
        exact absurd h3 (ht s (by simp) i h2 (by simpa [Shelf.names] using h4))
    rw [this, List.flatMap_cons]
    simp only
    rw [ih fun s hs => ht s (by simp [hs])]
    simp

/-! ### The screen of a run -/

theorem start_shows {env : Env} {inputs rest : List Str} {g : GPath} {fs fs1 : FS}
    (h : (selectGdbms inputs).run fs = (.ok (some (g, rest)), fs1)) : (startWiggleShellS env inputs).shows fs =
      welcome ++ ((selectGdbmsS inputs).shows fs ++ (.using g :: (shellLoopS env g rest).shows fs1)) := by
  have h2 : (do Scr.put (.using g); let l ← shellLoopS env g rest; pure (some l) : Scr _).Agrees
      (do let l ← shellLoop env g rest; pure (some l)) := Scr.agrees_put (Scr.agrees_bind (agrees_shell _ _ _) fun _ => Scr.agrees_pure _)
  refine Scr.shows_of (bind_run_ok (putAll_run _ _) (bind_run_ok ((agrees_select _).out h) ?_))
    (x := (((do let l ← shellLoop env g rest; pure (some l)) : Prog _).run fs1).1)
    (fs' := (((do let l ← shellLoop env g rest; pure (some l)) : Prog _).run fs1).2)
  have e := h2 fs1
  rw [shows_put (Scr.agrees_bind (agrees_shell _ _ _) fun _ => Scr.agrees_pure _), shows_bind_pure (agrees_shell _ _ _)] at e
  exact e

theorem has_new {w : World} {name : Str} (h : name ∉ w.names) : w.has name = [] := by
  unfold World.has
  have : w.filter (fun x => x.1 = name) = [] := by
    rw [List.filter_eq_nil_iff]
    intro x hx
    simp only [decide_eq_true_eq]
    exact fun e => h (e ▸ List.mem_map.2 ⟨x, hx, rfl⟩)
  rw [this]
  rfl

theorem has_old {w w' : World} {name : Str} {cs : List ChainText} (h : (Shelf.names (w ++ (name, cs) :: w')).Nodup) :
    World.has (w ++ (name, cs) :: w') name = cs := by
  simp only [Shelf.names, List.map_append, List.map_cons, List.nodup_append, List.nodup_cons] at h
  have h1 : w.filter (fun x => x.1 = name) = [] := by
    rw [List.filter_eq_nil_iff]
    intro x hx
    simp only [decide_eq_true_eq]
    exact h.2.2 _ (List.mem_map.2 ⟨x, hx, rfl⟩) _ (by simp)
  have h2 : w'.filter (fun x => x.1 = name) = [] := by
    rw [List.filter_eq_nil_iff]
    intro x hx
    simp only [decide_eq_true_eq]
    exact fun e => h.2.1.1 (e ▸ List.mem_map.2 ⟨x, hx, rfl⟩)
  simp [World.has, List.filter_cons, h1, h2]

theorem select_shows (choice : Str) (rest : List Str) (fs : FS) : (selectGdbmsS (choice :: rest)).shows fs = askUse ::
    (if choice = c!"y" ∨ choice = c!"yes" then getExistingGdbmsS DBMS_FOLDER rest else createNewDbmsS DBMS_FOLDER rest).shows fs := by
  have h : (if choice = c!"y" ∨ choice = c!"yes" then getExistingGdbmsS DBMS_FOLDER rest else createNewDbmsS DBMS_FOLDER rest).Agrees
      (if choice = c!"y" ∨ choice = c!"yes" then getExistingGdbms DBMS_FOLDER rest else createNewDbms DBMS_FOLDER rest) := by
    by_cases h : choice = c!"y" ∨ choice = c!"yes"
    · rw [if_pos h, if_pos h]
      exact agrees_existing _ _
    · rw [if_neg h, if_neg h]
      exact agrees_createNewDbms _ _
  exact shows_put (f := fun _ => if choice = c!"y" ∨ choice = c!"yes" then _ else _) h fs

/-- With nothing to choose from, a name is asked for. -/
theorem existing_none_shows {folder : Str} {fs : FS} (h : DBMS_FOLDER ∈ fs.folders) (hn : menuNames fs DBMS_FOLDER = []) (inputs : List Str) :
    (getExistingGdbmsS folder inputs).shows fs = noDatabases :: (createNewDbmsS folder inputs).shows fs := by
  have hr := menu_run h
  rw [if_pos hn] at hr
  have hm := (agrees_menu DBMS_FOLDER).out hr
  rw [menu_shows h, if_pos hn] at hm
  cases inputs with
  | nil =>
    rw [getExistingGdbmsS]
    exact Scr.shows_of (bind_run_ok hm (put_bind_run (agrees_createNewDbms folder [] fs)))
  | cons x rest =>
    rw [getExistingGdbmsS]
    exact Scr.shows_of (bind_run_ok hm (put_bind_run (agrees_createNewDbms folder (x :: rest) fs)))

theorem run_shown {ok : Typed → Prop} (hk : ∀ t, ok t → t.Fair ∧ t.Counts R) (env : Env) (r : ProgRun) (w w' : World) (fs : FS)
    (h : Keeps R fs w) (hr : r.Leads ok w w') : RunShown w r ((startWiggleShellS env r.inputs).shows fs) := by
  cases hr with
  | new _ hok ha ht hp hs =>
    have h1 := new_keeps stock_onFiles (z := []) (fun h3 => ⟨[], [], [], [], h3, below_nil 0, rfl, by simp, by simp, by simp⟩) h hp hs
    by_cases hy : r.answer = c!"y" ∨ r.answer = c!"yes"
    · have hw : w = [] := ha.resolve_left fun h => h (by simpa using hy)
      have hm : menuNames fs DBMS_FOLDER = [] := by
        have := h.menu
        rw [hw] at this
        exact List.Perm.eq_nil this
      have h2 : (selectGdbms r.inputs).run fs = (.ok (some (gdbmsPath DBMS_FOLDER r.pick, r.typed.map Typed.text ++ [c!"q"])),
          (((withDir fs DBMS_FOLDER r.pick).set (dbPath DBMS_FOLDER r.pick) c!"{}").set (idxPath DBMS_FOLDER r.pick)
            newIndexText).set (wnPath DBMS_FOLDER r.pick) c!"0") := by
        show (selectGdbms (r.answer :: _)).run fs = _
        rw [selectGdbms, if_pos hy]
        have he : ∀ inputs, (getExistingGdbms DBMS_FOLDER inputs).run fs = (createNewDbms DBMS_FOLDER inputs).run fs := by
          intro inputs
          cases inputs <;> rw [getExistingGdbms, run_bind_ok (menu_run h.folder), if_pos hm]
        rw [he]
        exact select_new stock_onFiles h ht hp hs
      have h3 : (selectGdbmsS r.inputs).shows fs = _ := select_shows r.answer _ fs
      rw [if_pos hy, existing_none_shows h.folder hm, select_new_shown h ht hp hs] at h3
      refine ⟨r.pick, _, _, ?_, ?_, start_shows h2⟩
      · rw [h3, hw]
        exact .empty (by simpa using hy)
      · rw [has_new hp]
        exact session_shown (fun t h' => hk t (hok t h')) (h1.stock (r.pick, []) (by simp))
    · have h2 : (selectGdbms r.inputs).run fs = (.ok (some (gdbmsPath DBMS_FOLDER r.pick, r.typed.map Typed.text ++ [c!"q"])),
          (((withDir fs DBMS_FOLDER r.pick).set (dbPath DBMS_FOLDER r.pick) c!"{}").set (idxPath DBMS_FOLDER r.pick)
            newIndexText).set (wnPath DBMS_FOLDER r.pick) c!"0") := by
        show (selectGdbms (r.answer :: _)).run fs = _
        rw [selectGdbms, if_neg hy]
        exact select_new stock_onFiles h ht hp hs
      have h3 : (selectGdbmsS r.inputs).shows fs = _ := select_shows r.answer _ fs
      rw [if_neg hy, select_new_shown h ht hp hs] at h3
      refine ⟨r.pick, _, _, ?_, ?_, start_shows h2⟩
      · rw [h3]
        exact .new w (by simpa using hy)
      · rw [has_new hp]
        exact session_shown (fun t h' => hk t (hok t h')) (h1.stock (r.pick, []) (by simp))
  | old w w' name cs hok ha ht hi hp =>
    have hx : (name, cs) ∈ w ++ (name, cs) :: w' := by simp
    have hy : r.answer = c!"y" ∨ r.answer = c!"yes" := by simpa using ha
    have h2 : (selectGdbms r.inputs).run fs = (.ok (some (gdbmsPath DBMS_FOLDER name, r.typed.map Typed.text ++ [c!"q"])), fs) := by
      show (selectGdbms (r.answer :: _)).run fs = _
      rw [selectGdbms, if_pos hy, hp]
      exact select_old stock_onFiles h (x := (name, cs)) hx ht hi
    have h3 : (selectGdbmsS r.inputs).shows fs = _ := select_shows r.answer _ fs
    rw [if_pos hy, hp, select_old_shown h (x := (name, cs)) hx ht hi] at h3
    refine ⟨name, _, _, ?_, ?_, start_shows h2⟩
    · rw [h3]
      refine .old _ _ name ha h.menu (sortStrs_sorted _) ?_
      have hxn : name ∈ menuNames fs DBMS_FOLDER := h.menu.mem_iff.2 (List.mem_map.2 ⟨_, hx, rfl⟩)
      obtain ⟨i, hi', e⟩ := List.mem_iff_getElem.1 hxn
      have e' : (menuNames fs DBMS_FOLDER)[i]? = some name := by rw [List.getElem?_eq_getElem hi', e]
      have : (menuNames fs DBMS_FOLDER).countP (· < name) = i := sorted_position (sortStrs_sorted _) (menuNames_nodup h.dirs) e'
      rw [List.Perm.countP_eq _ h.menu] at this
      rw [this]
      exact e'
    · rw [has_old h.nodup]
      exact session_shown (fun t h' => hk t (hok t h')) (h.stock (name, cs) hx)

end

section
variable [PyRuntime]

theorem SameWords.append {cs cs' : List ChainText} (h : SameWords cs cs') (l : List ChainText) : SameWords (cs ++ l) (cs' ++ l) := by
  have hl := h.1
  have hn := h.2
  simp only [LabelMade, NameMade] at hl hn
  refine ⟨fun x => ?_, fun x => ?_⟩
  · have := hl x
    simp only [LabelMade, List.mem_append]
    grind
  · have := hn x
    simp only [NameMade, List.mem_append]
    grind

theorem SameWords.says {cs cs' : List ChainText} (h : SameWords cs cs') (c : ChainText) : SaysNoResults cs c ↔ SaysNoResults cs' c := by
  simp only [SaysNoResults, h.1, h.2]

/-- The screen of a session of queries depends on the labels and relationship names only. -/
theorem sessionShown_unique (ts : List TypedText) {cs cs' : List ChainText} {o o' : List Shown} (hw : SameWords cs cs')
    (h : SessionShown cs (ts.map Typed.query) o) (h' : SessionShown cs' (ts.map Typed.query) o') : o = o' := by
  induction ts generalizing cs cs' o o' with
  | nil => cases h; cases h'; rfl
  | cons t ts ih =>
    cases h with
    | query _ _ _ a out ha h1 =>
      cases h' with
      | query _ _ _ a' out' ha' h1' =>
        have e := ih (hw.append _) h1 h1'
        have e' : a = a' := by
          have := (hw.append t.chains).says t.find.first
          unfold Answered at ha ha'
          cases hr : t.find.first.findResult with
          | error e => rw [hr] at ha ha'; exact ha.trans ha'.symm
          | ok b =>
            rw [hr] at ha ha'
            simp only at ha ha'
            rw [this] at ha
            rcases ha with ⟨h1, rfl⟩ | ⟨h1, rfl⟩ <;> rcases ha' with ⟨h2, rfl⟩ | ⟨h2, rfl⟩
            · rfl
            · exact absurd h1 h2
            · exact absurd h2 h1
            · rfl
        rw [e, e']

end

end WG
