/-
Programs that do the same to a GDBMS and to its copy.
-/
import Verif.Spec.Copied
import Verif.Proofs.Screen

set_option linter.unusedSectionVars false

namespace WG

/-- Corresponding files. -/
inductive At (g g' : GPath) : Path → Path → Prop where
  | db : At g g' g.db g'.db
  | idx : At g g' g.idx g'.idx
  | wn : At g g' g.wn g'.wn

/-- Corresponding calls. -/
inductive OpTwin (g g' : GPath) : Op → Op → Prop where
  | read {p p' : Path} (h : At g g' p p') : OpTwin g g' (.read p) (.read p')
  | openW {p p' : Path} (h : At g g' p p') : OpTwin g g' (.openW p) (.openW p')
  | write {p p' : Path} (h : At g g' p p') (n : Nat) (s : Str) : OpTwin g g' (.write p n s) (.write p' n s)
  | truncate {p p' : Path} (h : At g g' p p') (n : Nat) : OpTwin g g' (.truncate p n) (.truncate p' n)

/-- Programs with corresponding calls. -/
inductive Twin (g g' : GPath) {α : Type} : Prog α → Prog α → Prop where
  | ret (a : α) : Twin g g' (.ret a) (.ret a)
  | raise (e : PyErr) : Twin g g' (.raise e) (.raise e)
  | act {o o' : Op} {k k' : Resp → Prog α} (ho : OpTwin g g' o o') (h : ∀ r, Twin g g' (k r) (k' r)) : Twin g g' (.act o k) (.act o' k')

variable {g g' : GPath}

theorem Copied.at {a b : FS} (h : Copied g g' a b) {p p' : Path} (hp : At g g' p p') :
    a.get p = b.get p' ∧ ((p.folder, p.dir) ∈ a.dirs ↔ (p'.folder, p'.dir) ∈ b.dirs) := by
  cases hp with
  | db => exact ⟨h.db, h.dirDb⟩
  | idx => exact ⟨h.idx, h.dirIdx⟩
  | wn => exact ⟨h.wn, h.dirWn⟩

theorem at_eq_iff (hg : g.Apart) (hg' : g'.Apart) {p p' q q' : Path} (hp : At g g' p p') (hq : At g g' q q') : p = q ↔ p' = q' := by
  have h1 := hg.db_idx; have h2 := hg.db_wn; have h3 := hg.idx_wn
  have h1' := hg'.db_idx; have h2' := hg'.db_wn; have h3' := hg'.idx_wn
  cases hp <;> cases hq <;> simp [h1, h2, h3, h1', h2', h3', h1.symm, h2.symm, h3.symm, h1'.symm, h2'.symm, h3'.symm]

theorem Copied.set (hg : g.Apart) (hg' : g'.Apart) {a b : FS} (h : Copied g g' a b) {p p' : Path} (hp : At g g' p p') (s : Str) :
    Copied g g' (a.set p s) (b.set p' s) := by
  have key : ∀ {q q'}, At g g' q q' → (a.set p s).get q = (b.set p' s).get q' := by
    intro q q' hq
    by_cases e : p = q
    · have e' := (at_eq_iff hg hg' hp hq).1 e
      subst e; subst e'
      rw [FS.get_set_self, FS.get_set_self]
    · rw [FS.get_set_ne e, FS.get_set_ne fun e' => e ((at_eq_iff hg hg' hp hq).2 e')]
      exact (h.at hq).1
  exact ⟨key .db, key .idx, key .wn, h.dirDb, h.dirIdx, h.dirWn⟩

theorem exec_twin (hg : g.Apart) (hg' : g'.Apart) {o o' : Op} (ho : OpTwin g g' o o') {a b : FS} (h : Copied g g' a b) :
    (exec o a).1 = (exec o' b).1 ∧ Copied g g' (exec o a).2 (exec o' b).2 := by
  cases ho with
  | read hp =>
    simp only [exec, (h.at hp).1]
    split <;> exact ⟨rfl, h⟩
  | openW hp =>
    simp only [exec, (h.at hp).2]
    split
    · exact ⟨rfl, h.set hg hg' hp _⟩
    · exact ⟨rfl, h⟩
  | write hp n s =>
    simp only [exec, (h.at hp).1]
    split
    · exact ⟨rfl, h.set hg hg' hp _⟩
    · exact ⟨rfl, h⟩
  | truncate hp n =>
    simp only [exec, (h.at hp).1]
    split
    · exact ⟨rfl, h.set hg hg' hp _⟩
    · exact ⟨rfl, h⟩

theorem run_twin (hg : g.Apart) (hg' : g'.Apart) {α : Type} {p p' : Prog α} (hp : Twin g g' p p') {a b : FS} (h : Copied g g' a b) :
    (p.run a).1 = (p'.run b).1 ∧ Copied g g' (p.run a).2 (p'.run b).2 := by
  induction hp generalizing a b with
  | ret x => exact ⟨rfl, h⟩
  | raise e => exact ⟨rfl, h⟩
  | act ho _ ih =>
    obtain ⟨h1, h2⟩ := exec_twin hg hg' ho h
    simp only [Prog.run]
    rw [h1]
    exact ih _ h2

theorem crash_twin (hg : g.Apart) (hg' : g'.Apart) {α : Type} {tear : Path → Prop} {p p' : Prog α} (hp : Twin g g' p p') {a b a' : FS}
    (h : Copied g g' a b) (ht : ∀ x x', At g g' x x' → tear x → tear x') (hc : CrashAt tear p a a') :
    ∃ b', CrashAt tear p' b b' ∧ Copied g g' a' b' := by
  induction hc generalizing p' b with
  | here p fs => exact ⟨b, .here _ _, h⟩
  | torn x pos s n k fs hx =>
    cases hp with
    | act ho hk =>
      cases ho with
      | write hat =>
        refine ⟨_, .torn _ pos s n _ b (ht _ _ hat hx), ?_⟩
        exact (exec_twin hg hg' (.write hat pos (s.take n)) h).2
  | step op k fs fs' _ ih =>
    cases hp with
    | act ho hk =>
      obtain ⟨h1, h2⟩ := exec_twin hg hg' ho h
      rw [h1] at ih
      obtain ⟨b', hb, hcp⟩ := ih (hk _) h2
      exact ⟨b', .step _ _ _ _ hb, hcp⟩

theorem Twin.bind {α β : Type} {p p' : Prog α} {f f' : α → Prog β} (hp : Twin g g' p p') (hf : ∀ x, Twin g g' (f x) (f' x)) :
    Twin g g' (p >>= f) (p' >>= f') := by
  induction hp with
  | ret x => exact hf x
  | raise e => exact .raise e
  | act ho _ ih => exact .act ho ih

theorem Twin.tryCatch {α : Type} {p p' : Prog α} {f f' : PyErr → Prog α} (hp : Twin g g' p p') (hf : ∀ x, Twin g g' (f x) (f' x)) :
    Twin g g' (p.tryCatch f) (p'.tryCatch f') := by
  induction hp with
  | ret x => exact .ret x
  | raise e => exact hf e
  | act ho _ ih => exact .act ho ih

theorem Twin.liftE {α : Type} (x : Except PyErr α) : Twin g g' (WG.liftE x) (WG.liftE x) := by
  cases x
  · exact .raise _
  · exact .ret _

theorem Twin.unitOp {o o' : Op} (ho : OpTwin g g' o o') (e : PyErr) : Twin g g' (WG.unitOp o e) (WG.unitOp o' e) :=
  .act ho fun r => by
    cases r
    · exact .ret _
    all_goals exact .raise _

theorem Twin.readFile {p p' : Path} (hp : At g g' p p') : Twin g g' (WG.readFile p) (WG.readFile p') :=
  .act (.read hp) fun r => by
    cases r
    case txt => exact .ret _
    all_goals exact .raise _

section
variable [PyRuntime]

theorem Twin.dumpTo {p p' : Path} (hp : At g g' p p') (n : Nat) (v : V) : Twin g g' (WG.dumpTo p n v) (WG.dumpTo p' n v) := by
  unfold WG.dumpTo
  refine .bind (.unitOp (.write hp _ _) _) fun _ => ?_
  split
  · exact .ret _
  · exact .raise _

theorem twin_add {p p' : Path} (hp : At g g' p p') (items : List (Str × V)) :
    Twin g g' (addItemToDatabase p items) (addItemToDatabase p' items) :=
  .bind (.readFile hp) fun _ => .bind (.liftE _) fun _ => .bind (.liftE _) fun _ => .bind (.dumpTo hp _ _) fun _ => .ret _

theorem twin_counter {p p' : Path} (hp : At g g' p p') : Twin g g' (getCurrentWiggleNumber p) (getCurrentWiggleNumber p') := by
  refine .bind (.readFile hp) fun s => ?_
  split
  · exact .raise _
  · split
    · exact .ret _
    · exact .raise _

theorem twin_update {p p' : Path} (hp : At g g' p p') (n : Int) : Twin g g' (updateWiggleNumber p n) (updateWiggleNumber p' n) :=
  .bind (.unitOp (.openW hp) _) fun _ => .bind (.unitOp (.write hp _ _) _) fun _ => .ret _

theorem twin_addSet {p p' : Path} (hp : At g g' p p') (o : SetOrd) (items : List Str) (name : Str) :
    Twin g g' (addItemsSetToIndex o p items name) (addItemsSetToIndex o p' items name) :=
  .bind (.readFile hp) fun _ => .bind (.liftE _) fun _ => .bind (.liftE _) fun _ => .bind (.liftE _) fun _ => .bind (.liftE _) fun _ =>
    .bind (.dumpTo hp _ _) fun _ => .bind (.unitOp (.truncate hp _) _) fun _ => .ret _

theorem twin_addRels {p p' : Path} (hp : At g g' p p') (o : SetOrd) (items : List (Str × List V)) :
    Twin g g' (addItemsToNodeRelationshipsIndex o p items) (addItemsToNodeRelationshipsIndex o p' items) :=
  .bind (.readFile hp) fun _ => .bind (.liftE _) fun _ => .bind (.liftE _) fun _ => .bind (.liftE _) fun _ => .bind (.liftE _) fun _ =>
    .bind (.dumpTo hp _ _) fun _ => .bind (.unitOp (.truncate hp _) _) fun _ => .ret _

theorem twin_load {p p' : Path} (hp : At g g' p p') (name : Str) : Twin g g' (loadIndexSet p name) (loadIndexSet p' name) := by
  refine .tryCatch (.bind (.readFile hp) fun _ => .bind (.liftE _) fun _ => .bind (.liftE _) fun _ => .liftE _) fun e => ?_
  split
  · exact .ret _
  · exact .raise _

theorem twin_make (env : Env) (pml : List ParsedMake) : Twin g g' (make env pml g) (make env pml g') := by
  refine .bind (twin_counter .wn) fun _ => .bind (.liftE _) fun _ => .bind (.liftE _) fun _ => .bind ?_ fun _ => .bind ?_ fun _ =>
    .bind (twin_update .wn _) fun _ => .ret _
  · exact .bind (twin_add .db _) fun _ => .ret _
  · exact .bind (twin_addRels .idx _ _) fun _ => .bind (twin_addSet .idx _ _ _) fun _ => .bind (twin_addSet .idx _ _ _) fun _ => .ret _

theorem twin_makes (env : Env) (m : Option (List ParsedMake)) : Twin g g' (executeMakes env g m) (executeMakes env g' m) := by
  unfold executeMakes
  split
  · exact twin_make env _
  · exact .ret _

theorem twin_short (f : FindPre) : Twin g g' (findShortCircuit f g) (findShortCircuit f g') := by
  refine .bind (twin_load .idx _) fun _ => .bind (twin_load .idx _) fun _ => ?_
  split
  · exact .ret _
  · split <;> exact .ret _

/-- The same for programs with output. -/
def ScrTwin (g g' : GPath) {α : Type} (s s' : Scr α) : Prop := Twin g g' s.prog s'.prog

theorem ScrTwin.pure {α : Type} (a : α) : ScrTwin g g' (Pure.pure a : Scr α) (Pure.pure a) := .ret _

theorem ScrTwin.raise {α : Type} (e : PyErr) : ScrTwin g g' (Scr.raise e : Scr α) (Scr.raise e) := .ret _

theorem ScrTwin.put (x : Shown) : ScrTwin g g' (Scr.put x) (Scr.put x) := .ret _

theorem ScrTwin.lift {α : Type} {p p' : Prog α} (h : Twin g g' p p') : ScrTwin g g' (Scr.lift p) (Scr.lift p') :=
  .tryCatch (.bind h fun _ => .ret _) fun _ => .ret _

theorem ScrTwin.bind {α β : Type} {s s' : Scr α} {f f' : α → Scr β} (h : ScrTwin g g' s s') (hf : ∀ a, ScrTwin g g' (f a) (f' a)) :
    ScrTwin g g' (s >>= f) (s' >>= f') := by
  refine Twin.bind h fun x => ?_
  split
  · exact .bind (hf _) fun _ => .ret _
  · exact .ret _

theorem ScrTwin.tryCatch {α : Type} {s s' : Scr α} {f f' : PyErr → Scr α} (h : ScrTwin g g' s s') (hf : ∀ a, ScrTwin g g' (f a) (f' a)) :
    ScrTwin g g' (s.tryCatch f) (s'.tryCatch f') := by
  refine Twin.bind h fun x => ?_
  split
  · exact .ret _
  · exact .bind (hf _) fun _ => .ret _

theorem twin_query (env : Env) (q : Str) : ScrTwin g g' (queryS env q g) (queryS env q g') := by
  unfold queryS
  split
  · exact .raise _
  · refine .bind (.lift (.liftE _)) fun p => .bind ?_ fun _ => .pure _
    unfold executeQueryS
    refine .bind (.lift (twin_makes env _)) fun _ => ?_
    split
    · exact .raise _
    · refine .bind (.bind (.lift (.liftE _)) fun f => .bind (.lift (twin_short f)) fun b => ?_) fun _ => .bind (.lift ?_) fun _ => .pure _
      · split
        · exact .bind (.put _) fun _ => .pure _
        · exact .pure _
      · unfold executeReport
        split <;> exact .ret _

theorem twin_shell (env : Env) (inputs : List Str) : ScrTwin g g' (shellLoopS env g inputs) (shellLoopS env g' inputs) := by
  induction inputs with
  | nil => exact .bind (.put _) fun _ => .pure _
  | cons q rest ih =>
    rw [shellLoopS, shellLoopS]
    refine .bind (.put _) fun _ => .bind (.put _) fun _ => ?_
    split
    · exact .bind (.put _) fun _ => .pure _
    · split
      · exact .bind (.put _) fun _ => .bind ih fun _ => .pure _
      · exact .bind (.tryCatch (.bind (twin_query env q) fun _ => .pure _) fun _ => .bind (.put _) fun _ => .pure _) fun _ => .bind ih fun _ => .pure _

theorem twin_queryProg (env : Env) (q : Str) : Twin g g' (query env q g) (query env q g') := by
  unfold query
  split
  · exact .raise _
  · refine .bind (.liftE _) fun p => .bind ?_ fun _ => .ret _
    unfold executeQuery
    refine .bind (twin_makes env _) fun _ => ?_
    split
    · exact .raise _
    · refine .bind (.bind (.liftE _) fun f => .bind (twin_short f) fun b => ?_) fun _ => .bind ?_ fun _ => .ret _
      · split <;> exact .ret _
      · unfold executeReport
        split <;> exact .ret _

theorem twin_shellProg (env : Env) (inputs : List Str) : Twin g g' (shellLoop env g inputs) (shellLoop env g' inputs) := by
  induction inputs with
  | nil => exact .ret _
  | cons q rest ih =>
    rw [shellLoop, shellLoop]
    split
    · exact .ret _
    · split
      · exact .bind ih fun _ => .ret _
      · exact .bind (.tryCatch (.bind (twin_queryProg env q) fun _ => .ret _) fun _ => .ret _) fun _ => .bind ih fun _ => .ret _

theorem step_twin (hg : g.Apart) (hg' : g'.Apart) {α : Type} {p p' : Prog α} (hp : Twin g g' p p') {a b : FS} (h : Copied g g' a b) :
    Twin g g' (stepProg p a).1 (stepProg p' b).1 ∧ Copied g g' (stepProg p a).2 (stepProg p' b).2 := by
  cases hp with
  | ret x => exact ⟨.ret x, h⟩
  | raise e => exact ⟨.raise e, h⟩
  | act ho hk =>
    obtain ⟨h1, h2⟩ := exec_twin hg hg' ho h
    simp only [stepProg]
    rw [h1]
    exact ⟨hk _, h2⟩

theorem sched_twin (hg : g.Apart) (hg' : g'.Apart) {α β : Type} (bs : List Bool) {p p' : Prog α} {q q' : Prog β} (hp : Twin g g' p p')
    (hq : Twin g g' q q') {a b : FS} (h : Copied g g' a b) :
    Twin g g' (runSched bs p q a).1 (runSched bs p' q' b).1 ∧ Twin g g' (runSched bs p q a).2.1 (runSched bs p' q' b).2.1 ∧
      Copied g g' (runSched bs p q a).2.2 (runSched bs p' q' b).2.2 := by
  induction bs generalizing p p' q q' a b with
  | nil => exact ⟨hp, hq, h⟩
  | cons x bs ih =>
    cases x with
    | false =>
      obtain ⟨h1, h2⟩ := step_twin hg hg' hp h
      exact ih h1 hq h2
    | true =>
      obtain ⟨h1, h2⟩ := step_twin hg hg' hq h
      exact ih hp h1 h2

end
end WG
