/-
Failing calls: a program in which every failing call ends in an exception nobody catches (`Fragile`) ends, when calls fail, in one of its
crash states.
-/
import Verif.Spec.Faults
import Verif.Proofs.Durable

set_option linter.unusedSectionVars false
set_option linter.unusedSimpArgs false

namespace WG

/-! ### Programs -/

/-- Every failing call ends the program with one of the exceptions `E`. -/
inductive Fragile {α : Type} (E : PyErr → Prop) : Prog α → Prop where
  | ret (a : α) : Fragile E (.ret a)
  | raise (e : PyErr) : Fragile E (.raise e)
  | act (op : Op) (k : Resp → Prog α) (e : PyErr) (he : E e) (hf : k .fail = .raise e) (h : ∀ r, Fragile E (k r)) :
      Fragile E (.act op k)

section
variable {α β : Type} {E : PyErr → Prop} {tear : Path → Prop}

theorem Fragile.bind {p : Prog α} {f : α → Prog β} (h : Fragile E p) (hf : ∀ a, Fragile E (f a)) : Fragile E (p >>= f) := by
  induction h with
  | ret a => exact hf a
  | raise e => exact .raise e
  | act op k e he hk _ ih => exact .act op _ e he (by show (k .fail).bind f = _; rw [hk]; rfl) ih

theorem Fragile.tryCatch {p : Prog α} {f : PyErr → Prog α} (h : Fragile E p) (h1 : ∀ e, E e → f e = .raise e)
    (hf : ∀ e, Fragile E (f e)) : Fragile E (p.tryCatch f) := by
  induction h with
  | ret a => exact .ret a
  | raise e => exact hf e
  | act op k e he hk _ ih => exact .act op _ e he (by show (k .fail).tryCatch f = _; rw [hk]; exact h1 e he) ih

theorem Fragile.mono {E' : PyErr → Prop} {p : Prog α} (h : Fragile E p) (hE : ∀ e, E e → E' e) : Fragile E' p := by
  induction h with
  | ret a => exact .ret a
  | raise e => exact .raise e
  | act op k e he hk _ ih => exact .act op k e (hE e he) hk ih

theorem Fragile.liftE (x : Except PyErr α) : Fragile E (liftE x) := by
  cases x
  · exact .raise _
  · exact .ret _

theorem Fragile.unitOp {op : Op} {e : PyErr} (he : E e) : Fragile E (unitOp op e) :=
  .act _ _ e he rfl fun r => by cases r <;> first | exact .ret _ | exact .raise _

theorem Fragile.flagOp {op : Op} (he : E .osError) : Fragile E (flagOp op) :=
  .act _ _ _ he rfl fun r => by cases r <;> first | exact .ret _ | exact .raise _

theorem Fragile.readFile {p : Path} (he : E .fileNotFound) : Fragile E (readFile p) :=
  .act _ _ _ he rfl fun r => by cases r <;> first | exact .ret _ | exact .raise _

theorem fault_ret {a : α} {fs fs' : FS} (h : FaultAt tear (.ret a) fs fs') : fs' = fs := by cases h; rfl
theorem fault_pure {a : α} {fs fs' : FS} (h : FaultAt tear (pure a : Prog α) fs fs') : fs' = fs := fault_ret h
theorem fault_raise {e : PyErr} {fs fs' : FS} (h : FaultAt tear (.raise e : Prog α) fs fs') : fs' = fs := by cases h; rfl

theorem faultRun_ret {a : α} {fs : FS} {r : Except PyErr α × FS} (h : FaultRun tear (.ret a) fs r) : r = (.ok a, fs) := by
  cases h; rfl
theorem faultRun_raise {e : PyErr} {fs : FS} {r : Except PyErr α × FS} (h : FaultRun tear (.raise e) fs r) : r = (.error e, fs) := by
  cases h; rfl

/-- The end of a run is one of its moments. -/
theorem faultRun_at {p : Prog α} {fs : FS} {r : Except PyErr α × FS} (h : FaultRun tear p fs r) : FaultAt tear p fs r.2 := by
  induction h with
  | ret a fs => exact .here _ _
  | raise e fs => exact .here _ _
  | good op k fs r _ ih => exact .good op k fs _ ih
  | bad op k fs r _ ih => exact .bad op k fs _ ih
  | broken p pos s n k fs r ht _ ih => exact .broken p pos s n k fs _ ht ih

/-- When no call fails. -/
theorem faultRun_run (p : Prog α) (fs : FS) : FaultRun tear p fs (p.run fs) := by
  induction p generalizing fs with
  | ret a => exact .ret a fs
  | raise e => exact .raise e fs
  | act op k ih => exact .good op k fs _ (ih _ _)

theorem fault_of_crash {p : Prog α} {fs fs' : FS} (h : CrashAt tear p fs fs') : FaultAt tear p fs fs' := by
  induction h with
  | here p fs => exact .here p fs
  | torn p pos s n k fs ht => exact .torn p pos s n k fs ht
  | step op k fs fs' _ ih => exact .good op k fs fs' ih

theorem Fragile.crash {p : Prog α} (hp : Fragile E p) {fs fs' : FS} (h : FaultAt tear p fs fs') : CrashAt tear p fs fs' := by
  induction h with
  | here p fs => exact .here p fs
  | torn p pos s n k fs ht => exact .torn p pos s n k fs ht
  | good op k fs fs' _ ih =>
    cases hp with
    | act _ _ e he hf h => exact .step op k fs fs' (ih (h _))
  | bad op k fs fs' h' _ =>
    cases hp with
    | act _ _ e he hf h =>
      rw [hf] at h'
      rw [fault_raise h']
      exact .here _ _
  | broken p pos s n k fs fs' ht h' _ =>
    cases hp with
    | act _ _ e he hf h =>
      rw [hf] at h'
      rw [fault_raise h']
      exact .torn p pos s n k fs ht

/-- The run is the ordinary one, or it raised one of the exceptions of failing calls in a crash state. -/
theorem Fragile.run {p : Prog α} (hp : Fragile E p) {fs : FS} {r : Except PyErr α × FS} (h : FaultRun tear p fs r) :
    r = p.run fs ∨ (∃ e, E e ∧ r.1 = .error e) ∧ CrashAt tear p fs r.2 := by
  induction h with
  | ret a fs => exact .inl rfl
  | raise e fs => exact .inl rfl
  | good op k fs r _ ih =>
    cases hp with
    | act _ _ e he hf h =>
      rcases ih (h _) with e | ⟨e, hc⟩
      · exact .inl e
      · exact .inr ⟨e, .step op k fs _ hc⟩
  | bad op k fs r h' _ =>
    cases hp with
    | act _ _ e he hf h =>
      rw [hf] at h'
      rw [faultRun_raise h']
      exact .inr ⟨⟨e, he, rfl⟩, .here _ _⟩
  | broken p pos s n k fs r ht h' _ =>
    cases hp with
    | act _ _ e he hf h =>
      rw [hf] at h'
      rw [faultRun_raise h']
      exact .inr ⟨⟨e, he, rfl⟩, .torn p pos s n k fs ht⟩

/-- Every crash state but the last is where a failing call leaves the program. -/
theorem Fragile.fault {p : Prog α} (hp : Fragile E p) {fs fs' : FS} (h : CrashAt tear p fs fs') :
    (∃ e, E e ∧ FaultRun tear p fs (.error e, fs')) ∨ fs' = (p.run fs).2 := by
  induction h with
  | here p fs =>
    cases p with
    | ret a => exact .inr rfl
    | raise e => exact .inr rfl
    | act op k =>
      cases hp with
      | act _ _ e he hf h => exact .inl ⟨e, he, .bad op k fs _ (by rw [hf]; exact .raise e fs)⟩
  | torn p pos s n k fs ht =>
    cases hp with
    | act _ _ e he hf h => exact .inl ⟨e, he, .broken p pos s n k fs _ ht (by rw [hf]; exact .raise e _)⟩
  | step op k fs fs' _ ih =>
    cases hp with
    | act _ _ e he hf h =>
      rcases ih (h _) with ⟨e, he, h⟩ | h
      · exact .inl ⟨e, he, .good op k fs _ h⟩
      · exact .inr h

theorem fault_bind {p : Prog α} {f : α → Prog β} {fs fs' : FS} (h : FaultAt tear (p >>= f) fs fs') :
    FaultAt tear p fs fs' ∨ ∃ a fs1, FaultRun tear p fs (.ok a, fs1) ∧ FaultAt tear (f a) fs1 fs' := by
  induction p generalizing fs with
  | ret a => exact .inr ⟨a, fs, .ret a fs, h⟩
  | raise e => exact .inl (by rw [show fs' = fs from fault_raise h]; exact .here _ _)
  | act op k ih =>
    change FaultAt tear (.act op fun r => (k r).bind f) fs fs' at h
    cases h with
    | here => exact .inl (.here _ _)
    | torn p pos s n _ _ ht => exact .inl (.torn p pos s n k fs ht)
    | good _ _ _ _ h =>
      rcases ih _ h with h | ⟨a, fs1, h1, h2⟩
      · exact .inl (.good _ _ _ _ h)
      · exact .inr ⟨a, fs1, .good _ _ _ _ h1, h2⟩
    | bad _ _ _ _ h =>
      rcases ih _ h with h | ⟨a, fs1, h1, h2⟩
      · exact .inl (.bad _ _ _ _ h)
      · exact .inr ⟨a, fs1, .bad _ _ _ _ h1, h2⟩
    | broken p pos s n _ _ _ ht h =>
      rcases ih _ h with h | ⟨a, fs1, h1, h2⟩
      · exact .inl (.broken p pos s n k fs _ ht h)
      · exact .inr ⟨a, fs1, .broken p pos s n k fs _ ht h1, h2⟩

theorem fault_tryCatch {p : Prog α} {f : PyErr → Prog α} {fs fs' : FS} (h : FaultAt tear (p.tryCatch f) fs fs') :
    FaultAt tear p fs fs' ∨ ∃ e fs1, FaultRun tear p fs (.error e, fs1) ∧ FaultAt tear (f e) fs1 fs' := by
  induction p generalizing fs with
  | ret a => exact .inl h
  | raise e => exact .inr ⟨e, fs, .raise e fs, h⟩
  | act op k ih =>
    change FaultAt tear (.act op fun r => (k r).tryCatch f) fs fs' at h
    cases h with
    | here => exact .inl (.here _ _)
    | torn p pos s n _ _ ht => exact .inl (.torn p pos s n k fs ht)
    | good _ _ _ _ h =>
      rcases ih _ h with h | ⟨a, fs1, h1, h2⟩
      · exact .inl (.good _ _ _ _ h)
      · exact .inr ⟨a, fs1, .good _ _ _ _ h1, h2⟩
    | bad _ _ _ _ h =>
      rcases ih _ h with h | ⟨a, fs1, h1, h2⟩
      · exact .inl (.bad _ _ _ _ h)
      · exact .inr ⟨a, fs1, .bad _ _ _ _ h1, h2⟩
    | broken p pos s n _ _ _ ht h =>
      rcases ih _ h with h | ⟨a, fs1, h1, h2⟩
      · exact .inl (.broken p pos s n k fs _ ht h)
      · exact .inr ⟨a, fs1, .broken p pos s n k fs _ ht h1, h2⟩

theorem faultRun_bind {p : Prog α} {f : α → Prog β} {fs : FS} {r : Except PyErr β × FS} (h : FaultRun tear (p >>= f) fs r) :
    (∃ e fs1, FaultRun tear p fs (.error e, fs1) ∧ r = (.error e, fs1)) ∨
      ∃ a fs1, FaultRun tear p fs (.ok a, fs1) ∧ FaultRun tear (f a) fs1 r := by
  induction p generalizing fs with
  | ret a => exact .inr ⟨a, fs, .ret a fs, h⟩
  | raise e => exact .inl ⟨e, fs, .raise e fs, faultRun_raise h⟩
  | act op k ih =>
    change FaultRun tear (.act op fun r => (k r).bind f) fs r at h
    cases h with
    | good _ _ _ _ h =>
      rcases ih _ h with ⟨e, fs1, h1, h2⟩ | ⟨a, fs1, h1, h2⟩
      · exact .inl ⟨e, fs1, .good _ _ _ _ h1, h2⟩
      · exact .inr ⟨a, fs1, .good _ _ _ _ h1, h2⟩
    | bad _ _ _ _ h =>
      rcases ih _ h with ⟨e, fs1, h1, h2⟩ | ⟨a, fs1, h1, h2⟩
      · exact .inl ⟨e, fs1, .bad _ _ _ _ h1, h2⟩
      · exact .inr ⟨a, fs1, .bad _ _ _ _ h1, h2⟩
    | broken p pos s n _ _ _ ht h =>
      rcases ih _ h with ⟨e, fs1, h1, h2⟩ | ⟨a, fs1, h1, h2⟩
      · exact .inl ⟨e, fs1, .broken p pos s n k fs _ ht h1, h2⟩
      · exact .inr ⟨a, fs1, .broken p pos s n k fs _ ht h1, h2⟩

theorem faultRun_tryCatch {p : Prog α} {f : PyErr → Prog α} {fs : FS} {r : Except PyErr α × FS}
    (h : FaultRun tear (p.tryCatch f) fs r) : (∃ a fs1, FaultRun tear p fs (.ok a, fs1) ∧ r = (.ok a, fs1)) ∨
      ∃ e fs1, FaultRun tear p fs (.error e, fs1) ∧ FaultRun tear (f e) fs1 r := by
  induction p generalizing fs with
  | ret a => exact .inl ⟨a, fs, .ret a fs, faultRun_ret h⟩
  | raise e => exact .inr ⟨e, fs, .raise e fs, h⟩
  | act op k ih =>
    change FaultRun tear (.act op fun r => (k r).tryCatch f) fs r at h
    cases h with
    | good _ _ _ _ h =>
      rcases ih _ h with ⟨e, fs1, h1, h2⟩ | ⟨a, fs1, h1, h2⟩
      · exact .inl ⟨e, fs1, .good _ _ _ _ h1, h2⟩
      · exact .inr ⟨a, fs1, .good _ _ _ _ h1, h2⟩
    | bad _ _ _ _ h =>
      rcases ih _ h with ⟨e, fs1, h1, h2⟩ | ⟨a, fs1, h1, h2⟩
      · exact .inl ⟨e, fs1, .bad _ _ _ _ h1, h2⟩
      · exact .inr ⟨a, fs1, .bad _ _ _ _ h1, h2⟩
    | broken p pos s n _ _ _ ht h =>
      rcases ih _ h with ⟨e, fs1, h1, h2⟩ | ⟨a, fs1, h1, h2⟩
      · exact .inl ⟨e, fs1, .broken p pos s n k fs _ ht h1, h2⟩
      · exact .inr ⟨a, fs1, .broken p pos s n k fs _ ht h1, h2⟩

theorem faultRun_bind_ok {p : Prog α} {f : α → Prog β} {fs fs1 : FS} {a : α} {r : Except PyErr β × FS}
    (h : FaultRun tear p fs (.ok a, fs1)) (hf : FaultRun tear (f a) fs1 r) : FaultRun tear (p >>= f) fs r := by
  generalize hx : (Except.ok a, fs1) = x at h
  induction h with
  | ret b fs => cases hx; exact hf
  | raise e fs => cases hx
  | good op k fs x _ ih => exact .good _ _ _ _ (ih hx)
  | bad op k fs x _ ih => exact .bad _ _ _ _ (ih hx)
  | broken p pos s n k fs x ht _ ih => exact .broken p pos s n _ fs _ ht (ih hx)

theorem faultRun_catch_error {p : Prog α} {f : PyErr → Prog α} {fs fs1 : FS} {e : PyErr} {r : Except PyErr α × FS}
    (h : FaultRun tear p fs (.error e, fs1)) (hf : FaultRun tear (f e) fs1 r) : FaultRun tear (p.tryCatch f) fs r := by
  generalize hx : (Except.error e, fs1) = x at h
  induction h with
  | ret b fs => cases hx
  | raise e fs => cases hx; exact hf
  | good op k fs x _ ih => exact .good _ _ _ _ (ih hx)
  | bad op k fs x _ ih => exact .bad _ _ _ _ (ih hx)
  | broken p pos s n k fs x ht _ ih => exact .broken p pos s n _ fs _ ht (ih hx)

theorem faultRun_bind_error {p : Prog α} {f : α → Prog β} {fs fs1 : FS} {e : PyErr}
    (h : FaultRun tear p fs (.error e, fs1)) : FaultRun tear (p >>= f) fs (.error e, fs1) := by
  generalize hx : (Except.error e, fs1) = x at h
  induction h with
  | ret b fs => cases hx
  | raise e fs => cases hx; exact .raise _ _
  | good op k fs x _ ih => exact .good _ _ _ _ (ih hx)
  | bad op k fs x _ ih => exact .bad _ _ _ _ (ih hx)
  | broken p pos s n k fs x ht _ ih => exact .broken p pos s n _ fs _ ht (ih hx)

end

/-! ### Queries -/

/-- What a failing call raises, in the model. -/
def IOErr (e : PyErr) : Prop := e = .osError ∨ e = .fileNotFound

variable [PyRuntime]

theorem fragile_dump (p : Path) (pos : Nat) (v : V) : Fragile IOErr (dumpTo p pos v) := by
  unfold dumpTo
  refine .bind (.unitOp (.inl rfl)) fun _ => ?_
  split
  · exact .ret _
  · exact .raise _

theorem fragile_addItem (p : Path) (items : List (Str × V)) : Fragile IOErr (addItemToDatabase p items) := by
  unfold addItemToDatabase
  exact .bind (.readFile (.inr rfl)) fun _ => .bind (.liftE _) fun _ => .bind (.liftE _) fun _ => .bind (fragile_dump _ _ _) fun _ => .ret _

theorem fragile_addSet (o : SetOrd) (p : Path) (items : List Str) (name : Str) : Fragile IOErr (addItemsSetToIndex o p items name) := by
  unfold addItemsSetToIndex
  exact .bind (.readFile (.inr rfl)) fun _ => .bind (.liftE _) fun _ => .bind (.liftE _) fun _ => .bind (.liftE _) fun _ =>
    .bind (.liftE _) fun _ => .bind (fragile_dump _ _ _) fun _ => .bind (.unitOp (.inl rfl)) fun _ => .ret _

theorem fragile_addRel (o : SetOrd) (p : Path) (items : List (Str × List V)) :
    Fragile IOErr (addItemsToNodeRelationshipsIndex o p items) := by
  unfold addItemsToNodeRelationshipsIndex
  exact .bind (.readFile (.inr rfl)) fun _ => .bind (.liftE _) fun _ => .bind (.liftE _) fun _ => .bind (.liftE _) fun _ =>
    .bind (.liftE _) fun _ => .bind (fragile_dump _ _ _) fun _ => .bind (.unitOp (.inl rfl)) fun _ => .ret _

theorem fragile_loadSet (p : Path) (name : Str) : Fragile IOErr (loadIndexSet p name) := by
  unfold loadIndexSet
  refine .tryCatch (.bind (.readFile (.inr rfl)) fun _ => .bind (.liftE _) fun _ => .bind (.liftE _) fun _ => .liftE _) ?_ fun e => ?_
  · rintro e (rfl | rfl) <;> rfl
  · split
    · exact .ret _
    · exact .raise _

theorem fragile_counter (p : Path) : Fragile IOErr (getCurrentWiggleNumber p) := by
  unfold getCurrentWiggleNumber
  refine .bind (.readFile (.inr rfl)) fun s => ?_
  split
  · exact .raise _
  · split
    · exact .ret _
    · exact .raise _

theorem fragile_update (p : Path) (n : Int) : Fragile IOErr (updateWiggleNumber p n) := by
  unfold updateWiggleNumber
  exact .bind (.unitOp (.inr rfl)) fun _ => .bind (.unitOp (.inl rfl)) fun _ => .ret _

theorem fragile_make (env : Env) (ms : List ParsedMake) (g : GPath) : Fragile IOErr (make env ms g) := by
  unfold make addNodesToGraph addIndexes addItemsToNodeLabelsIndex addItemsToRelationshipNamesIndex
  exact .bind (fragile_counter _) fun _ => .bind (.liftE _) fun _ => .bind (.liftE _) fun _ =>
    .bind (.bind (fragile_addItem _ _) fun _ => .ret _) fun _ =>
    .bind (.bind (fragile_addRel _ _ _) fun _ => .bind (fragile_addSet _ _ _ _) fun _ => .bind (fragile_addSet _ _ _ _) fun _ => .ret _) fun _ =>
    .bind (fragile_update _ _) fun _ => .ret _

theorem fragile_find (pf : ParsedFind) (g : GPath) (c : Option Criteria) : Fragile IOErr (find pf g c) := by
  unfold find findShortCircuit
  refine .bind (.liftE _) fun f => .bind ?_ fun b => ?_
  · refine .bind (fragile_loadSet _ _) fun labels => .bind (fragile_loadSet _ _) fun names => ?_
    repeat' (first | split | exact .ret _)
  · split <;> exact .ret _

theorem fragile_query (env : Env) (q : Str) (g : GPath) : Fragile IOErr (query env q g) := by
  unfold query
  simp only [Bool.and_false, Bool.false_eq_true, if_false]
  refine .bind (.liftE _) fun p => .bind ?_ fun _ => .ret _
  unfold executeQuery
  refine .bind ?_ fun _ => ?_
  · unfold executeMakes
    split
    · exact fragile_make env _ g
    · exact .ret _
  · split
    · exact .raise _
    · refine .bind (fragile_find _ _ _) fun _ => .bind ?_ fun _ => .ret _
      unfold executeReport
      split <;> exact .ret _

/-! ### Sessions -/

theorem asksHelp_iff (q : Str) : AsksHelp q ↔ isSubstr c!"help" (lower q) = true := by
  rw [isSubstr_iff]; exact Iff.rfl

theorem served_of {tear : Path → Prop} {env : Env} {g : GPath} {inputs : List Str} {fs : FS} {r : Except PyErr (List Event) × FS}
    (h : FaultRun tear (shellLoop env g inputs) fs r) : ∃ log, r.1 = .ok log ∧ Served tear env g inputs fs log r.2 := by
  induction inputs generalizing fs r with
  | nil => rw [shellLoop] at h; rw [faultRun_ret h]; exact ⟨[], rfl, .waiting fs⟩
  | cons q rest ih =>
    rw [shellLoop] at h
    by_cases hq : q = c!"q"
    · rw [if_pos hq] at h
      rw [faultRun_ret h, hq]
      exact ⟨_, rfl, .bye rest fs⟩
    rw [if_neg hq] at h
    have cont : ∀ {ev : Event} {fs1 : FS}, FaultRun tear (do let l ← shellLoop env g rest; pure (ev :: l)) fs1 r →
        ∃ log, r.1 = .ok (ev :: log) ∧ Served tear env g rest fs1 log r.2 := by
      intro ev fs1 h
      rcases faultRun_bind h with ⟨e, fs2, h1, -⟩ | ⟨l, fs2, h1, h2⟩
      · obtain ⟨log, h2, -⟩ := ih h1
        simp at h2
      · obtain ⟨log, h3, h4⟩ := ih h1
        simp only [Except.ok.injEq] at h3
        subst h3
        rw [faultRun_ret h2]
        exact ⟨l, rfl, h4⟩
    by_cases hh : isSubstr c!"help" (lower q) = true
    · rw [if_pos hh] at h
      obtain ⟨log, h1, h2⟩ := cont h
      exact ⟨_, h1, .help q rest fs log _ hq ((asksHelp_iff q).2 hh) h2⟩
    · rw [if_neg hh] at h
      have hh' : ¬ AsksHelp q := fun x => hh ((asksHelp_iff q).1 x)
      rcases faultRun_bind h with ⟨e, fs1, h1, -⟩ | ⟨ev, fs1, h1, h⟩
      · rcases faultRun_tryCatch h1 with ⟨_, _, _, h2⟩ | ⟨e', fs2, _, h3⟩
        · simp at h2
        · have := faultRun_ret h3
          simp at this
      · obtain ⟨log, h4, h5⟩ := cont h
        rcases faultRun_tryCatch h1 with ⟨a, fs2, h2, e⟩ | ⟨e', fs2, h2, h3⟩
        · cases e
          rcases faultRun_bind h2 with ⟨_, _, _, e⟩ | ⟨b, fs3, h2, h3⟩
          · simp at e
          · cases faultRun_ret h3
            rcases (fragile_query env q g).run h2 with e | ⟨⟨e, -, h6⟩, -⟩
            · exact ⟨_, h4, .done q rest fs fs1 b log _ hq hh' e.symm h5⟩
            · simp at h6
        · cases faultRun_ret h3
          rcases faultRun_bind h2 with ⟨e, fs3, h2, e1⟩ | ⟨b, fs3, h2, h3⟩
          · cases e1
            exact ⟨_, h4, .failed q rest fs fs1 e' log _ hq hh' ((fragile_query env q g).crash (faultRun_at h2)) h5⟩
          · have := faultRun_ret h3
            simp at this

/-- Any moment of a session with failing calls: the disk has gone through crash states of some of the texts, in order. -/
inductive Trail (R : Str → FS → FS → Prop) : List Str → FS → FS → Prop where
  | stop (l : List Str) (fs : FS) : Trail R l fs fs
  | skip (q : Str) (l : List Str) (fs fs' : FS) : Trail R l fs fs' → Trail R (q :: l) fs fs'
  | step (q : Str) (l : List Str) (fs fs1 fs' : FS) : R q fs fs1 → Trail R l fs1 fs' → Trail R (q :: l) fs fs'

theorem trail_of {tear : Path → Prop} {env : Env} {g : GPath} {inputs : List Str} {fs fs' : FS}
    (h : FaultAt tear (shellLoop env g inputs) fs fs') : Trail (fun q => CrashAt tear (query env q g)) inputs fs fs' := by
  induction inputs generalizing fs with
  | nil => rw [fault_pure h]; exact .stop _ _
  | cons q rest ih =>
    rw [shellLoop] at h
    by_cases hq : q = c!"q"
    · rw [if_pos hq] at h
      rw [fault_pure h]; exact .stop _ _
    rw [if_neg hq] at h
    have cont : ∀ {ev : Event} {fs1 : FS}, FaultAt tear (do let l ← shellLoop env g rest; pure (ev :: l)) fs1 fs' →
        FaultAt tear (shellLoop env g rest) fs1 fs' := by
      intro ev fs1 h
      rcases fault_bind h with h | ⟨l, fs2, h1, h2⟩
      · exact h
      · rw [fault_pure h2]; exact faultRun_at h1
    have body : ∀ {fs1}, FaultAt tear (Prog.tryCatch (do let _ ← query env q g; pure Event.done) fun e => pure (.failed e)) fs fs1 →
        CrashAt tear (query env q g) fs fs1 := by
      intro fs1 h
      refine (fragile_query env q g).crash ?_
      have inner : ∀ {fs1}, FaultAt tear (do let _ ← query env q g; pure Event.done) fs fs1 → FaultAt tear (query env q g) fs fs1 := by
        intro fs1 h
        rcases fault_bind h with h | ⟨l, fs2, h1, h2⟩
        · exact h
        · rw [fault_pure h2]; exact faultRun_at h1
      rcases fault_tryCatch h with h | ⟨e, fs2, h1, h2⟩
      · exact inner h
      · rw [fault_pure h2]; exact inner (faultRun_at h1)
    by_cases hh : isSubstr c!"help" (lower q) = true
    · rw [if_pos hh] at h
      exact .skip _ _ _ _ (ih (cont h))
    · rw [if_neg hh] at h
      rcases fault_bind h with h | ⟨ev, fs1, h1, h⟩
      · exact .step _ _ _ _ _ (body h) (.stop _ _)
      · exact .step _ _ _ _ _ (body (faultRun_at h1)) (ih (cont h))

theorem Trail.of_forall {R : Str → FS → FS → Prop} {P : FS → FS → Prop} {l : List Str} (h0 : ∀ fs, P fs fs)
    (ht : ∀ a b c, P a b → P b c → P a c) (h1 : ∀ q ∈ l, ∀ a b, R q a b → P a b) {fs fs' : FS} (h : Trail R l fs fs') : P fs fs' := by
  induction h with
  | stop => exact h0 _
  | skip q l fs fs' _ ih => exact ih fun q hm => h1 q (by simp [hm])
  | step q l fs fs1 fs' hr _ ih => exact ht _ _ _ (h1 q (by simp) _ _ hr) (ih fun q hm => h1 q (by simp [hm]))

theorem crash_query_grows {tear : Path → Prop} {env : Env} {q : Str} {g : GPath} {fs fs' : FS} (ht : ¬ tear g.db)
    (h1 : g.db ≠ g.idx) (h2 : g.db ≠ g.wn) (hj : JsonOnly q) (h : CrashAt tear (query env q g) fs fs') : Grew fs fs' g.db := by
  rcases crash_query_db ht h1 h2 h with e | e
  · exact .same e
  · exact (query_grows h1 h2 hj).of e

/-! ### Selection and processes -/

/-- What a failing call raises outside of reading and listing. -/
def OSErr (e : PyErr) : Prop := e = .osError

theorem OSErr.io {e : PyErr} (h : OSErr e) : IOErr e := .inl h

theorem fragile_newFile (p : Path) (text : Str) : Fragile OSErr (createNewFile p text) := by
  unfold createNewFile
  refine .bind (.unitOp rfl) fun _ => .bind (.flagOp rfl) fun b => ?_
  split
  · exact .raise _
  · exact .bind (.unitOp rfl) fun _ => .bind (.unitOp rfl) fun _ => .bind (.unitOp rfl) fun _ => .ret _

theorem fragile_newDbms (folder : Str) (inputs : List Str) : Fragile OSErr (createNewDbms folder inputs) := by
  induction inputs with
  | nil => exact .ret _
  | cons x inputs ih =>
    rw [createNewDbms]
    refine .tryCatch (.bind (.bind (fragile_newFile _ _) fun _ => .bind (fragile_newFile _ _) fun _ => .bind (fragile_newFile _ _) fun _ =>
      .ret _) fun _ => .ret _) ?_ fun e => ?_
    · rintro e rfl; rfl
    · split
      · exact ih
      · exact .raise _

theorem fragile_menu (folder : Str) : Fragile IOErr (getAndDisplayAvailableDbms folder) := by
  unfold getAndDisplayAvailableDbms listExistingDbms
  refine .bind (.act _ _ _ (.inr rfl) rfl fun r => ?_) fun l => ?_
  · cases r <;> first | exact .ret _ | exact .raise _
  · split <;> exact .ret _

theorem fragile_files (folder name : Str) : Fragile OSErr (getExistingFiles folder name) := by
  have one : ∀ p, Fragile OSErr (getExistingFile p) := by
    intro p
    unfold getExistingFile
    refine .bind (.flagOp rfl) fun b => ?_
    split
    · exact .raise _
    · exact .ret _
  exact .bind (one _) fun _ => .bind (one _) fun _ => .bind (one _) fun _ => .ret _

/-- `fileNotFound` is caught in the middle of the selection, so the two kinds of exceptions are kept apart. -/
theorem fragile_existing (folder : Str) (inputs : List Str) : Fragile IOErr (getExistingGdbms folder inputs) := by
  induction inputs with
  | nil =>
    rw [getExistingGdbms]
    refine .bind (fragile_menu _) fun m => ?_
    split
    · exact (fragile_newDbms _ _).mono fun _ => OSErr.io
    · exact (fragile_newDbms _ _).mono fun _ => OSErr.io
    · exact .ret _
  | cons x inputs ih =>
    rw [getExistingGdbms]
    refine .bind (fragile_menu _) fun m => ?_
    split
    · exact (fragile_newDbms _ _).mono fun _ => OSErr.io
    · exact (fragile_newDbms _ _).mono fun _ => OSErr.io
    · split
      · exact ih
      · next name _ =>
        have hb : Fragile OSErr (do let g ← getExistingFiles folder name; pure (some (g, inputs))) :=
          .bind (fragile_files _ _) fun _ => .ret _
        generalize (do let g ← getExistingFiles folder name; pure (some (g, inputs)) : Prog (Option (GPath × List Str))) = p at hb
        induction hb with
        | ret a => exact .ret a
        | raise e =>
          show Fragile IOErr (if e = .fileNotFound then getExistingGdbms folder inputs else .raise e)
          split
          · exact ih
          · exact .raise _
        | act op k e he hf _ ih2 =>
          refine .act op _ e he.io ?_ ih2
          show (k .fail).tryCatch _ = _
          rw [hf]
          cases he
          rfl

theorem fragile_select (inputs : List Str) : Fragile IOErr (selectGdbms inputs) := by
  cases inputs with
  | nil => exact .ret _
  | cons c inputs =>
    rw [selectGdbms]
    split
    · exact fragile_existing _ _
    · exact (fragile_newDbms _ _).mono fun _ => OSErr.io

/-- A moment of a process with failing calls: still selecting, or in the session. -/
theorem fault_shell {tear : Path → Prop} {env : Env} {inputs : List Str} {fs fs' : FS}
    (h : FaultAt tear (startWiggleShell env inputs) fs fs') :
    KeepsFiles fs fs' ∨ ∃ name rest fs1, (∃ used, inputs = used ++ rest) ∧ KeepsFiles fs fs1 ∧
      FaultAt tear (shellLoop env (gdbmsPath DBMS_FOLDER name) rest) fs1 fs' := by
  unfold startWiggleShell at h
  rcases fault_bind h with h | ⟨sel, fs1, h1, h⟩
  · exact .inl (crash_select ((fragile_select _).crash h))
  have hk : KeepsFiles fs fs1 := crash_select ((fragile_select _).crash (faultRun_at h1))
  have hs : Selected inputs sel := by
    rcases (fragile_select inputs).run h1 with e | ⟨⟨e, -, he⟩, -⟩
    · exact (returns_select inputs).run e.symm
    · simp at he
  cases sel with
  | none => rw [fault_pure h]; exact .inl hk
  | some s =>
    obtain ⟨g, rest⟩ := s
    obtain ⟨⟨name, rfl⟩, hu⟩ := hs g rest rfl
    refine .inr ⟨name, rest, fs1, hu, hk, ?_⟩
    rcases fault_bind h with h | ⟨_, fs2, h2, h⟩
    · exact h
    · rw [fault_pure h]; exact faultRun_at h2

theorem fault_session_grows {tear : Path → Prop} {env : Env} {g : GPath} {inputs : List Str} {fs fs' : FS} (ht : ¬ tear g.db)
    (h1 : g.db ≠ g.idx) (h2 : g.db ≠ g.wn) (hj : ∀ q ∈ inputs, JsonOnly q) (h : FaultAt tear (shellLoop env g inputs) fs fs') :
    Grew fs fs' g.db :=
  (trail_of h).of_forall (P := fun a b => Grew a b g.db) (fun _ => .same rfl) (fun _ _ _ => .trans)
    fun q hm _ _ hc => crash_query_grows ht h1 h2 (hj q hm) hc

theorem fault_session_frame {tear : Path → Prop} {env : Env} {g : GPath} {inputs : List Str} {fs fs' : FS} {p : Path}
    (hp : p ∉ [g.db, g.idx, g.wn]) (h : FaultAt tear (shellLoop env g inputs) fs fs') : fs'.get p = fs.get p :=
  (trail_of h).of_forall (P := fun a b => b.get p = a.get p) (fun _ => rfl) (fun _ _ _ h1 h2 => h2.trans h1)
    fun q _ _ _ hc => crash_frame (only_query env q g) hp hc

theorem fault_shell_grows {env : Env} {inputs : List Str} {fs fs' : FS} (hj : ∀ q ∈ inputs, JsonOnly q)
    (h : FaultAt NotDatabase (startWiggleShell env inputs) fs fs') (name : Str) : Grew fs fs' (dbPath DBMS_FOLDER name) := by
  rcases fault_shell h with h | ⟨x, rest, fs1, ⟨used, rfl⟩, hk, h⟩
  · exact .keeps h
  · refine (Grew.keeps hk).trans ?_
    by_cases e : name = x
    · subst e
      exact fault_session_grows (g := gdbmsPath DBMS_FOLDER name) (fun ht => ht name rfl) (dbPath_apart _ _).1 (dbPath_apart _ _).2
        (fun q hm => hj q (by simp [hm])) h
    · refine .same (fault_session_frame ?_ h)
      have := gdbms_apart (folder := DBMS_FOLDER) (fun e' => e e'.symm : x ≠ name)
      intro hm
      exact this _ (by exact hm) (dbPath DBMS_FOLDER name) (by simp) rfl

theorem hardLife_grows {fs fs' : FS} (h : HardLife JsonOnly fs fs') (name : Str) : Grew fs fs' (dbPath DBMS_FOLDER name) := by
  induction h with
  | none => exact .same rfl
  | process _ env inputs hok hc ih => exact ih.trans (fault_shell_grows hok hc name)

/-! ### Usability -/

theorem crash_tears {α : Type} {p : Prog α} {fs fs' : FS} (h : CrashAt (fun _ => False) p fs fs') :
    CrashAt (fun _ => True) p fs fs' := by
  induction h with
  | here => exact .here _ _
  | torn _ _ _ _ _ _ ht => exact ht.elim
  | step op k fs fs' _ ih => exact .step op k fs fs' ih

theorem crash_query_usable {env : Env} {q : Str} {g : GPath} {fs fs' : FS} (h : Usable fs g) (hq : ∀ ms, Makes q ms → ¬ Poison ms)
    (hc : CrashAt (fun _ => False) (query env q g) fs fs') : Usable fs' g ∨ Dead fs' g := by
  rcases crash_query hc with rfl | ⟨ms, hm, hc⟩
  · exact .inl h
  · exact crash_make_usable h (hq ms hm) hc

theorem fault_session_usable {env : Env} {g : GPath} {inputs : List Str} {fs fs' : FS} (h : Usable fs g ∨ Dead fs g)
    (hq : ∀ q ∈ inputs, (∀ ms, Makes q ms → ¬ Poison ms) ∧ HasPatterns q)
    (hc : FaultAt (fun _ => False) (shellLoop env g inputs) fs fs') : Usable fs' g ∨ Dead fs' g := by
  refine (trail_of hc).of_forall (P := fun a b => Usable a g ∨ Dead a g → Usable b g ∨ Dead b g) (fun _ => id)
    (fun _ _ _ h1 h2 h => h2 (h1 h)) (fun q hm a b hc h => ?_) h
  rcases h with h | h
  · exact crash_query_usable h (hq q hm).1 hc
  · rw [(h env q (hq q hm).2).1 b (crash_tears hc)]; exact .inr h

/-- Whenever a query has changed anything on the disk, it has changed the database. -/
theorem crash_query_untouched {env : Env} {q : Str} {g : GPath} {fs fs' : FS} (h : Usable fs g) (hq : ∀ ms, Makes q ms → ¬ Poison ms)
    (hc : CrashAt (fun _ => False) (query env q g) fs fs') (he : fs'.get g.db = fs.get g.db) : fs' = fs := by
  rcases crash_query hc with e | ⟨ms, hm, hc⟩
  · exact e
  have hp := hq ms hm
  obtain ⟨d, labels, names, rels, n, hh, hb⟩ := id h
  rcases crash_make hc with e | ⟨m, hm, hok, hc⟩
  · exact e
  obtain rfl := counter_det hh.counter hm
  have hgood : (∀ p ∈ patsOf ms, PatSer p) ∧ ∃ p ∈ patsOf ms, StoresRel p :=
    Classical.byContradiction fun hn => hp ⟨hok, hn⟩
  have hser := (dbBatch_ser (env := env) (b := n) hok.props hok.shape).2 hgood.1
  have hne : patsOf ms ≠ [] := by
    obtain ⟨p, hp, -⟩ := hgood.2
    intro e
    rw [e] at hp
    simp at hp
  have hf := fresh_batch (env := env) (pats := patsOf ms) fun w h1 _ => hb w h1
  have r := run_add_ok (p := g.db) hh.dbText hh.ser hf hser
  have hlt : (dumpText (Val.dict d)).length < (dumpText (Val.dict (d ++ dbBatch env n (patsOf ms)))).length := by
    refine dump_append_length_lt (serDict_of_ser hh.ser) ?_
    intro e
    have := first_key (env := env) (n := n) hne
    rw [e] at this
    simp [keys] at this
  have no : fs'.get g.db ≠ some (dumpText (.dict (d ++ dbBatch env n (patsOf ms)))) := by
    rw [he, hh.dbText]
    intro e
    simp only [Option.some.injEq] at e
    rw [show dumpText (Val.dict d) = _ from e] at hlt
    exact absurd hlt (by omega)
  rw [commit_eq] at hc
  have hr : ∀ a : Bool, (commitIndexes env n (patsOf ms) g >>= fun _ => updateWiggleNumber g.wn (n + totalSize (patsOf ms)) >>= fun _ =>
      (pure true : Prog Bool)).AllOps (Op.only [g.idx, g.wn]) := fun _ =>
    .bind ((only_commitIndexes ..).mono fun _ => Op.only_mono (by simp)) fun _ =>
      .bind ((only_updateCounter ..).mono fun _ => Op.only_mono (by simp)) fun _ => .ret _
  rcases crash_bind_frame hr (q := g.db) (by simp [hh.db_idx, hh.db_wn]) hc with hc | hc
  · rcases crash_addItem_atomic hc with e | rfl
    · exact e
    · rw [r] at no
      exact absurd (FS.get_set_self _ _ _) no
  · rw [r, FS.get_set_self] at hc
    exact absurd hc no

end WG
