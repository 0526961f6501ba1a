/- Which files queries and the shell touch, and their runs. -/
import Verif.Model.Shell
import Verif.Proofs.Crash

set_option linter.unusedSectionVars false
set_option linter.unusedSimpArgs false

namespace WG
variable [PyRuntime]

theorem readOnly_loadSet (p : Path) (name : Str) : (loadIndexSet p name).AllOps fun o => o.readOnly = true := by
  refine .tryCatch (.bind (.readFile rfl) fun _ => .bind (.liftE _) fun _ => .bind (.liftE _) fun _ => .liftE _)
    fun e => ?_
  split
  · exact .ret _
  · exact .raise _

theorem readOnly_find (pf : ParsedFind) (g : GPath) (c : Option Criteria) :
    (find pf g c).AllOps fun o => o.readOnly = true := by
  unfold find findShortCircuit
  refine .bind (.liftE _) fun f => .bind ?_ fun b => ?_
  · refine .bind (readOnly_loadSet _ _) fun labels => .bind (readOnly_loadSet _ _) fun names => ?_
    repeat' (first | split | exact .ret _)
  · split <;> exact .ret _

theorem only_executeQuery (env : Env) (q : ParsedQuery) (g : GPath) :
    (executeQuery env q g).AllOps (Op.only [g.db, g.idx, g.wn]) := by
  unfold executeQuery
  refine .bind ?_ fun _ => ?_
  · unfold executeMakes
    split
    · exact only_make env _ g
    · exact .ret _
  · split
    · exact .raise _
    · refine .bind ((readOnly_find _ _ _).mono fun _ h => Op.only_readOnly h) fun _ => .bind ?_ fun _ => .ret _
      unfold executeReport
      split <;> exact .ret _

theorem only_query (env : Env) (q : Str) (g : GPath) : (query env q g).AllOps (Op.only [g.db, g.idx, g.wn]) := by
  unfold query
  simp only [Bool.and_false, Bool.false_eq_true, if_false]
  exact .bind (.liftE _) fun _ => .bind (only_executeQuery _ _ _) fun _ => .ret _

theorem only_shellLoop (env : Env) (g : GPath) (inputs : List Str) :
    (shellLoop env g inputs).AllOps (Op.only [g.db, g.idx, g.wn]) := by
  induction inputs with
  | nil => exact .ret _
  | cons q rest ih =>
    unfold shellLoop
    split
    · exact .ret _
    · split
      · exact .bind ih fun _ => .ret _
      · refine .bind (.tryCatch (.bind (only_query _ _ _) fun _ => .ret _) fun _ => .ret _) fun _ =>
          .bind ih fun _ => .ret _

/-- A query first parses; then MAKE and FIND run. -/
theorem query_run (env : Env) (q : Str) (g : GPath) (fs : FS) :
    (query env q g).run fs = match parseQueryString q with
      | .error e => (.error e, fs)
      | .ok p => match (executeQuery env p g).run fs with
        | (.error e, fs') => (.error e, fs')
        | (.ok _, fs') => (.ok true, fs') := by
  unfold query
  simp only [Bool.and_false, Bool.false_eq_true, if_false]
  cases h : parseQueryString q with
  | error e => rw [run_bind_err (run_liftE _ _)]
  | ok p =>
    rw [run_bind_ok (run_liftE _ _)]
    rw [run_bind]
    split <;> simp_all [Prog.run, pure]

theorem executeReport_run (found : Found) (g : GPath) (r : Option ParsedReport) (fs : FS) :
    (executeReport found g r).run fs = (.ok true, fs) := by
  cases r <;> rfl

theorem execute_run {env : Env} {q : ParsedQuery} {g : GPath} {f : ParsedFind} (hf : q.find = some f) (fs : FS) :
    (executeQuery env q g).run fs = match (executeMakes env g q.make).run fs with
      | (.error e, fs') => (.error e, fs')
      | (.ok _, fs') => match (find f g none).run fs' with
        | (.error e, fs') => (.error e, fs')
        | (.ok _, fs') => (.ok true, fs') := by
  unfold executeQuery
  rw [run_bind]
  cases hm : (executeMakes env g q.make).run fs with
  | mk r fs1 =>
    cases r with
    | error e => rfl
    | ok b =>
      simp only [hf]
      rw [run_bind]
      cases hg : (find f g none).run fs1 with
      | mk r2 fs2 =>
        cases r2 with
        | error e => rfl
        | ok x =>
          simp only
          rw [run_bind_ok (executeReport_run _ _ _ _)]
          rfl

end WG
