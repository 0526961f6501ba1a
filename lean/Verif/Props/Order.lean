/-
C70: the order in which Python iterates over a set (it changes from one process to the next) decides nothing but the order of
the lists written to the index file.
-/
import Verif.Proofs.Order
import Verif.Props.Usable

set_option linter.unusedSectionVars false

namespace WG

section
variable [PyRuntime]

/-- C70, full: two processes that iterate over sets in different orders, given the same query on the same disk (or on disks
that differ only in the order of the lists of the index), return the same value or raise the same exception, and leave disks
that differ only in the order of the lists of the index. -/
theorem C70_query (env env' : Env) (g : GPath) (q : Str) (fs fs' : FS) (ht : env.importTime = env'.importTime)
    (h1 : g.db ≠ g.idx) (h2 : g.wn ≠ g.idx) (h : SameUpToOrder g fs fs') :
    ((query env q g).run fs).1 = ((query env' q g).run fs').1 ∧
      SameUpToOrder g ((query env q g).run fs).2 ((query env' q g).run fs').2 := by
  obtain ⟨h3, h4⟩ := sim_query ht h1 h2 q fs fs' h
  refine ⟨?_, h4⟩
  cases h5 : ((query env q g).run fs).1 <;> cases h6 : ((query env' q g).run fs').1 <;> rw [h5, h6] at h3 <;>
    simp only [RelE] at h3
  all_goals rw [h3]

/-- C70, sessions of the shell: the same events, and disks that differ only in the order of the lists of the index. -/
theorem C70_session (env env' : Env) (g : GPath) (inputs : List Str) (fs : FS) (ht : env.importTime = env'.importTime)
    (h1 : g.db ≠ g.idx) (h2 : g.wn ≠ g.idx) :
    ∃ log fs1 fs2, (shellLoop env g inputs).run fs = (.ok log, fs1) ∧ (shellLoop env' g inputs).run fs = (.ok log, fs2) ∧
      SameUpToOrder g fs1 fs2 := by
  obtain ⟨h3, h4⟩ := sim_shell ht h1 h2 inputs fs fs (sameUpToOrder_refl g fs)
  obtain ⟨log, fs1, h5, -⟩ := C53_shell_survives env g inputs fs
  obtain ⟨log', fs2, h6, -⟩ := C53_shell_survives env' g inputs fs
  rw [h5, h6] at h3 h4
  exact ⟨log, fs1, fs2, h5, by rw [h6, show log = log' from h3], h4⟩

/-- C70: in particular the database and the counter are the same byte for byte. -/
theorem C70_same_files (env env' : Env) (g : GPath) (inputs : List Str) (fs : FS) (ht : env.importTime = env'.importTime)
    (h1 : g.db ≠ g.idx) (h2 : g.wn ≠ g.idx) (p : Path) (hp : p ≠ g.idx) :
    ((shellLoop env g inputs).run fs).2.get p = ((shellLoop env' g inputs).run fs).2.get p :=
  (sim_shell ht h1 h2 inputs fs fs (sameUpToOrder_refl g fs)).2.files p hp

/-- C70: FIND answers alike on disks that differ only in the order of the lists of the index, one of which may have been
written by a process with another order. -/
theorem C70_find (g : GPath) (pf : ParsedFind) (c : Option Criteria) (fs fs' : FS) (h : SameUpToOrder g fs fs') :
    ((find pf g c).run fs).1 = ((find pf g c).run fs').1 := by
  have h3 := (sim_find pf c fs fs' h).1
  cases h5 : ((find pf g c).run fs).1 <;> cases h6 : ((find pf g c).run fs').1 <;> rw [h5, h6] at h3 <;>
    simp only [RelE] at h3
  all_goals rw [h3]

end

section
attribute [local instance] demoRuntime

/-- A process whose sets come out back to front. -/
def demoEnvRev : Env := { demoEnv with ord := ⟨List.reverse, fun _ => List.reverse_perm _⟩ }

/-- C70, sharpness: the index itself is not the same byte for byte. -/
theorem C70_index_text_differs : ∃ (env env' : Env) (g : GPath) (q : Str) (fs : FS),
    env.importTime = env'.importTime ∧ g.db ≠ g.idx ∧ g.wn ≠ g.idx ∧ ((query env q g).run fs).1.toOption = some true ∧
      ((query env q g).run fs).2.get g.idx ≠ ((query env' q g).run fs).2.get g.idx :=
  ⟨demoEnv, demoEnvRev, demoG, qGood, demoFresh, rfl, by decide, by decide, by decide +kernel, by decide +kernel⟩

/-- C70: a session of two MAKEs and a FIND, under two orders. -/
example : ∃ log fs1 fs2, (shellLoop demoEnv demoG [qGood, eTyped.render, qFind]).run demoFresh = (.ok log, fs1) ∧
    (shellLoop demoEnvRev demoG [qGood, eTyped.render, qFind]).run demoFresh = (.ok log, fs2) ∧ SameUpToOrder demoG fs1 fs2 :=
  C70_session _ _ _ _ _ rfl (by decide) (by decide)

example : ((query demoEnv qFind demoG).run ((query demoEnv qGood demoG).run demoFresh).2).1 =
    ((query demoEnvRev qFind demoG).run ((query demoEnvRev qGood demoG).run demoFresh).2).1 :=
  have h := (C70_query demoEnv demoEnvRev demoG qGood demoFresh demoFresh rfl (by decide) (by decide) (sameUpToOrder_refl _ _)).2
  (C70_query demoEnv demoEnvRev demoG qFind _ _ rfl (by decide) (by decide) h).1

example : ((shellLoop demoEnv demoG [qGood]).run demoFresh).2.get demoG.db =
    ((shellLoop demoEnvRev demoG [qGood]).run demoFresh).2.get demoG.db :=
  C70_same_files demoEnv demoEnvRev demoG [qGood] demoFresh rfl (by decide) (by decide) demoG.db (by decide)

/-- C70: two different index files, one made by each process, between which FIND sees no difference. -/
example (pf : ParsedFind) (c : Option Criteria) :
    ((find pf demoG c).run ((query demoEnv qGood demoG).run demoFresh).2).1 =
      ((find pf demoG c).run ((query demoEnvRev qGood demoG).run demoFresh).2).1 :=
  have h := (C70_query demoEnv demoEnvRev demoG qGood demoFresh demoFresh rfl (by decide) (by decide) (sameUpToOrder_refl _ _)).2
  C70_find demoG pf c _ _ h

end

end WG
