/-
C104: what was made can be read off the database.
-/
import Verif.Proofs.ReadOff
import Verif.Props.Total
import Verif.Props.Actual
set_option linter.unusedSectionVars false
set_option linter.unusedSimpArgs false

namespace WG

section
variable [PyRuntime]

theorem held_records {fs : FS} {g : GPath} {o : Held} (h : HeldBy fs g o) : ∃ d, Holds fs g.db d ∧ Records ActualRecords 0 o.all d := by
  cases o with
  | whole cs =>
    obtain ⟨d, labels, names, rels, h1, -, h2, -⟩ := h
    exact ⟨d, h1.db, h2⟩
  | lost cs l =>
    obtain ⟨d, x, h1, h2, -, h3, -⟩ := h
    exact ⟨d ++ x, h3, records_append h1 (by simpa using h2)⟩

/-- C104, partial: two GDBMSs, made up of whatever patterns, in whatever state.  If their database files have the same text, then they
hold as many patterns, and each says the same as its counterpart, as far as MAKE keeps it.  Missing: third nodes and what comes from
them, and the direction of an arrow with white space behind it (`C104_violated`, `C104_violated_direction`). -/
theorem C104_read_off_partial {fs fs' : FS} {g g' : GPath} {o o' : Held} (h : HeldBy fs g o) (h' : HeldBy fs' g' o')
    (hd : fs.get g.db = fs'.get g'.db) : Each SameKept o.all o'.all := by
  obtain ⟨d, ⟨t, h1, h2⟩, h3⟩ := held_records h
  obtain ⟨d', ⟨t', h1', h2'⟩, h3'⟩ := held_records h'
  rw [hd, h1'] at h1
  cases h1
  rw [h2] at h2'
  cases h2'
  exact read_all h3 h3'

theorem short_made {c c' : ChainText} (h : SameKept c c') (hc : c.Short) (hc' : c'.Short) : SameMade c c' := by
  cases c <;> cases c' <;> simp only [SameKept, ChainText.Short] at h hc hc' <;> try trivial
  obtain ⟨h1, h2, h3, h4⟩ := h
  simp only [RelText.seenRight, hc, hc', List.isEmpty_nil, Bool.and_true] at h3
  exact ⟨h1, h2, h3, h4⟩

theorem each_short {cs cs' : List ChainText} (h : Each SameKept cs cs') (hc : ∀ c ∈ cs, c.Short) (hc' : ∀ c ∈ cs', c.Short) :
    Each SameMade cs cs' := by
  induction cs generalizing cs' with
  | nil =>
    cases cs' with
    | nil => trivial
    | cons => exact h.elim
  | cons c cs ih =>
    cases cs' with
    | nil => exact h.elim
    | cons c' cs' =>
      exact ⟨short_made h.1 (hc c (by simp)) (hc' c' (by simp)), ih h.2 (fun c h => hc c (by simp [h])) fun c h => hc' c (by simp [h])⟩

/-- C104, partial: of patterns of one or two nodes without white space behind the arrow, nothing is lost. -/
theorem C104_short_partial {fs fs' : FS} {g g' : GPath} {o o' : Held} (h : HeldBy fs g o) (h' : HeldBy fs' g' o')
    (hc : ∀ c ∈ o.all, c.Short) (hc' : ∀ c ∈ o'.all, c.Short) (hd : fs.get g.db = fs'.get g'.db) : Each SameMade o.all o'.all :=
  each_short (C104_read_off_partial h h' hd) hc hc'

/-- C104, partial, for sessions: two lists of texts, typed into new GDBMSs in whatever environments.  If the databases they leave have the same
text, the patterns that were made are the same, as far as MAKE keeps them. -/
theorem C104_sessions_partial (env env' : Env) (a a' : List Said) (ha : ∀ t ∈ a, t.OK) (ha' : ∀ t ∈ a', t.OK) (g g' : GPath) (fs fs' fs1 fs1' : FS)
    (log log' : List Event) (h : Stock ActualRecords fs g []) (h' : Stock ActualRecords fs' g' [])
    (hr : (shellLoop env g (a.map Said.text)).run fs = (.ok log, fs1)) (hr' : (shellLoop env' g' (a'.map Said.text)).run fs' = (.ok log', fs1'))
    (hd : fs1.get g.db = fs1'.get g'.db) :
    ∃ o o', SaidDo (.whole []) a log o ∧ SaidDo (.whole []) a' log' o' ∧ Each SameKept o.all o'.all := by
  obtain ⟨l, o, fs2, h1, h2, h3⟩ := said_session ha env (o := .whole []) h
  obtain ⟨l', o', fs2', h1', h2', h3'⟩ := said_session ha' env' (o := .whole []) h'
  rw [h1] at hr
  rw [h1'] at hr'
  cases hr
  cases hr'
  exact ⟨o, o', h2, h2', C104_read_off_partial h3 h3' hd⟩

end
section
attribute [local instance] demoRuntime

/-- `FIND (c:Man); MAKE` and a pattern. -/
def rTyped (c : ChainText) : TypedText := ⟨eFind, c!" ", some ⟨c!"MAKE", c!" ", c, []⟩⟩
/-- `(a:Man)-[r:KNOWS]->(b:Man)<-[s:KNOWS]-(d:Dog)`, with properties of the dog. -/
def rDog (p : Option Str) : ChainText := .three (eNode c!"a" c!"Man" none) eRel (eNode c!"b" c!"Man" none) aRelL (eNode c!"d" c!"Dog" p)
/-- `(a:Man)-[k:KNOWS]-> (b:Man)` and with other arrows. -/
def rArrow (r : RelText) : ChainText := .two (eNode c!"a" c!"Man" none) r (eNode c!"b" c!"Man" none)

theorem rTyped_good {c : ChainText} (hg : c.Good) (hp : (c.handles.filter fun h => !h.isEmpty).Nodup) (hl : '\n' ∉ c.render ++ renderRest [])
    (hc : c.last.sp5 = []) (hr : ∀ x ∈ (rTyped c).render, matchCI 't' x = false) (ht : '\n' ∉ (rTyped c).render) : (rTyped c).Good where
  find := eFind_good
  gap := by simp [rTyped, Indent]
  make m h := by
    simp only [rTyped, Option.some.injEq] at h
    subst h
    exact { kw := .inl rfl, sp := rfl, rest := by simp, line := hl
            chains := by
              simp only [StmtText.chains, List.map_nil, List.mem_singleton, forall_eq]
              exact ⟨hg, hp⟩
            close := by
              rintro c' h
              simp [StmtText.chains] at h
              subst h
              exact hc }
  report := noAnagram_of (k := 't') (by decide) hr
  line := ht

theorem rDog_good {p : Option Str} (h : p = none ∨ p = some c!"{x: 5}") : (rTyped (rDog p)).Good := by
  rcases h with rfl | rfl
  · exact rTyped_good ⟨eNode_good (by decide) (by decide) (by decide), eRel_good, eNode_good (by decide) (by decide) (by decide), aRelL_good,
      eNode_good (by decide) (by decide) (by decide)⟩ (by decide) (by decide) rfl (by decide +kernel) (by decide +kernel)
  · refine rTyped_good ⟨eNode_good (by decide) (by decide) (by decide), eRel_good, eNode_good (by decide) (by decide) (by decide), aRelL_good,
      ⟨⟨rfl, by decide, rfl, fun _ => rfl, rfl, by decide, by decide, rfl, ?_, rfl⟩, eProps_good⟩⟩ (by decide) (by decide) rfl (by decide +kernel)
      (by decide +kernel)
    rintro p h
    injection h with h
    subst h
    exact ⟨_, rfl, by decide⟩

theorem rArrow_good {r : RelText} (h : r = aRelS ∨ r = aRelL) : (rTyped (rArrow r)).Good := by
  rcases h with rfl | rfl
  · exact rTyped_good ⟨eNode_good (by decide) (by decide) (by decide), aRelS_good, eNode_good (by decide) (by decide) (by decide)⟩ (by decide)
      (by decide) rfl (by decide +kernel) (by decide +kernel)
  · exact rTyped_good ⟨eNode_good (by decide) (by decide) (by decide), aRelL_good, eNode_good (by decide) (by decide) (by decide)⟩ (by decide)
      (by decide) rfl (by decide +kernel) (by decide +kernel)

/-- Both queries end normally and leave the same disk. -/
def rSame (c c' : ChainText) : Bool :=
  let x := (query demoEnv (rTyped c).render demoG).run demoFresh
  let y := (query demoEnv (rTyped c').render demoG).run demoFresh
  decide (x.1 = .ok true) && decide (x = y)

theorem rSame_runs {c c' : ChainText} (h : rSame c c' = true) : ∃ fs, (query demoEnv (rTyped c).render demoG).run demoFresh = (.ok true, fs) ∧
    (query demoEnv (rTyped c').render demoG).run demoFresh = (.ok true, fs) := by
  unfold rSame at h
  generalize (query demoEnv (rTyped c).render demoG).run demoFresh = x at h
  generalize (query demoEnv (rTyped c').render demoG).run demoFresh = y at h
  simp only [Bool.and_eq_true, decide_eq_true_eq] at h
  obtain ⟨h1, rfl⟩ := h
  obtain ⟨r, fs⟩ := x
  exact ⟨fs, by rw [show r = .ok true from h1], by rw [show r = .ok true from h1]⟩

theorem rDog_same : rSame (rDog none) (rDog (some c!"{x: 5}")) = true := by decide +kernel
theorem rArrow_same : rSame (rArrow aRelS) (rArrow aRelL) = true := by decide +kernel

/-- C104 violated: the dog with and without properties.  Both queries are well written and end normally, and all files are the same. -/
theorem C104_violated : ∃ (t t' : TypedText) (fs : FS), t.Good ∧ t'.Good ∧ (query demoEnv t.render demoG).run demoFresh = (.ok true, fs) ∧
    (query demoEnv t'.render demoG).run demoFresh = (.ok true, fs) ∧ ¬ Each SameMade t.chains t'.chains := by
  obtain ⟨fs, h1, h2⟩ := rSame_runs rDog_same
  refine ⟨_, _, fs, rDog_good (.inl rfl), rDog_good (.inr rfl), h1, h2, ?_⟩
  rintro ⟨⟨-, -, -, -, -, -, -, o, h1, h2⟩, -⟩
  cases h1
  obtain ⟨_, _, d, _, _, _, h, _⟩ := h2
  cases h

/-- C104 violated: an arrow to the right with a blank behind it, and an arrow to the left. -/
theorem C104_violated_direction : ∃ (t t' : TypedText) (fs : FS), t.Good ∧ t'.Good ∧
    (query demoEnv t.render demoG).run demoFresh = (.ok true, fs) ∧ (query demoEnv t'.render demoG).run demoFresh = (.ok true, fs) ∧
    ¬ Each SameMade t.chains t'.chains := by
  obtain ⟨fs, h1, h2⟩ := rSame_runs rArrow_same
  refine ⟨_, _, fs, rArrow_good (.inl rfl), rArrow_good (.inr rfl), h1, h2, ?_⟩
  rintro ⟨⟨-, -, h, -⟩, -⟩
  cases h

theorem rTyped_held {c : ChainText} (hg : (rTyped c).Good) (hr : c.rels ≠ []) :
    HeldBy ((query demoEnv (rTyped c).render demoG).run demoFresh).2 demoG (.whole [c]) := by
  have hc : (rTyped c).chains = [c] := by simp [rTyped, TypedText.chains, StmtText.chains]
  obtain ⟨fs', new, l', n', r', h1, h2, h3, h4, h5, -⟩ := (C76_typed_outcome hg demoEnv demoG demoFresh [] [] [] [] 0 demoFresh_healthy
    (below_nil 0)).2 (.inr ⟨c, by simp [hc], hr⟩)
  rw [h1]
  rw [hc] at h2 h3 h4 h5
  exact ⟨new, l', n', r', by simpa using h2, by simpa using h3, h4, h5⟩

/-- C104: the two queries with the dog leave GDBMSs with the same database, and what they made is the same as far as it was kept. -/
example : Each SameKept [rDog none] [rDog (some c!"{x: 5}")] := by
  obtain ⟨fs, h1, h2⟩ := rSame_runs rDog_same
  have k1 := rTyped_held (rDog_good (.inl rfl)) (by simp [rDog, ChainText.rels])
  have k2 := rTyped_held (rDog_good (.inr rfl)) (by simp [rDog, ChainText.rels])
  rw [h1] at k1
  rw [h2] at k2
  exact C104_read_off_partial k1 k2 rfl

/-- C104: other relationships, other databases. -/
example : ((query demoEnv (rTyped (rArrow eRel)).render demoG).run demoFresh).2.get demoG.db ≠
    ((query demoEnv (rTyped (rArrow aRelL)).render demoG).run demoFresh).2.get demoG.db := by
  intro h
  have k1 := rTyped_held (c := rArrow eRel) (rTyped_good ⟨eNode_good (by decide) (by decide) (by decide), eRel_good,
    eNode_good (by decide) (by decide) (by decide)⟩ (by decide) (by decide) rfl (by decide +kernel) (by decide +kernel))
    (by simp [rArrow, ChainText.rels])
  have k2 := rTyped_held (rArrow_good (.inr rfl)) (by simp [rArrow, ChainText.rels])
  obtain ⟨⟨-, -, h, -⟩, -⟩ := C104_short_partial k1 k2 (by simp [Held.all, rArrow, ChainText.Short, eRel])
    (by simp [Held.all, rArrow, ChainText.Short, aRelL, eRel]) h
  cases h

/-- C104: two sessions, the last line of which ruins the index; a text that is no query makes no difference. -/
example : ∃ log log' o o', SaidDo (.whole []) [.line tLine, .line tAlone] log o ∧
    SaidDo (.whole []) [.line tLine, .other c!"hello", .line tAlone] log' o' ∧ Each SameKept o.all o'.all := by
  have h1 : (Said.line tLine).OK := tLine_fair.toTypedWritten
  have h2 : (Said.line tAlone).OK := tAlone_written
  have h3 : (Said.other c!"hello").OK := ⟨by decide, .inr (not_makes (by decide +kernel))⟩
  have hd : ((shellLoop demoEnv demoG ([Said.line tLine, .line tAlone].map Said.text)).run demoFresh).2.get demoG.db =
      ((shellLoop demoEnv demoG ([Said.line tLine, .other c!"hello", .line tAlone].map Said.text)).run demoFresh).2.get demoG.db := by
    decide +kernel
  obtain ⟨log, fs1, k1, -⟩ := C53_shell_survives demoEnv demoG ([Said.line tLine, .line tAlone].map Said.text) demoFresh
  obtain ⟨log', fs1', k2, -⟩ := C53_shell_survives demoEnv demoG ([Said.line tLine, .other c!"hello", .line tAlone].map Said.text) demoFresh
  rw [k1, k2] at hd
  obtain ⟨o, o', h⟩ := C104_sessions_partial demoEnv demoEnv [.line tLine, .line tAlone] [.line tLine, .other c!"hello", .line tAlone]
    (by simp only [List.mem_cons, List.not_mem_nil, or_false, forall_eq_or_imp, forall_eq]; exact ⟨h1, h2⟩)
    (by simp only [List.mem_cons, List.not_mem_nil, or_false, forall_eq_or_imp, forall_eq]; exact ⟨h1, h3, h2⟩) demoG demoG demoFresh demoFresh
    fs1 fs1' log log' demoFresh_stock demoFresh_stock k1 k2 hd
  exact ⟨log, log', o, o', h⟩

end
end WG
