/-
C69: whether a GDBMS stays usable, whatever is typed.
-/
import Verif.Proofs.Usable
import Verif.Props.EndToEnd
set_option linter.unusedSectionVars false
set_option linter.unusedSimpArgs false

namespace WG

section
variable [PyRuntime]

/-- C69: whatever a query does, and whether it fails or not, a usable GDBMS is usable afterwards.  Missing from the full
property: queries whose MAKE passes every check but cannot be stored (`C69_poison_breaks`). -/
theorem C69_stays_usable_partial (env : Env) (q : Str) (g : GPath) (fs : FS) (h : Usable fs g)
    (hq : ∀ ms, Makes q ms → ¬ Poison ms) : Usable ((query env q g).run fs).2 g := by
  rcases query_cases env q g fs with ⟨ms, h1, h2, -⟩ | ⟨-, h2⟩
  · rw [h2]
    exact (make_usable ms h).1 (hq ms h1)
  · rw [h2]
    exact h

/-- C69 for sessions: as long as no such MAKE is typed, the GDBMS stays usable, however many of the inputs fail. -/
theorem C69_session_stays_usable_partial (env : Env) (g : GPath) (inputs : List Str) (fs fs' : FS) (log : List Event)
    (h : Usable fs g) (hq : ∀ q ∈ inputs, ∀ ms, Makes q ms → ¬ Poison ms)
    (hr : (shellLoop env g inputs).run fs = (.ok log, fs')) : Usable fs' g := by
  obtain ⟨log', fs'', h1, h2⟩ := C53_shell_survives env g inputs fs
  rw [hr] at h1
  cases h1
  clear hr
  induction h2 with
  | idle | quit => exact h
  | help fs fs' q rest log _ _ ih => exact ih h fun q hm => hq q (by simp [hm])
  | done fs fs1 fs' q b rest log _ _ hr _ ih =>
    have := C69_stays_usable_partial env q g fs h (hq q (by simp))
    rw [hr] at this
    exact ih this fun q hm => hq q (by simp [hm])
  | failed fs fs1 fs' q e rest log _ _ hr _ ih =>
    have := C69_stays_usable_partial env q g fs h (hq q (by simp))
    rw [hr] at this
    exact ih this fun q hm => hq q (by simp [hm])

/-- Why C69 fails: every query whose MAKE passes the checks but has a value that is not JSON, or no relationship to store,
raises and breaks the GDBMS. -/
theorem C69_poison_breaks (env : Env) (q : Str) (g : GPath) (fs : FS) (ms : List ParsedMake) (h : Usable fs g) (hq : Makes q ms)
    (hp : Poison ms) : (∃ e, ((query env q g).run fs).1 = .error e) ∧ Broken ((query env q g).run fs).2 g := by
  rcases query_cases env q g fs with ⟨ms', h1, h2, h3⟩ | ⟨h1, -⟩
  · obtain rfl := makes_unique hq h1
    obtain ⟨h4, e, h5⟩ := (make_usable (env := env) ms h).2 hp
    rw [h2]
    exact ⟨⟨e, h3 e h5⟩, h4⟩
  · exact absurd hq (h1 ms)

/-- Together: a query breaks a usable GDBMS exactly if it has such a MAKE. -/
theorem C69_broken_iff (env : Env) (q : Str) (g : GPath) (fs : FS) (h : Usable fs g) :
    Broken ((query env q g).run fs).2 g ↔ ∃ ms, Makes q ms ∧ Poison ms := by
  constructor
  · intro hb
    apply Classical.byContradiction
    intro hn
    exact (C69_stays_usable_partial env q g fs h fun ms h1 h2 => hn ⟨ms, h1, h2⟩).not_broken hb
  · rintro ⟨ms, h1, h2⟩
    exact (C69_poison_breaks env q g fs ms h h1 h2).2

/-- The same in terms of what is written: a well-formed query breaks a usable GDBMS exactly if it has a MAKE and none of its
MAKE patterns has a relationship. -/
theorem C69_written_query_breaks_iff {l : List Line} {f : StmtText} (hq : QueryGood l f) (env : Env) (g : GPath) (fs : FS)
    (h : Usable fs g) :
    Broken ((query env (queryText l) g).run fs).2 g ↔ makesOf l ≠ [] ∧ ∀ c ∈ makeChains l, c.rels = [] := by
  rw [C69_broken_iff env _ g fs h, poison_text (q := queryText l) (parseQuery_text hq) (makeOf_text _) (fun c hc => by
    obtain ⟨t, ht, hc⟩ := List.mem_flatMap.1 hc
    exact ((makesOf_good hq.lines t ht).chains c hc).1)]
  refine and_congr_left' ?_
  cases makesOf l <;> simp [parsedMakes]

/-- The same for queries typed on one line. -/
theorem C69_typed_query_breaks_iff {t : TypedText} (ht : t.Good) (env : Env) (g : GPath) (fs : FS) (h : Usable fs g) :
    Broken ((query env t.render g).run fs).2 g ↔ t.make ≠ none ∧ ∀ c ∈ t.chains, c.rels = [] := by
  rw [C69_broken_iff env _ g fs h, poison_text (typed_parse ht) (makeOf_text _) (fun c hc => by
    obtain ⟨m, hm, hc⟩ := List.mem_flatMap.1 hc
    exact ((ht.make m (by simpa using hm)).chains c hc).1)]
  refine and_congr_left' ?_
  cases t.make <;> simp [parsedMakes]

/-- A broken GDBMS stays broken, and every query with a MAKE raises. -/
theorem C69_broken_query (env : Env) (q : Str) (g : GPath) (fs : FS) (hg : g.db ≠ g.idx) (h : Broken fs g) :
    Broken ((query env q g).run fs).2 g ∧
      ((∃ ms, Makes q ms) → ∃ e, ((query env q g).run fs).1 = .error e) := by
  rcases query_cases env q g fs with ⟨ms', h1, h2, h3⟩ | ⟨h1, h2⟩
  · obtain ⟨⟨e, h4⟩, h5⟩ := make_broken (env := env) ms' hg h
    rw [h2]
    exact ⟨h5, fun _ => ⟨e, h3 e h4⟩⟩
  · rw [h2]
    exact ⟨h, fun ⟨ms, hm⟩ => absurd hm (h1 ms)⟩

/-- The damage is permanent: in a session on a broken GDBMS, however long and whatever is typed, no query with a MAKE is
ever executed, and the GDBMS is broken at the end. -/
theorem C69_broken_forever (env : Env) (g : GPath) (inputs : List Str) (fs fs' : FS) (log : List Event) (hg : g.db ≠ g.idx)
    (h : Broken fs g) (hr : (shellLoop env g inputs).run fs = (.ok log, fs')) :
    Broken fs' g ∧ ∀ (i : Nat) q, inputs[i]? = some q → (∃ ms, Makes q ms) → log[i]? ≠ some Event.done := by
  obtain ⟨log', fs'', h1, h2⟩ := C53_shell_survives env g inputs fs
  rw [hr] at h1
  cases h1
  clear hr
  induction h2 with
  | idle => exact ⟨h, by simp⟩
  | quit =>
    refine ⟨h, fun i q hi _ => ?_⟩
    cases i <;> simp
  | help fs fs' q rest log _ _ ih =>
    refine ⟨(ih h).1, fun i q' hi hm => ?_⟩
    cases i with
    | zero => simp
    | succ i => simpa using (ih h).2 i q' (by simpa using hi) hm
  | done fs fs1 fs' q b rest log _ _ hr _ ih =>
    have h3 := C69_broken_query env q g fs hg h
    rw [hr] at h3
    refine ⟨(ih h3.1).1, fun i q' hi hm => ?_⟩
    cases i with
    | zero =>
      simp at hi
      subst hi
      obtain ⟨e, he⟩ := h3.2 hm
      simp at he
    | succ i => simpa using (ih h3.1).2 i q' (by simpa using hi) hm
  | failed fs fs1 fs' q e rest log _ _ hr _ ih =>
    have h3 := C69_broken_query env q g fs hg h
    rw [hr] at h3
    refine ⟨(ih h3.1).1, fun i q' hi hm => ?_⟩
    cases i with
    | zero => simp
    | succ i => simpa using (ih h3.1).2 i q' (by simpa using hi) hm

/-- One such query is enough: after it, nothing is ever stored again through the shell. -/
theorem C69_one_query_is_enough (env : Env) (g : GPath) (q : Str) (rest : List Str) (fs fs' : FS) (log : List Event)
    (ms : List ParsedMake) (h : Usable fs g) (hq : Makes q ms) (hp : Poison ms) (hne : q ≠ c!"q") (hh : ¬ AsksHelp q)
    (hr : (shellLoop env g (q :: rest)).run fs = (.ok log, fs')) :
    Broken fs' g ∧ (∃ e, log[0]? = some (.failed e)) ∧
      ∀ (i : Nat) q', rest[i]? = some q' → (∃ ms, Makes q' ms) → log[i + 1]? ≠ some Event.done := by
  have hg : g.db ≠ g.idx := by
    obtain ⟨_, _, _, _, _, h, _⟩ := h
    exact h.db_idx
  obtain ⟨⟨e, h1⟩, h2⟩ := C69_poison_breaks env q g fs ms h hq hp
  obtain ⟨ev, log', fs'', h3, h4, h5⟩ := C54_input_is_executed_partial env g q rest fs hne hh
  rw [hr] at h3
  cases h3
  obtain ⟨h6, h7⟩ := C69_broken_forever env g rest _ _ _ hg h2 h4
  refine ⟨h6, ?_, fun i q' hi hm => by simpa using h7 i q' hi hm⟩
  obtain ⟨_, _, h8, h9⟩ := C53_shell_survives env g (q :: rest) fs
  rw [hr] at h8
  cases h8
  cases h9 with
  | quit => exact absurd rfl hne
  | help _ _ _ _ _ h => exact absurd h hh
  | done _ _ _ _ _ _ _ _ _ h => rw [h] at h1; simp at h1
  | failed _ _ _ _ e => exact ⟨e, rfl⟩

end

/-! ### Examples and counterexamples -/

section
attribute [local instance] demoRuntime

theorem demoFresh_usable : Usable demoFresh demoG := ⟨_, _, _, _, _, demoFresh_healthy, below_nil 0⟩

/-- `FIND (c:Man); MAKE (a:Man);`: a MAKE of one node. -/
def eLonely : Str := c!"FIND (c:Man); MAKE (a:Man);"

/-- The pattern `(a:Man)`. -/
def eLonelyPat : ParsedPattern :=
  { left := ⟨some c!"(a:Man)", some c!"a", some c!"Man", none⟩, leftMiddle := .absent, middle := .absent, middleRight := .absent,
    right := .absent }

theorem eLonely_makes : Makes eLonely [⟨c!"MAKE (a:Man);", .make, [eLonelyPat]⟩] := by
  refine ⟨by simp, ?_⟩
  have : (parseQueryString eLonely).toOption.map (·.make) = some (some [⟨c!"MAKE (a:Man);", .make, [eLonelyPat]⟩]) := by
    decide +kernel
  cases h : parseQueryString eLonely with
  | error e => rw [h] at this; simp [Except.toOption] at this
  | ok p => exact ⟨p, rfl, by rw [h] at this; simpa [Except.toOption] using this⟩

theorem eLonely_poison : Poison [⟨c!"MAKE (a:Man);", .make, [eLonelyPat]⟩] := by
  refine ⟨⟨by simp, ?_, ?_⟩, ?_⟩
  · simp only [patsOf, List.flatMap_cons, List.flatMap_nil, List.append_nil, List.mem_singleton, forall_eq]
    refine ⟨by simp [eLonelyPat], ?_, ?_, ?_, ?_⟩ <;> simp [eLonelyPat, PartText.absent, truthy]
  · simp only [patsOf, List.flatMap_cons, List.flatMap_nil, List.append_nil, List.mem_singleton, forall_eq]
    refine ⟨⟨none, rfl⟩, ?_, ?_, ?_⟩ <;> simp [eLonelyPat, PartText.absent, truthy]
  · rintro ⟨-, h⟩
    simp [patsOf, eLonelyPat, PartText.absent, truthy, StoresRel] at h

theorem eTyped_makes : ∃ ms, Makes eTyped.render ms :=
  ⟨[⟨_, _, _⟩], by simp, _, typed_parse eTyped_runnable.good, rfl⟩

/-- C69 is violated: after `FIND (c:Man); MAKE (a:Man);` on a new GDBMS the query `FIND (c:Man); MAKE
(a:Man{x: 5})-[r:KNOWS]->(b:Man);`, which is executed without it, fails, however often it is typed. -/
theorem C69_violated : ∃ (fs : FS) (bad good : Str), Usable fs demoG ∧
    ((query demoEnv good demoG).run fs).1 = .ok true ∧
    ∀ k log fs', (shellLoop demoEnv demoG (bad :: List.replicate k good)).run fs = (.ok log, fs') →
      Event.done ∉ log ∧ Broken fs' demoG := by
  have hh : ∀ q : Str, isSubstr c!"help" (lower q) = false → ¬ AsksHelp q := fun q h1 h => by
    rw [(isSubstr_iff _ _).2 h] at h1
    simp at h1
  refine ⟨demoFresh, eLonely, eTyped.render, demoFresh_usable, ?_, fun k log fs' hr => ?_⟩
  · obtain ⟨fs', _, _, _, _, h, -⟩ := C67_typed_query_partial eTyped_runnable demoEnv demoG demoFresh [] [] [] [] 0 demoFresh_healthy
      (below_nil 0)
    rw [h]
  · obtain ⟨h1, ⟨e, h2⟩, h3⟩ := C69_one_query_is_enough demoEnv demoG eLonely (List.replicate k eTyped.render) demoFresh fs' log _
      demoFresh_usable eLonely_makes eLonely_poison (by decide) (hh _ (by decide +kernel)) hr
    refine ⟨fun hd => ?_, h1⟩
    obtain ⟨log', fs'', h4, -, h5⟩ := C53_ends_only_on_q demoEnv demoG (eLonely :: List.replicate k eTyped.render) demoFresh
    rw [hr] at h4
    cases h4
    have hlen := h5 (by
      simp only [List.mem_cons, List.mem_replicate, not_or, not_and]
      exact ⟨by decide, fun _ => by decide⟩)
    obtain ⟨i, hi, he⟩ := List.getElem_of_mem hd
    cases i with
    | zero =>
      rw [List.getElem?_eq_getElem hi, he] at h2
      simp at h2
    | succ i =>
      refine h3 i eTyped.render ?_ eTyped_makes (by rw [List.getElem?_eq_getElem hi, he])
      simp at hlen
      rw [List.getElem?_replicate, if_pos (by omega)]

/-- The outcome of a query that does not parse. -/
theorem not_makes {q : Str} (h : (parseQueryString q).toOption = none) (ms : List ParsedMake) : ¬ Makes q ms := by
  rintro ⟨_, p, h1, _⟩
  rw [h1] at h
  simp [Except.toOption] at h

/-- C69: a session with two inputs that fail (an unbalanced bracket, no query at all) and one that is executed leaves a new
GDBMS usable. -/
example : ∃ fs' log, (shellLoop demoEnv demoG [qSyntax, c!"hello", eTyped.render]).run demoFresh = (.ok log, fs') ∧
    Usable fs' demoG := by
  obtain ⟨log, fs', h, -⟩ := C53_shell_survives demoEnv demoG [qSyntax, c!"hello", eTyped.render] demoFresh
  refine ⟨fs', log, h, C69_session_stays_usable_partial _ _ _ _ _ _ demoFresh_usable ?_ h⟩
  simp only [List.mem_cons, List.not_mem_nil, or_false, forall_eq_or_imp, forall_eq]
  refine ⟨fun ms h => absurd h (not_makes (by decide +kernel) ms), fun ms h => absurd h (not_makes (by decide +kernel) ms),
    fun ms h hp => ?_⟩
  obtain ⟨⟨e, h1⟩, -⟩ := C69_poison_breaks demoEnv _ demoG demoFresh ms demoFresh_usable h hp
  obtain ⟨fs', _, _, _, _, h2, -⟩ := C67_typed_query_partial eTyped_runnable demoEnv demoG demoFresh [] [] [] [] 0 demoFresh_healthy
    (below_nil 0)
  rw [h2] at h1
  simp at h1

/-- C69: the query of the example, which has a relationship, does not break a new GDBMS. -/
example : ¬ Broken ((query demoEnv (queryText eQuery) demoG).run demoFresh).2 demoG := by
  rw [C69_written_query_breaks_iff eQuery_good _ _ _ demoFresh_usable]
  rintro ⟨-, h⟩
  have := h eMake.first (by simp [makeChains, makesOf, eQuery, StmtText.chains])
  simp [eMake, ChainText.rels] at this

/-- C69: the MAKE of one node breaks a new GDBMS. -/
example : Broken ((query demoEnv eLonely demoG).run demoFresh).2 demoG :=
  (C69_broken_iff _ _ _ _ demoFresh_usable).2 ⟨_, eLonely_makes, eLonely_poison⟩

end
end WG
