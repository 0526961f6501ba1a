/-
C93: what the shell answers to a line that fails.
-/
import Verif.Proofs.Explained
import Verif.Spec.Usable
import Verif.Spec.DemoFS

set_option linter.unusedSectionVars false
set_option linter.unusedSimpArgs false

namespace WG
open Re
section
variable [PyRuntime]

/-- C93: the program with messages leaves the same disk and raises the same exceptions, or returns the same, as the program without. -/
theorem C93_same (env : Env) (q : Str) (g : GPath) (fs : FS) :
    ∃ y, (queryR env q g).prog.run fs = (.ok y, ((query env q g).run fs).2) ∧ y.mapError Raised.kind = ((query env q g).run fs).1 :=
  ⟨_, same_query env q g fs⟩

/-- C93: and so does the shell, for every session. -/
theorem C93_same_session (env : Env) (g : GPath) (l : List Str) (fs : FS) :
    ∃ as, (shellLoopR env g l).run fs = (.ok as, ((shellLoop env g l).run fs).2) ∧ ((shellLoop env g l).run fs).1 = .ok (as.map Answer.event) :=
  same_shell env g l fs

/-- C93, every query on every disk: the exception is not one of the project's, or the message says what is wrong with the query or the files.  In
particular "Self relationships are not allowed", "not associated with this node", "Expecting MAKE", "Expecting FIND" and
"Query must contain" are never shown. -/
theorem C93_explains (env : Env) (q : Str) (g : GPath) (fs fs' : FS) (r : Raised)
    (h : (queryR env q g).prog.run fs = (.ok (.error r), fs')) : r.OfLibrary ∨ Answers g q fs r := by
  have h : (queryR env q g).out fs = (.error r, fs') := by simp [Tel.out, h]
  unfold queryR at h
  rw [if_neg (by simp)] at h
  rcases bind_err h with ⟨fs2, h⟩ | ⟨x, fs2, h1, h⟩
  · rw [out_pureR] at h
    simp only [Prod.mk.injEq] at h
    rcases C91_explains q r h.1 with ⟨h1, h2⟩ | h1
    · refine .inl ⟨h1, ?_⟩
      simp only [List.mem_cons, List.not_mem_nil, or_false] at h2
      rcases h2 with h2 | h2 | h2 | h2 | h2 <;> rw [h2] <;> simp [PyErr.className]
    · exact .inr (.parser h1)
  rw [out_pureR] at h1
  simp only [Prod.mk.injEq] at h1
  obtain ⟨h1, rfl⟩ := h1
  have hq : parseQueryString q = .ok x := by rw [← noText_parse, h1]; rfl
  obtain ⟨f, hf, hpf, hpm, -⟩ := parseQuery_ok hq
  rcases bind_err h with ⟨fs3, h⟩ | ⟨_, fs3, h2, h⟩
  · rcases bind_err h with ⟨fs4, h⟩ | ⟨_, fs4, h3, h⟩
    · unfold executeMakesR at h
      split at h
      · next m ms hm =>
        rw [hm] at hpm
        obtain ⟨hc, hp⟩ := make_within hpm
        exact make_err hc hp h
      · simp [out_pure] at h
    · rw [hf] at h
      simp only at h
      obtain ⟨hc, hp⟩ := find_within hpf
      rcases bind_err h with ⟨fs5, h⟩ | ⟨found, fs5, h4, h⟩
      · exact answers_of_fault (find_err hc hp h)
      · rcases bind_err h with ⟨fs6, h⟩ | ⟨_, fs6, h5, h⟩
        · refine .inl (lift_err ?_ h)
          unfold executeReport
          split <;> trivial
        · simp [out_pure] at h
  · simp [out_pure] at h

/-- C93: the texts that a message shows stand in the query, unless the parser shows properties. -/
theorem C93_quotes (env : Env) (q : Str) (g : GPath) (fs fs' : FS) (r : Raised) (h : (queryR env q g).prog.run fs = (.ok (.error r), fs'))
    (hk : r.kind ≠ .paramSyntax) (m : List Piece) (hm : r.text = some m) : ∀ p ∈ m, ∀ t ∈ p.quotes, t <:+: q := by
  have key : ∀ {k m'}, r.Says k m' → m' = m := fun hs => by
    have := hs.2
    rw [hm] at this
    exact (Option.some.inj this).symm
  rcases C93_explains env q g fs fs' r h with h | h
  · rw [h.1] at hm
    cases hm
  cases h with
  | parser h => exact explains_quotes h hk hm
  | property s hq h => exact fun p hp t ht => (propFault_quotes h hm p hp t ht).trans hq
  | twoHeads s hq hs h =>
    rw [← key h]
    intro p hp t ht
    simp only [List.mem_cons, List.not_mem_nil, or_false] at hp
    rcases hp with rfl | rfl <;> simp [Piece.quotes] at ht
    rw [ht]
    exact hq
  | noCounter hc h =>
    rw [← key h]
    simp [Piece.quotes]
  | taken n c counter text db hc hn hle ht hl hk h =>
    rw [← key h]
    simp [Piece.quotes]

/-- C93, a usable GDBMS: what is blamed stands in the query. -/
theorem C93_usable (env : Env) (q : Str) (g : GPath) (fs fs' : FS) (r : Raised) (hu : Usable fs g)
    (h : (queryR env q g).prog.run fs = (.ok (.error r), fs')) :
    r.OfLibrary ∨ Explains q r ∨ ∃ s, s <:+: q ∧ (PropFault s r ∨
      '<' ∈ s ∧ '>' ∈ s ∧ r.Says .nonDirected [.words c!"Non directed relationship found: ", .quote s]) := by
  obtain ⟨d, labels, names, rels, n, hh, hb⟩ := hu
  obtain ⟨t, ht, hne, hi⟩ := hh.wn
  rcases C93_explains env q g fs fs' r h with h | h
  · exact .inl h
  refine .inr ?_
  cases h with
  | parser h => exact .inl h
  | property s hq h => exact .inr ⟨s, hq, .inl h⟩
  | twoHeads s hq hs h => exact .inr ⟨s, hq, .inr ⟨hs.1, hs.2, h⟩⟩
  | noCounter hc h =>
    rw [ht] at hc
    exact absurd (Option.some.inj hc) hne
  | taken m c counter text db hc hn hle hx hl hk h =>
    rw [ht] at hc
    obtain rfl := Option.some.inj hc
    rw [hi] at hn
    obtain rfl := Option.some.inj hn
    obtain ⟨text', hg, hl'⟩ := hh.db
    rw [hx] at hg
    obtain rfl := Option.some.inj hg
    rw [loads, hl'] at hl
    obtain rfl := Except.ok.inj hl
    simp only [inVal, Except.ok.injEq, dictHas_iff] at hk
    exact absurd hk (hb m hle)

/-- C93, sessions: every line that is answered with an exception gets an explanation that fits the line and the disk as the lines before it
left it. -/
theorem C93_session (env : Env) (g : GPath) (before after : List Str) (q : Str) (fs fs' : FS) (xs ys : List Answer) (r : Raised)
    (hl : xs.length = before.length)
    (h : (shellLoopR env g (before ++ q :: after)).run fs = (.ok (xs ++ .failed r :: ys), fs')) :
    r.OfLibrary ∨ Answers g q ((shellLoop env g before).run fs).2 r := by
  suffices r.OfLibrary ∨ Answers g q ((shellLoopR env g before).run fs).2 r by
    obtain ⟨as, e, -⟩ := same_shell env g before fs
    rwa [e] at this
  induction before generalizing fs xs with
  | nil =>
    obtain rfl : xs = [] := by simpa using hl
    simp only [List.nil_append] at h
    rw [shellLoopR] at h
    split at h
    · simp at h
    · split at h
      · rw [run_bind] at h
        split at h <;> simp at h
      · rw [run_bind] at h
        split at h
        · next y fs2 e =>
          rw [run_bind] at h
          split at h
          · next as' fs3 e' =>
            simp only [run_pure, Prod.mk.injEq, Except.ok.injEq, List.cons.injEq] at h
            have hr := h.1.1
            split at hr
            · simp at hr
            · simp only [Answer.failed.injEq] at hr
              subst hr
              exact C93_explains env q g fs fs2 _ e
          · simp at h
        · simp at h
  | cons b before ih =>
    cases xs with
    | nil => simp at hl
    | cons x xs =>
      simp only [List.length_cons, Nat.add_right_cancel_iff] at hl
      simp only [List.cons_append] at h
      rw [shellLoopR] at h
      rw [shellLoopR]
      split at h
      · simp at h
      · next hb =>
        rw [if_neg hb]
        split at h
        · next hh =>
          rw [if_pos hh]
          rw [run_bind] at h
          split at h
          · next as' fs2 e =>
            simp only [run_pure, Prod.mk.injEq, Except.ok.injEq, List.cons.injEq] at h
            have := ih fs xs hl (by rw [e, h.1.2, h.2])
            obtain ⟨as, e2, -⟩ := same_shell env g before fs
            rw [run_bind, e2]
            rw [e2] at this
            exact this
          · simp at h
        · next hh =>
          rw [if_neg hh]
          rw [run_bind] at h
          split at h
          · next y fs2 e =>
            rw [run_bind] at h
            split at h
            · next as' fs3 e' =>
              simp only [run_pure, Prod.mk.injEq, Except.ok.injEq, List.cons.injEq] at h
              have := ih fs2 xs hl (by rw [e', h.1.2, h.2])
              obtain ⟨as, e2, -⟩ := same_shell env g before fs2
              rw [run_bind, e]
              simp only
              rw [run_bind, e2]
              rw [e2] at this
              exact this
            · simp at h
          · simp at h

end

section
attribute [local instance] demoRuntime

/-- What the shell shows for a line. -/
def answered (q : Str) (fs : FS) : Option (Option (List Piece)) :=
  match ((queryR demoEnv q demoG).prog.run fs).1 with
  | .ok (.error r) => some r.shown
  | _ => none

/-- A property, behind the parser: nothing is stored. -/
example : answered c!"MAKE (a:M{x: TRUE});\nFIND (a:M);" demoFresh =
    some (some [.words c!"WiggleGraphIllegalPropertyValue: ", .quote c!"TRUE", .words c!" is not a boolean"]) := by decide +kernel
/-- The same in FIND. -/
example : answered c!"FIND (a:M{x: NULL});" demoFresh =
    some (some [.words c!"WiggleGraphIllegalPropertyValue: ", .words c!"Value must be null: provided value was ", .quote c!"NULL", .words c!" "]) := by decide +kernel
/-- Two arrow heads. -/
example : answered c!"MAKE (a:M);\nMAKE (a:M)<-[r:NN]->(b:M);\nFIND (a:M);" demoFresh =
    some (some [.words c!"NonDirectedRelationshipError: ", .words c!"Non directed relationship found: ", .quote c!"<-[r:NN]->"]) := by decide +kernel
/-- The file of the counter is empty. -/
example : answered c!"MAKE (a:M)-[r:NN]->(b:M);\nFIND (a:M);" (demoFS c!"{}" emptyIndexText []) =
    some (some [.words c!"HOLD FIRE on overwriting the issue!"]) := by decide +kernel
/-- The counter is behind the database. -/
example : answered c!"MAKE (a:M)-[r:NN]->(b:M);\nFIND (a:M);" (demoFS c!"{\"1\": 5}" emptyIndexText c!"0") =
    some (some [.words c!"NodeExistsError: ", .words c!"Node ", .words c!"1", .words c!" already exists did you mean to update"]) := by decide +kernel

/-- A session: a line that is stored, one that is refused, help and the end. -/
example : ((shellLoopR demoEnv demoG [c!"MAKE (a:M)-[r:NN]->(b:M);\nFIND (a:M);", c!"FIND (a:M{x: NULL});", c!"HELP", c!"q", c!"more"]).run demoFresh).1 =
    .ok [.done, .failed ⟨.illegalPropertyValue, some [.words c!"Value must be null: provided value was ", .quote c!"NULL", .words c!" "]⟩, .help, .bye] := by
  decide +kernel

end
end WG
