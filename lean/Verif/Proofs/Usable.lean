/- What a query does to a usable and to a broken GDBMS. -/
import Verif.Spec.Usable
import Verif.Proofs.EndToEnd

set_option linter.unusedSectionVars false
set_option linter.unusedSimpArgs false

namespace WG
variable [PyRuntime]

theorem parse_find {q : Str} {p : ParsedQuery} (h : parseQueryString q = .ok p) : ∃ f, p.find = some f := by
  unfold parseQueryString at h
  repeat' (first | split at h | simp at h)
  subst h
  exact ⟨_, rfl⟩

/-- The disk after a query is the one after its MAKE step. -/
theorem query_disk {env : Env} {q : Str} {g : GPath} {fs : FS} {p : ParsedQuery} (h : parseQueryString q = .ok p) :
    ((query env q g).run fs).2 = ((executeMakes env g p.make).run fs).2 ∧
      ∀ e, ((executeMakes env g p.make).run fs).1 = .error e → ((query env q g).run fs).1 = .error e := by
  obtain ⟨f, hf⟩ := parse_find h
  rw [query_run, h]
  simp only
  rw [execute_run hf]
  cases h1 : (executeMakes env g p.make).run fs with
  | mk r fs1 =>
    cases r with
    | error e => simp
    | ok b =>
      simp only
      have := run_readOnly (readOnly_find f g none) fs1
      cases h2 : (find f g none).run fs1 with
      | mk r2 fs2 =>
        rw [h2] at this
        cases r2 <;> exact ⟨this, by simp⟩

/-- Either the query has MAKE statements, and its effect is that of `make`, or it changes nothing. -/
theorem query_cases (env : Env) (q : Str) (g : GPath) (fs : FS) :
    (∃ ms, Makes q ms ∧ ((query env q g).run fs).2 = ((make env ms g).run fs).2 ∧
      ∀ e, ((make env ms g).run fs).1 = .error e → ((query env q g).run fs).1 = .error e) ∨
    ((∀ ms, ¬ Makes q ms) ∧ ((query env q g).run fs).2 = fs) := by
  cases hp : parseQueryString q with
  | error e =>
    right
    refine ⟨fun ms ⟨_, p, h, _⟩ => by rw [hp] at h; simp at h, by rw [query_run, hp]⟩
  | ok p =>
    have h := query_disk (env := env) (g := g) (fs := fs) hp
    cases hm : p.make with
    | none =>
      right
      refine ⟨fun ms ⟨_, p', h, h'⟩ => ?_, by rw [h.1, hm]; rfl⟩
      rw [hp] at h; cases h; rw [hm] at h'; simp at h'
    | some ms =>
      cases ms with
      | nil =>
        right
        refine ⟨fun ms ⟨h0, p', h, h'⟩ => ?_, by rw [h.1, hm]; rfl⟩
        rw [hp] at h; cases h; rw [hm] at h'; simp at h'; exact h0 h'
      | cons m ms =>
        left
        rw [hm] at h
        exact ⟨m :: ms, ⟨by simp, p, hp, hm⟩, h.1, h.2⟩

theorem makes_unique {q : Str} {ms ms' : List ParsedMake} (h : Makes q ms) (h' : Makes q ms') : ms = ms' := by
  obtain ⟨_, p, h1, h2⟩ := h
  obtain ⟨_, p', h1', h2'⟩ := h'
  rw [h1] at h1'
  cases h1'
  rw [h2] at h2'
  exact Option.some.inj h2'

/-- A usable GDBMS is not broken. -/
theorem Usable.not_broken {fs : FS} {g : GPath} (h : Usable fs g) : ¬ Broken fs g := by
  obtain ⟨d, labels, names, rels, n, hh, _⟩ := h
  rintro (⟨t, h1, h2⟩ | ⟨t, h1, h2⟩)
  · obtain ⟨t', h3, h4⟩ := hh.db
    rw [h1] at h3; cases h3; rw [h2] at h4; simp at h4
  · obtain ⟨D, ⟨t', h3, h4⟩, _⟩ := hh.idx
    rw [h1] at h3; cases h3; rw [h2] at h4; simp at h4

/-- MAKE on a usable GDBMS. -/
theorem make_usable {env : Env} {fs : FS} {g : GPath} (ms : List ParsedMake) (h : Usable fs g) :
    (¬ Poison ms → Usable ((make env ms g).run fs).2 g) ∧
    (Poison ms → Broken ((make env ms g).run fs).2 g ∧ ∃ e, ((make env ms g).run fs).1 = .error e) := by
  obtain ⟨d, labels, names, rels, n, hh, hb⟩ := h
  have hf := fresh_batch (env := env) (pats := patsOf ms) fun w h1 _ => hb w h1
  rcases make_cases (env := env) ms hh with ⟨hok, e, h'⟩ | ⟨_, hf', h'⟩ | ⟨hok, _, hn, t, ht, h'⟩ |
    ⟨hok, _, hs, hr, bad, hbad, h'⟩ | ⟨hok, _, hs, hr, h'⟩
  · rw [h']
    exact ⟨fun _ => ⟨d, labels, names, rels, n, hh, hb⟩, fun h => absurd h.1 hok⟩
  · exact absurd hf hf'
  · rw [h']
    have hp : Poison ms := ⟨hok, fun h => hn ((dbBatch_ser hok.props hok.shape).2 h.1)⟩
    exact ⟨fun h => absurd hp h, fun _ => ⟨.inl ⟨t, FS.get_set_self _ _ _, ht⟩, _, rfl⟩⟩
  · rw [h']
    have hp : Poison ms := ⟨hok, fun h => (relBatch_ne hok.shape).2 h.2 hr⟩
    exact ⟨fun h => absurd hp h, fun _ => ⟨.inr ⟨bad, FS.get_set_self _ _ _, hbad⟩, _, rfl⟩⟩
  · have hp : ¬ Poison ms := fun h => h.2 ⟨(dbBatch_ser hok.props hok.shape).1 hs, (relBatch_ne hok.shape).1 hr⟩
    refine ⟨fun _ => ?_, fun h => absurd h hp⟩
    obtain ⟨_, _, _, _, _, l', m', r', h3, _⟩ := make_success hh (show (make env ms g).run fs = (.ok true, _) from Prod.ext h' rfl)
    exact ⟨_, l', m', r', _, h3, below_batch hb⟩

/-- MAKE on a broken GDBMS raises and leaves it broken. -/
theorem make_broken {env : Env} {fs : FS} {g : GPath} (ms : List ParsedMake) (hg : g.db ≠ g.idx) (h : Broken fs g) :
    (∃ e, ((make env ms g).run fs).1 = .error e) ∧ Broken ((make env ms g).run fs).2 g := by
  rcases counter_cases g.wn fs with ⟨n, hn⟩ | ⟨e, he⟩
  · rw [run_make_counter hn]
    by_cases hok : MakeOK ms
    · rw [afterCounter_ok hok]
      unfold commit
      rcases h with h | h
      · obtain ⟨t, h1, h2⟩ := id h
        rw [run_bind_err (run_add_bad h1 h2)]
        exact ⟨⟨_, rfl⟩, .inl h⟩
      · obtain ⟨t, h1, h2⟩ := id h
        have f1 := run_only (q := g.idx) (only_addItem g.db (dbBatch env n (patsOf ms))) (by simpa using Ne.symm hg) fs
        rw [run_bind]
        cases h3 : (addItemToDatabase g.db (dbBatch env n (patsOf ms))).run fs with
        | mk r fs1 =>
          rw [h3] at f1
          have h4 : fs1.get g.idx = some t := f1.trans h1
          cases r with
          | error e => exact ⟨⟨_, rfl⟩, .inr ⟨t, h4, h2⟩⟩
          | ok b =>
            simp only
            rw [run_bind_err (run_addRelIndex_bad h4 h2)]
            exact ⟨⟨_, rfl⟩, .inr ⟨t, h4, h2⟩⟩
    · obtain ⟨e, he⟩ := afterCounter_bad (env := env) (g := g) (n := n) hok
      rw [he]
      exact ⟨⟨e, rfl⟩, h⟩
  · rw [run_make_noCounter he]
    exact ⟨⟨e, rfl⟩, h⟩

theorem not_storesRel {c : ChainText} (h : c.rels = []) : ¬ StoresRel c.pattern := by
  cases c with
  | one n => simp [StoresRel, ChainText.pattern, PartText.absent, truthy]
  | two n r m => simp [ChainText.rels] at h
  | three n r m r' m' => simp [ChainText.rels] at h

/-- A query parsed to good patterns has a MAKE that cannot be stored iff none of them has a relationship. -/
theorem poison_text {q : Str} {mk : Option (List ParsedMake)} {cs : List ChainText} {f : Option ParsedFind} {rep : Option ParsedReport}
    (hq : parseQueryString q = .ok ⟨mk, f, rep⟩) (hmk : MakeOf mk cs) (hg : ∀ c ∈ cs, c.Good) :
    (∃ ms, Makes q ms ∧ Poison ms) ↔ mk ≠ none ∧ ∀ c ∈ cs, c.rels = [] := by
  constructor
  · rintro ⟨ms, ⟨h0, p, h1, h2⟩, h3, h4⟩
    rw [hq] at h1
    cases h1
    simp only at h2
    subst h2
    refine ⟨by simp, fun c hc => ?_⟩
    rcases hmk with ⟨h, -⟩ | ⟨p, ps, h, hcl, hp⟩
    · simp at h
    · injection h with h
      subst h
      apply Classical.byContradiction
      intro hr
      refine h4 ⟨fun p hp' => ?_, c.pattern, by rw [hp]; exact List.mem_map_of_mem hc, chain_storesRel hr⟩
      rw [hp, List.mem_map] at hp'
      obtain ⟨c, hc, rfl⟩ := hp'
      exact chain_patSer (hg c hc)
  · rintro ⟨h1, h2⟩
    rcases hmk with ⟨h, -⟩ | ⟨p, ps, h, hcl, hp⟩
    · exact absurd h h1
    · subst h
      refine ⟨p :: ps, ⟨by simp, _, hq, rfl⟩, makes_ok hcl hp hg, ?_⟩
      rintro ⟨-, x, hx, hr⟩
      rw [hp, List.mem_map] at hx
      obtain ⟨c, hc, rfl⟩ := hx
      exact not_storesRel (h2 c hc) hr

end WG
