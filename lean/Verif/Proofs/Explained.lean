/-
Where the exception of a query comes from.
-/
import Verif.Proofs.Blamed

set_option linter.unusedSectionVars false
set_option linter.unusedSimpArgs false

namespace WG
open Re
variable [PyRuntime]

theorem out_bind {α β : Type} (t : Tel α) (f : α → Tel β) (fs : FS) :
    (t >>= f).out fs = match t.out fs with
      | (.ok a, fs') => (f a).out fs'
      | (.error e, fs') => (.error e, fs') := by
  have : (t >>= f).out fs = match (t.prog >>= fun x => match x with
      | .ok a => (f a).prog
      | .error e => pure (.error e)).run fs with
      | (.ok y, fs') => (y, fs')
      | (.error e, fs') => (.error (.lib e), fs') := rfl
  rw [this, run_bind]
  unfold Tel.out
  cases t.prog.run fs with
  | mk x fs' =>
    cases x with
    | error e => rfl
    | ok y => cases y <;> rfl

theorem out_pureR {α : Type} (x : Except Raised α) (fs : FS) : (Tel.pureR x).out fs = (x, fs) := rfl

theorem out_pure {α : Type} (x : α) (fs : FS) : (pure x : Tel α).out fs = (.ok x, fs) := rfl

theorem out_lift {α : Type} (p : Prog α) (fs : FS) : (Tel.lift p).out fs = ((p.run fs).1.mapError Raised.lib, (p.run fs).2) := by
  unfold Tel.out
  rw [run_lift]

theorem lift_err {α : Type} {p : Prog α} (hp : p.Raises PyErr.Lib) {fs fs' : FS} {r : Raised} (h : (Tel.lift p).out fs = (.error r, fs')) :
    r.OfLibrary := by
  rw [out_lift] at h
  cases hr : p.run fs with
  | mk x fs2 =>
    rw [hr] at h
    cases x with
    | ok a => simp [Except.mapError] at h
    | error e =>
      simp only [Except.mapError, Prod.mk.injEq, Except.error.injEq] at h
      rw [← h.1]
      exact ⟨rfl, raises_run hp hr⟩

/-- Binding: where the exception comes from. -/
theorem bind_err {α β : Type} {t : Tel α} {f : α → Tel β} {fs fs' : FS} {r : Raised} (h : (t >>= f).out fs = (.error r, fs')) :
    (∃ fs2, t.out fs = (.error r, fs2)) ∨ ∃ a fs2, t.out fs = (.ok a, fs2) ∧ (f a).out fs2 = (.error r, fs') := by
  rw [out_bind] at h
  cases ht : t.out fs with
  | mk x fs2 =>
    rw [ht] at h
    cases x with
    | error e =>
      simp only [Prod.mk.injEq, Except.error.injEq] at h
      exact .inl ⟨fs2, by rw [h.1]⟩
    | ok a => exact .inr ⟨a, fs2, rfl, h⟩

theorem counter_out {p : Path} {fs fs' : FS} {x : Except Raised Int} (h : (getCurrentWiggleNumberR p).out fs = (x, fs')) :
    fs' = fs ∧ (∀ n, x = .ok n → ∃ s, fs.get p = some s ∧ pyInt s = some n) ∧
    ∀ r, x = .error r → r.OfLibrary ∨ fs.get p = some [] ∧ r.Says .exception [.words c!"HOLD FIRE on overwriting the issue!"] := by
  unfold getCurrentWiggleNumberR at h
  rw [out_bind, out_lift] at h
  cases hg : fs.get p with
  | none =>
    rw [run_readFile_none hg] at h
    simp only [Except.mapError, Prod.mk.injEq] at h
    obtain ⟨rfl, rfl⟩ := h
    exact ⟨rfl, by simp, fun r hr => .inl (by simp at hr; subst hr; exact ⟨rfl, lib_file⟩)⟩
  | some s =>
    rw [run_readFile_some hg] at h
    simp only [Except.mapError] at h
    split at h
    · next he =>
      rw [out_pureR] at h
      simp only [Prod.mk.injEq] at h
      obtain ⟨rfl, rfl⟩ := h
      have : s = [] := by simpa using he
      subst this
      exact ⟨rfl, by simp, fun r hr => .inr ⟨rfl, by simp at hr; subst hr; exact ⟨rfl, rfl⟩⟩⟩
    · split at h
      · next n hn =>
        rw [out_pure] at h
        simp only [Prod.mk.injEq] at h
        obtain ⟨rfl, rfl⟩ := h
        exact ⟨rfl, fun m hm => ⟨s, rfl, by simp at hm; subst hm; exact hn⟩, by simp⟩
      · rw [out_pureR] at h
        simp only [Prod.mk.injEq] at h
        obtain ⟨rfl, rfl⟩ := h
        exact ⟨rfl, by simp, fun r hr => .inl (by simp at hr; subst hr; exact ⟨rfl, lib_value⟩)⟩

theorem add_err {p : Path} {items : List (Str × V)} (hn : (keys items).Nodup) {fs fs' : FS} {r : Raised}
    (h : (addItemToDatabaseR p items).out fs = (.error r, fs')) :
    r.OfLibrary ∨ ∃ text db k, fs.get p = some text ∧ loads text = .ok db ∧ k ∈ keys items ∧ inVal k db = .ok true ∧
      r.Says .nodeExists [.words c!"Node ", .words k, .words c!" already exists did you mean to update"] := by
  rcases bind_err h with ⟨fs2, h⟩ | ⟨text, fs2, h1, h⟩
  · exact .inl (lift_err (raises_read _) h)
  rw [out_lift] at h1
  cases hg : fs.get p with
  | none => rw [run_readFile_none hg] at h1; simp [Except.mapError] at h1
  | some s =>
    rw [run_readFile_some hg] at h1
    simp only [Except.mapError, Prod.mk.injEq, Except.ok.injEq] at h1
    obtain ⟨rfl, rfl⟩ := h1
    rcases bind_err h with ⟨fs2, h⟩ | ⟨db, fs2, h1, h⟩
    · rw [out_pureR] at h
      simp only [Prod.mk.injEq] at h
      cases hl : loads s with
      | ok v => rw [hl] at h; simp [Except.mapError] at h
      | error e =>
        rw [hl] at h
        simp only [Except.mapError, Except.error.injEq] at h
        rw [← h.1]
        exact .inl ⟨rfl, lib_loads _ hl⟩
    · rw [out_pureR] at h1
      simp only [Prod.mk.injEq] at h1
      cases hl : loads s with
      | error e => rw [hl] at h1; simp [Except.mapError] at h1
      | ok v =>
        rw [hl] at h1
        simp only [Except.mapError, Except.ok.injEq] at h1
        obtain ⟨rfl, rfl⟩ := h1
        rcases bind_err h with ⟨fs2, h⟩ | ⟨db', fs2, h1, h⟩
        · rw [out_pureR] at h
          simp only [Prod.mk.injEq] at h
          rcases addLoopR_err hn h.1 with h | ⟨k, hk, h1, h2⟩
          · exact .inl h
          · exact .inr ⟨s, v, k, rfl, hl, hk, h1, h2⟩
        · rcases bind_err h with ⟨fs2, h⟩ | ⟨_, fs2, h1, h⟩
          · exact .inl (lift_err (raises_dump _ _ _) h)
          · simp [out_pure] at h

theorem answers_of_fault {g : GPath} {q : Str} {fs : FS} {r : Raised} (h : r.OfLibrary ∨ Fault q r) : r.OfLibrary ∨ Answers g q fs r := by
  rcases h with h | ⟨s, h1, h2⟩ | ⟨s, h1, h2, h3⟩
  · exact .inl h
  · exact .inr (.property s h1 h2)
  · exact .inr (.twoHeads s h1 h2 h3)

theorem nodesToAdd_ge {env : Env} {b : Int} {ps : List ParsedPattern} {k : Str}
    (h : k ∈ keys (nodesToAdd env ((place b ps).flatMap fun x => madeNodes x.1 x.2))) : ∃ n, b ≤ n ∧ k = intStr n := by
  unfold nodesToAdd at h
  rw [mem_keys_dictOf] at h
  simp only [keys, List.map_map, List.mem_map, List.mem_flatMap] at h
  obtain ⟨m, ⟨x, hx, hm⟩, rfl⟩ := h
  refine ⟨m.wn, ?_, rfl⟩
  have hb := (place_bounds hx).1
  simp only [madeNodes, storedNodes, List.mem_append, List.mem_cons] at hm
  rcases hm with (rfl | hm) | hm
  · exact hb
  · split at hm
    · simp at hm; subst hm; simp [nodeData, nodePre]; omega
    · simp at hm
  · split at hm
    · simp at hm; subst hm; exact hb
    · simp at hm

theorem make_err {env : Env} {l : List ParsedMake} {g : GPath} {q : Str} (hc : ∀ m ∈ l, m.clause = .make) (hp : ∀ p ∈ patsOf l, Within q p)
    {fs fs' : FS} {r : Raised} (h0 : (makeR env l g).out fs = (.error r, fs')) : r.OfLibrary ∨ Answers g q fs r := by
  rcases bind_err h0 with ⟨fs2, h⟩ | ⟨n, fs2, h1, h⟩
  · rcases (counter_out h).2.2 r rfl with h | h
    · exact .inl h
    · exact .inr (.noCounter h.1 h.2)
  obtain ⟨rfl, hn, -⟩ := counter_out h1
  obtain ⟨counter, hcnt, hint⟩ := hn n rfl
  rcases bind_err h with ⟨fs3, h⟩ | ⟨x, fs3, h1, h⟩
  · rw [out_pureR] at h
    simp only [Prod.mk.injEq] at h
    exact answers_of_fault (blamed_makeList hc hp n r h.1)
  rw [out_pureR] at h1
  simp only [Prod.mk.injEq] at h1
  obtain ⟨h1, rfl⟩ := h1
  have h1' : processParsedMakeList n l = .ok x := by rw [← noText_makeList, h1]; rfl
  obtain ⟨-, hs, rfl⟩ := processParsedMakeList_iff.1 h1'
  rcases bind_err h with ⟨fs3, h⟩ | ⟨ns, fs3, h2, h⟩
  · rw [out_pureR] at h
    simp only [Prod.mk.injEq] at h
    exact answers_of_fault (blamed_allNodes (fun x hx => hp _ (place_mem hx)) r h.1)
  rw [out_pureR] at h2
  simp only [Prod.mk.injEq] at h2
  obtain ⟨h2, rfl⟩ := h2
  have h2' := noText_allNodes ((place n (patsOf l)).map fun q => prePattern q.1 q.2)
  rw [h2] at h2'
  obtain ⟨-, rfl⟩ := (makeAllNodes_iff fun q hq => hs _ (place_mem hq)).1 h2'.symm
  rcases bind_err h with ⟨fs3, h⟩ | ⟨_, fs3, h3, h⟩
  · rcases bind_err h with ⟨fs4, h⟩ | ⟨_, fs4, h3, h⟩
    · rcases add_err (nodup_dictOf _) h with h | ⟨text, db, k, ht, hl, hk, hin, hsay⟩
      · exact .inl h
      · obtain ⟨m, hm, rfl⟩ := nodesToAdd_ge hk
        exact .inr (.taken m n counter text db hcnt hint hm ht hl hin hsay)
    · simp [out_pure] at h
  rcases bind_err h with ⟨fs4, h⟩ | ⟨_, fs4, h4, h⟩
  · exact .inl (lift_err (raises_indexes _ _ _ _) h)
  rcases bind_err h with ⟨fs5, h⟩ | ⟨_, fs5, h5, h⟩
  · exact .inl (lift_err (raises_update _ _) h)
  · simp [out_pure] at h

theorem find_err {pf : ParsedFind} {g : GPath} {q : Str} (hc : pf.clause = .find) (hp : Within q pf.pattern) {fs fs' : FS} {r : Raised}
    (h : (findR pf g none).out fs = (.error r, fs')) : r.OfLibrary ∨ Fault q r := by
  rcases bind_err h with ⟨fs2, h⟩ | ⟨f, fs2, h1, h⟩
  · rw [out_pureR] at h
    simp only [Prod.mk.injEq] at h
    exact blamed_find hc hp r h.1
  rcases bind_err h with ⟨fs3, h⟩ | ⟨b, fs3, h2, h⟩
  · exact .inl (lift_err (raises_short _ _) h)
  · split at h <;> simp [out_pure] at h

theorem within_of {q stmt : Str} {p : ParsedPattern} (hs : stmt <:+: q) (hp : p ∈ statementPatterns stmt) : Within q p where
  text _ ht _ e := (pattern_infix hp ht (.inl e)).trans hs
  props _ ht _ e := (pattern_infix hp ht (.inr (.inr (.inr e)))).trans hs

theorem extract_infix {q : Str} {c : Clause} {l : List Str} (h : extractAllStatements q c = .ok (some l)) : ∀ s ∈ l, s <:+: q := by
  rw [← noText_extract] at h
  cases hx : extractAllStatementsR q c with
  | error e => rw [hx] at h; simp at h
  | ok o => rw [hx] at h; simp at h; subst h; exact extract_sound hx

theorem make_within {q : Str} {ms : List ParsedMake} (h : parseMake q = .ok (some ms)) :
    (∀ m ∈ ms, m.clause = .make) ∧ ∀ p ∈ patsOf ms, Within q p := by
  obtain ⟨h1, -, h3⟩ := parseMake_ok h
  have key : ∀ m ∈ ms, m.clause = .make ∧ m.patterns = statementPatterns m.rawStatement := by
    intro m hm
    have := h3 m hm
    unfold buildParsedMake at this
    split at this
    · simp at this
    · next ps e =>
      split at this
      · simp at this
        have hv := validatePatterns_cases (statementPatterns m.rawStatement)
        by_cases hd : ∃ p ∈ statementPatterns m.rawStatement, DuplicateHandle p
        · rw [hv.1 hd] at e; simp at e
        · rw [hv.2 (fun p hp h => hd ⟨p, hp, h⟩)] at e
          simp at e
          rw [← this, ← e]
          simp
      · simp at this
  refine ⟨fun m hm => (key m hm).1, fun p hp => ?_⟩
  simp only [patsOf, List.mem_flatMap] at hp
  obtain ⟨m, hm, hp⟩ := hp
  rw [(key m hm).2] at hp
  exact within_of (extract_infix h1 _ (List.mem_map.2 ⟨m, hm, rfl⟩)) hp

theorem find_within {q : Str} {f : ParsedFind} (h : parseFind q = .ok (some f)) : f.clause = .find ∧ Within q f.pattern := by
  obtain ⟨h1, -, h3⟩ := parseFind_ok h
  unfold buildParsedFind at h3
  split at h3
  · simp at h3
  · next p ps hps =>
    split at h3
    · simp at h3
    · next p' hv =>
      have : p' = p := by
        unfold ParsedPattern.validate at hv
        split at hv <;> simp at hv
        exact hv.symm
      subst this
      split at h3
      · simp at h3
        have e1 : f.clause = .find := by rw [← h3]
        have e2 : f.pattern = p' := by rw [← h3]
        exact ⟨e1, within_of (extract_infix h1 f.rawStatement (by simp)) (by simp [hps, e2])⟩
      · simp at h3

end WG
