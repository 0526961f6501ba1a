/-
C110: sets of loaded values and looking into them.
-/
import Verif.Proofs.Values
import Verif.Spec.DemoFS
set_option linter.unusedSectionVars false

namespace WG

section
variable [PyRuntime]

/-- C110: `set(v)` has what one goes through in `v`, each once; it has a value exactly if one can go through `v` and finds nothing that can be
changed.  (The names of a dict that was read are all different.) -/
theorem C110_set (v : V) (hv : v.WF) (u : List V) : pySet v = .ok u ↔ ∃ l, Iterates v l ∧ (∀ x ∈ l, ¬ Changeable x) ∧ Firsts l u := by
  have hstr : ∀ s : Str, ¬ Changeable (.str s : V) := by simp [Changeable]
  constructor
  · intro h
    cases v with
    | list l =>
      simp only [pySet] at h
      split at h
      · next hl =>
        cases h
        exact ⟨l, .list, fun x hx => hashable_changeable.1 (List.all_eq_true.1 hl x hx), firsts_dedup l⟩
      · cases h
    | dict d =>
      cases h
      refine ⟨_, .dict, ?_, ?_⟩
      · intro x hx
        obtain ⟨y, -, rfl⟩ := List.mem_map.1 hx
        exact hstr _
      · rw [Val.WF] at hv
        have := firsts_dedup (d.map fun x => (Val.str x.1 : V))
        rwa [dedup_of_nodup (keys_nodup hv.1)] at this
    | str s =>
      cases h
      refine ⟨_, .str, ?_, firsts_dedup _⟩
      intro x hx
      obtain ⟨y, -, rfl⟩ := List.mem_map.1 hx
      exact hstr _
    | _ => cases h
  · rintro ⟨l, hi, hc, hf⟩
    have hu := firsts_eq hf
    subst hu
    cases hi with
    | list =>
      simp only [pySet]
      rw [if_pos (List.all_eq_true.2 fun x hx => hashable_changeable.2 (hc x hx))]
    | dict =>
      rw [Val.WF] at hv
      simp only [pySet]
      rw [dedup_of_nodup (keys_nodup hv.1)]
    | str => rfl

/-- C110: otherwise it is a TypeError. -/
theorem C110_no_set (v : V) (e : PyErr) : pySet v = .error e ↔ e = .type ∧ ∀ l, Iterates v l → ∃ x ∈ l, Changeable x := by
  cases v with
  | list l =>
    simp only [pySet]
    split
    · next hl =>
      refine ⟨(fun h => by cases h), fun ⟨_, h⟩ => ?_⟩
      obtain ⟨x, hx, hc⟩ := h l .list
      exact absurd hc (hashable_changeable.1 (List.all_eq_true.1 hl x hx))
    · next hl =>
      simp only [Bool.not_eq_true, List.all_eq_false] at hl
      obtain ⟨x, hx, hc⟩ := hl
      have hc := Bool.not_eq_true _ ▸ hc
      constructor
      · intro h
        cases h
        refine ⟨rfl, fun l' h => ?_⟩
        cases h
        exact ⟨x, hx, Classical.byContradiction fun hn => absurd (hashable_changeable.2 hn) (by simpa using hc)⟩
      · rintro ⟨rfl, -⟩
        rfl
  | dict d =>
    refine ⟨(fun h => by cases h), fun ⟨_, h⟩ => ?_⟩
    obtain ⟨x, hx, hc⟩ := h _ .dict
    obtain ⟨y, -, rfl⟩ := List.mem_map.1 hx
    simp [Changeable] at hc
  | str s =>
    refine ⟨(fun h => by cases h), fun ⟨_, h⟩ => ?_⟩
    obtain ⟨x, hx, hc⟩ := h _ .str
    obtain ⟨y, -, rfl⟩ := List.mem_map.1 hx
    simp [Changeable] at hc
  | _ =>
    simp only [pySet]
    constructor
    · intro h
      cases h
      exact ⟨rfl, fun l h => by cases h⟩
    · rintro ⟨rfl, -⟩
      rfl

/-- C110: a set has the same elements as the list, each once. -/
theorem C110_firsts {α : Type} [DecidableEq α] (l u : List α) (h : Firsts l u) : u.Nodup ∧ (∀ x, x ∈ u ↔ x ∈ l) ∧ ∀ u', Firsts l u' → u' = u := by
  have := firsts_eq h
  subst this
  exact ⟨nodup_dedup l, fun x => mem_dedup, fun u' h' => firsts_eq h'⟩

/-- C110: `v[k]` is the entry of a dict; a KeyError if there is none, a TypeError for anything else. -/
theorem C110_get (v : V) (k : Str) :
    (∀ x, getItem v k = .ok x ↔ ∃ d, v = .dict d ∧ EntryOf d k x) ∧
    (∀ e, getItem v k = .error e ↔ (e = .key ∧ ∃ d, v = .dict d ∧ ∀ x, ¬ EntryOf d k x) ∨ (e = .type ∧ ∀ d, v ≠ .dict d)) := by
  simp only [← dictGet_iff]
  cases v with
  | dict d =>
    simp only [getItem]
    cases h : dictGet k d with
    | some y => simp [h]
    | none => simp [h, eq_comm]
  | _ => simp [getItem, eq_comm]

/-- C110: `v[k] = x`. -/
theorem C110_assign (v : V) (k : Str) (x : V) :
    (∀ w, setItem v k x = .ok w ↔ ∃ d d', v = .dict d ∧ w = .dict d' ∧ Assigned d k x d') ∧
    (∀ e, setItem v k x = .error e ↔ e = .type ∧ ∀ d, v ≠ .dict d) := by
  simp only [← dictSet_iff]
  cases v with
  | dict d =>
    simp only [setItem]
    constructor
    · intro w
      constructor
      · intro h
        cases h
        exact ⟨d, _, rfl, rfl, rfl⟩
      · rintro ⟨d', d'', h1, rfl, h2⟩
        cases h1
        rw [h2]
    · simp
  | _ => simp [setItem, eq_comm]

/-- C110: `k in v`; a TypeError where it has no meaning. -/
theorem C110_in (v : V) (k : Str) :
    (∀ b, inVal k v = .ok b ↔ ∃ P, Contains k v P ∧ (b = true ↔ P)) ∧
    (∀ e, inVal k v = .error e ↔ e = .type ∧ ∀ P, ¬ Contains k v P) := by
  have two : ∀ {b c : Bool} {P : Prop}, (c = true ↔ P) → ((Except.ok c : Except PyErr Bool) = .ok b ↔ (b = true ↔ P)) := by
    intro b c P h
    rw [← h]
    cases b <;> cases c <;> simp
  cases v with
  | dict d =>
    have h : dictHas k d = true ↔ ∃ v, EntryOf d k v := by simp only [← dictGet_iff, dictHas, Option.isSome_iff_exists]
    refine ⟨fun b => ⟨fun hb => ⟨_, .dict, (two h).1 hb⟩, ?_⟩, fun e => ⟨(fun he => by cases he), fun he => absurd .dict (he.2 _)⟩⟩
    rintro ⟨P, hP, hb⟩
    cases hP
    exact (two h).2 hb
  | list l =>
    have h : (l.any fun x => decide (x = .str k)) = true ↔ ∃ a b, l = a ++ .str k :: b := by
      rw [← List.mem_iff_append]
      simp
    refine ⟨fun b => ⟨fun hb => ⟨_, .list, (two h).1 hb⟩, ?_⟩, fun e => ⟨(fun he => by cases he), fun he => absurd .list (he.2 _)⟩⟩
    rintro ⟨P, hP, hb⟩
    cases hP
    exact (two h).2 hb
  | str s =>
    refine ⟨fun b => ⟨fun hb => ⟨_, .str, (two (isSubstr_occurs k s)).1 hb⟩, ?_⟩,
      fun e => ⟨(fun he => by cases he), fun he => absurd .str (he.2 _)⟩⟩
    rintro ⟨P, hP, hb⟩
    cases hP
    exact (two (isSubstr_occurs k s)).2 hb
  | _ =>
    refine ⟨fun b => ⟨(fun h => by cases h), ?_⟩, fun e => ⟨fun h => ?_, ?_⟩⟩
    · rintro ⟨P, hP, -⟩
      cases hP
    · cases h
      exact ⟨rfl, fun P hP => by cases hP⟩
    · rintro ⟨rfl, -⟩
      rfl

/-- C110: writing a value puts its JSON text at the place and fails with a TypeError, after what there is of the text, if there is none for all
of it. -/
theorem C110_dump (p : Path) (pos : Nat) (v : V) (fs : FS) (old : Str) (h : fs.get p = some old) :
    ((dumpTo p pos v).run fs).2 = fs.set p (overlay old pos (jsonDump v).1) ∧
    ((jsonDump v).2 = true → ((dumpTo p pos v).run fs).1 = .ok (pos + (jsonDump v).1.length)) ∧
    ((jsonDump v).2 = false → ((dumpTo p pos v).run fs).1 = .error .type) := by
  have hx : exec (.write p pos (jsonDump v).1) fs = (.ok, fs.set p (overlay old pos (jsonDump v).1)) := by simp [exec, h]
  have hr : (dumpTo p pos v).run fs = (if (jsonDump v).2 then .ok (pos + (jsonDump v).1.length) else .error .type,
      fs.set p (overlay old pos (jsonDump v).1)) := by
    show Prog.run ((match (exec (.write p pos (jsonDump v).1) fs).1 with
      | .ok => Prog.ret ()
      | _ => Prog.raise .osError).bind _) (exec (.write p pos (jsonDump v).1) fs).2 = _
    rw [hx]
    show Prog.run (if (jsonDump v).2 then Prog.ret _ else Prog.raise .type) _ = _
    cases (jsonDump v).2 <;> rfl
  rw [hr]
  refine ⟨rfl, fun h => ?_, fun h => ?_⟩ <;> simp [h]

end

/-! ### Examples -/

section
attribute [local instance] demoRuntime

example : pySet (.list [.str c!"B", .int 1, .str c!"B", .str c!"A"]) = .ok [.str c!"B", .int 1, .str c!"A"] := by decide +kernel

example : Firsts [3, 1, 3, 2] [3, 1, 2] :=
  .new (l := [3, 1, 3]) (.seen (l := [3, 1]) (.new (l := [3]) (.new (l := []) .nil (by decide)) (by decide)) (by decide)) (by decide)

/-- A label that is a list cannot be in a set; a number has no elements. -/
example : pySet (.list [.str c!"A", .list []]) = .error .type ∧ pySet (.int 3) = .error .type ∧
    (∀ l, Iterates (.list [.str c!"A", .list []]) l → ∃ x ∈ l, Changeable x) := by
  refine ⟨by decide +kernel, by decide +kernel, fun l hl => ?_⟩
  cases hl
  exact ⟨.list [], by simp, .inl ⟨[], rfl⟩⟩

example : inVal c!"b" (.str c!"abc") = .ok true ∧ inVal c!"b" (.list [.str c!"abc"]) = .ok false ∧ inVal c!"b" (.int 3) = .error .type ∧
    getItem (.dict [(c!"b", .int 1)]) c!"a" = .error .key := by
  refine ⟨by decide +kernel, by decide +kernel, by decide +kernel, by decide +kernel⟩

end

end WG
