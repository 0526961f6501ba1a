/-
The matcher finds the first of the ways.
-/
import Verif.Spec.ReText

namespace WG

/-! ### Ways -/

theorem fits_unique {r : Re} {x : Way} {w w' : Str} {g g' : Caps} (h : Fits r x w g) (h' : Fits r x w' g') : w = w' ∧ g = g' := by
  induction h generalizing w' g' with
  | eps => cases h'; exact ⟨rfl, rfl⟩
  | char h => cases h'; exact ⟨rfl, rfl⟩
  | many h => cases h'; exact ⟨rfl, rfl⟩
  | both _ _ ih1 ih2 => cases h' with | both h1 h2 => obtain ⟨rfl, rfl⟩ := ih1 h1; obtain ⟨rfl, rfl⟩ := ih2 h2; exact ⟨rfl, rfl⟩
  | left _ ih => cases h' with | left h => exact ih h
  | right _ ih => cases h' with | right h => exact ih h
  | used _ ih => cases h' with | used h => exact ih h
  | unused => cases h'; exact ⟨rfl, rfl⟩
  | group _ ih => cases h' with | group h => obtain ⟨rfl, rfl⟩ := ih h; exact ⟨rfl, rfl⟩

theorem before_irrefl {x : Way} (h : Before x x) : False := by
  induction x with
  | eps => cases h
  | char => cases h
  | many w => cases h with | longer h => omega
  | both a b iha ihb => cases h with | fst h => exact iha h | snd h => exact ihb h
  | left a ih => cases h with | left h => exact ih h
  | right a ih => cases h with | right h => exact ih h
  | used a ih => cases h with | used h => exact ih h
  | unused => cases h
  | group a ih => cases h with | group h => exact ih h

theorem before_asymm {x y : Way} (h : Before x y) (h' : Before y x) : False := by
  induction h with
  | longer h => cases h' with | longer h' => omega
  | fst h ih => cases h' with | fst h' => exact ih h' | snd h' => exact before_irrefl h
  | snd h ih => cases h' with | fst h' => exact before_irrefl h' | snd h' => exact ih h'
  | sides => cases h'
  | left _ ih => cases h' with | left h' => exact ih h'
  | right _ ih => cases h' with | right h' => exact ih h'
  | greedy => cases h'
  | used _ ih => cases h' with | used h' => exact ih h'
  | group _ ih => cases h' with | group h' => exact ih h'

theorem firstWay_unique {P : Str → Prop} {r : Re} {s w rest w' rest' : Str} {g g' : Caps} (h : FirstWay P r s w rest g)
    (h' : FirstWay P r s w' rest' g') : (w, rest, g) = (w', rest', g') := by
  obtain ⟨x, h1, h2, h3, h4⟩ := h
  obtain ⟨x', h1', h2', h3', h4'⟩ := h'
  have e : x' = x := by
    rcases h4 x' w' g' rest' h1' h2' h3' with e | b
    · exact e
    · rcases h4' x w g rest h1 h2 h3 with e | b'
      · exact e.symm
      · exact (before_asymm b b').elim
  subst e
  obtain ⟨rfl, rfl⟩ := fits_unique h1 h1'
  have := h3.symm.trans h3'
  rw [List.append_cancel_left_eq] at this
  rw [this]

/-! ### The list of ways -/

theorem starRuns_runs {p : Char → Bool} {s w rest : Str} : (w, rest) ∈ starRuns p s ↔ (∀ c ∈ w, p c = true) ∧ s = w ++ rest := by
  induction s generalizing w with
  | nil =>
    simp only [starRuns, List.mem_singleton, Prod.mk.injEq]
    constructor
    · rintro ⟨rfl, rfl⟩
      simp
    · rintro ⟨-, h⟩
      have := List.append_eq_nil_iff.1 h.symm
      exact this
  | cons c s ih =>
    cases hp : p c with
    | false =>
      simp only [starRuns, hp, Bool.false_eq_true, if_false, List.mem_singleton, Prod.mk.injEq]
      constructor
      · rintro ⟨rfl, rfl⟩
        simp
      · rintro ⟨h1, h2⟩
        cases w with
        | nil => exact ⟨rfl, h2.symm⟩
        | cons a w =>
          cases h2
          rw [h1 _ List.mem_cons_self] at hp
          cases hp
    | true =>
      simp only [starRuns, hp, if_true, List.mem_append, List.mem_map, List.mem_singleton, Prod.mk.injEq]
      constructor
      · rintro (⟨⟨a, b⟩, h, rfl, rfl⟩ | ⟨rfl, rfl⟩)
        · obtain ⟨h1, rfl⟩ := ih.1 h
          refine ⟨fun x hx => ?_, rfl⟩
          rcases List.mem_cons.1 hx with rfl | hx
          · exact hp
          · exact h1 x hx
        · simp
      · rintro ⟨h1, h2⟩
        cases w with
        | nil => exact .inr ⟨rfl, h2.symm⟩
        | cons a w =>
          simp only [List.cons_append, List.cons.injEq] at h2
          obtain ⟨rfl, rfl⟩ := h2
          exact .inl ⟨(w, rest), ih.2 ⟨fun x hx => h1 x (by simp [hx]), rfl⟩, rfl, rfl⟩

theorem starRuns_sorted (p : Char → Bool) (s : Str) : (starRuns p s).Pairwise fun a b => b.1.length < a.1.length := by
  induction s with
  | nil => simp [starRuns]
  | cons c s ih =>
    unfold starRuns
    split
    · rw [List.pairwise_append]
      refine ⟨?_, by simp, ?_⟩
      · rw [List.pairwise_map]
        exact ih.imp fun h => by simpa using h
      · intro a ha b hb
        obtain ⟨x, -, rfl⟩ := List.mem_map.1 ha
        simp only [List.mem_singleton] at hb
        subst hb
        simp
    · simp

/-- The ways with what they match, in the order in which the matcher goes through them. -/
def ways : Re → Str → List (Way × MRes)
  | .eps, s => [(.eps, [], s, [])]
  | .cls _, [] => []
  | .cls p, c :: cs => if p c then [(.char c, [c], cs, [])] else []
  | .star p, s => (starRuns p s).map fun x => (.many x.1, x.1, x.2, [])
  | .seq a b, s =>
    (ways a s).flatMap fun m => (ways b m.2.2.1).map fun m' => (.both m.1 m'.1, m.2.1 ++ m'.2.1, m'.2.2.1, m.2.2.2 ++ m'.2.2.2)
  | .alt a b, s => (ways a s).map (fun m => (.left m.1, m.2)) ++ (ways b s).map fun m => (.right m.1, m.2)
  | .opt a, s => (ways a s).map (fun m => (.used m.1, m.2)) ++ [(.unused, [], s, [])]
  | .grp n a, s => (ways a s).map fun m => (.group m.1, m.2.1, m.2.2.1, (n, m.2.1) :: m.2.2.2)

theorem ways_run (r : Re) (s : Str) : (ways r s).map Prod.snd = r.run s := by
  induction r generalizing s with
  | eps => rfl
  | cls p =>
    cases s with
    | nil => rfl
    | cons c s =>
      unfold ways Re.run
      split <;> rfl
  | star p =>
    simp only [ways, Re.run, List.map_map]
    rfl
  | seq a b iha ihb =>
    simp only [ways, Re.run, List.map_flatMap, List.map_map, ← iha, ← ihb, List.flatMap_map]
    rfl
  | alt a b iha ihb =>
    simp only [ways, Re.run, List.map_append, List.map_map, ← iha, ← ihb]
    rfl
  | opt a ih =>
    simp only [ways, Re.run, List.map_append, List.map_map, ← ih]
    rfl
  | grp n a ih =>
    simp only [ways, Re.run, List.map_map, ← ih]
    rfl

theorem ways_mem {r : Re} {s : Str} {x : Way} {w rest : Str} {g : Caps} : (x, w, rest, g) ∈ ways r s ↔ Fits r x w g ∧ s = w ++ rest := by
  induction r generalizing s x w rest g with
  | eps =>
    simp only [ways, List.mem_singleton, Prod.mk.injEq]
    constructor
    · rintro ⟨rfl, rfl, rfl, rfl⟩
      exact ⟨.eps, rfl⟩
    · rintro ⟨h, rfl⟩
      cases h
      exact ⟨rfl, rfl, rfl, rfl⟩
  | cls p =>
    constructor
    · intro h
      cases s with
      | nil => simp [ways] at h
      | cons c s =>
        unfold ways at h
        split at h
        · next hp =>
          simp only [List.mem_singleton, Prod.mk.injEq] at h
          obtain ⟨rfl, rfl, rfl, rfl⟩ := h
          exact ⟨.char hp, rfl⟩
        · simp at h
    · rintro ⟨h, rfl⟩
      cases h with
      | char hp => simp [ways, hp]
  | star p =>
    simp only [ways, List.mem_map, Prod.mk.injEq]
    constructor
    · rintro ⟨⟨a, b⟩, h, rfl, rfl, rfl, rfl⟩
      obtain ⟨h1, h2⟩ := starRuns_runs.1 h
      exact ⟨.many h1, h2⟩
    · rintro ⟨h, e⟩
      cases h with
      | many h => exact ⟨(w, rest), starRuns_runs.2 ⟨h, e⟩, rfl, rfl, rfl, rfl⟩
  | seq a b iha ihb =>
    simp only [ways, List.mem_flatMap, List.mem_map, Prod.mk.injEq]
    constructor
    · rintro ⟨⟨x1, w1, r1, g1⟩, h1, ⟨x2, w2, r2, g2⟩, h2, rfl, rfl, rfl, rfl⟩
      obtain ⟨f1, rfl⟩ := iha.1 h1
      obtain ⟨f2, e⟩ := ihb.1 h2
      simp only at e
      subst e
      exact ⟨.both f1 f2, by simp⟩
    · rintro ⟨h, rfl⟩
      cases h with
      | @both _ _ x1 x2 w1 w2 g1 g2 f1 f2 =>
        exact ⟨(x1, w1, w2 ++ rest, g1), iha.2 ⟨f1, by simp⟩, (x2, w2, rest, g2), ihb.2 ⟨f2, rfl⟩, rfl, rfl, rfl, rfl⟩
  | alt a b iha ihb =>
    simp only [ways, List.mem_append, List.mem_map, Prod.mk.injEq]
    constructor
    · rintro (⟨⟨x1, w1, r1, g1⟩, h1, rfl, e⟩ | ⟨⟨x1, w1, r1, g1⟩, h1, rfl, e⟩) <;> cases e
      · exact ⟨.left (iha.1 h1).1, (iha.1 h1).2⟩
      · exact ⟨.right (ihb.1 h1).1, (ihb.1 h1).2⟩
    · rintro ⟨h, e⟩
      cases h with
      | left h => exact .inl ⟨(_, _, _, _), iha.2 ⟨h, e⟩, rfl, rfl⟩
      | right h => exact .inr ⟨(_, _, _, _), ihb.2 ⟨h, e⟩, rfl, rfl⟩
  | opt a ih =>
    simp only [ways, List.mem_append, List.mem_map, List.mem_singleton, Prod.mk.injEq]
    constructor
    · rintro (⟨⟨x1, w1, r1, g1⟩, h1, rfl, e⟩ | ⟨rfl, rfl, rfl, rfl⟩)
      · cases e
        exact ⟨.used (ih.1 h1).1, (ih.1 h1).2⟩
      · exact ⟨.unused, rfl⟩
    · rintro ⟨h, e⟩
      cases h with
      | used h => exact .inl ⟨(_, _, _, _), ih.2 ⟨h, e⟩, rfl, rfl⟩
      | unused => exact .inr ⟨rfl, rfl, e.symm, rfl⟩
  | grp n a ih =>
    simp only [ways, List.mem_map, Prod.mk.injEq]
    constructor
    · rintro ⟨⟨x1, w1, r1, g1⟩, h1, rfl, rfl, rfl, rfl⟩
      exact ⟨.group (ih.1 h1).1, (ih.1 h1).2⟩
    · rintro ⟨h, e⟩
      cases h with
      | group h => exact ⟨(_, _, _, _), ih.2 ⟨h, e⟩, rfl, rfl, rfl, rfl⟩

theorem ways_sorted (r : Re) (s : Str) : (ways r s).Pairwise fun a b => Before a.1 b.1 := by
  induction r generalizing s with
  | eps => simp [ways]
  | cls p =>
    cases s with
    | nil => simp [ways]
    | cons c s =>
      unfold ways
      split <;> simp
  | star p =>
    simp only [ways, List.pairwise_map]
    exact (starRuns_sorted p s).imp fun h => .longer h
  | seq a b iha ihb =>
    simp only [ways]
    rw [List.pairwise_flatMap]
    constructor
    · intro m _
      rw [List.pairwise_map]
      exact (ihb _).imp fun h => .snd h
    · refine (iha s).imp fun h => ?_
      intro u hu v hv
      obtain ⟨_, _, rfl⟩ := List.mem_map.1 hu
      obtain ⟨_, _, rfl⟩ := List.mem_map.1 hv
      exact .fst h
  | alt a b iha ihb =>
    simp only [ways, List.pairwise_append, List.pairwise_map]
    refine ⟨(iha s).imp fun h => .left h, (ihb s).imp fun h => .right h, ?_⟩
    intro u hu v hv
    obtain ⟨_, _, rfl⟩ := List.mem_map.1 hu
    obtain ⟨_, _, rfl⟩ := List.mem_map.1 hv
    exact .sides
  | opt a ih =>
    simp only [ways, List.pairwise_append, List.pairwise_map]
    refine ⟨(ih s).imp fun h => .used h, by simp, ?_⟩
    intro u hu v hv
    obtain ⟨_, _, rfl⟩ := List.mem_map.1 hu
    simp only [List.mem_singleton] at hv
    subst hv
    exact .greedy
  | grp n a ih =>
    simp only [ways, List.pairwise_map]
    exact (ih s).imp fun h => .group h

/-! ### The first way -/

theorem find_first {P : Str → Prop} {q : Str → Bool} (hq : ∀ w, q w = true ↔ P w) (r : Re) (s : Str) :
    (∀ w rest g, ((r.run s).find? fun m => q m.1) = some (w, rest, g) → FirstWay P r s w rest g) ∧
    (((r.run s).find? fun m => q m.1) = none → ¬ MatchesHere P r s) := by
  have hs := (ways_sorted r s).filter fun m => q m.2.1
  have e : ((r.run s).find? fun m => q m.1) = (((ways r s).filter fun m => q m.2.1).head?).map Prod.snd := by
    rw [← ways_run, List.find?_map, List.head?_filter]
    rfl
  have hm : ∀ x w g rest, Fits r x w g → P w → s = w ++ rest → (x, w, rest, g) ∈ (ways r s).filter fun m => q m.2.1 :=
    fun x w g rest h1 h2 h3 => List.mem_filter.2 ⟨ways_mem.2 ⟨h1, h3⟩, (hq w).2 h2⟩
  have hm' : ∀ x w g rest, (x, w, rest, g) ∈ ((ways r s).filter fun m => q m.2.1) → Fits r x w g ∧ P w ∧ s = w ++ rest :=
    fun x w g rest h => by
      obtain ⟨h1, h2⟩ := List.mem_filter.1 h
      obtain ⟨h3, h4⟩ := ways_mem.1 h1
      exact ⟨h3, (hq w).1 h2, h4⟩
  rw [e]
  generalize (ways r s).filter (fun m => q m.2.1) = l at hs hm hm'
  cases l with
  | nil =>
    refine ⟨(fun w rest g h => by cases h), fun _ => ?_⟩
    rintro ⟨x, w, g, rest, h1, h2, h3⟩
    have := hm x w g rest h1 h2 h3
    simp at this
  | cons y l =>
    refine ⟨fun w rest g h => ?_, fun h => by cases h⟩
    obtain ⟨x, w', rest', g'⟩ := y
    cases h
    obtain ⟨h1, h2, h3⟩ := hm' x w g rest (by simp)
    refine ⟨x, h1, h2, h3, fun x' w' g' rest' h1' h2' h3' => ?_⟩
    rcases List.mem_cons.1 (hm x' w' g' rest' h1' h2' h3') with e | hl
    · cases e
      exact .inl rfl
    · exact .inr ((List.pairwise_cons.1 hs).1 _ hl)

theorem firstWay_matches {P : Str → Prop} {r : Re} {s w rest : Str} {g : Caps} (h : FirstWay P r s w rest g) : MatchesHere P r s := by
  obtain ⟨x, h1, h2, h3, -⟩ := h
  exact ⟨x, w, g, rest, h1, h2, h3⟩

theorem find_iff {P : Str → Prop} {q : Str → Bool} (hq : ∀ w, q w = true ↔ P w) (r : Re) (s w rest : Str) (g : Caps) :
    ((r.run s).find? fun m => q m.1) = some (w, rest, g) ↔ FirstWay P r s w rest g := by
  refine ⟨(find_first hq r s).1 w rest g, fun h => ?_⟩
  cases hf : (r.run s).find? fun m => q m.1 with
  | none => exact absurd (firstWay_matches h) ((find_first hq r s).2 hf)
  | some m =>
    obtain ⟨w', rest', g'⟩ := m
    rw [firstWay_unique ((find_first hq r s).1 _ _ _ hf) h]

theorem find_none_iff {P : Str → Prop} {q : Str → Bool} (hq : ∀ w, q w = true ↔ P w) (r : Re) (s : Str) :
    ((r.run s).find? fun m => q m.1) = none ↔ ¬ MatchesHere P r s := by
  refine ⟨(find_first hq r s).2, fun h => ?_⟩
  cases hf : (r.run s).find? fun m => q m.1 with
  | none => rfl
  | some m =>
    obtain ⟨w', rest', g'⟩ := m
    exact absurd (firstWay_matches ((find_first hq r s).1 _ _ _ hf)) h

theorem matchAt_find (r : Re) (s : Str) : r.matchAt s = (r.run s).find? fun _ => true := by
  unfold Re.matchAt
  cases r.run s <;> rfl

theorem matchAt_iff (r : Re) (s w rest : Str) (g : Caps) : r.matchAt s = some (w, rest, g) ↔ FirstWay AnyText r s w rest g := by
  rw [matchAt_find]
  exact find_iff (q := fun _ => true) (fun w => by simp [AnyText]) r s w rest g

theorem matchAt_none_iff (r : Re) (s : Str) : r.matchAt s = none ↔ ¬ MatchesHere AnyText r s := by
  rw [matchAt_find]
  exact find_none_iff (q := fun _ => true) (fun w => by simp [AnyText]) r s

theorem matchNonempty_iff (r : Re) (s w rest : Str) (g : Caps) : r.matchNonempty s = some (w, rest, g) ↔ FirstWay (· ≠ []) r s w rest g :=
  find_iff (q := fun w => !w.isEmpty) (fun w => by cases w <;> simp) r s w rest g

theorem matchNonempty_none_iff (r : Re) (s : Str) : r.matchNonempty s = none ↔ ¬ MatchesHere (· ≠ []) r s :=
  find_none_iff (q := fun w => !w.isEmpty) (fun w => by cases w <;> simp) r s

/-! ### Searching -/

theorem search_leftmost {r : Re} {s : Str} {m : MRes} (h : r.search s = some m) : Leftmost r s m := by
  obtain ⟨w, rest, g⟩ := m
  induction s with
  | nil => exact .here ((matchAt_iff ..).1 h)
  | cons c s ih =>
    unfold Re.search at h
    split at h
    · next hm =>
      cases h
      exact .here ((matchAt_iff ..).1 hm)
    · next hm => exact .later ((matchAt_none_iff ..).1 hm) (ih h)

theorem leftmost_search {r : Re} {s : Str} {m : MRes} (h : Leftmost r s m) : r.search s = some m := by
  induction h with
  | @here s w rest g h =>
    have := (matchAt_iff ..).2 h
    cases s with
    | nil => exact this
    | cons c s => unfold Re.search; rw [this]
  | later h _ ih =>
    unfold Re.search
    rw [(matchAt_none_iff ..).2 h]
    exact ih

theorem firstWay_length {P : Str → Prop} {r : Re} {s w rest : Str} {g : Caps} (h : FirstWay P r s w rest g) : s.length = w.length + rest.length := by
  obtain ⟨x, -, -, rfl, -⟩ := h
  simp

theorem length_pos_ne {w : Str} (h : w ≠ []) : 0 < w.length := List.length_pos_iff.2 h

theorem finditer_finds (r : Re) (n : Nat) (s : Str) (hn : s.length < n) : FindsAll r s (r.finditerFuel n s) := by
  induction n generalizing s with
  | zero => omega
  | succ n ih =>
    unfold Re.finditerFuel
    split
    · next hm =>
      have hm := (matchAt_none_iff ..).1 hm
      cases s with
      | nil => exact .over hm
      | cons c s => exact .on hm (ih s (by simp at hn; omega))
    · next m hm =>
      obtain ⟨w, rest, g⟩ := m
      have hm := (matchAt_iff ..).1 hm
      have hl := firstWay_length hm
      split
      · next he =>
        have hw : w = [] := List.isEmpty_iff.1 he
        subst hw
        split
        · next m' hm' =>
          obtain ⟨w', rest', g'⟩ := m'
          have hm' := (matchNonempty_iff ..).1 hm'
          have hl' := firstWay_length hm'
          have hp : 0 < w'.length := by
            obtain ⟨x, -, h, -⟩ := hm'
            exact length_pos_ne h
          exact .emptyHit hm hm' (ih _ (by show rest'.length < n; omega))
        · next hm' =>
          have hm' := (matchNonempty_none_iff ..).1 hm'
          cases s with
          | nil => exact .emptyOver hm
          | cons c s => exact .emptyOn hm hm' (ih s (by simp at hn; omega))
      · next he =>
        have hw : w ≠ [] := fun e => he (List.isEmpty_iff.2 e)
        have := length_pos_ne hw
        exact .hit hm hw (ih _ (by show rest.length < n; omega))

theorem findsAll_unique {r : Re} {s : Str} {l l' : List (Str × Caps)} (h : FindsAll r s l) (h' : FindsAll r s l') : l = l' := by
  have no : ∀ {s w rest g}, ¬ MatchesHere AnyText r s → FirstWay AnyText r s w rest g → False := fun h h' => h (firstWay_matches h')
  induction h generalizing l' with
  | over h =>
    cases h' with
    | over => rfl
    | hit h1 => exact (no h h1).elim
    | emptyHit h1 => exact (no h h1).elim
    | emptyOver h1 => exact (no h h1).elim
  | on h _ ih =>
    cases h' with
    | on _ h2 => exact ih h2
    | hit h1 => exact (no h h1).elim
    | emptyHit h1 => exact (no h h1).elim
    | emptyOn h1 => exact (no h h1).elim
  | hit h hw _ ih =>
    cases h' with
    | over h1 => exact (no h1 h).elim
    | on h1 => exact (no h1 h).elim
    | hit h1 _ h2 =>
      cases firstWay_unique h h1
      rw [ih h2]
    | emptyHit h1 => cases firstWay_unique h h1; exact absurd rfl hw
    | emptyOn h1 => cases firstWay_unique h h1; exact absurd rfl hw
    | emptyOver h1 => cases firstWay_unique h h1; exact absurd rfl hw
  | emptyHit h hm _ ih =>
    cases h' with
    | over h1 => exact (no h1 h).elim
    | on h1 => exact (no h1 h).elim
    | hit h1 hw => cases firstWay_unique h h1; exact absurd rfl hw
    | emptyHit h1 h2 h3 =>
      cases firstWay_unique h h1
      cases firstWay_unique hm h2
      rw [ih h3]
    | emptyOn _ h2 => exact absurd (firstWay_matches hm) h2
    | emptyOver _ =>
      obtain ⟨x, -, h1, h2, -⟩ := hm
      exact absurd (List.append_eq_nil_iff.1 h2.symm).1 h1
  | emptyOn h hm _ ih =>
    cases h' with
    | on h1 => exact (no h1 h).elim
    | hit h1 hw => cases firstWay_unique h h1; exact absurd rfl hw
    | emptyHit _ h2 => exact absurd (firstWay_matches h2) hm
    | emptyOn h1 _ h2 =>
      cases firstWay_unique h h1
      rw [ih h2]
  | emptyOver h =>
    cases h' with
    | over h1 => exact (no h1 h).elim
    | hit h1 hw => cases firstWay_unique h h1; exact absurd rfl hw
    | emptyHit _ hm =>
      obtain ⟨x, -, h1, h2, -⟩ := hm
      exact absurd (List.append_eq_nil_iff.1 h2.symm).1 h1
    | emptyOver h1 => cases firstWay_unique h h1; rfl

/-! ### Erasing -/

theorem erase_erased {r : Re} (hr : ∀ x g, ¬ Fits r x [] g) (n : Nat) (s : Str) (hn : s.length < n) : Erased r s (r.eraseFuel n s) := by
  induction n generalizing s with
  | zero => omega
  | succ n ih =>
    cases s with
    | nil => exact .over
    | cons c s =>
      unfold Re.eraseFuel
      split
      · next m hm =>
        obtain ⟨w, rest, g⟩ := m
        have hm := (matchAt_iff ..).1 hm
        have hl := firstWay_length hm
        have hw : w ≠ [] := by
          rintro rfl
          obtain ⟨x, h, -⟩ := hm
          exact hr x g h
        have := length_pos_ne hw
        have he : w.isEmpty = false := by cases w <;> simp_all
        simp only [he, Bool.false_eq_true, if_false]
        exact .hit hm hw (ih _ (by show rest.length < n; omega))
      · next hm => exact .on ((matchAt_none_iff ..).1 hm) (ih s (by simp at hn; omega))

theorem erased_unique {r : Re} {s t t' : Str} (h : Erased r s t) (h' : Erased r s t') : t = t' := by
  induction h generalizing t' with
  | over =>
    cases h' with
    | over => rfl
    | hit h1 hw =>
      obtain ⟨x, -, -, h2, -⟩ := h1
      exact absurd (List.append_eq_nil_iff.1 h2.symm).1 hw
  | on h _ ih =>
    cases h' with
    | on _ h2 => rw [ih h2]
    | hit h1 => exact absurd (firstWay_matches h1) h
  | hit h hw _ ih =>
    cases h' with
    | over =>
      obtain ⟨x, -, -, h2, -⟩ := h
      exact absurd (List.append_eq_nil_iff.1 h2.symm).1 hw
    | on h1 => exact absurd (firstWay_matches h) h1
    | hit h1 _ h2 =>
      cases firstWay_unique h h1
      exact ih h2

/-! ### Splitting -/

theorem split_clean {p : Char → Bool} {w : Str} (x : Str) (h : ∀ c ∈ w, p c = false) {v : Str} {l : List Str}
    (hx : splitClassAux p false x = v :: l) : splitClassAux p false (w ++ x) = (w ++ v) :: l := by
  induction w with
  | nil => exact hx
  | cons c w ih =>
    have hc := h c List.mem_cons_self
    rw [List.cons_append, splitClassAux, hc, ih fun a ha => h a (by simp [ha])]
    simp

theorem split_after {p : Char → Bool} {s : Str} (h : ∀ c, s.head? = some c → p c = false) : splitClassAux p true s = splitClassAux p false s := by
  cases s with
  | nil => rfl
  | cons c s =>
    have hc := h c rfl
    rw [splitClassAux, splitClassAux, hc]
    simp

theorem split_run {p : Char → Bool} {u : Str} (s : Str) (h : ∀ c ∈ u, p c = true) : splitClassAux p true (u ++ s) = splitClassAux p true s := by
  induction u with
  | nil => rfl
  | cons c u ih =>
    rw [List.cons_append, splitClassAux, h c List.mem_cons_self]
    simpa using ih fun a ha => h a (by simp [ha])

theorem splitClass_of {p : Char → Bool} {P : Char → Prop} (hp : ∀ c, p c = true ↔ P c) {l : List Str} {s : Str} (h : RunJoined P l s) :
    splitClassAux p false s = l := by
  have hn : ∀ c, p c = false ↔ ¬ P c := fun c => by rw [← hp c]; simp
  induction h with
  | @one w h =>
    have := split_clean (p := p) (w := w) [] (fun c hc => (hn c).2 (h c hc)) (v := []) (l := []) rfl
    simpa using this
  | @more w u s l h1 h2 h3 h4 _ ih =>
    obtain ⟨c, u, rfl⟩ := List.exists_cons_of_ne_nil h3
    have hu : splitClassAux p false (c :: u ++ s) = [] :: l := by
      rw [List.cons_append, splitClassAux, (hp c).2 (h2 c List.mem_cons_self)]
      simp only [if_true, Bool.false_eq_true, if_false]
      rw [split_run s fun a ha => (hp a).2 (h2 a (by simp [ha])), split_after fun a ha => (hn a).2 (h4 a ha), ih]
    have := split_clean (p := p) (w := w) (c :: u ++ s) (fun a ha => (hn a).2 (h1 a ha)) hu
    rw [List.append_assoc, this, List.append_nil]

theorem splitClass_joined {p : Char → Bool} {P : Char → Prop} (hp : ∀ c, p c = true ↔ P c) (s : Str) :
    RunJoined P (splitClassAux p false s) s ∧
    ∃ u s', s = u ++ s' ∧ (∀ c ∈ u, P c) ∧ (∀ c, s'.head? = some c → ¬ P c) ∧ RunJoined P (splitClassAux p true s) s' := by
  have hn : ∀ c, p c = false ↔ ¬ P c := fun c => by rw [← hp c]; simp
  induction s with
  | nil => exact ⟨.one (by simp), [], [], rfl, by simp, by simp, .one (by simp)⟩
  | cons c s ih =>
    obtain ⟨ih1, u, s', e, h1, h2, h3⟩ := ih
    cases hc : p c with
    | true =>
      have hP := (hp c).1 hc
      have hu : ∀ a ∈ c :: u, P a := fun a ha => by
        rcases List.mem_cons.1 ha with rfl | ha
        · exact hP
        · exact h1 a ha
      have e1 : splitClassAux p false (c :: s) = [] :: splitClassAux p true s := by simp [splitClassAux, hc]
      have e2 : splitClassAux p true (c :: s) = splitClassAux p true s := by simp [splitClassAux, hc]
      rw [e1, e2]
      constructor
      · rw [e] at h3 ⊢
        exact .more (w := []) (u := c :: u) (by simp) hu (by simp) h2 h3
      · exact ⟨c :: u, s', by rw [e]; rfl, hu, h2, h3⟩
    | false =>
      have hP := (hn c).1 hc
      have e2 : splitClassAux p true (c :: s) = splitClassAux p false (c :: s) := split_after fun a ha => by cases ha; exact hc
      have key : RunJoined P (splitClassAux p false (c :: s)) (c :: s) := by
        rw [splitClassAux, hc]
        simp only [Bool.false_eq_true, if_false]
        generalize splitClassAux p false s = l at ih1
        have clean : ∀ w : Str, (∀ a ∈ w, ¬ P a) → ∀ a ∈ c :: w, ¬ P a := fun w hw a ha => by
          rcases List.mem_cons.1 ha with rfl | ha
          · exact hP
          · exact hw a ha
        cases ih1 with
        | one h => exact .one (clean _ h)
        | @more w u s l k1 k2 k3 k4 k5 => exact .more (w := c :: w) (clean _ k1) k2 k3 k4 k5
      refine ⟨key, [], c :: s, rfl, by simp, fun a ha => by cases ha; exact hP, ?_⟩
      rw [e2]
      exact key

/-! ### Words -/

theorem fits_word {t : Str} {x : Way} {w : Str} {g : Caps} (h : Fits (Re.word t) x w g) : w = t ∧ g = [] := by
  have one : ∀ {c : Char} {x : Way} {w : Str} {g : Caps}, Fits (Re.ch c) x w g → w = [c] ∧ g = [] := by
    intro c x w g h
    cases h with
    | char h => exact ⟨by rw [beq_iff_eq.1 h], rfl⟩
  induction t generalizing x w g with
  | nil => cases h; exact ⟨rfl, rfl⟩
  | cons c t ih =>
    cases t with
    | nil => exact one h
    | cons d t =>
      cases h with
      | both h1 h2 =>
        obtain ⟨rfl, rfl⟩ := one h1
        obtain ⟨rfl, rfl⟩ := ih h2
        exact ⟨rfl, rfl⟩

theorem word_fits (t : Str) : ∃ x, Fits (Re.word t) x t [] := by
  have one : ∀ c : Char, Fits (Re.ch c) (.char c) [c] [] := fun c => .char (by simp)
  induction t with
  | nil => exact ⟨_, .eps⟩
  | cons c t ih =>
    cases t with
    | nil => exact ⟨_, one c⟩
    | cons d t =>
      obtain ⟨x, hx⟩ := ih
      exact ⟨_, .both (one c) hx⟩

theorem fits_wordCI {t : Str} {x : Way} {w : Str} {g : Caps} (h : Fits (Re.wordCI t) x w g) :
    w.length = t.length ∧ (∀ y ∈ t.zip w, matchCI y.1 y.2 = true) ∧ g = [] := by
  have one : ∀ {c : Char} {x : Way} {w : Str} {g : Caps}, Fits (.cls (matchCI c)) x w g → (∃ d, w = [d] ∧ matchCI c d = true) ∧ g = [] := by
    intro c x w g h
    cases h with
    | char h => exact ⟨⟨_, rfl, h⟩, rfl⟩
  induction t generalizing x w g with
  | nil => cases h; simp
  | cons c t ih =>
    cases t with
    | nil =>
      obtain ⟨⟨d, rfl, h'⟩, rfl⟩ := one h
      simp [h']
    | cons d t =>
      cases h with
      | both h1 h2 =>
        obtain ⟨⟨e, rfl, h⟩, rfl⟩ := one h1
        obtain ⟨k1, k2, rfl⟩ := ih h2
        refine ⟨by simpa using k1, ?_, rfl⟩
        intro y hy
        simp only [List.cons_append, List.nil_append, List.zip_cons_cons, List.mem_cons] at hy
        rcases hy with rfl | hy
        · exact h
        · exact k2 y hy

theorem wordCI_fits (t w : Str) (hl : w.length = t.length) (h : ∀ y ∈ t.zip w, matchCI y.1 y.2 = true) : ∃ x, Fits (Re.wordCI t) x w [] := by
  induction t generalizing w with
  | nil =>
    have : w = [] := List.length_eq_zero_iff.1 hl
    subst this
    exact ⟨_, .eps⟩
  | cons c t ih =>
    cases w with
    | nil => simp at hl
    | cons e w =>
      have he : matchCI c e = true := h (c, e) (by simp)
      have hw : ∀ y ∈ t.zip w, matchCI y.1 y.2 = true := fun y hy => h y (by simp [hy])
      cases t with
      | nil =>
        have : w = [] := List.length_eq_zero_iff.1 (by simpa using hl)
        subst this
        exact ⟨_, .char he⟩
      | cons d t =>
        obtain ⟨x, hx⟩ := ih w (by simpa using hl) hw
        exact ⟨_, .both (w := [e]) (.char he) hx⟩

theorem fits_plus {p : Char → Bool} {w : Str} {g : Caps} : (∃ x, Fits (Re.plus p) x w g) ↔ w ≠ [] ∧ (∀ c ∈ w, p c = true) ∧ g = [] := by
  constructor
  · rintro ⟨x, h⟩
    cases h with
    | both h1 h2 =>
      cases h1 with
      | char h1 =>
        cases h2 with
        | many h2 =>
          refine ⟨by simp, fun a ha => ?_, rfl⟩
          rcases List.mem_cons.1 ha with rfl | ha
          · exact h1
          · exact h2 a ha
  · rintro ⟨h1, h2, rfl⟩
    obtain ⟨c, w, rfl⟩ := List.exists_cons_of_ne_nil h1
    exact ⟨_, .both (w := [c]) (.char (h2 c List.mem_cons_self)) (.many fun a ha => h2 a (by simp [ha]))⟩

theorem capGet_first (n : Nat) (w : Str) (g : Caps) : capGet n g = some w ↔ ∃ a b, g = a ++ (n, w) :: b ∧ ∀ x ∈ a, x.1 ≠ n := by
  induction g with
  | nil =>
    simp only [capGet]
    constructor
    · intro h; cases h
    · rintro ⟨a, b, h, -⟩
      simp at h
  | cons x g ih =>
    obtain ⟨k, v⟩ := x
    unfold capGet
    split
    · next e =>
      subst e
      constructor
      · intro h
        cases h
        exact ⟨[], g, rfl, by simp⟩
      · rintro ⟨a, b, h, ha⟩
        cases a with
        | nil => cases h; rfl
        | cons y a =>
          cases h
          exact absurd rfl (ha _ List.mem_cons_self)
    · next hk =>
      rw [ih]
      constructor
      · rintro ⟨a, b, h, ha⟩
        refine ⟨(k, v) :: a, b, by rw [h]; rfl, fun x hx => ?_⟩
        rcases List.mem_cons.1 hx with rfl | hx
        · exact hk
        · exact ha x hx
      · rintro ⟨a, b, h, ha⟩
        cases a with
        | nil => cases h; exact absurd rfl hk
        | cons y a =>
          cases h
          exact ⟨a, b, rfl, fun x hx => ha x (by simp [hx])⟩

end WG
