/- Lemmas about dicts. -/
import Verif.Py.Basic

namespace WG
variable {α : Type}

/-- Keys of a dict. -/
abbrev keys (d : Dict α) : List Str := d.map Prod.fst

theorem dictGet_none_iff {k : Str} {d : Dict α} : dictGet k d = none ↔ k ∉ keys d := by
  induction d with
  | nil => simp [dictGet]
  | cons p d ih =>
    obtain ⟨k', v⟩ := p
    simp only [dictGet]
    by_cases h : k' = k
    · simp [h]
    · have h' : ¬ k = k' := fun e => h e.symm
      simp [h, h', ih]

theorem dictHas_iff {k : Str} {d : Dict α} : dictHas k d = true ↔ k ∈ keys d := by
  unfold dictHas
  cases h : dictGet k d with
  | none => simp [dictGet_none_iff.1 h]
  | some v =>
    have : ¬ (k ∉ keys d) := fun hn => by rw [dictGet_none_iff.2 hn] at h; cases h
    simp at this ⊢
    exact this

theorem dictHas_false_iff {k : Str} {d : Dict α} : dictHas k d = false ↔ k ∉ keys d := by
  rw [← dictHas_iff]; simp

theorem dictGet_some_mem {k : Str} {v : α} {d : Dict α} (h : dictGet k d = some v) : (k, v) ∈ d := by
  induction d with
  | nil => simp [dictGet] at h
  | cons p d ih =>
    obtain ⟨k', v'⟩ := p
    simp only [dictGet] at h
    split at h
    · next e => subst e; simp at h; subst h; simp
    · simp [ih h]

theorem dictGet_of_mem {k : Str} {v : α} {d : Dict α} (hn : (keys d).Nodup) (h : (k, v) ∈ d) :
    dictGet k d = some v := by
  induction d with
  | nil => simp at h
  | cons p d ih =>
    obtain ⟨k', v'⟩ := p
    simp at hn h
    simp only [dictGet]
    rcases h with ⟨rfl, rfl⟩ | h
    · simp
    · have : k' ≠ k := by
        rintro rfl
        exact hn.1 _ h
      simp [this, ih hn.2 h]

theorem dictSet_fresh {k : Str} {v : α} {d : Dict α} (h : k ∉ keys d) :
    dictSet k v d = d ++ [(k, v)] := by
  induction d with
  | nil => rfl
  | cons p d ih =>
    obtain ⟨k', v'⟩ := p
    simp at h
    have h1 : ¬ k' = k := fun e => h.1 e.symm
    simp only [dictSet, if_neg h1, List.cons_append, List.cons.injEq, true_and]
    exact ih (by simpa using h.2)

theorem keys_dictSet_mem {k : Str} {v : α} {d : Dict α} (h : k ∈ keys d) :
    keys (dictSet k v d) = keys d := by
  induction d with
  | nil => simp at h
  | cons p d ih =>
    obtain ⟨k', v'⟩ := p
    simp only [dictSet]
    by_cases e : k' = k
    · simp [e]
    · have : k ∈ keys d := by
        simp at h
        rcases h with h | h
        · exact absurd h.symm e
        · simpa using h
      simp only [if_neg e, keys, List.map_cons] at *
      rw [ih this]

theorem keys_dictSet {k : Str} {v : α} {d : Dict α} :
    keys (dictSet k v d) = if k ∈ keys d then keys d else keys d ++ [k] := by
  split
  · next h => exact keys_dictSet_mem h
  · next h => rw [dictSet_fresh h]; simp

theorem nodup_dictSet {k : Str} {v : α} {d : Dict α} (h : (keys d).Nodup) :
    (keys (dictSet k v d)).Nodup := by
  rw [keys_dictSet]
  split
  · exact h
  · next hk =>
    rw [List.nodup_append]
    refine ⟨h, by simp, ?_⟩
    intro a ha b hb e
    simp at hb
    subst hb; subst e
    exact hk ha

theorem dictGet_dictSet_self {k : Str} {v : α} {d : Dict α} : dictGet k (dictSet k v d) = some v := by
  induction d with
  | nil => simp [dictSet, dictGet]
  | cons p d ih =>
    obtain ⟨k', v'⟩ := p
    simp only [dictSet]
    split <;> simp [dictGet, *]

theorem dictGet_dictSet_ne {k k' : Str} {v : α} {d : Dict α} (h : k ≠ k') :
    dictGet k' (dictSet k v d) = dictGet k' d := by
  induction d with
  | nil => simp [dictSet, dictGet, h]
  | cons p d ih =>
    obtain ⟨k'', v'⟩ := p
    simp only [dictSet]
    split
    · next e => subst e; simp [dictGet, h]
    · simp [dictGet, ih]

theorem dictGet_dictSet {k k' : Str} {v : α} {d : Dict α} :
    dictGet k' (dictSet k v d) = if k = k' then some v else dictGet k' d := by
  split
  · next h => subst h; exact dictGet_dictSet_self
  · next h => exact dictGet_dictSet_ne h

theorem foldl_dictSet_nodup_keys (l d : Dict α) (h : (keys d).Nodup) :
    (keys (l.foldl (fun d p => dictSet p.1 p.2 d) d)).Nodup := by
  induction l generalizing d with
  | nil => exact h
  | cons p l ih => exact ih _ (nodup_dictSet h)

theorem nodup_dictOf (l : Dict α) : (keys (dictOf l)).Nodup :=
  foldl_dictSet_nodup_keys l [] (by simp)

theorem mem_dictSet {k : Str} {v : α} {d : Dict α} {x : Str × α} (h : x ∈ dictSet k v d) :
    x = (k, v) ∨ x ∈ d := by
  induction d with
  | nil => simp [dictSet] at h; exact Or.inl h
  | cons p d ih =>
    obtain ⟨k', v'⟩ := p
    simp only [dictSet] at h
    split at h
    · next e =>
      subst e
      simp at h
      rcases h with h | h
      · exact Or.inl h
      · exact Or.inr (by simp [h])
    · simp at h
      rcases h with h | h
      · exact Or.inr (by simp [h])
      · rcases ih h with h | h
        · exact Or.inl h
        · exact Or.inr (by simp [h])

theorem mem_foldl_dictSet {l d : Dict α} {x : Str × α}
    (h : x ∈ l.foldl (fun d p => dictSet p.1 p.2 d) d) : x ∈ l ∨ x ∈ d := by
  induction l generalizing d with
  | nil => exact Or.inr h
  | cons p l ih =>
    rcases ih h with h | h
    · exact Or.inl (by simp [h])
    · rcases mem_dictSet h with h | h
      · exact Or.inl (by simp [h])
      · exact Or.inr h

theorem mem_of_mem_dictOf {l : Dict α} {x : Str × α} (h : x ∈ dictOf l) : x ∈ l := by
  rcases mem_foldl_dictSet h with h | h
  · exact h
  · simp at h

theorem keys_foldl_dictSet {l d : Dict α} {k : Str} :
    k ∈ keys (l.foldl (fun d p => dictSet p.1 p.2 d) d) ↔ k ∈ keys l ∨ k ∈ keys d := by
  induction l generalizing d with
  | nil => simp
  | cons p l ih =>
    rw [List.foldl_cons, ih, keys_dictSet]
    have e : k ∈ keys (p :: l) ↔ k = p.1 ∨ k ∈ keys l := by simp [keys]
    rw [e]
    by_cases h : p.1 ∈ keys d
    · rw [if_pos h]; grind
    · rw [if_neg h]; grind

theorem mem_keys_dictOf {l : Dict α} {k : Str} : k ∈ keys (dictOf l) ↔ k ∈ keys l := by
  unfold dictOf
  rw [keys_foldl_dictSet]
  simp

/-- Look-up after `d.update(e)`. -/
theorem dictGet_update {α : Type} {e : Dict α} (h : (keys e).Nodup) {d : Dict α} (k : Str) :
    dictGet k (dictUpdate d e) = (dictGet k e).or (dictGet k d) := by
  unfold dictUpdate
  induction e generalizing d with
  | nil => simp [dictGet]
  | cons x e ih =>
    obtain ⟨a, v⟩ := x
    simp only [keys, List.map_cons, List.nodup_cons] at h
    rw [List.foldl_cons, ih h.2]
    by_cases ha : a = k
    · subst ha
      have : dictGet a e = none := dictGet_none_iff.2 h.1
      rw [this, dictGet_dictSet_self]
      simp [dictGet]
    · rw [dictGet_dictSet_ne ha]
      simp [dictGet, ha]

end WG
