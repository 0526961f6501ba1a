/- Everything `json.load` returns is serialisable again. -/
import Verif.Proofs.JsonExt
import Verif.Proofs.Dict

namespace WG

theorem serDict_iff {F : Type} {d : List (Str × Val F)} : Val.SerDict d ↔ ∀ x ∈ d, x.2.Ser := by
  induction d with
  | nil => simp [Val.SerDict]
  | cons p d ih => simp [Val.SerDict, ih]

theorem serList_iff {F : Type} {l : List (Val F)} : Val.SerList l ↔ ∀ x ∈ l, x.Ser := by
  induction l with
  | nil => simp [Val.SerList]
  | cons p d ih => simp [Val.SerList, ih]

theorem wfDict_iff {F : Type} {d : List (Str × Val F)} : Val.WFDict d ↔ ∀ x ∈ d, x.2.WF := by
  induction d with
  | nil => simp [Val.WFDict]
  | cons p d ih => simp [Val.WFDict, ih]

theorem wfList_iff {F : Type} {l : List (Val F)} : Val.WFList l ↔ ∀ x ∈ l, x.WF := by
  induction l with
  | nil => simp [Val.WFList]
  | cons p d ih => simp [Val.WFList, ih]

theorem ser_dictOf {F : Type} {l : List (Str × Val F)} (h : Val.SerDict l) :
    (Val.dict (dictOf l)).Ser := by
  rw [Val.Ser]
  refine ⟨nodup_dictOf l, serDict_iff.2 ?_⟩
  intro x hx
  exact serDict_iff.1 h x (mem_of_mem_dictOf hx)

theorem parseNum_ser [PyRuntime] {s : Str} {x : V × Str} (h : parseNum s = some x) : x.1.Ser := by
  unfold parseNum at h
  split at h
  · simp at h
  · simp only at h
    split at h
    · simp at h; subst h; trivial
    · split at h
      · simp at h; subst h; trivial
      · simp at h

mutual
theorem parseVal_ser [PyRuntime] : (n : Nat) → ∀ (s : Str) (v : V) (r : Str),
    parseVal n s = some (v, r) → v.Ser
  | 0, s, v, r, h => by simp [parseVal] at h
  | n + 1, [], v, r, h => by simp [parseVal] at h
  | n + 1, c :: s, v, r, h => by
    rw [parseVal] at h
    split at h
    · obtain ⟨⟨a, b⟩, hp, hx⟩ := Option.map_eq_some_iff.1 h
      simp at hx; obtain ⟨rfl, rfl⟩ := hx; trivial
    split at h
    · split at h
      · simp at h
      · split at h
        · simp at h; obtain ⟨rfl, rfl⟩ := h; simp [Val.Ser, Val.SerDict]
        · obtain ⟨⟨a, b⟩, hp, hx⟩ := Option.map_eq_some_iff.1 h
          simp at hx; obtain ⟨rfl, rfl⟩ := hx
          exact ser_dictOf (parseMembers_ser n _ _ _ hp)
    split at h
    · split at h
      · simp at h
      · split at h
        · simp at h; obtain ⟨rfl, rfl⟩ := h; simp [Val.Ser, Val.SerList]
        · obtain ⟨⟨a, b⟩, hp, hx⟩ := Option.map_eq_some_iff.1 h
          simp at hx; obtain ⟨rfl, rfl⟩ := hx
          rw [Val.Ser]
          exact parseElems_ser n _ _ _ hp
    split at h
    · obtain ⟨b, hp, hx⟩ := Option.map_eq_some_iff.1 h
      simp at hx; obtain ⟨rfl, rfl⟩ := hx; trivial
    split at h
    · obtain ⟨b, hp, hx⟩ := Option.map_eq_some_iff.1 h
      simp at hx; obtain ⟨rfl, rfl⟩ := hx; trivial
    split at h
    · obtain ⟨b, hp, hx⟩ := Option.map_eq_some_iff.1 h
      simp at hx; obtain ⟨rfl, rfl⟩ := hx; trivial
    split at h
    · obtain ⟨b, hp, hx⟩ := Option.map_eq_some_iff.1 h
      simp at hx; obtain ⟨rfl, rfl⟩ := hx; trivial
    split at h
    · obtain ⟨b, hp, hx⟩ := Option.map_eq_some_iff.1 h
      simp at hx; obtain ⟨rfl, rfl⟩ := hx; trivial
    split at h
    · simp at h; obtain ⟨rfl, rfl⟩ := h; trivial
    · exact parseNum_ser h
theorem parseElems_ser [PyRuntime] : (n : Nat) → ∀ (s : Str) (v : List V) (r : Str),
    parseElems n s = some (v, r) → Val.SerList v
  | 0, s, v, r, h => by simp [parseElems] at h
  | n + 1, s, v, r, h => by
    rw [parseElems] at h
    split at h
    · simp at h
    · next w q hv =>
      have hw := parseVal_ser n _ _ _ hv
      split at h
      · simp at h
      · split at h
        · simp at h; obtain ⟨rfl, rfl⟩ := h; exact ⟨hw, trivial⟩
        · split at h
          · obtain ⟨⟨a, b⟩, hp, hx⟩ := Option.map_eq_some_iff.1 h
            simp at hx; obtain ⟨rfl, rfl⟩ := hx
            exact ⟨hw, parseElems_ser n _ _ _ hp⟩
          · simp at h
theorem parseMembers_ser [PyRuntime] : (n : Nat) → ∀ (s : Str) (v : List (Str × V)) (r : Str),
    parseMembers n s = some (v, r) → Val.SerDict v
  | 0, s, v, r, h => by simp [parseMembers] at h
  | n + 1, [], v, r, h => by simp [parseMembers] at h
  | n + 1, c :: s, v, r, h => by
    rw [parseMembers] at h
    split at h
    · split at h
      · simp at h
      · split at h
        · simp at h
        · split at h
          · split at h
            · simp at h
            · next w q hv =>
              have hw := parseVal_ser n _ _ _ hv
              split at h
              · simp at h
              · split at h
                · simp at h; obtain ⟨rfl, rfl⟩ := h; exact ⟨hw, trivial⟩
                · split at h
                  · obtain ⟨⟨a, b⟩, hp, hx⟩ := Option.map_eq_some_iff.1 h
                    simp at hx; obtain ⟨rfl, rfl⟩ := hx
                    exact ⟨hw, parseMembers_ser n _ _ _ hp⟩
                  · simp at h
          · simp at h
    · simp at h
end

theorem jsonLoad_ser [PyRuntime] {s : Str} {v : V} (h : jsonLoad s = some v) : v.Ser := by
  unfold jsonLoad at h
  split at h
  · next hp =>
    split at h
    · simp at h; subst h; exact parseVal_ser _ _ _ _ hp
    · simp at h
  · simp at h

theorem jsonLoad_dict_nodup [PyRuntime] {s : Str} {d : Dict V} (h : jsonLoad s = some (.dict d)) :
    (keys d).Nodup ∧ Val.SerDict d := by
  have := jsonLoad_ser h
  rwa [Val.Ser] at this

theorem skipWs_eq_nil_iff (s : Str) : skipWs s = [] ↔ s.all isJsonWs = true := by
  induction s with
  | nil => simp [skipWs]
  | cons c s ih =>
    simp only [skipWs, List.dropWhile_cons, List.all_cons, Bool.and_eq_true] at ih ⊢
    split
    · next h => simp only [h, true_and]; exact ih
    · next h => simp [h]

/-- Text after a loadable object: the whole still loads iff it is white space. -/
theorem jsonLoad_object_append [PyRuntime] {s t : Str} {d : Dict V}
    (h : jsonLoad s = some (.dict d)) :
    jsonLoad (s ++ t) = if (skipWs t).isEmpty then some (.dict d) else none := by
  unfold jsonLoad at h
  split at h
  · next v r hp =>
    split at h
    · next hr =>
      simp at h; subst h
      have hhead : ∃ r, skipWs s = '{' :: r := by
        cases hs : skipWs s with
        | nil => rw [hs] at hp; simp [parseVal] at hp
        | cons c r' =>
          rw [hs] at hp
          by_cases hc : c = '{'
          · exact ⟨r', by rw [hc]⟩
          · exfalso
            rw [parseVal] at hp
            repeat' split at hp
            all_goals (try (simp at hp; done))
            all_goals (try (obtain ⟨b, _, hx⟩ := Option.map_eq_some_iff.1 hp; simp at hx; done))
            all_goals (try (exact absurd ‹_› hc))
            next =>
              unfold parseNum at hp
              split at hp
              · simp at hp
              · simp only at hp
                split at hp
                · simp at hp
                · split at hp <;> simp at hp
      obtain ⟨r', hs⟩ := hhead
      have hsk := skipWs_ext hs t
      rw [hs] at hp
      have h1 := parseVal_ext _ _ _ _ t hp (Or.inr rfl)
      rw [List.cons_append] at h1
      have h2 := parseVal_mono_le h1 (show s.length + 1 ≤ (s ++ t).length + 1 by simp)
      rw [jsonLoad, hsk, h2]
      have : skipWs (r ++ t) = skipWs t := by
        apply skipWs_append_ws
        rw [← skipWs_eq_nil_iff]
        simpa using hr
      simp [this]
    · simp at h
  · simp at h

end WG
