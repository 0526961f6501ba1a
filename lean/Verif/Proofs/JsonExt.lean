/-
More about JSON text: reading is stable under extending the text, proper prefixes of a dumped
object never load, and what `json.dump` leaves behind when it hits an unserialisable value.
-/
import Verif.Proofs.Json

namespace WG

/-! ### More fuel does not change a result -/

mutual
theorem parseVal_mono [PyRuntime] : (n : Nat) → ∀ (s : Str) (x : V × Str),
    parseVal n s = some x → parseVal (n + 1) s = some x
  | 0, s, x, h => by simp [parseVal] at h
  | n + 1, [], x, h => by simp [parseVal] at h
  | n + 1, c :: r, x, h => by
    have h1 := parseMembers_mono n
    have h2 := parseElems_mono n
    rw [parseVal] at h ⊢
    repeat' split at h
    all_goals (try (simp at h; done))
    all_goals simp_all
    · obtain ⟨a, b, hp, hx⟩ := h
      exact ⟨a, b, h1 _ _ _ hp, hx⟩
    · obtain ⟨a, b, hp, hx⟩ := h
      exact ⟨a, b, h2 _ _ _ hp, hx⟩
theorem parseElems_mono [PyRuntime] : (n : Nat) → ∀ (s : Str) (x : List V × Str),
    parseElems n s = some x → parseElems (n + 1) s = some x
  | 0, s, x, h => by simp [parseElems] at h
  | n + 1, s, x, h => by
    have h1 := parseElems_mono n
    rw [parseElems] at h ⊢
    cases hv : parseVal n s with
    | none => rw [hv] at h; simp at h
    | some p =>
      rw [hv] at h
      rw [parseVal_mono n _ _ hv]
      simp only at h ⊢
      repeat' split at h
      all_goals (try (simp at h; done))
      all_goals simp_all
      obtain ⟨a, b, hp, hx⟩ := h
      exact ⟨a, b, h1 _ _ _ hp, hx⟩
theorem parseMembers_mono [PyRuntime] : (n : Nat) → ∀ (s : Str) (x : List (Str × V) × Str),
    parseMembers n s = some x → parseMembers (n + 1) s = some x
  | 0, s, x, h => by simp [parseMembers] at h
  | n + 1, [], x, h => by simp [parseMembers] at h
  | n + 1, c :: r, x, h => by
    have h0 := parseVal_mono n
    have h1 := parseMembers_mono n
    rw [parseMembers] at h ⊢
    repeat' split at h
    all_goals (try (simp at h; done))
    all_goals simp_all
    · next hv _ _ => rw [h0 _ _ _ hv]; simp_all
    · next hv _ _ =>
      rw [h0 _ _ _ hv]; simp_all
      obtain ⟨a, b, hp, hx⟩ := h
      exact ⟨a, b, h1 _ _ _ hp, hx⟩
end

theorem parseVal_mono_le [PyRuntime] {n m : Nat} {s : Str} {x : V × Str} (h : parseVal n s = some x)
    (hm : n ≤ m) : parseVal m s = some x := by
  induction hm with
  | refl => exact h
  | step _ ih => exact parseVal_mono _ _ _ ih

/-! ### Extending the text -/

/-- The rest starts with something that ends a value. -/
def EndsOK (r : Str) : Prop :=
  ∃ c r', r = c :: r' ∧ (isJsonWs c = true ∨ c = ',' ∨ c = ']' ∨ c = '}')

theorem endsOK_of_skip {r r' : Str} {c : Char} (h : skipWs r = c :: r')
    (hc : c = ',' ∨ c = ']' ∨ c = '}') : EndsOK r := by
  cases r with
  | nil => simp [skipWs] at h
  | cons d r =>
    by_cases hd : isJsonWs d = true
    · exact ⟨d, r, rfl, Or.inl hd⟩
    · simp [skipWs, hd] at h
      refine ⟨d, r, rfl, Or.inr ?_⟩
      rw [h.1]; exact hc

theorem EndsOK.not_dig {c : Char} {r : Str} (h : EndsOK (c :: r)) :
    isDig c = false ∧ c ≠ '.' ∧ c ≠ 'e' ∧ c ≠ 'E' := by
  obtain ⟨d, r', e, hc⟩ := h
  simp at e
  obtain ⟨rfl, rfl⟩ := e
  simp only [isJsonWs, Bool.or_eq_true, beq_iff_eq] at hc
  rcases hc with (((hc | hc) | hc) | hc) | hc | hc | hc <;> subst hc <;> decide

theorem skipWs_ext {r r' : Str} {c : Char} (h : skipWs r = c :: r') (t : Str) :
    skipWs (r ++ t) = c :: (r' ++ t) := by
  induction r with
  | nil => simp [skipWs] at h
  | cons d r ih =>
    by_cases hd : isJsonWs d = true
    · have := ih (by simpa [skipWs, hd] using h)
      simpa [skipWs, hd] using this
    · simp [skipWs, hd] at h
      obtain ⟨rfl, rfl⟩ := h
      simp [skipWs, hd]

theorem scanStr_ext (st : ScanSt) (s t : Str) {a b : Str} (h : scanStr st s = some (a, b)) :
    scanStr st (s ++ t) = some (a, b ++ t) := by
  induction s generalizing st a b with
  | nil => cases st <;> simp [scanStr] at h
  | cons c r ih =>
    have ih2 : ∀ st d a b, (scanStr st r).map (fun p => (d :: p.1, p.2)) = some (a, b) →
        (scanStr st (r ++ t)).map (fun p => (d :: p.1, p.2)) = some (a, b ++ t) := by
      intro st d a b h
      obtain ⟨⟨p, q⟩, hp, hx⟩ := Option.map_eq_some_iff.1 h
      simp at hx
      obtain ⟨rfl, rfl⟩ := hx
      rw [ih _ hp]; rfl
    cases st with
    | norm =>
      simp only [List.cons_append]; rw [scanStr] at h ⊢
      split at h
      · next h1 => rw [if_pos h1]; simp at h ⊢; simp [← h.1, ← h.2]
      · next h1 =>
        rw [if_neg h1]
        split at h
        · next h2 => rw [if_pos h2]; exact ih _ h
        · next h2 =>
          rw [if_neg h2]
          split at h
          · simp at h
          · next h3 => rw [if_neg h3]; exact ih2 _ _ _ _ h
    | esc =>
      simp only [List.cons_append]; rw [scanStr] at h ⊢
      split at h
      · next h1 => rw [if_pos h1]; exact ih _ h
      · next h1 =>
        rw [if_neg h1]
        split at h
        · exact ih2 _ _ _ _ h
        · simp at h
    | hex k acc hi =>
      simp only [List.cons_append]; rw [scanStr] at h ⊢
      split at h
      · simp at h
      · next h1 =>
        split at h
        · next h2 => rw [if_pos h2]; exact ih _ h
        · next h2 =>
          rw [if_neg h2]
          split at h
          · split at h
            · next h3 => simp only [if_pos h3]; exact ih _ h
            · next h3 =>
              split at h
              · simp at h
              · next h4 => simp only [if_neg h3, if_neg h4]; exact ih2 _ _ _ _ h
          · split at h
            · next h3 => simp only [if_pos h3]; exact ih2 _ _ _ _ h
            · simp at h
    | hi k =>
      simp only [List.cons_append]; rw [scanStr] at h ⊢
      split at h
      · next h1 => rw [if_pos h1]; exact ih _ h
      · simp at h
    | hi2 k =>
      simp only [List.cons_append]; rw [scanStr] at h ⊢
      split at h
      · next h1 => rw [if_pos h1]; exact ih _ h
      · simp at h

theorem stripPrefix_ext {p s r : Str} (t : Str) (h : stripPrefix? p s = some r) :
    stripPrefix? p (s ++ t) = some (r ++ t) := by
  unfold stripPrefix? at h ⊢
  split at h
  · next hp =>
    rw [List.isPrefixOf_iff_prefix] at hp
    obtain ⟨q, rfl⟩ := hp
    simp at h
    subst h
    simp
  · simp at h

theorem spanDigits_ext (s t : Str) (h : (spanDigits s).2 ≠ []) :
    spanDigits (s ++ t) = ((spanDigits s).1, (spanDigits s).2 ++ t) := by
  induction s with
  | nil => simp [spanDigits] at h
  | cons c s ih =>
    simp only [List.cons_append, spanDigits] at h ⊢
    split
    · next hc => simp only [hc, if_true] at h; rw [ih h]
    · rfl

theorem spanSign_ext (s t : Str) (h : (spanDigits (spanSign s).2).2 ≠ []) :
    spanSign (s ++ t) = ((spanSign s).1, (spanSign s).2 ++ t) := by
  cases s with
  | nil => simp [spanSign, spanDigits] at h
  | cons c s =>
    by_cases h1 : c = '+'
    · subst h1; rfl
    · by_cases h2 : c = '-'
      · subst h2; rfl
      · simp [spanSign, h1, h2]

/-- The number reader does not look past a character that ends a value. -/
theorem spanExp_ext (s t : Str) (h : EndsOK (spanExp s).2) :
    spanExp (s ++ t) = ((spanExp s).1, (spanExp s).2 ++ t) := by
  cases s with
  | nil => obtain ⟨c, r, e, _⟩ := h; simp [spanExp] at e
  | cons c s =>
    simp only [List.cons_append, spanExp] at h ⊢
    split
    · next hc =>
      rw [if_pos hc] at h
      by_cases hd : (spanDigits (spanSign s).2).1 = []
      · exfalso
        have : spanDigits (spanSign s).2 = ([], (spanDigits (spanSign s).2).2) := by
          rw [← hd]
        rw [this] at h
        have := h.not_dig
        rcases hc with hc | hc <;> simp [hc] at this
      · have hne : (spanDigits (spanSign s).2).2 ≠ [] := by
          intro e
          split at h
          · next e' => rw [e'] at hd; exact hd rfl
          · next d r hx e' => rw [e'] at e; simp at e; subst e; obtain ⟨c, r, e, _⟩ := h; simp at e
        rw [spanSign_ext s t hne]
        simp only
        rw [spanDigits_ext _ t hne]
        generalize spanDigits (spanSign s).2 = x at *
        obtain ⟨d, r⟩ := x
        cases d with
        | nil => simp at hd
        | cons => rfl
    · rfl

theorem spanFrac_ext (s t : Str) (h : EndsOK (spanExp (spanFrac s).2).2) :
    spanFrac (s ++ t) = ((spanFrac s).1, (spanFrac s).2 ++ t) := by
  cases s with
  | nil => obtain ⟨c, r, e, _⟩ := h; simp [spanFrac, spanExp] at e
  | cons c s =>
    by_cases hc : c = '.'
    · subst hc
      simp only [List.cons_append, spanFrac] at h ⊢
      by_cases hd : (spanDigits s).1 = []
      · exfalso
        have : spanDigits s = ([], (spanDigits s).2) := by rw [← hd]
        rw [this] at h
        simp [spanExp] at h
        exact absurd h.not_dig.2.1 (by simp)
      · have hne : (spanDigits s).2 ≠ [] := by
          intro e
          generalize spanDigits s = x at *
          obtain ⟨d, r⟩ := x
          simp at e hd
          subst e
          cases d with
          | nil => simp at hd
          | cons => obtain ⟨c, r, e, _⟩ := h; simp [spanExp] at e
        rw [spanDigits_ext _ t hne]
        generalize spanDigits s = x at *
        obtain ⟨d, r⟩ := x
        cases d with
        | nil => simp at hd
        | cons => rfl
    · simp [spanFrac, hc]

theorem spanInt_ext (s t : Str) {p : Str × Str} (hs : spanInt s = some p) (h : p.2 ≠ []) :
    spanInt (s ++ t) = some (p.1, p.2 ++ t) := by
  unfold spanInt at hs
  split at hs
  · next c cs =>
    simp only [List.cons_append, spanInt]
    split at hs
    · next h0 => rw [if_pos h0]; simp at hs; subst hs; rfl
    · next h0 =>
      rw [if_neg h0]
      split at hs
      · next hd =>
        rw [if_pos hd]; simp at hs; subst hs
        simp only at h
        rw [spanDigits_ext cs t h]
      · simp at hs
  · next c cs hne =>
    have hc : ¬ (c = '-') := by
      intro e
      subst e
      cases cs with
      | nil => simp [isDig] at hs
      | cons d ds => exact hne _ _ rfl rfl
    have : spanInt (c :: cs ++ t) = (if c = '0' then some (['0'], cs ++ t)
        else if isDig c then some (c :: (spanDigits (cs ++ t)).1, (spanDigits (cs ++ t)).2)
        else none) := by
      simp only [List.cons_append]
      unfold spanInt
      split
      · next e => simp at e; exact absurd e.1 hc
      · next e => simp at e; rw [e.1, e.2]
      · next e => simp at e
    rw [this]
    split at hs
    · next h0 => rw [if_pos h0]; simp at hs; subst hs; rfl
    · next h0 =>
      rw [if_neg h0]
      split at hs
      · next hd =>
        rw [if_pos hd]; simp at hs; subst hs
        simp only at h
        rw [spanDigits_ext cs t h]
      · simp at hs
  · simp at hs

theorem EndsOK.ne_nil {r : Str} (h : EndsOK r) : r ≠ [] := by
  obtain ⟨c, r', rfl, _⟩ := h; simp

theorem parseNum_ext [PyRuntime] {s r : Str} {v : V} (t : Str) (h : parseNum s = some (v, r))
    (hr : EndsOK r) : parseNum (s ++ t) = some (v, r ++ t) := by
  unfold parseNum at h ⊢
  cases hi : spanInt s with
  | none => rw [hi] at h; simp at h
  | some p =>
    obtain ⟨i, r1⟩ := p
    rw [hi] at h
    simp only at h
    have hre : (spanExp (spanFrac r1).2).2 = r := by
      split at h
      · simp at h; exact h.2
      · split at h
        · simp at h; exact h.2
        · simp at h
    have hr1 : r1 ≠ [] := by
      intro e
      subst e
      exact hr.ne_nil (by rw [← hre]; rfl)
    rw [spanInt_ext s t hi hr1]
    simp only
    rw [spanFrac_ext r1 t (by rw [hre]; exact hr)]
    simp only
    rw [spanExp_ext _ t (by rw [hre]; exact hr)]
    simp only
    split at h
    · next hc => rw [if_pos hc]; simp at h ⊢; simp [h]
    · next hc =>
      rw [if_neg hc]
      split at h
      · simp at h ⊢; simp [h]
      · simp at h

mutual
/-- Reading a value gives the same result on an extended text, if the value is an object or the
rest ends it. -/
theorem parseVal_ext [PyRuntime] : (n : Nat) → ∀ (s : Str) (v : V) (r t : Str),
    parseVal n s = some (v, r) → (EndsOK r ∨ s.head? = some '{') →
    parseVal n (s ++ t) = some (v, r ++ t)
  | 0, s, v, r, t, h, _ => by simp [parseVal] at h
  | n + 1, [], v, r, t, h, _ => by simp [parseVal] at h
  | n + 1, c :: s, v, r, t, h, hr => by
    rw [List.cons_append]
    rw [parseVal] at h ⊢
    split at h
    · next h1 =>
      rw [if_pos h1]
      obtain ⟨⟨a, b⟩, hp, hx⟩ := Option.map_eq_some_iff.1 h
      rw [scanStr_ext _ _ _ hp]
      simp at hx ⊢
      simp [hx]
    next h1 =>
    rw [if_neg h1]
    split at h
    · next h2 =>
      rw [if_pos h2]
      split at h
      · simp at h
      · next c' r' hs =>
        rw [skipWs_ext hs]
        simp only
        split at h
        · next h3 => rw [if_pos h3]; simp at h ⊢; simp [h]
        · next h3 =>
          rw [if_neg h3]
          obtain ⟨⟨a, b⟩, hp, hx⟩ := Option.map_eq_some_iff.1 h
          have := parseMembers_ext n (c' :: r') a b t hp
          rw [List.cons_append] at this
          rw [this]
          simp at hx ⊢
          simp [hx]
    next h2 =>
    rw [if_neg h2]
    have hr : EndsOK r := by
      rcases hr with hr | hr
      · exact hr
      · simp at hr; exact absurd hr h2
    split at h
    · next h2 =>
      rw [if_pos h2]
      split at h
      · simp at h
      · next c' r' hs =>
        rw [skipWs_ext hs]
        simp only
        split at h
        · next h3 => rw [if_pos h3]; simp at h ⊢; simp [h]
        · next h3 =>
          rw [if_neg h3]
          obtain ⟨⟨a, b⟩, hp, hx⟩ := Option.map_eq_some_iff.1 h
          have := parseElems_ext n (c' :: r') a b t hp
          rw [List.cons_append] at this
          rw [this]
          simp at hx ⊢
          simp [hx]
    next h3 =>
    rw [if_neg h3]
    split at h
    · next h4 =>
      rw [if_pos h4]
      obtain ⟨b, hp, hx⟩ := Option.map_eq_some_iff.1 h
      rw [stripPrefix_ext _ hp]
      simp at hx ⊢; simp [hx]
    next h4 =>
    rw [if_neg h4]
    split at h
    · next h5 =>
      rw [if_pos h5]
      obtain ⟨b, hp, hx⟩ := Option.map_eq_some_iff.1 h
      rw [stripPrefix_ext _ hp]
      simp at hx ⊢; simp [hx]
    next h5 =>
    rw [if_neg h5]
    split at h
    · next h6 =>
      rw [if_pos h6]
      obtain ⟨b, hp, hx⟩ := Option.map_eq_some_iff.1 h
      rw [stripPrefix_ext _ hp]
      simp at hx ⊢; simp [hx]
    next h6 =>
    rw [if_neg h6]
    split at h
    · next h7 =>
      rw [if_pos h7]
      obtain ⟨b, hp, hx⟩ := Option.map_eq_some_iff.1 h
      rw [stripPrefix_ext _ hp]
      simp at hx ⊢; simp [hx]
    next h7 =>
    rw [if_neg h7]
    split at h
    · next h8 =>
      rw [if_pos h8]
      obtain ⟨b, hp, hx⟩ := Option.map_eq_some_iff.1 h
      rw [stripPrefix_ext _ hp]
      simp at hx ⊢; simp [hx]
    next h8 =>
    rw [if_neg h8]
    split at h
    · next h9 =>
      have h9' : c = '-' ∧ stripPrefix? c!"Infinity" s = some ‹_› := by
        split at h9
        · next hc => exact ⟨hc, h9⟩
        · simp at h9
      rw [if_pos h9'.1, stripPrefix_ext _ h9'.2]
      simp at h ⊢; simp [h]
    · next h9 =>
      have hnum := parseNum_ext t h hr
      have : (if c = '-' then stripPrefix? c!"Infinity" (s ++ t) else none) = none := by
        split
        · next hc =>
          subst hc
          rw [if_pos rfl] at h9
          cases hi : spanInt ('-' :: s) with
          | none => simp [parseNum, hi] at h
          | some p =>
            obtain ⟨c', r', e, hc⟩ := spanInt_head hi
            simp at e
            obtain ⟨rfl, rfl⟩ := e
            rcases hc with hc | hc
            · simp [isDig] at hc
            · cases s with
              | nil => simp [spanInt, isDig] at hi
              | cons d s =>
                have hd : d ≠ 'I' := by intro e; subst e; exact hc.2 _ rfl
                have : ('I' == d) = false := by simp [Ne.symm hd]
                simp [stripPrefix?, List.isPrefixOf, this]
        · rfl
      rw [this]
      simpa using hnum
theorem parseElems_ext [PyRuntime] : (n : Nat) → ∀ (s : Str) (v : List V) (r t : Str),
    parseElems n s = some (v, r) → parseElems n (s ++ t) = some (v, r ++ t)
  | 0, s, v, r, t, h => by simp [parseElems] at h
  | n + 1, s, v, r, t, h => by
    rw [parseElems] at h ⊢
    cases hv : parseVal n s with
    | none => rw [hv] at h; simp at h
    | some p =>
      obtain ⟨w, q⟩ := p
      rw [hv] at h
      simp only at h
      split at h
      · simp at h
      · next c r' hs =>
        split at h
        · next hc =>
          rw [parseVal_ext n s w q t hv (Or.inl (endsOK_of_skip hs (by simp [hc])))]
          simp only
          rw [skipWs_ext hs]
          simp at h
          simp [hc, h]
        · next hc =>
          split at h
          · next hc2 =>
            rw [parseVal_ext n s w q t hv (Or.inl (endsOK_of_skip hs (by simp [hc2])))]
            simp only
            rw [skipWs_ext hs]
            simp only [if_neg hc, if_pos hc2]
            obtain ⟨⟨a, b⟩, hp, hx⟩ := Option.map_eq_some_iff.1 h
            have hne : ∃ c r'', skipWs r' = c :: r'' := by
              cases e : skipWs r' with
              | nil =>
                rw [e] at hp
                cases n with
                | zero => simp [parseElems] at hp
                | succ n => cases n <;> simp [parseElems, parseVal] at hp
              | cons a b => exact ⟨_, _, rfl⟩
            obtain ⟨d, r'', e⟩ := hne
            rw [skipWs_ext e]
            rw [e] at hp
            have := parseElems_ext n _ _ _ t hp
            rw [List.cons_append] at this
            rw [this]
            simp at hx ⊢; simp [hx]
          · simp at h
theorem parseMembers_ext [PyRuntime] : (n : Nat) → ∀ (s : Str) (v : List (Str × V)) (r t : Str),
    parseMembers n s = some (v, r) → parseMembers n (s ++ t) = some (v, r ++ t)
  | 0, s, v, r, t, h => by simp [parseMembers] at h
  | n + 1, [], v, r, t, h => by simp [parseMembers] at h
  | n + 1, c :: s, v, r, t, h => by
    rw [List.cons_append]
    rw [parseMembers] at h ⊢
    split at h
    · next h1 =>
      rw [if_pos h1]
      cases hs : scanStr .norm s with
      | none => rw [hs] at h; simp at h
      | some p =>
      obtain ⟨key, r1⟩ := p
      rw [hs] at h
      rw [scanStr_ext _ _ _ hs]
      simp only at h ⊢
      split at h
      · simp at h
      · next c1 r2 hs2 =>
        rw [skipWs_ext hs2]
        simp only
        split at h
        · next h2 =>
          rw [if_pos h2]
          have hne : ∃ c r'', skipWs r2 = c :: r'' := by
            cases e : skipWs r2 with
            | nil =>
              rw [e] at h
              cases n <;> simp [parseVal] at h
            | cons a b => exact ⟨_, _, rfl⟩
          obtain ⟨d, r'', e⟩ := hne
          rw [skipWs_ext e]
          rw [e] at h
          cases hv : parseVal n (d :: r'') with
          | none => rw [hv] at h; simp at h
          | some p =>
          obtain ⟨w, q⟩ := p
          rw [hv] at h
          simp only at h
          split at h
          · simp at h
          · next c3 r3 hs3 =>
            split at h
            · next hc =>
              have := parseVal_ext n _ w q t hv (Or.inl (endsOK_of_skip hs3 (by simp [hc])))
              rw [List.cons_append] at this
              rw [this]
              simp only
              rw [skipWs_ext hs3]
              simp at h
              simp [hc, h]
            · next hc =>
              split at h
              · next hc2 =>
                have := parseVal_ext n _ w q t hv (Or.inl (endsOK_of_skip hs3 (by simp [hc2])))
                rw [List.cons_append] at this
                rw [this]
                simp only
                rw [skipWs_ext hs3]
                simp only [if_neg hc, if_pos hc2]
                obtain ⟨⟨a, b⟩, hp, hx⟩ := Option.map_eq_some_iff.1 h
                have hne : ∃ c r'', skipWs r3 = c :: r'' := by
                  cases e : skipWs r3 with
                  | nil =>
                    rw [e] at hp
                    cases n <;> simp [parseMembers] at hp
                  | cons a b => exact ⟨_, _, rfl⟩
                obtain ⟨d', r4, e'⟩ := hne
                rw [skipWs_ext e']
                rw [e'] at hp
                have := parseMembers_ext n _ _ _ t hp
                rw [List.cons_append] at this
                rw [this]
                simp at hx ⊢; simp [hx]
              · simp at h
        · simp at h
    · simp at h
end

/-- A proper prefix of the text of an object never loads. -/
theorem jsonLoad_prefix [PyRuntime] {d : List (Str × V)} (hd : (Val.dict d).Ser) {s t : Str}
    (h : dumpText (.dict d) = s ++ t) (ht : t ≠ []) : jsonLoad s = none := by
  obtain ⟨T, eT, sT, pT⟩ := emit_ok 0 (Val.dict d) hd
  have eT' : dumpText (.dict d) = T := by simp [jsonDump, dumpText, eT]
  rw [eT'] at h
  have hT : T.head? = some '{' := by
    have : (emit 0 (Val.dict d)).1.head? = some '{' := by
      cases d with
      | nil => rfl
      | cons p d => obtain ⟨k, x⟩ := p; simp [emit, emitText, Emitted.andThen]
    rw [eT] at this; exact this
  cases s with
  | nil => simp [jsonLoad, skipWs, parseVal]
  | cons c s =>
    rw [h] at hT
    simp at hT
    subst hT
    cases hp : parseVal (('{' :: s).length + 1) ('{' :: s) with
    | none => simp [jsonLoad, skipWs, isJsonWs] at hp ⊢; rw [hp]
    | some p =>
      exfalso
      obtain ⟨v, r⟩ := p
      have h1 := parseVal_ext _ _ _ _ t hp (Or.inr rfl)
      rw [← h] at h1
      have h2 := parseVal_mono_le h1 (Nat.le_max_left _ T.length)
      have h3 := pT [] (max (('{' :: s).length + 1) T.length) Delim.nil (by simp; omega)
      simp only [List.append_nil] at h3
      rw [h3] at h2
      simp at h2
      exact ht h2.2.2

/-! ### Unserialisable values -/

mutual
/-- The value with every unserialisable part replaced by `None`. -/
def Val.fill {F : Type} : Val F → Val F
  | .opq _ => .none
  | .list l => .list (Val.fillList l)
  | .dict d => .dict (Val.fillDict d)
  | v => v
/-- … in all list elements. -/
def Val.fillList {F : Type} : List (Val F) → List (Val F)
  | [] => []
  | x :: xs => x.fill :: Val.fillList xs
/-- … in all dict values. -/
def Val.fillDict {F : Type} : List (Str × Val F) → List (Str × Val F)
  | [] => []
  | x :: xs => (x.1, x.2.fill) :: Val.fillDict xs
end

theorem keys_fillDict {F : Type} (d : List (Str × Val F)) :
    (Val.fillDict d).map Prod.fst = d.map Prod.fst := by
  induction d with
  | nil => rfl
  | cons p d ih => simp [Val.fillDict, ih]

mutual
theorem Val.WF.fill_ser {F : Type} : (v : Val F) → v.WF → v.fill.Ser
  | .none, _ => trivial
  | .bool _, _ => trivial
  | .int _, _ => trivial
  | .flt _, _ => trivial
  | .str _, _ => trivial
  | .opq _, _ => trivial
  | .list l, h => by
    rw [Val.fill, Val.Ser]; exact Val.WFList.fill_ser l h
  | .dict d, h => by
    rw [Val.WF] at h
    rw [Val.fill, Val.Ser, keys_fillDict]; exact ⟨h.1, Val.WFDict.fill_ser d h.2⟩
theorem Val.WFList.fill_ser {F : Type} : (l : List (Val F)) → Val.WFList l → Val.SerList (Val.fillList l)
  | [], _ => trivial
  | x :: xs, h => ⟨Val.WF.fill_ser x h.1, Val.WFList.fill_ser xs h.2⟩
theorem Val.WFDict.fill_ser {F : Type} : (d : List (Str × Val F)) → Val.WFDict d → Val.SerDict (Val.fillDict d)
  | [], _ => trivial
  | x :: xs, h => ⟨Val.WF.fill_ser x.2 h.1, Val.WFDict.fill_ser xs h.2⟩
end

mutual
theorem Val.Ser.wf {F : Type} : (v : Val F) → v.Ser → v.WF
  | .none, _ => trivial
  | .bool _, _ => trivial
  | .int _, _ => trivial
  | .flt _, _ => trivial
  | .str _, _ => trivial
  | .opq _, h => by simp [Val.Ser] at h
  | .list l, h => by rw [Val.WF]; exact Val.SerList.wf l h
  | .dict d, h => by rw [Val.Ser] at h; rw [Val.WF]; exact ⟨h.1, Val.SerDict.wf d h.2⟩
theorem Val.SerList.wf {F : Type} : (l : List (Val F)) → Val.SerList l → Val.WFList l
  | [], _ => trivial
  | x :: xs, h => ⟨Val.Ser.wf x h.1, Val.SerList.wf xs h.2⟩
theorem Val.SerDict.wf {F : Type} : (d : List (Str × Val F)) → Val.SerDict d → Val.WFDict d
  | [], _ => trivial
  | x :: xs, h => ⟨Val.Ser.wf x.2 h.1, Val.SerDict.wf xs h.2⟩
end

/-- How the output `a` for a value relates to the output `b` for its filled version. -/
def FillRel (a b : Emitted) (same : Prop) : Prop :=
  b.2 = true ∧ ∃ s, b.1 = a.1 ++ s ∧ (a.2 = true → s = [] ∧ same) ∧ (a.2 = false → s ≠ [])

theorem FillRel.text (t : Str) {p : Prop} (hp : p) : FillRel (emitText t) (emitText t) p :=
  ⟨rfl, [], by simp [emitText], fun _ => ⟨rfl, hp⟩, by simp [emitText]⟩

theorem FillRel.andThen {a a' b b' : Emitted} {p q r : Prop} (h1 : FillRel a b p) (h2 : FillRel a' b' q)
    (hr : p → q → r) : FillRel (a.andThen a') (b.andThen b') r := by
  obtain ⟨hb, s, es, ht, hf⟩ := h1
  obtain ⟨hb', s', es', ht', hf'⟩ := h2
  obtain ⟨a, ab⟩ := a
  obtain ⟨a', ab'⟩ := a'
  obtain ⟨b, bb⟩ := b
  obtain ⟨b', bb'⟩ := b'
  simp only at *
  subst hb hb' es es'
  cases ab with
  | true =>
    obtain ⟨rfl, hp⟩ := ht rfl
    refine ⟨rfl, s', by simp [Emitted.andThen], ?_, ?_⟩
    · intro h
      exact ⟨(ht' h).1, hr hp (ht' h).2⟩
    · intro h
      exact hf' h
  | false =>
    refine ⟨rfl, s ++ (a' ++ s'), by simp [Emitted.andThen], by simp [Emitted.andThen], ?_⟩
    intro _
    simp [hf rfl]

theorem FillRel.mono {a b : Emitted} {p q : Prop} (h : FillRel a b p) (hq : p → q) : FillRel a b q := by
  obtain ⟨hb, s, es, ht, hf⟩ := h
  exact ⟨hb, s, es, fun h => ⟨(ht h).1, hq (ht h).2⟩, hf⟩

mutual
theorem emit_fill [PyRuntime] (k : Nat) : (v : V) → FillRel (emit k v) (emit k v.fill) (v.fill = v)
  | .none => FillRel.text _ rfl
  | .bool true => FillRel.text _ rfl
  | .bool false => FillRel.text _ rfl
  | .int _ => FillRel.text _ rfl
  | .flt _ => FillRel.text _ rfl
  | .str _ => FillRel.text _ rfl
  | .opq _ => ⟨rfl, c!"null", rfl, by simp [emit], by simp⟩
  | .list [] => FillRel.text _ rfl
  | .list (x :: xs) => by
    have h1 := emit_fill (k + 1) x
    have h2 := emitElems_fill (k + 1) xs
    have := (FillRel.text ('[' :: nl (k + 1)) trivial).andThen
      (h1.andThen (h2.andThen (FillRel.text (nl k ++ [']']) trivial) fun h _ => h) And.intro)
      fun _ h => h
    refine this.mono ?_
    intro h
    simp [Val.fill, Val.fillList, h.1, h.2]
  | .dict [] => FillRel.text _ rfl
  | .dict ((key, x) :: xs) => by
    have h1 := emit_fill (k + 1) x
    have h2 := emitMembers_fill (k + 1) xs
    have := (FillRel.text ('{' :: (nl (k + 1) ++ encStr key ++ [':', ' '])) trivial).andThen
      (h1.andThen (h2.andThen (FillRel.text (nl k ++ ['}']) trivial) fun h _ => h) And.intro)
      fun _ h => h
    refine this.mono ?_
    intro h
    simp [Val.fill, Val.fillDict, h.1, h.2]
theorem emitElems_fill [PyRuntime] (k : Nat) : (l : List V) →
    FillRel (emitElems k l) (emitElems k (Val.fillList l)) (Val.fillList l = l)
  | [] => FillRel.text _ rfl
  | x :: xs => by
    have := (FillRel.text (',' :: nl k) trivial).andThen
      ((emit_fill k x).andThen (emitElems_fill k xs) And.intro) fun _ h => h
    refine this.mono ?_
    intro h
    simp [Val.fillList, h.1, h.2]
theorem emitMembers_fill [PyRuntime] (k : Nat) : (l : List (Str × V)) →
    FillRel (emitMembers k l) (emitMembers k (Val.fillDict l)) (Val.fillDict l = l)
  | [] => FillRel.text _ rfl
  | (key, x) :: xs => by
    have := (FillRel.text (',' :: (nl k ++ encStr key ++ [':', ' '])) trivial).andThen
      ((emit_fill k x).andThen (emitMembers_fill k xs) And.intro) fun _ h => h
    refine this.mono ?_
    intro h
    simp [Val.fillDict, h.1, h.2]
end

/-- `json.dump` completes exactly on the serialisable values. -/
theorem jsonDump_complete [PyRuntime] {v : V} (hw : v.WF) : (jsonDump v).2 = true ↔ v.Ser := by
  constructor
  · intro h
    obtain ⟨_, s, _, ht, _⟩ := emit_fill 0 v
    rw [← (ht h).2]
    exact Val.WF.fill_ser v hw
  · intro h; rw [jsonDump_ser v h]

/-- An incomplete dump of a dict is a proper prefix of a complete one. -/
theorem jsonDump_incomplete [PyRuntime] {v : V} (h : (jsonDump v).2 = false) :
    ∃ s, s ≠ [] ∧ dumpText v.fill = (jsonDump v).1 ++ s := by
  obtain ⟨_, s, es, _, hf⟩ := emit_fill 0 v
  exact ⟨s, hf h, es⟩

/-- So what an incomplete dump wrote does not load. -/
theorem jsonLoad_incomplete [PyRuntime] {d : List (Str × V)} (hw : (Val.dict d).WF)
    (h : (jsonDump (.dict d)).2 = false) : jsonLoad (jsonDump (.dict d)).1 = none := by
  obtain ⟨s, hs, es⟩ := jsonDump_incomplete h
  have hser := Val.WF.fill_ser _ hw
  rw [Val.fill] at es hser
  exact jsonLoad_prefix hser es hs

/-! ### Dicts with members appended -/

theorem andThen_assoc (a b c : Emitted) : (a.andThen b).andThen c = a.andThen (b.andThen c) := by
  obtain ⟨a, ab⟩ := a
  obtain ⟨b, bb⟩ := b
  cases ab <;> cases bb <;> simp [Emitted.andThen]

theorem emitMembers_append [PyRuntime] (k : Nat) (d e : List (Str × V)) :
    emitMembers k (d ++ e) = (emitMembers k d).andThen (emitMembers k e) := by
  induction d with
  | nil => simp [emitMembers, emitText, Emitted.andThen]
  | cons p d ih =>
    obtain ⟨key, x⟩ := p
    simp only [List.cons_append, emitMembers, ih, andThen_assoc]

/-- The text of a non-empty dict up to the closing line. -/
def dictBody [PyRuntime] (d : List (Str × V)) : Str :=
  match d with
  | [] => []
  | (key, x) :: xs =>
    '{' :: (nl 1 ++ encStr key ++ [':', ' ']) ++ (emit 1 x).1 ++ (emitMembers 1 xs).1

theorem emitMembers_ser [PyRuntime] (k : Nat) {d : List (Str × V)} (h : Val.SerDict d) :
    emitMembers k d = ((emitMembers k d).1, true) := by
  obtain ⟨t, e, _⟩ := emitMembers_ok k d h
  rw [e]

theorem emit_ser [PyRuntime] (k : Nat) {v : V} (h : v.Ser) : emit k v = ((emit k v).1, true) := by
  obtain ⟨t, e, _⟩ := emit_ok k v h
  rw [e]

theorem jsonDump_append [PyRuntime] {d : List (Str × V)} (hd : Val.SerDict d) (hne : d ≠ [])
    (e : List (Str × V)) :
    jsonDump (.dict (d ++ e)) =
      (dictBody d ++ (emitMembers 1 e).1 ++ (if (emitMembers 1 e).2 then nl 0 ++ ['}'] else []),
        (emitMembers 1 e).2) := by
  cases d with
  | nil => simp at hne
  | cons p d =>
    obtain ⟨key, x⟩ := p
    rw [jsonDump, List.cons_append, emit, emitMembers_append, emit_ser 1 hd.1, emitMembers_ser 1 hd.2]
    generalize emitMembers 1 e = E
    obtain ⟨t, b⟩ := E
    cases b <;> simp [dictBody, Emitted.andThen, emitText]

theorem dumpText_append [PyRuntime] {d e : List (Str × V)} (hd : Val.SerDict d) (hne : d ≠ [])
    (he : Val.SerDict e) :
    dumpText (.dict (d ++ e)) = dictBody d ++ (emitMembers 1 e).1 ++ (nl 0 ++ ['}']) := by
  rw [dumpText, jsonDump_append hd hne]
  rw [emitMembers_ser 1 he]; rfl

theorem dumpText_body [PyRuntime] {d : List (Str × V)} (hd : Val.SerDict d) (hne : d ≠ []) :
    dumpText (.dict d) = dictBody d ++ (nl 0 ++ ['}']) := by
  have := dumpText_append (e := []) hd hne trivial
  simpa [emitMembers, emitText] using this

theorem emitMembers_cons_start [PyRuntime] (k : Nat) (p : Str × V) (e : List (Str × V)) :
    ∃ t, (emitMembers k (p :: e)).1 = ',' :: '\n' :: t := by
  obtain ⟨key, x⟩ := p
  refine ⟨?_, ?_⟩
  rotate_left
  · simp [emitMembers, emitText, Emitted.andThen, nl]
    rfl

theorem dumpText_empty [PyRuntime] : dumpText (.dict []) = c!"{}" := rfl

theorem dumpText_cons_start [PyRuntime] (p : Str × V) (e : List (Str × V)) :
    ∃ t, (jsonDump (.dict (p :: e))).1 = '{' :: '\n' :: t := by
  obtain ⟨key, x⟩ := p
  refine ⟨?_, ?_⟩
  rotate_left
  · simp [jsonDump, emit, emitText, Emitted.andThen, nl]
    rfl

/-- The text written for a longer dict covers the old text completely. -/
theorem dump_append_length [PyRuntime] {d e : List (Str × V)} (hd : Val.SerDict d) :
    (dumpText (.dict d)).length ≤ (jsonDump (.dict (d ++ e))).1.length := by
  cases e with
  | nil => simp [dumpText]
  | cons p e =>
    by_cases hne : d = []
    · subst hne
      obtain ⟨t, ht⟩ := dumpText_cons_start p e
      simp [dumpText_empty, ht]
    · rw [dumpText_body hd hne, jsonDump_append hd hne]
      obtain ⟨t, ht⟩ := emitMembers_cons_start 1 p e
      simp [ht, nl]

/-- Writing the text of the longer dict over the old text leaves exactly the new text, complete
or not. -/
theorem overlay_append [PyRuntime] {d e : List (Str × V)} (hd : Val.SerDict d) :
    (jsonDump (.dict (d ++ e))).1 ++
      (dumpText (.dict d)).drop (jsonDump (.dict (d ++ e))).1.length = (jsonDump (.dict (d ++ e))).1 := by
  rw [List.drop_eq_nil_of_le (dump_append_length hd)]
  simp

/-! ### Torn writes -/

/-- The first `n` characters of a dump load only if they are everything. -/
theorem jsonLoad_take [PyRuntime] {d : List (Str × V)} (hw : (Val.dict d).WF) (n : Nat) :
    jsonLoad ((jsonDump (.dict d)).1.take n) = none ∨
      ((jsonDump (.dict d)).1.take n = (jsonDump (.dict d)).1 ∧ (jsonDump (.dict d)).2 = true) := by
  by_cases hc : (jsonDump (.dict d)).2 = true
  · by_cases hn : (jsonDump (.dict d)).1.length ≤ n
    · exact Or.inr ⟨List.take_of_length_le hn, hc⟩
    · refine Or.inl (jsonLoad_prefix ((jsonDump_complete hw).1 hc)
        (t := (jsonDump (.dict d)).1.drop n) ?_ ?_)
      · rw [dumpText, List.take_append_drop]
      · intro e
        have := congrArg List.length e
        simp at this; omega
  · obtain ⟨s, hs, es⟩ := jsonDump_incomplete (by simpa using hc)
    have hser := Val.WF.fill_ser _ hw
    rw [Val.fill] at es hser
    refine Or.inl (jsonLoad_prefix hser (t := (jsonDump (.dict d)).1.drop n ++ s) ?_ ?_)
    · rw [es, ← List.append_assoc, List.take_append_drop]
    · simp [hs]

/-- Members followed by `,}` do not parse. -/
def MembersBad [PyRuntime] (k : Nat) (xs : List (Str × V)) : Prop :=
  ∀ fuel key v s, ((emitMembers k xs).1 ++ c!",}").length ≤ fuel → StartOK s →
    parseVal fuel s = some (v, (emitMembers k xs).1 ++ c!",}") →
    parseMembers (fuel + 1) (encStr key ++ ':' :: ' ' :: s) = none

theorem membersBad [PyRuntime] (k : Nat) : (xs : List (Str × V)) → Val.SerDict xs → MembersBad k xs
  | [], _ => by
    intro fuel key v s hf hs hv
    have e1 : skipWs (':' :: ' ' :: s) = ':' :: ' ' :: s := by simp [skipWs, isJsonWs]
    have e2 : skipWs (' ' :: s) = s := by
      have := hs.skip
      simpa [skipWs, isJsonWs] using this
    have e3 : ∀ r, skipWs (',' :: r) = ',' :: r := by intro r; simp [skipWs, isJsonWs]
    have e4 : skipWs ['}'] = ['}'] := by simp [skipWs, isJsonWs]
    have e5 : parseMembers fuel ['}'] = none := by cases fuel <;> simp [parseMembers]
    simp only [emitMembers, emitText, List.nil_append] at hv
    rw [encStr_append]
    simp [parseMembers, scanStr_encStr, e1, e2, hv, e3, e4, e5]
  | (key', x) :: xs, h => by
    intro fuel key v s hf hs hv
    obtain ⟨tx, ex, sx, px⟩ := emit_ok k x h.1
    have eM : (emitMembers k ((key', x) :: xs)).1 =
        ',' :: (nl k ++ (encStr key' ++ (':' :: ' ' :: (tx ++ (emitMembers k xs).1)))) := by
      simp [emitMembers, ex, emitText, Emitted.andThen]
    rw [eM] at hv hf
    have e1 : skipWs (',' :: (nl k ++ (encStr key' ++ (':' :: ' ' :: (tx ++ (emitMembers k xs).1)))) ++ c!",}")
        = ',' :: (nl k ++ (encStr key' ++ (':' :: ' ' :: (tx ++ ((emitMembers k xs).1 ++ c!",}"))))) := by
      simp [skipWs, isJsonWs]
    have e2 : skipWs (nl k ++ (encStr key' ++ (':' :: ' ' :: (tx ++ ((emitMembers k xs).1 ++ c!",}"))))) =
        encStr key' ++ (':' :: ' ' :: (tx ++ ((emitMembers k xs).1 ++ c!",}"))) := by
      rw [skipWs_nl, encStr_append]; simp [skipWs, isJsonWs]
    have e3 : skipWs (':' :: ' ' :: s) = ':' :: ' ' :: s := by simp [skipWs, isJsonWs]
    have e4 : skipWs (' ' :: s) = s := by
      have := hs.skip
      simpa [skipWs, isJsonWs] using this
    have hl : (tx ++ ((emitMembers k xs).1 ++ c!",}")).length + 2 ≤ fuel := by
      simp [nl] at hf ⊢; omega
    obtain ⟨m, rfl⟩ : ∃ m, fuel = m + 1 := ⟨fuel - 1, by omega⟩
    have hdel : Delim ((emitMembers k xs).1 ++ c!",}") := by
      cases xs with
      | nil => exact Delim.cons (Or.inl rfl)
      | cons p e =>
        obtain ⟨t, ht⟩ := emitMembers_cons_start k p e
        rw [ht]; exact Delim.cons (Or.inl rfl)
    have h1 := px ((emitMembers k xs).1 ++ c!",}") m hdel (by omega)
    have hl2 : ((emitMembers k xs).1 ++ c!",}").length ≤ m := by
      simp at hl ⊢; omega
    have h2 := membersBad k xs h.2 m key' x _ hl2 (sx.append _) h1
    rw [encStr_append, parseMembers]
    simp only [if_true, scanStr_encStr, e3, e4, hv, e1, e2, h2, Char.reduceEq, if_false]
    rfl

theorem dictBody_bad [PyRuntime] {d : List (Str × V)} (hd : Val.SerDict d) (hne : d ≠ []) :
    jsonLoad (dictBody d ++ c!",}") = none := by
  cases d with
  | nil => simp at hne
  | cons p d =>
    obtain ⟨key, x⟩ := p
    obtain ⟨tx, ex, sx, px⟩ := emit_ok 1 x hd.1
    have eB : dictBody ((key, x) :: d) ++ c!",}" =
        '{' :: (nl 1 ++ (encStr key ++ ':' :: ' ' :: (tx ++ ((emitMembers 1 d).1 ++ c!",}")))) := by
      simp [dictBody, ex]
    rw [eB]
    have hdel : Delim ((emitMembers 1 d).1 ++ c!",}") := by
      cases d with
      | nil => exact Delim.cons (Or.inl rfl)
      | cons p e =>
        obtain ⟨t, ht⟩ := emitMembers_cons_start 1 p e
        rw [ht]; exact Delim.cons (Or.inl rfl)
    have e2 : skipWs (nl 1 ++ (encStr key ++ ':' :: ' ' :: (tx ++ ((emitMembers 1 d).1 ++ c!",}")))) =
        encStr key ++ ':' :: ' ' :: (tx ++ ((emitMembers 1 d).1 ++ c!",}")) := by
      rw [skipWs_nl, encStr_append]; simp [skipWs, isJsonWs]
    have key' : ∀ F, (tx ++ ((emitMembers 1 d).1 ++ c!",}")).length + 2 ≤ F →
        parseVal F ('{' :: (nl 1 ++ (encStr key ++ ':' :: ' ' :: (tx ++ ((emitMembers 1 d).1 ++ c!",}"))))) = none := by
      intro F hF
      obtain ⟨m, rfl⟩ : ∃ m, F = m + 1 + 1 := ⟨F - 2, by omega⟩
      have h1 := px ((emitMembers 1 d).1 ++ c!",}") m hdel (by omega)
      have h2 := membersBad 1 d hd.2 m key x _ (by simp at hF ⊢; omega) (sx.append _) h1
      rw [parseVal]
      simp only [Char.reduceEq, if_false, if_true, e2]
      rw [encStr_append] at h2 ⊢
      simp only [Char.reduceEq, if_false]
      rw [h2]; rfl
    rw [jsonLoad]
    have e3 : ∀ r, skipWs ('{' :: r) = '{' :: r := by intro r; simp [skipWs, isJsonWs]
    rw [e3, key' _ (by simp [nl]; omega)]

theorem take_drop_take {α : Type} (l : List α) (n : Nat) :
    l.take n ++ l.drop (l.take n).length = l := by
  by_cases hn : n ≤ l.length
  · have : (l.take n).length = n := by simp; omega
    rw [this, List.take_append_drop]
  · rw [List.take_of_length_le (by omega)]; simp

/-- A torn write of the longer dict over the text of the old one leaves the old text, the
complete new text, or something that does not load. -/
theorem torn_append [PyRuntime] {d e : List (Str × V)} (hd : Val.SerDict d)
    (hw : (Val.dict (d ++ e)).WF) (n : Nat) :
    let new := jsonDump (.dict (d ++ e))
    let res := new.1.take n ++ (dumpText (.dict d)).drop (new.1.take n).length
    res = dumpText (.dict d) ∨ (res = new.1 ∧ new.2 = true) ∨ jsonLoad res = none := by
  intro new res
  have fin : (dumpText (.dict d)).length ≤ (new.1.take n).length →
      (res = new.1 ∧ new.2 = true) ∨ jsonLoad res = none := by
    intro hl
    have : res = new.1.take n := by
      show new.1.take n ++ _ = _
      rw [List.drop_eq_nil_of_le hl]; simp
    rw [this]
    rcases jsonLoad_take hw n with h | h
    · exact Or.inr h
    · exact Or.inl h
  cases e with
  | nil =>
    left
    have : new.1 = dumpText (.dict d) := by simp [new, dumpText]
    show new.1.take n ++ (dumpText (.dict d)).drop (new.1.take n).length = _
    rw [this, take_drop_take]
  | cons p e =>
    by_cases hne : d = []
    · subst hne
      obtain ⟨t, ht⟩ := dumpText_cons_start p e
      have hres : res = new.1.take n ++ (dumpText (.dict [])).drop (new.1.take n).length := rfl
      have hnew : new.1 = '{' :: '\n' :: t := ht
      by_cases h0 : n = 0
      · left; rw [hres, h0]; rfl
      · by_cases h1 : n = 1
        · left; rw [hres, h1, hnew]; simp [dumpText_empty]
        · right
          apply fin
          rw [hnew, dumpText_empty]
          obtain ⟨m, rfl⟩ : ∃ m, n = m + 2 := ⟨n - 2, by omega⟩
          simp
    · obtain ⟨t, ht⟩ := emitMembers_cons_start 1 p e
      have hnew : ∃ t', new.1 = dictBody d ++ ',' :: '\n' :: t' := by
        refine ⟨t ++ (if (emitMembers 1 (p :: e)).2 then nl 0 ++ ['}'] else []), ?_⟩
        simp [new, jsonDump_append hd hne, ht]
      obtain ⟨t', hnew⟩ := hnew
      have hold := dumpText_body hd hne
      rcases Nat.lt_or_ge (dictBody d).length n with hn | hn
      · rcases Nat.lt_or_ge ((dictBody d).length + 1) n with hn2 | hn2
        · right
          apply fin
          rw [hold, hnew]
          simp [nl]
          omega
        · have hn3 : n = (dictBody d).length + 1 := by omega
          right; right
          have : res = dictBody d ++ c!",}" := by
            show new.1.take n ++ (dumpText (.dict d)).drop (new.1.take n).length = _
            have h1 : new.1.take n = dictBody d ++ [','] := by
              rw [hnew, hn3, List.take_append, List.take_of_length_le (by omega)]
              simp
            rw [h1, hold]
            simp [nl, List.drop_append]
          rw [this]
          exact dictBody_bad hd hne
      · left
        show new.1.take n ++ (dumpText (.dict d)).drop (new.1.take n).length = _
        have h1 : new.1.take n = (dictBody d).take n := by
          rw [hnew, List.take_append_of_le_length hn]
        have h2 : ((dictBody d).take n).length = n := by simp; omega
        rw [h1, hold, h2, List.drop_append_of_le_length hn, ← List.append_assoc,
          List.take_append_drop]

end WG
