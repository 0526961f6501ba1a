/-
Lemmas for C108: the reader of lists reads exactly the grammar of lists.
-/
import Verif.Spec.ListText
import Verif.Proofs.JsonText
import Verif.Proofs.Literal
import Verif.Proofs.LiteralInv

set_option linter.unusedSectionVars false

namespace WG
variable [PyRuntime]

theorem listSpace_iff {w : Str} : ListSpace w ↔ w.all isGap = true := by
  simp [ListSpace, isGap, List.all_eq_true, or_assoc]

theorem plainQuoted_iff {q : Char} {s : Str} : PlainQuoted q s ↔ s.all (isLitStrChar q) = true := by
  simp [PlainQuoted, isLitStrChar, List.all_eq_true, and_assoc]

theorem litText_head {v : V} {t : Str} (h : LitText v t) : ∃ c t', t = c :: t' ∧ isGap c = false ∧ c ≠ ']' := by
  have hd : ∀ {n : Nat} {ds : Str}, DigitsText n ds → ∀ r, ∃ c t, ds ++ r = c :: t ∧ isGap c = false ∧ c ≠ ']' := by
    intro n ds h r
    obtain ⟨h1, h2, -⟩ := h.inv
    cases ds with
    | nil => simp at h2
    | cons c cs =>
      simp only [List.all_cons, Bool.and_eq_true] at h1
      refine ⟨c, _, rfl, ?_, ne_of_dig h1.1 rfl⟩
      cases hg : isGap c
      · rfl
      · have := gap_space hg
        rw [dig_space h1.1] at this
        simp at this
  cases h with
  | nothing => exact ⟨_, _, rfl, by decide, by decide⟩
  | yes => exact ⟨_, _, rfl, by decide, by decide⟩
  | no => exact ⟨_, _, rfl, by decide, by decide⟩
  | int h _ => simpa using hd h []
  | float h _ _ => exact hd h _
  | str hq _ => rcases hq with rfl | rfl <;> exact ⟨_, _, rfl, by decide, by decide⟩

theorem litAtom_exact {v : V} {t rest : Str} (h : LitText v t) (hr : ItemEnd rest) : litAtom (t ++ rest) = some (v, rest) := by
  cases h with
  | nothing => rfl
  | yes => rfl
  | no => rfl
  | int h hz =>
    obtain ⟨hall, hne, hval⟩ := h.inv
    have hz : ¬ (t.head? = some '0' ∧ t.length ≠ 1) := by
      rcases hz with rfl | hz
      · simp
      · simp [hz]
    cases t with
    | nil => simp at hne
    | cons c cs =>
      have hsp := spanDigits_stop hall hr.notDig.1
      simp only [List.all_cons, Bool.and_eq_true] at hall
      have hq : ¬ (c = '\'' ∨ c = '"') := by
        simp [ne_of_dig hall.1 (d := '"') rfl, ne_of_dig hall.1 (d := '\'') rfl]
      simp only [List.cons_append] at hsp ⊢
      simp only [litAtom, if_neg hq, hall.1, if_true, hsp]
      split
      · next heq =>
        simp at heq
        exact absurd heq.2 (hr.notDig.2 _)
      · next heq =>
        simp at heq
        obtain ⟨rfl, rfl⟩ := heq
        rw [if_neg hz, hval]
  | @float n m d f x h h' hx =>
    obtain ⟨hda, hd, -⟩ := h.inv
    obtain ⟨hfa, hf, -⟩ := h'.inv
    have hsp := spanDigits_stop (r := '.' :: (f ++ rest)) hda (notHead_cons rfl)
    have hsp2 := spanDigits_stop hfa hr.notDig.1
    cases d with
    | nil => simp at hd
    | cons c cs =>
      simp only [List.all_cons, Bool.and_eq_true] at hda
      have hq : ¬ (c = '\'' ∨ c = '"') := by
        simp [ne_of_dig hda.1 (d := '"') rfl, ne_of_dig hda.1 (d := '\'') rfl]
      simp only [List.cons_append, List.append_assoc] at hsp hx ⊢
      simp only [litAtom, if_neg hq, hda.1, if_true, hsp, hsp2]
      cases f with
      | nil => simp at hf
      | cons c' f => simp [hx]
  | @str q s hq hs =>
    have hc : isLitStrChar q q = false := by simp [isLitStrChar]
    have e1 := takeWhile_stop (b := q :: rest) (plainQuoted_iff.1 hs) (notHead_cons hc)
    simp only [List.cons_append, List.append_assoc, List.nil_append, litAtom, if_pos hq.symm]
    rw [e1.1, e1.2]
    simp

theorem litAtom_text {s r : Str} {v : V} (h : litAtom s = some (v, r)) : ∃ t, s = t ++ r ∧ LitText v t := by
  cases s with
  | nil => simp [litAtom] at h
  | cons c cs =>
    simp only [litAtom] at h
    split at h
    · next hq =>
      split at h
      · next q r' hd =>
        split at h
        · next hqc =>
          subst hqc
          simp only [Option.some.injEq, Prod.mk.injEq] at h
          obtain ⟨rfl, rfl⟩ := h
          refine ⟨_, ?_, .str hq.symm (plainQuoted_iff.2 (List.all_takeWhile ..))⟩
          have := List.takeWhile_append_dropWhile (p := isLitStrChar q) (l := cs)
          rw [hd] at this
          simp [this]
        · simp at h
      · simp at h
    · split at h
      · next hc =>
        have h1 := spanDigits_split (c :: cs)
        have h2 := spanDigits_sound (c :: cs)
        have h3 : (spanDigits (c :: cs)).1 ≠ [] := by simp [spanDigits, hc]
        split at h
        · next d r' hd =>
          rw [hd] at h1 h2 h3
          have h4 := spanDigits_split r'
          have h5 := spanDigits_sound r'
          split at h
          · simp at h
          · next f r'' hne hf =>
            rw [hf] at h4 h5
            cases hx : PyRuntime.floatOfStr (d ++ '.' :: f) with
            | none => simp [hx] at h
            | some y =>
              simp only [hx, Option.map_some, Option.some.injEq, Prod.mk.injEq] at h
              obtain ⟨rfl, rfl⟩ := h
              have hf' : f ≠ [] := by
                rintro rfl
                exact hne rfl
              refine ⟨_, ?_, .float (digitsText_of h2 h3) (digitsText_of h5 hf') hx⟩
              simp only at h1 h4
              rw [← h1, ← h4]
              simp
        · next d r' hd' hd =>
          rw [hd] at h1 h2 h3
          split at h
          · simp at h
          · next hz =>
            simp only [Option.some.injEq, Prod.mk.injEq] at h
            obtain ⟨rfl, rfl⟩ := h
            refine ⟨d, h1.symm, .int (digitsText_of h2 h3) ?_⟩
            by_cases h0 : d.head? = some '0'
            · left
              have hl : d.length = 1 := by simpa [h0] using hz
              obtain ⟨a, rfl⟩ := List.length_eq_one_iff.1 hl
              simp at h0
              rw [h0]
            · exact .inr h0
      · split at h
        · next hp =>
          simp only [Option.some.injEq, Prod.mk.injEq] at h
          obtain ⟨rfl, rfl⟩ := h
          obtain ⟨u, hu⟩ := List.isPrefixOf_iff_prefix.1 hp
          simp at hu
          obtain ⟨rfl, rfl⟩ := hu
          exact ⟨_, rfl, .yes⟩
        · split at h
          · next hp =>
            simp only [Option.some.injEq, Prod.mk.injEq] at h
            obtain ⟨rfl, rfl⟩ := h
            obtain ⟨u, hu⟩ := List.isPrefixOf_iff_prefix.1 hp
            simp at hu
            obtain ⟨rfl, rfl⟩ := hu
            exact ⟨_, rfl, .no⟩
          · split at h
            · next hp =>
              simp only [Option.some.injEq, Prod.mk.injEq] at h
              obtain ⟨rfl, rfl⟩ := h
              obtain ⟨u, hu⟩ := List.isPrefixOf_iff_prefix.1 hp
              simp at hu
              obtain ⟨rfl, rfl⟩ := hu
              exact ⟨_, rfl, .nothing⟩
            · simp at h

theorem skip_space {w r : Str} (h : ListSpace w) (hr : NotHead isGap r) : skipLitSpace (w ++ r) = r := skip_gap (listSpace_iff.1 h) hr

theorem skip_lit_split (s : Str) : ∃ w, ListSpace w ∧ s = w ++ skipLitSpace s :=
  ⟨s.takeWhile isGap, listSpace_iff.2 (List.all_takeWhile ..), (List.takeWhile_append_dropWhile).symm⟩

theorem itemEnd_space {w r : Str} (h : ListSpace w) {c : Char} (hc : c = ',' ∨ c = ']') : ItemEnd (w ++ c :: r) := by
  cases w with
  | nil => exact ⟨c, r, rfl, hc.elim .inl (.inr ∘ .inl)⟩
  | cons x w =>
    have := listSpace_iff.1 h
    simp only [List.all_cons, Bool.and_eq_true] at this
    exact ⟨x, _, rfl, .inr (.inr this.1)⟩

theorem litElems_complete {l : List V} {s : Str} (h : ListText l s) : ∀ n, s.length < n → litElems n s = some l := by
  have step : ∀ {w t : Str} {v : V} {r : Str} {n : Nat}, ListSpace w → LitText v t → ItemEnd r → litElems (n + 1) (w ++ (t ++ r)) =
      match skipLitSpace r with
      | ',' :: r' => (litElems n r').map (v :: ·)
      | [']'] => some [v]
      | _ => none := by
    intro w t v r n hw ht hr
    obtain ⟨c, t', hct, hg, hb⟩ := litText_head ht
    have hsk : skipLitSpace (w ++ (t ++ r)) = t ++ r := skip_space hw (by rw [hct]; exact notHead_cons hg)
    rw [litElems, hsk]
    split
    · next heq =>
      rw [hct] at heq
      simp at heq
      exact absurd heq.1 hb
    · simp only [litAtom_exact ht hr]
      rfl
  induction h with
  | close hw =>
    intro n hn
    cases n with
    | zero => simp at hn
    | succ n =>
      have hsk : skipLitSpace _ = c!"]" := skip_space hw (notHead_cons (by decide))
      simp only [litElems, hsk]
  | last hw ht hw' =>
    intro n hn
    cases n with
    | zero => simp at hn
    | succ n =>
      have hsk : skipLitSpace _ = c!"]" := skip_space hw' (notHead_cons (by decide))
      rw [step hw ht (itemEnd_space hw' (.inr rfl))]
      simp only [hsk]
  | more hw ht hw' _ ih =>
    intro n hn
    cases n with
    | zero => simp at hn
    | succ n =>
      rw [step hw ht (itemEnd_space hw' (.inl rfl)), skip_space hw' (notHead_cons (by decide))]
      simp only [List.length_append, List.length_cons] at hn
      simp only [ih n (by omega), Option.map_some]

theorem litElems_text (n : Nat) : ∀ (s : Str) (l : List V), litElems n s = some l → ListText l s := by
  induction n with
  | zero => intro s l h; simp [litElems] at h
  | succ n ih =>
    intro s l h
    obtain ⟨w, hw, hs⟩ := skip_lit_split s
    rw [litElems] at h
    split at h
    · next heq =>
      simp only [Option.some.injEq] at h
      subst h
      rw [hs, heq]
      exact .close hw
    · split at h
      · simp at h
      · next v r hv =>
        obtain ⟨t, ht, hlt⟩ := litAtom_text hv
        obtain ⟨w', hw', hr⟩ := skip_lit_split r
        split at h
        · next r' heq =>
          cases hl : litElems n r' with
          | none => simp [hl] at h
          | some l' =>
            simp only [hl, Option.map_some, Option.some.injEq] at h
            subst h
            rw [hs, ht, hr, heq]
            exact .more hw hlt hw' (ih _ _ hl)
        · next heq =>
          simp only [Option.some.injEq] at h
          subst h
          rw [hs, ht, hr, heq]
          exact .last hw hlt hw'
        · simp at h

theorem litElems_iff {l : List V} {s : Str} : litElems (s.length + 1) s = some l ↔ ListText l s :=
  ⟨litElems_text _ _ _, fun h => litElems_complete h _ (Nat.lt_succ_self _)⟩

end WG
