/- Lemmas about the check of the keywords of a query. -/
import Verif.Spec.Keywords
import Verif.Proofs.Spelling
import Verif.Proofs.Query
import Verif.Proofs.Parse

set_option linter.unusedSectionVars false

namespace WG

theorem splitChar_ne (sep : Char) (s : Str) : splitChar sep s ≠ [] := by
  cases s with
  | nil => simp [splitChar]
  | cons c s =>
    unfold splitChar
    split
    · simp
    · split <;> simp

/-- The words of a text, starting with the first. -/
theorem mem_splitChar (w s : Str) (hw : ' ' ∉ w) :
    w ∈ splitChar ' ' s ↔ HasWord w s := by
  have key : ((splitChar ' ' s).head? = some w ↔ ∃ b, s = w ++ b ∧ (b = [] ∨ ∃ b', b = ' ' :: b')) ∧
      (w ∈ (splitChar ' ' s).tail ↔ ∃ a b, s = a ++ ' ' :: (w ++ b) ∧ (b = [] ∨ ∃ b', b = ' ' :: b')) := by
    induction s generalizing w with
    | nil =>
      constructor
      · simp only [splitChar, List.head?_cons, Option.some.injEq]
        constructor
        · rintro rfl; exact ⟨[], rfl, .inl rfl⟩
        · rintro ⟨b, e, _⟩; simpa using (List.append_eq_nil_iff.1 e.symm).1.symm
      · simp [splitChar]
    | cons c s ih =>
      unfold splitChar
      split
      · next hc =>
        subst hc
        constructor
        · simp only [List.head?_cons, Option.some.injEq]
          constructor
          · rintro rfl; exact ⟨_, rfl, .inr ⟨s, rfl⟩⟩
          · rintro ⟨b, e, _⟩
            cases w with
            | nil => rfl
            | cons x w => simp at e; simp [← e.1] at hw
        · simp only [List.tail_cons]
          have hmem : w ∈ splitChar ' ' s ↔ (splitChar ' ' s).head? = some w ∨ w ∈ (splitChar ' ' s).tail := by
            cases h : splitChar ' ' s with
            | nil => exact absurd h (splitChar_ne _ _)
            | cons x l => simp [eq_comm]
          rw [hmem, (ih w hw).1, (ih w hw).2]
          constructor
          · rintro (⟨b, rfl, h⟩ | ⟨a, b, rfl, h⟩)
            · exact ⟨[], b, rfl, h⟩
            · exact ⟨' ' :: a, b, rfl, h⟩
          · rintro ⟨a, b, e, h⟩
            cases a with
            | nil => simp at e; exact .inl ⟨b, e, h⟩
            | cons x a => simp at e; exact .inr ⟨a, b, e.2, h⟩
      · next hc =>
        split
        · next h => exact absurd h (splitChar_ne _ _)
        · next x l h =>
          have ihh := fun w hw => (ih w hw).1
          have iht := fun w hw => (ih w hw).2
          rw [h] at ihh iht
          simp only [List.head?_cons, List.tail_cons, Option.some.injEq] at ihh iht ⊢
          constructor
          · constructor
            · rintro rfl
              obtain ⟨b, e, hb⟩ := (ihh x (by simp at hw; exact hw.2)).1 rfl
              exact ⟨b, by rw [e]; rfl, hb⟩
            · rintro ⟨b, e, hb⟩
              cases w with
              | nil =>
                rcases hb with rfl | ⟨b', rfl⟩
                · simp at e
                · simp at e; exact absurd e.1 hc
              | cons y w =>
                simp at e hw
                rw [(ihh w hw.2).2 ⟨b, e.2, hb⟩, e.1]
          · rw [iht w hw]
            constructor
            · rintro ⟨a, b, rfl, hb⟩; exact ⟨c :: a, b, rfl, hb⟩
            · rintro ⟨a, b, e, hb⟩
              cases a with
              | nil => simp at e; exact absurd e.1 hc
              | cons y a => simp at e; exact ⟨a, b, e.2, hb⟩
  have hmem : w ∈ splitChar ' ' s ↔ (splitChar ' ' s).head? = some w ∨ w ∈ (splitChar ' ' s).tail := by
    cases h : splitChar ' ' s with
    | nil => exact absurd h (splitChar_ne _ _)
    | cons x l => simp [eq_comm]
  rw [hmem, key.1, key.2]
  unfold HasWord
  constructor
  · rintro (⟨b, rfl, h⟩ | ⟨a, b, rfl, h⟩)
    · exact ⟨[], b, rfl, .inl rfl, h⟩
    · exact ⟨a ++ [' '], b, by simp, .inr ⟨a, rfl⟩, h⟩
  · rintro ⟨a, b, rfl, rfl | ⟨a', rfl⟩, h⟩
    · exact .inl ⟨b, rfl, h⟩
    · exact .inr ⟨a', b, by simp, h⟩

variable [PyRuntime]

theorem validQuery_iff (q : Str) : validQuery q = true ↔ ∃ w ∈ clauseWords, HasWord w (lower q) := by
  unfold validQuery
  simp only [List.any_eq_true, decide_eq_true_eq]
  have hw : ∀ w ∈ validWords, ' ' ∉ w := by decide
  constructor
  · rintro ⟨w, h1, h2⟩; exact ⟨w, h1, (mem_splitChar w _ (hw w h1)).1 h2⟩
  · rintro ⟨w, h1, h2⟩; exact ⟨w, h1, (mem_splitChar w _ (hw w h1)).2 h2⟩

theorem lower_append (a b : Str) : lower (a ++ b) = lower a ++ lower b := by simp [lower]

theorem paren_lower {q : Str} (h : '(' ∈ q) : '(' ∈ lower q := by
  unfold lower
  exact List.mem_flatMap.2 ⟨_, h, by simp [lowerChar, isAscii]⟩

/-- A query that is executed has an opening parenthesis. -/
theorem paren_of_parsed {q : Str} {p : ParsedQuery} (h : parseQueryString q = .ok p) : '(' ∈ q := by
  have hf : ∃ f, parseFind q = .ok (some f) := by
    unfold parseQueryString at h
    repeat' (first | split at h | simp at h)
    next hf _ _ _ => exact ⟨_, hf⟩
  obtain ⟨f, hf⟩ := hf
  have he := (parseFind_ok hf).1
  rw [extract_def] at he
  simp only [clauseRe] at he
  have hm : f.rawStatement ∈ (findAll.finditer q).map Prod.fst := by
    split at he
    · next h => rw [h]; simp at he; simp [he.1]
    · split at he <;> simp at he
  obtain ⟨x, hx, e⟩ := List.mem_map.1 hm
  obtain ⟨pre, post, e1, h2⟩ := finditer_sound hx
  obtain ⟨w, sp, body, e3, _⟩ := clauseAll_inv h2
  subst e1
  simp only at e3
  simp [e3, stmtText]

end WG
