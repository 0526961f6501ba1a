/-
The operations on strings and dicts do what the specification says.
-/
import Verif.Spec.PyText
import Verif.Proofs.JsonText
set_option linter.unusedSectionVars false

namespace WG

/-! ### Characters -/

section
variable [PyRuntime]

theorem not_ascii_iff {c : Char} : isAscii c = false ↔ 128 ≤ c.toNat := by simp [isAscii]

theorem ascii_iff {c : Char} : isAscii c = true ↔ c.toNat < 128 := by simp [isAscii]

/-- A statement about characters below 128 that can be decided. -/
theorem ascii_cases {P : Char → Prop} (h : ∀ m < 128, P (Char.ofNat m)) {c : Char} (hc : isAscii c = true) : P c :=
  char_lt 128 h c (ascii_iff.1 hc)

theorem ascii_split {c : Char} {b u A : Prop} (ha : isAscii c = true → (b ↔ A)) (hn : isAscii c = false → ¬ A) :
    (if isAscii c = true then b else u) ↔ (A ∨ (128 ≤ c.toNat ∧ u)) := by
  cases h : isAscii c with
  | true =>
    have := ascii_iff.1 h
    have h2 : ¬ 128 ≤ c.toNat := by omega
    simp [ha h, h2]
  | false => simp [hn h, not_ascii_iff.1 h]

theorem list_ascii {c : Char} {l : Str} (hl : l.all isAscii = true) (h : isAscii c = false) : c ∉ l := by
  intro hm
  have := List.all_eq_true.1 hl c hm
  rw [h] at this
  cases this

theorem isSpace_iff (c : Char) : isSpace c = true ↔ SpaceChar c := by
  unfold isSpace SpaceChar
  rw [← ascii_split (c := c) (b := (9 ≤ c.toNat && c.toNat ≤ 13 || 28 ≤ c.toNat && c.toNat ≤ 32) = true)]
  · cases isAscii c <;> simp
  · intro h
    revert h
    intro h
    exact ascii_cases (P := fun c => (9 ≤ c.toNat && c.toNat ≤ 13 || 28 ≤ c.toNat && c.toNat ≤ 32) = true ↔ c ∈ c!" \t\n\r\x0b\x0c\x1c\x1d\x1e\x1f")
      (by decide +kernel) h
  · exact list_ascii (by decide)

theorem letterPairs_ascii : ∀ x ∈ letterPairs, isAscii x.1 = true ∧ isAscii x.2 = true := by decide +kernel

theorem isWord_iff (c : Char) : isWord c = true ↔ WordChar c := by
  unfold isWord WordChar
  rw [← or_assoc, ← ascii_split (c := c) (b := (c.isAlphanum || c == '_') = true)]
  · cases isAscii c <;> simp
  · intro h
    exact ascii_cases (P := fun c => (c.isAlphanum || c == '_') = true ↔ (∃ x ∈ letterPairs, c = x.1 ∨ c = x.2) ∨ c ∈ c!"0123456789_")
      (by decide +kernel) h
  · rintro h (⟨x, hx, rfl | rfl⟩ | hm)
    · rw [(letterPairs_ascii x hx).1] at h; cases h
    · rw [(letterPairs_ascii x hx).2] at h; cases h
    · exact list_ascii (by decide) h hm

theorem isDecimal_iff (c : Char) : isDecimal c = true ↔ DecimalChar c := by
  unfold isDecimal DecimalChar
  rw [← ascii_split (c := c) (b := isDig c = true)]
  · cases isAscii c <;> simp
  · intro h
    exact ascii_cases (P := fun c => isDig c = true ↔ c ∈ c!"0123456789") (by decide +kernel) h
  · exact list_ascii (by decide)

theorem matchCI_ascii : ∀ x ∈ letterPairs, ∀ m < 128, matchCI x.2 (Char.ofNat m) = true ↔ SameLetter x.2 (Char.ofNat m) := by
  unfold SameLetter
  decide +kernel

theorem matchCI_letter {l c : Char} (hl : ∃ x ∈ letterPairs, l = x.2) : matchCI l c = true ↔ SameLetter l c := by
  obtain ⟨x, hx, rfl⟩ := hl
  cases h : isAscii c with
  | true => exact ascii_cases (P := fun c => matchCI x.2 c = true ↔ SameLetter x.2 c) (matchCI_ascii x hx) h
  | false =>
    have h1 : c ≠ x.2 := fun e => by rw [e, (letterPairs_ascii x hx).2] at h; cases h
    have h2 : (c, x.2) ∉ letterPairs := fun e => by rw [(letterPairs_ascii _ e).1] at h; cases h
    have h3 : isAscii x.2.toUpper = true := by
      have : ∀ x ∈ letterPairs, isAscii x.2.toUpper = true := by decide +kernel
      exact this x hx
    have h4 : c ≠ x.2.toUpper := fun e => by rw [e, h3] at h; cases h
    simp [matchCI, SameLetter, h1, h2, h4, strangeLetters]
    grind

theorem capital_iff (c : Char) : (if isAscii c = true then c.isUpper else PyRuntime.uUpper c) = true ↔ CapitalChar c := by
  unfold CapitalChar
  rw [← ascii_split (c := c) (b := c.isUpper = true)]
  · cases isAscii c <;> simp
  · intro h
    exact ascii_cases (P := fun c => c.isUpper = true ↔ ∃ x ∈ letterPairs, c = x.1) (by decide +kernel) h
  · rintro h ⟨x, hx, rfl⟩
    rw [(letterPairs_ascii x hx).1] at h; cases h

theorem small_iff (c : Char) : (if isAscii c = true then c.isLower else PyRuntime.uLower c) = true ↔ SmallChar c := by
  unfold SmallChar
  rw [← ascii_split (c := c) (b := c.isLower = true)]
  · cases isAscii c <;> simp
  · intro h
    exact ascii_cases (P := fun c => c.isLower = true ↔ ∃ x ∈ letterPairs, c = x.2) (by decide +kernel) h
  · rintro h ⟨x, hx, rfl⟩
    rw [(letterPairs_ascii x hx).2] at h; cases h

theorem toLower_pair : ∀ x ∈ letterPairs, x.1.toLower = x.2 := by decide +kernel

theorem toLower_same {c : Char} (h : isAscii c = true) (hn : ∀ x ∈ letterPairs, c ≠ x.1) : c.toLower = c := by
  have := ascii_cases (P := fun c => c.toLower = c ∨ ∃ x ∈ letterPairs, c = x.1) (by decide +kernel) h
  rcases this with e | ⟨x, hx, e⟩
  · exact e
  · exact absurd e (hn x hx)

theorem lower_lowered (s : Str) : Lowered s (lower s) := by
  induction s with
  | nil => exact .nil
  | cons c s ih =>
    have e : lower (c :: s) = lowerChar c ++ lower s := rfl
    rw [e]
    unfold lowerChar
    cases h : isAscii c with
    | false => exact .other (not_ascii_iff.1 h) ih
    | true =>
      by_cases hx : ∃ x ∈ letterPairs, c = x.1
      · obtain ⟨x, hx, rfl⟩ := hx
        simp only [if_true, toLower_pair x hx]
        exact .capital hx ih
      · have hn : ∀ x ∈ letterPairs, c ≠ x.1 := fun x hm e => hx ⟨x, hm, e⟩
        simp only [if_true, toLower_same h hn]
        exact .ascii (ascii_iff.1 h) hn ih

theorem lowered_lower {s t : Str} (h : Lowered s t) : t = lower s := by
  induction h with
  | nil => rfl
  | @capital x s t hx _ ih =>
    have e : lower (x.1 :: s) = lowerChar x.1 ++ lower s := rfl
    rw [e, lowerChar, (letterPairs_ascii x hx).1, if_pos rfl, toLower_pair x hx, ih]
    rfl
  | @ascii c s t hc hn _ ih =>
    have e : lower (c :: s) = lowerChar c ++ lower s := rfl
    rw [e, lowerChar, ascii_iff.2 hc, if_pos rfl, toLower_same (ascii_iff.2 hc) hn, ih]
    rfl
  | @other c s t hc _ ih =>
    have e : lower (c :: s) = lowerChar c ++ lower s := rfl
    rw [e, lowerChar, not_ascii_iff.2 hc, if_neg (by simp), ih]

end

/-! ### Strip -/

theorem head_dropWhile {p : Char → Bool} {s : Str} {c : Char} (h : (s.dropWhile p).head? = some c) : p c = false := by
  induction s with
  | nil => cases h
  | cons a s ih =>
    cases ha : p a with
    | true => rw [List.dropWhile_cons, ha] at h; exact ih h
    | false =>
      rw [List.dropWhile_cons, ha] at h
      cases h
      exact ha

theorem stripP_ends (p : Char → Bool) (s : Str) :
    (∀ c, (stripP p s).head? = some c → p c = false) ∧ ∀ c, (stripP p s).getLast? = some c → p c = false := by
  constructor
  · intro c hc
    have e : lstripP p s = stripP p s ++ ((lstripP p s).reverse.takeWhile p).reverse := by
      have : (lstripP p s).reverse = (lstripP p s).reverse.takeWhile p ++ (lstripP p s).reverse.dropWhile p :=
        (List.takeWhile_append_dropWhile).symm
      have := congrArg List.reverse this
      rwa [List.reverse_reverse, List.reverse_append] at this
    have h : (lstripP p s).head? = some c := by
      rw [e]
      cases hs : stripP p s with
      | nil => rw [hs] at hc; cases hc
      | cons a l => rw [hs] at hc; exact hc
    exact head_dropWhile h
  · intro c hc
    unfold stripP rstripP at hc
    rw [List.getLast?_reverse] at hc
    exact head_dropWhile hc

theorem stripP_iff [PyRuntime] {p : Char → Bool} {P : Char → Prop} (hp : ∀ c, p c = true ↔ P c) (s t : Str) : stripP p s = t ↔ Stripped P s t := by
  have hn : ∀ c, p c = false ↔ ¬ P c := fun c => by rw [← hp c]; simp
  have ha : ∀ w : Str, w.all p = true ↔ ∀ c ∈ w, P c := fun w => by simp [hp]
  constructor
  · rintro rfl
    obtain ⟨w, w', h1, h2, h3⟩ := strip_split p s
    exact ⟨w, w', (ha w).1 h1, (ha w').1 h2, h3, fun c hc => (hn c).1 ((stripP_ends p s).1 c hc), fun c hc => (hn c).1 ((stripP_ends p s).2 c hc)⟩
  · rintro ⟨w, w', h1, h2, rfl, h3, h4⟩
    by_cases ht : t = []
    · subst ht
      have hall : (w ++ [] ++ w').all p = true := by
        rw [List.all_append, List.all_append, (ha w).2 h1, (ha w').2 h2]
        rfl
      generalize w ++ [] ++ w' = s at hall
      have : lstripP p s = [] := by
        induction s with
        | nil => rfl
        | cons c s ih =>
          simp only [List.all_cons, Bool.and_eq_true] at hall
          simp only [lstripP, List.dropWhile_cons, hall.1, if_true]
          exact ih hall.2
      rw [stripP, this]
      rfl
    · exact strip_exact ((ha w).2 h1) ((ha w').2 h2) ht (fun c hc => (hn c).2 (h3 c hc)) (fun c hc => (hn c).2 (h4 c hc))

/-! ### Occurrences -/

theorem isSubstr_occurs (t s : Str) : isSubstr t s = true ↔ Occurs t s := by
  induction s with
  | nil =>
    simp only [isSubstr, List.isEmpty_iff]
    constructor
    · rintro rfl
      exact ⟨[], [], rfl⟩
    · rintro ⟨a, b, h⟩
      simp at h
      exact h.2.1
  | cons c s ih =>
    simp only [isSubstr, Bool.or_eq_true, ih, List.isPrefixOf_iff_prefix]
    constructor
    · rintro (⟨b, h⟩ | ⟨a, b, h⟩)
      · exact ⟨[], b, h.symm⟩
      · exact ⟨c :: a, b, by rw [h]; rfl⟩
    · rintro ⟨a, b, h⟩
      cases a with
      | nil => exact .inl ⟨b, h.symm⟩
      | cons x a =>
        cases h
        exact .inr ⟨a, b, rfl⟩

/-! ### Cutting -/

theorem splitChar_cut (sep : Char) (s : Str) : Cut sep s (splitChar sep s) := by
  induction s with
  | nil => exact ⟨.one, by simp [splitChar]⟩
  | cons c s ih =>
    obtain ⟨h1, h2⟩ := ih
    unfold splitChar
    split
    · next e =>
      subst e
      exact ⟨.more (w := []) h1, fun w hw => by
        rcases List.mem_cons.1 hw with rfl | hw
        · simp
        · exact h2 w hw⟩
    · next hc =>
      generalize splitChar sep s = l at h1 h2
      cases h1 with
      | one =>
        refine ⟨.one, fun w hw => ?_⟩
        simp only [List.mem_singleton] at hw
        subst hw
        simp only [List.mem_cons, not_or]
        exact ⟨fun e => hc e.symm, h2 _ (by simp)⟩
      | more h =>
        refine ⟨.more (w := _ :: _) h, fun w hw => ?_⟩
        rcases List.mem_cons.1 hw with rfl | hw
        · simp only [List.mem_cons, not_or]
          exact ⟨fun e => hc e.symm, h2 _ (by simp)⟩
        · exact h2 w (by simp [hw])

theorem splitChar_word (sep : Char) {w : Str} (h : sep ∉ w) : splitChar sep w = [w] := by
  induction w with
  | nil => rfl
  | cons c w ih =>
    simp only [List.mem_cons, not_or] at h
    unfold splitChar
    rw [if_neg (fun e => h.1 e.symm), ih h.2]

theorem splitChar_word_sep (sep : Char) {w : Str} (s : Str) (h : sep ∉ w) : splitChar sep (w ++ sep :: s) = w :: splitChar sep s := by
  induction w with
  | nil => simp [splitChar]
  | cons c w ih =>
    simp only [List.mem_cons, not_or] at h
    rw [List.cons_append, splitChar, if_neg (fun e => h.1 e.symm), ih h.2]

theorem splitChar_iff (sep : Char) (s : Str) (l : List Str) : splitChar sep s = l ↔ Cut sep s l := by
  constructor
  · rintro rfl
    exact splitChar_cut sep s
  · rintro ⟨h, hw⟩
    induction h with
    | one => exact splitChar_word sep (hw _ (by simp))
    | more _ ih =>
      rw [splitChar_word_sep sep _ (hw _ (by simp)), ih fun w hm => hw w (by simp [hm])]

theorem countChar_cut (ch : Char) {s : Str} {l : List Str} (h : Cut ch s l) : countChar ch s + 1 = l.length := by
  obtain ⟨h, hw⟩ := h
  have zero : ∀ w : Str, ch ∉ w → countChar ch w = 0 := fun w hn => by
    rw [countChar, List.countP_eq_zero]
    intro a ha
    simp
    rintro rfl
    exact hn ha
  induction h with
  | @one w => simp [zero w (hw w (by simp))]
  | @more w s l _ ih =>
    have := ih fun w hm => hw w (by simp [hm])
    have h0 := zero w (hw w (by simp))
    simp only [countChar, List.countP_append, List.countP_cons, List.length_cons] at *
    simp
    omega

/-! ### Replacing -/

theorem replaceAux_skips (old new : Str) (k : Nat) (s : Str) : replaceAux old new k s = replaceAux old new 0 (s.drop k) := by
  induction k generalizing s with
  | zero => rfl
  | succ k ih =>
    cases s with
    | nil => cases k <;> rfl
    | cons c s => exact ih s

theorem replace_cons_hit {old new s : Str} (ho : old ≠ []) (r : Str) (h : s = old ++ r) : replace old new s = new ++ replace old new r := by
  subst h
  obtain ⟨x, old, rfl⟩ := List.exists_cons_of_ne_nil ho
  have : (x :: old).isPrefixOf (x :: (old ++ r)) = true := by
    rw [List.isPrefixOf_iff_prefix]
    exact ⟨r, rfl⟩
  unfold replace
  rw [List.cons_append, replaceAux, if_pos this, replaceAux_skips]
  simp

theorem replace_cons_miss {old new : Str} {c : Char} {s : Str} (h : ¬ ∃ r, c :: s = old ++ r) : replace old new (c :: s) = c :: replace old new s := by
  have : ¬ old.isPrefixOf (c :: s) = true := by
    intro hp
    obtain ⟨r, e⟩ := List.isPrefixOf_iff_prefix.1 hp
    exact h ⟨r, e.symm⟩
  unfold replace
  rw [replaceAux, if_neg this]

theorem replace_iff {old new : Str} (ho : old ≠ []) (s t : Str) : replace old new s = t ↔ Replaced old new s t := by
  constructor
  · rintro rfl
    generalize hn : s.length = n
    induction n using Nat.strongRecOn generalizing s with
    | _ n ih =>
    cases s with
    | nil =>
      refine .none ?_
      rintro ⟨a, b, e⟩
      simp at e
      exact ho e.2.1
    | cons c s =>
      by_cases hp : ∃ r, c :: s = old ++ r
      · obtain ⟨r, hr⟩ := hp
        rw [replace_cons_hit ho r hr, hr]
        have hl : r.length < n := by
          have := congrArg List.length hr
          have : 0 < old.length := List.length_pos_iff.2 ho
          simp at *
          omega
        exact .first (a := []) (fun a' b' _ => Nat.zero_le _) (ih _ hl r rfl)
      · rw [replace_cons_miss hp]
        have h := ih s.length (by rw [← hn]; simp) s rfl
        generalize replace old new s = t at h
        cases h with
        | none h =>
          refine .none ?_
          rintro ⟨a, b, e⟩
          cases a with
          | nil => exact hp ⟨b, e⟩
          | cons x a =>
            cases e
            exact h ⟨a, b, rfl⟩
        | @first a r t h1 h2 =>
          refine .first (a := c :: a) (fun a' b' e => ?_) h2
          cases a' with
          | nil => exact absurd ⟨b', e⟩ hp
          | cons x a' =>
            simp only [List.cons_append, List.cons.injEq] at e
            have := h1 a' b' e.2
            simpa using this
  · intro h
    induction h with
    | @none s h =>
      induction s with
      | nil => rfl
      | cons c s ih =>
        rw [replace_cons_miss, ih]
        · rintro ⟨a, b, e⟩
          exact h ⟨c :: a, b, by rw [e]; rfl⟩
        · rintro ⟨r, e⟩
          exact h ⟨[], r, e⟩
    | @first a r t h _ ih =>
      induction a with
      | nil => rw [List.nil_append, replace_cons_hit ho r rfl, ih]; rfl
      | cons c a iha =>
        rw [List.cons_append, List.cons_append, replace_cons_miss, iha]
        · rfl
        · intro a' b' e
          have := h (c :: a') b' (by simp only [List.cons_append]; rw [e])
          simpa using this
        · rintro ⟨b', e⟩
          have := h [] b' (by simpa using e)
          simp at this

/-! ### Dicts -/

variable {α : Type}

theorem dictGet_iff (k : Str) (v : α) (d : Dict α) : dictGet k d = some v ↔ EntryOf d k v := by
  induction d with
  | nil =>
    simp only [dictGet]
    constructor
    · intro h; cases h
    · rintro ⟨a, b, h, -⟩
      simp at h
  | cons x d ih =>
    obtain ⟨k', v'⟩ := x
    unfold dictGet
    split
    · next e =>
      subst e
      constructor
      · intro h
        cases h
        exact ⟨[], d, rfl, by simp⟩
      · rintro ⟨a, b, h, ha⟩
        cases a with
        | nil => cases h; rfl
        | cons y a =>
          cases h
          exact absurd rfl (ha _ List.mem_cons_self)
    · next hk =>
      rw [ih]
      constructor
      · rintro ⟨a, b, h, ha⟩
        refine ⟨(k', v') :: a, b, by rw [h]; rfl, fun x hx => ?_⟩
        rcases List.mem_cons.1 hx with rfl | hx
        · exact hk
        · exact ha x hx
      · rintro ⟨a, b, h, ha⟩
        cases a with
        | nil => cases h; exact absurd rfl hk
        | cons y a =>
          cases h
          exact ⟨a, b, rfl, fun x hx => ha x (by simp [hx])⟩

theorem dictSet_assigned (k : Str) (v : α) (d : Dict α) : Assigned d k v (dictSet k v d) := by
  induction d with
  | nil => exact .inr ⟨by simp, rfl⟩
  | cons x d ih =>
    obtain ⟨k', v'⟩ := x
    unfold dictSet
    split
    · next e =>
      subst e
      exact .inl ⟨[], d, v', rfl, by simp, rfl⟩
    · next hk =>
      rcases ih with ⟨a, b, old, h1, h2, h3⟩ | ⟨h1, h2⟩
      · refine .inl ⟨(k', v') :: a, b, old, by rw [h1]; rfl, fun x hx => ?_, by rw [h3]; rfl⟩
        rcases List.mem_cons.1 hx with rfl | hx
        · exact hk
        · exact h2 x hx
      · refine .inr ⟨fun x hx => ?_, by rw [h2]; rfl⟩
        rcases List.mem_cons.1 hx with rfl | hx
        · exact hk
        · exact h1 x hx

theorem first_place {k : Str} {a b a' b' : Dict α} {v v' : α} (h : a ++ (k, v) :: b = a' ++ (k, v') :: b') (ha : ∀ x ∈ a, x.1 ≠ k)
    (ha' : ∀ x ∈ a', x.1 ≠ k) : a = a' ∧ v = v' ∧ b = b' := by
  induction a generalizing a' with
  | nil =>
    cases a' with
    | nil => cases h; exact ⟨rfl, rfl, rfl⟩
    | cons x a' => cases h; exact absurd rfl (ha' _ List.mem_cons_self)
  | cons x a ih =>
    cases a' with
    | nil => cases h; exact absurd rfl (ha _ List.mem_cons_self)
    | cons y a' =>
      simp only [List.cons_append, List.cons.injEq] at h
      obtain ⟨h1, h2, h3⟩ := ih h.2 (fun x hx => ha x (by simp [hx])) (fun x hx => ha' x (by simp [hx]))
      exact ⟨by rw [h.1, h1], h2, h3⟩

theorem dictSet_iff (k : Str) (v : α) (d d' : Dict α) : dictSet k v d = d' ↔ Assigned d k v d' := by
  constructor
  · rintro rfl
    exact dictSet_assigned k v d
  · intro h
    have h0 := dictSet_assigned k v d
    rcases h0 with ⟨a, b, old, h1, h2, h3⟩ | ⟨h1, h2⟩ <;> rcases h with ⟨a', b', old', h1', h2', h3'⟩ | ⟨h1', h2'⟩
    · obtain ⟨rfl, -, rfl⟩ := first_place (h1.symm.trans h1') h2 h2'
      rw [h3, h3']
    · exact absurd rfl (h1' (k, old) (by rw [h1]; simp))
    · exact absurd rfl (h1 (k, old') (by rw [h1']; simp))
    · rw [h2, h2']

theorem dictUpdate_iff (d : Dict α) (l : List (Str × α)) (d' : Dict α) : dictUpdate d l = d' ↔ AssignedAll d l d' := by
  unfold dictUpdate
  constructor
  · rintro rfl
    induction l generalizing d with
    | nil => exact .nil
    | cons x l ih => exact .cons (dictSet_assigned ..) (ih _)
  · intro h
    induction h with
    | nil => rfl
    | cons h _ ih => rw [← ih, ← (dictSet_iff _ _ _ _).2 h]; rfl

end WG
