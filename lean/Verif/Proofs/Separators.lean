/-
Lemmas for C72: which blocks the property check sees and what it counts in them.
-/
import Verif.Proofs.Accept
import Verif.Proofs.Spelling
import Verif.Spec.Separators
set_option linter.unusedSectionVars false
set_option linter.unusedSimpArgs false

namespace WG
open Re
variable [PyRuntime]

theorem checkProps_inv {s : Str} {m : MRes} (h : m ∈ checkProps.run s) :
    ∃ b, m.1 = '{' :: (b ++ ['}']) ∧ b.all isCheckChar = true ∧ m.1 ++ m.2.1 = s := by
  have ha := run_append h
  obtain ⟨m1, h1, rfl⟩ := mem_grp_inv h
  obtain ⟨m2, h2, m3, h3, rfl⟩ := mem_seq_inv h1
  obtain ⟨cs, rfl, rfl⟩ := mem_ch_inv h2
  obtain ⟨m4, h4, m5, h5, rfl⟩ := mem_seq_inv h3
  obtain ⟨h6, h7, -, -⟩ := mem_plus_inv h4
  obtain ⟨cs', h8, rfl⟩ := mem_ch_inv h5
  exact ⟨m4.1, rfl, h7, ha⟩

theorem check_open : isCheckChar '{' = false := by
  simp [isCheckChar, isWord, isSpace, isAscii, Char.isAlphanum, Char.isAlpha, Char.isDigit, Char.isUpper, Char.isLower]
theorem check_close : isCheckChar '}' = false := by
  simp [isCheckChar, isWord, isSpace, isAscii, Char.isAlphanum, Char.isAlpha, Char.isDigit, Char.isUpper, Char.isLower]

/-- Every block of the checked characters is found. -/
theorem checkProps_found {body : Str} (hb : body.all isCheckChar = true) (hne : body ≠ []) (u v : Str) :
    '{' :: (body ++ ['}']) ∈ (checkProps.finditer (u ++ ('{' :: (body ++ ['}']) ++ v))).map Prod.fst := by
  generalize hn : u.length = n
  induction n using Nat.strongRecOn generalizing u with
  | ind n ih =>
    subst hn
    rcases hd_or_fails checkProps (u ++ ('{' :: (body ++ ['}']) ++ v)) with ⟨m, hm⟩ | hf
    · obtain ⟨b, h1, h2, h3⟩ := checkProps_inv hm.mem
      rw [finditer_hit hm (by rw [h1]; simp)]
      cases u with
      | nil =>
        have hh : Hd checkProps ([] ++ ('{' :: (body ++ ['}']) ++ v)) ('{' :: (body ++ ['}']), v, [(0, '{' :: (body ++ ['}']))]) := by
          have := hd_grp (n := 0) (hd_seq (hd_ch '{' _) (hd_seq (hd_plus' hb hne (notHead_cons check_close)) (hd_ch '}' v)))
          simpa [checkProps, seqs] using this
        rw [hm.unique hh]
        simp
      | cons c u =>
        have h4 : ∃ u', c :: u = m.1 ++ u' := by
          rcases List.append_eq_append_iff.1 h3 with ⟨w, e1, -⟩ | ⟨w, e1, e2⟩
          · exact ⟨w, e1⟩
          · cases w with
            | nil => exact ⟨[], by simp [e1]⟩
            | cons d w =>
              exfalso
              simp only [List.cons_append, List.cons.injEq] at e2
              rw [h1] at e1
              simp only [List.cons_append, List.cons.injEq] at e1
              have : '{' ∈ b ++ ['}'] := by rw [e1.2, ← e2.1]; simp
              simp only [List.mem_append, List.mem_singleton] at this
              rcases this with h5 | h5
              · have := List.all_eq_true.1 h2 _ h5
                rw [check_open] at this
                simp at this
              · simp at h5
        obtain ⟨u', hu⟩ := h4
        rw [hu, List.append_assoc] at h3
        rw [List.append_cancel_left h3, List.map_cons]
        refine List.mem_cons_of_mem _ (ih u'.length ?_ u' rfl)
        rw [hu, h1]
        simp
        omega
    · cases u with
      | nil =>
        exfalso
        have hh : Hd checkProps ([] ++ ('{' :: (body ++ ['}']) ++ v)) ('{' :: (body ++ ['}']), v, [(0, '{' :: (body ++ ['}']))]) := by
          have := hd_grp (n := 0) (hd_seq (hd_ch '{' _) (hd_seq (hd_plus' hb hne (notHead_cons check_close)) (hd_ch '}' v)))
          simpa [checkProps, seqs] using this
        exact not_fails hh.mem hf
      | cons c u =>
        rw [List.cons_append] at hf ⊢
        rw [finditer_fail hf]
        exact ih u.length (by simp) u rfl

theorem blockChar_check {c : Char} (h : BlockChar c) : isCheckChar c = true ∧ c ≠ '[' := by
  rcases h with h | h | h
  · refine ⟨by simp [isCheckChar, h], ?_⟩
    rintro rfl
    simp [isWord, isAscii, Char.isAlphanum, Char.isAlpha, Char.isDigit, Char.isUpper, Char.isLower] at h
  · refine ⟨by simp [isCheckChar, h], ?_⟩
    rintro rfl
    simp [isSpace, isAscii] at h
  · simp at h
    rcases h with rfl | rfl | rfl | rfl | rfl | rfl | rfl <;> simp [isCheckChar]

theorem blockList_check {c : Char} (h : ListChar c) : isCheckChar c = true ∧ isListValChar c = true := by
  rcases h with h | h | h
  · simp [isCheckChar, isListValChar, h]
  · simp [isCheckChar, isListValChar, h]
  · simp at h
    rcases h with rfl | rfl | rfl | rfl | rfl <;> simp [isCheckChar, isListValChar]

theorem Block.OK.check {b : Block} (h : b.OK) : b.inside.all isCheckChar = true := by
  rw [List.all_eq_true]
  intro c hc
  simp only [Block.inside, List.mem_append, List.mem_flatMap, List.mem_cons, List.mem_singleton, List.not_mem_nil, or_false] at hc
  rcases hc with ⟨x, hx, hc | rfl | hc | rfl⟩ | hc
  · exact (blockChar_check (h.text x hx c hc)).1
  · simp [isCheckChar]
  · exact (blockList_check (h.list x hx c hc)).1
  · simp [isCheckChar]
  · exact (blockChar_check (h.last c hc)).1

theorem not_mem_pk {s : Str} {ch : Char} (hc : isBreak2 ch = true) (h : ch ∉ s) : ch ∉ pyKeywords s := by
  rw [← count_zero_iff] at h ⊢
  rw [pyKeywords_count hc, h]

theorem erase_open (u : Str) (h : '[' ∉ u) : listValue.erase u = u := by
  have := listValue_keep h []
  simpa [erase, eraseFuel] using this

/-- What is counted: the block without its lists. -/
theorem erase_block {l : List (Str × Str)} {t : Str} (h1 : ∀ x ∈ l, '[' ∉ x.1)
    (h2 : ∀ x ∈ l, x.2.all isListValChar = true) (h3 : ∀ x ∈ l, x.2 ≠ []) (h4 : '[' ∉ t) {ch : Char} (hc : isBreak2 ch = true) :
    countChar ch (listValue.erase (pyKeywords (l.flatMap (fun x => x.1 ++ ('[' :: (x.2 ++ [']']))) ++ t))) =
      countChar ch (l.flatMap Prod.fst ++ t) := by
  induction l with
  | nil =>
    simp only [List.flatMap_nil, List.nil_append]
    rw [erase_open _ (not_mem_pk (by decide) h4), pyKeywords_count hc]
  | cons x l ih =>
    have e : (x :: l).flatMap (fun x => x.1 ++ ('[' :: (x.2 ++ [']']))) ++ t =
        x.1 ++ '[' :: (x.2 ++ ']' :: (l.flatMap (fun x => x.1 ++ ('[' :: (x.2 ++ [']']))) ++ t)) := by
      simp
    rw [e, pyKeywords_sep (by decide), pyKeywords_sep (by decide), listValue_keep (not_mem_pk (by decide) (h1 x (by simp))),
      erase_hit (hd_listValue (pyKeywords_all (by simp [isListValChar, isWord, isAscii]) (by simp [isListValChar, isWord, isAscii])
        (by simp [isListValChar, isWord, isAscii]) (h2 x (by simp))) (pyKeywords_ne (h3 x (by simp))) _) (by simp),
      count_append, pyKeywords_count hc]
    simp only
    rw [ih (fun y hy => h1 y (by simp [hy])) (fun y hy => h2 y (by simp [hy])) (fun y hy => h3 y (by simp [hy]))]
    simp only [List.flatMap_cons, List.append_assoc, count_append]

theorem count_countChar (c : Char) (s : Str) : s.count c = countChar c s := rfl

/-- The property check on a block: refused unless balanced. -/
theorem checkParams_block {b : Block} (h : b.OK) :
    (b.Balanced → checkParams b.render = forEach checkList ((listValue.finditer (pyKeywords b.render)).map Prod.fst)) ∧
    (¬ b.Balanced → checkParams b.render = .error .paramSyntax) := by
  have key : ∀ ch : Char, isBreak2 ch = true → ch ≠ '{' → ch ≠ '}' →
      countChar ch (listValue.erase (pyKeywords b.render)) = b.outside.count ch := by
    intro ch hc n1 n2
    cases hl : b.lists with
    | nil =>
      have e : b.render = '{' :: (b.last ++ ['}']) := by simp [Block.render, Block.inside, hl]
      have hb : '[' ∉ '{' :: (b.last ++ ['}']) := by
        simp only [List.mem_cons, List.mem_append, List.mem_singleton, not_or]
        exact ⟨by decide, fun hm => (blockChar_check (h.last _ hm)).2 rfl, by decide, by simp⟩
      rw [e, erase_open _ (not_mem_pk (by decide) hb), pyKeywords_count hc, count_cons_ne n1.symm, count_append,
        count_cons_ne n2.symm]
      simp [Block.outside, hl, count_countChar, countChar]
    | cons x l =>
      have e : b.render = (('{' :: x.1, x.2) :: l).flatMap (fun x => x.1 ++ ('[' :: (x.2 ++ [']']))) ++ (b.last ++ ['}']) := by
        simp [Block.render, Block.inside, hl]
      have ht : ∀ y ∈ b.lists, '[' ∉ y.1 := fun y hy hm => (blockChar_check (h.text y hy _ hm)).2 rfl
      have hv : ∀ y ∈ b.lists, y.2.all isListValChar = true := fun y hy =>
        List.all_eq_true.2 fun c hm => (blockList_check (h.list y hy c hm)).2
      have hf := h.full
      rw [hl] at ht hv hf
      rw [e, erase_block (ch := ch) ?_ ?_ ?_ ?_ hc]
      · simp only [List.flatMap_cons, List.cons_append, List.append_assoc]
        rw [count_cons_ne n1.symm]
        simp only [count_append, count_cons_ne n2.symm]
        simp [Block.outside, hl, count_countChar, count_append, countChar, Nat.add_assoc]
      · intro y hy
        rcases List.mem_cons.1 hy with rfl | hy
        · simp only [List.mem_cons, not_or]
          exact ⟨by decide, ht x (by simp)⟩
        · exact ht y (by simp [hy])
      · intro y hy
        rcases List.mem_cons.1 hy with rfl | hy
        · exact hv x (by simp)
        · exact hv y (by simp [hy])
      · intro y hy
        rcases List.mem_cons.1 hy with rfl | hy
        · exact hf x (by simp)
        · exact hf y (by simp [hy])
      · simp only [List.mem_append, List.mem_singleton, not_or]
        exact ⟨fun hm => (blockChar_check (h.last _ hm)).2 rfl, by decide⟩
  have k1 := key ':' (by decide) (by decide) (by decide)
  have k2 := key ',' (by decide) (by decide) (by decide)
  unfold checkParams checkPropertySyntax Block.Balanced
  rw [k1, k2]
  constructor
  · intro hb
    rw [if_neg (by omega)]
  · intro hb
    rw [if_pos (by omega)]

/-- A statement that passes the checks has balanced blocks. -/
theorem validate_balanced {ss : List Str} (h : validateStatement ss = .ok ()) {s : Str} (hs : s ∈ ss) {b : Block} (hb : b.OK)
    (hin : b.In s) : b.Balanced := by
  refine Decidable.byContradiction fun hc => ?_
  obtain ⟨u, v, rfl⟩ := hin
  have h1 := forEach_ok.1 (forEach_ok.1 (validate_ok.1 h).2.2.1 _ hs) _ (checkProps_found hb.check hb.some u v)
  rw [show ('{' :: (b.inside ++ ['}'])) = b.render from rfl, (checkParams_block hb).2 hc] at h1
  simp at h1

end WG
