/-
What becomes of every list literal: C44.
-/
import Verif.Spec.Reword
import Verif.Props.Quoted

set_option linter.unusedSectionVars false
set_option linter.unusedSimpArgs false

namespace WG
open Re

section

theorem replace_nil (old new : Str) : replace old new [] = [] := rfl

theorem replaceAux_drop (old new s : Str) (k : Nat) : replaceAux old new k s = replaceAux old new 0 (s.drop k) := by
  induction s generalizing k with
  | nil => cases k <;> simp [replaceAux]
  | cons c s ih =>
    cases k with
    | zero => rfl
    | succ k => simpa [replaceAux] using ih k

theorem replace_hit {c : Char} {old new s : Str} : replace (c :: old) new (c :: old ++ s) = new ++ replace (c :: old) new s := by
  have hp : (c :: old).isPrefixOf (c :: old ++ s) = true := List.isPrefixOf_iff_prefix.2 ⟨s, rfl⟩
  unfold replace
  simp only [List.cons_append] at hp ⊢
  simp only [replaceAux, hp, if_true]
  rw [replaceAux_drop]
  simp

theorem replace_miss {old new s : Str} {c : Char} (h : ¬ old <+: c :: s) : replace old new (c :: s) = c :: replace old new s := by
  have hp : old.isPrefixOf (c :: s) = false := by
    cases hb : old.isPrefixOf (c :: s)
    · rfl
    · exact absurd (List.isPrefixOf_iff_prefix.1 hb) h
  simp [replace, replaceAux, hp]

/-- A word without the capital letter of the new word cannot come into being. -/
theorem prefix_replace {old new w s : Str} {n : Char} (ho : old ≠ []) (hn : new.head? = some n) (hw : n ∉ w)
    (h : w <+: replace old new s) : w <+: s := by
  induction s generalizing w with
  | nil => simpa [replace_nil] using h
  | cons c s ih =>
    cases w with
    | nil => exact List.nil_prefix
    | cons x w =>
      by_cases hp : old <+: c :: s
      · obtain ⟨r, e⟩ := hp
        cases old with
        | nil => exact absurd rfl ho
        | cons o old =>
          rw [← e, replace_hit] at h
          cases new with
          | nil => simp at hn
          | cons m new =>
            simp only [List.head?_cons, Option.some.injEq] at hn
            subst hn
            rw [List.cons_append, List.cons_prefix_cons] at h
            exact absurd h.1.symm (fun e => hw (by simp [e]))
      · rw [replace_miss hp, List.cons_prefix_cons] at h
        rw [List.cons_prefix_cons]
        exact ⟨h.1, ih (fun hm => hw (by simp [hm])) h.2⟩

theorem reworded_pyKeywords (s : Str) : Reworded s (pyKeywords s) := by
  generalize hl : s.length = n
  induction n using Nat.strongRecOn generalizing s with
  | ind n ih =>
    subst hl
    have pass : ∀ {old new u s : Str}, (∀ c ∈ u, ∀ o, old.head? = some o → c ≠ o) → old ≠ [] → replace old new (u ++ s) = u ++ replace old new s := by
      intro old new u s hu ho
      induction u with
      | nil => rfl
      | cons c u ihu =>
        rw [List.cons_append, replace_miss, ihu fun c hc => hu c (by simp [hc])]
        · rfl
        · intro hp
          cases old with
          | nil => exact ho rfl
          | cons o old =>
            rw [List.cons_prefix_cons] at hp
            exact hu c (by simp) o rfl hp.1.symm
    by_cases h1 : c!"true" <+: s
    · obtain ⟨r, rfl⟩ := h1
      have e : pyKeywords (c!"true" ++ r) = c!"True" ++ pyKeywords r := by
        unfold pyKeywords
        rw [replace_hit, pass (by decide) (by simp), pass (by decide) (by simp)]
      rw [e]
      exact .true (ih _ (by simp; omega) r rfl)
    by_cases h2 : c!"false" <+: s
    · obtain ⟨r, rfl⟩ := h2
      have e : pyKeywords (c!"false" ++ r) = c!"False" ++ pyKeywords r := by
        unfold pyKeywords
        rw [pass (by decide) (by simp), replace_hit, pass (by decide) (by simp)]
      rw [e]
      exact .false (ih _ (by simp; omega) r rfl)
    by_cases h3 : c!"null" <+: s
    · obtain ⟨r, rfl⟩ := h3
      have e : pyKeywords (c!"null" ++ r) = c!"None" ++ pyKeywords r := by
        unfold pyKeywords
        rw [pass (by decide) (by simp), pass (by decide) (by simp), replace_hit]
      rw [e]
      exact .null (ih _ (by simp; omega) r rfl)
    cases s with
    | nil => exact .nil
    | cons c s =>
      have e : pyKeywords (c :: s) = c :: pyKeywords s := by
        unfold pyKeywords
        rw [replace_miss h1]
        have h2' : ¬ c!"false" <+: c :: replace c!"true" c!"True" s := by
          rw [List.cons_prefix_cons] at h2 ⊢
          exact fun h => h2 ⟨h.1, prefix_replace (n := 'T') (by simp) rfl (by decide) h.2⟩
        rw [replace_miss h2']
        have h3' : ¬ c!"null" <+: c :: replace c!"false" c!"False" (replace c!"true" c!"True" s) := by
          rw [List.cons_prefix_cons] at h3 ⊢
          exact fun h => h3 ⟨h.1, prefix_replace (n := 'T') (by simp) rfl (by decide)
            (prefix_replace (n := 'F') (by simp) rfl (by decide) h.2)⟩
        rw [replace_miss h3']
      rw [e]
      exact .char h1 h2 h3 (ih _ (by simp) s rfl)

theorem reworded_unique {s t t' : Str} (h : Reworded s t) (h' : Reworded s t') : t = t' := by
  induction h generalizing t' with
  | nil => cases h'; rfl
  | true _ ih =>
    cases h' with
    | true h => rw [ih h]
    | char h1 => exact absurd ⟨_, rfl⟩ h1
  | false _ ih =>
    cases h' with
    | false h => rw [ih h]
    | char _ h1 => exact absurd ⟨_, rfl⟩ h1
  | null _ ih =>
    cases h' with
    | null h => rw [ih h]
    | char _ _ h1 => exact absurd ⟨_, rfl⟩ h1
  | char h1 h2 h3 _ ih =>
    cases h' with
    | true _ => exact absurd ⟨_, rfl⟩ h1
    | false _ => exact absurd ⟨_, rfl⟩ h2
    | null _ => exact absurd ⟨_, rfl⟩ h3
    | char _ _ _ h => rw [ih h]

/-- A word in small letters at the start of the result stood there before. -/
theorem reworded_prefix {s t w : Str} (h : Reworded s t) (hw : 'T' ∉ w ∧ 'F' ∉ w ∧ 'N' ∉ w) (hp : w <+: t) : w <+: s := by
  induction h generalizing w with
  | nil => exact hp
  | char _ _ _ _ ih =>
    cases w with
    | nil => exact List.nil_prefix
    | cons x w =>
      rw [List.cons_prefix_cons] at hp ⊢
      exact ⟨hp.1, ih ⟨fun h => hw.1 (by simp [h]), fun h => hw.2.1 (by simp [h]), fun h => hw.2.2 (by simp [h])⟩ hp.2⟩
  | _ =>
    cases w with
    | nil => exact List.nil_prefix
    | cons x w =>
      simp only [List.cons_append, List.nil_append] at hp
      rw [List.cons_prefix_cons] at hp
      simp [hp.1] at hw

/-- None of the words is left. -/
theorem reworded_words {s t : Str} (h : Reworded s t) : ¬ c!"true" <:+: t ∧ ¬ c!"false" <:+: t ∧ ¬ c!"null" <:+: t := by
  induction h with
  | nil => decide
  | char h1 h2 h3 h ih =>
    simp only [List.infix_cons_iff]
    simp only [List.cons_prefix_cons] at h1 h2 h3 ⊢
    refine ⟨?_, ?_, ?_⟩
    · rintro (⟨e, hp⟩ | hi)
      · exact h1 ⟨e, reworded_prefix h (by decide) hp⟩
      · exact ih.1 hi
    · rintro (⟨e, hp⟩ | hi)
      · exact h2 ⟨e, reworded_prefix h (by decide) hp⟩
      · exact ih.2.1 hi
    · rintro (⟨e, hp⟩ | hi)
      · exact h3 ⟨e, reworded_prefix h (by decide) hp⟩
      · exact ih.2.2 hi
  | _ =>
    next h ih =>
    simp only [List.cons_append, List.nil_append, List.infix_cons_iff, List.cons_prefix_cons]
    simp [ih.1, ih.2.1, ih.2.2]

theorem reworded_same [PyRuntime] {s : Str} (h : ¬ c!"true" <:+: s ∧ ¬ c!"false" <:+: s ∧ ¬ c!"null" <:+: s) : Reworded s s := by
  have := reworded_pyKeywords s
  rwa [pyKeywords_words h] at this

variable [PyRuntime]

/-- What becomes of a literal. -/
def Atom.reword : Atom → Atom
  | .str q s => .str q (pyKeywords s)
  | a => a

theorem reworded_atom {a b : Atom} : a.Reworded b ↔ b = a.reword := by
  cases a with
  | str q s =>
    simp only [Atom.Reworded, Atom.reword]
    constructor
    · rintro ⟨t, rfl, h⟩
      rw [reworded_unique h (reworded_pyKeywords s)]
    · rintro rfl
      exact ⟨_, rfl, reworded_pyKeywords s⟩
  | _ => rfl

theorem reworded_list {l l' : List (Str × Atom)} : RewordedList l l' ↔ l' = l.map fun x => (x.1, x.2.reword) := by
  induction l generalizing l' with
  | nil => rfl
  | cons x l ih =>
    simp only [RewordedList, List.map_cons, reworded_atom]
    constructor
    · rintro ⟨a, l'', rfl, rfl, h⟩
      rw [ih.1 h]
    · rintro rfl
      exact ⟨_, _, rfl, rfl, ih.2 rfl⟩

theorem keyword_listChar : ∀ c ∈ keywordChars, isListChar c = true := by
  intro c hc
  simp only [keywordChars, List.mem_cons, List.not_mem_nil, or_false] at hc
  rcases hc with rfl | rfl | rfl | rfl | rfl | rfl | rfl | rfl | rfl | rfl | rfl | rfl | rfl <;>
    simp [isListChar, isWord, isAscii, Char.isAlphanum, Char.isAlpha, Char.isDigit, Char.isUpper, Char.isLower]

theorem keyword_plain (q : Bool) : ∀ c ∈ keywordChars, c ≠ quoteChar q ∧ c ≠ '\n' ∧ c ≠ '\r' ∧ c ≠ '\x00' := by
  cases q <;> decide

theorem reword_itemOK {a : Atom} (h : a.Plain) : a.reword.ItemOK := by
  cases a with
  | str q s =>
    obtain ⟨h1, h2⟩ := h
    refine ⟨List.all_eq_true.2 fun c hc => ?_, fun c hc => ?_, reworded_words (reworded_pyKeywords s)⟩
    · exact (mem_pyKeywords hc).elim (List.all_eq_true.1 h1 c) (keyword_listChar c)
    · exact (mem_pyKeywords hc).elim (h2 c) (keyword_plain q c)
  | _ => exact h

theorem py_reword {a : Atom} (h : a.Plain) : pyKeywords a.render = a.reword.py := by
  cases a with
  | str q s =>
    have hq : isBreak (quoteChar q) = true := by cases q <;> rfl
    simp only [Atom.render, Atom.reword, Atom.py]
    rw [pyKeywords_cons hq, pyKeywords_sep hq]
    rfl
  | _ => exact py_atom h

theorem plain_all {a : Atom} (h : a.Plain) : a.render.all isListChar = true := by
  cases a with
  | str q s =>
    have hq : isListChar (quoteChar q) = true := by cases q <;> simp [quoteChar, isListChar]
    simp only [Atom.render, List.all_append, List.all_cons, List.all_nil, hq, h.1, Bool.and_self]
  | _ => exact item_all h

theorem py_commaSep_reword {l : List (Str × Atom)} (h : ∀ x ∈ l, x.1.all isGap = true ∧ x.2.Plain) {x : Char} (hx : isBreak x = true)
    (b : Str) : pyKeywords (commaSep (l.map fun x => x.1 ++ x.2.render) ++ x :: b)
      = commaSep ((l.map fun x => (x.1, x.2.reword)).map fun x => x.1 ++ x.2.py) ++ x :: pyKeywords b := by
  have item : ∀ y ∈ l, pyKeywords (y.1 ++ y.2.render) = y.1 ++ y.2.reword.py := fun y hy => by
    rw [pyKeywords_lead (all_mono (fun _ => gap_break) (h y hy).1), py_reword (h y hy).2]
  clear h
  induction l with
  | nil => exact pyKeywords_cons hx
  | cons y l ih =>
    have ih := ih fun z hz => item z (List.mem_cons_of_mem _ hz)
    have hy := item y (by simp)
    cases l with
    | nil =>
      simp only [List.map_cons, List.map_nil, commaSep]
      rw [pyKeywords_sep hx, hy]
    | cons z l =>
      simp only [List.map_cons, commaSep, List.append_assoc, List.cons_append] at ih hy ⊢
      rw [← List.append_assoc, pyKeywords_sep rfl, hy, ih]
      simp

theorem py_list_reword {l : List (Str × Atom)} {sp : Str} (h1 : ∀ x ∈ l, x.1.all isGap = true ∧ x.2.Plain) (h2 : sp.all isGap = true) :
    pyKeywords (Lit.list l sp).render = pyList (l.map fun x => (x.1, x.2.reword)) sp := by
  rw [Lit.render, pyKeywords_cons rfl, pyList]
  congr 1
  cases sp with
  | nil => exact py_commaSep_reword h1 rfl []
  | cons c sp =>
    have h3 := all_mono (fun _ => gap_break) h2
    simp only [List.all_cons, Bool.and_eq_true] at h3
    rw [List.cons_append, py_commaSep_reword h1 h3.1, pyKeywords_breaks]
    simp only [List.all_append, h3.2, Bool.true_and]
    rfl

/-- What becomes of a list value, whatever stands in it. -/
theorem dict_list {name b : Str} (hn : name.all isWord = true) (hn' : name ≠ []) (hb : b.all isListChar = true) (hne : b ≠ []) :
    getPropertyDict (some ('{' :: (name ++ (c!": " ++ ('[' :: (b ++ c!"]}")))))) =
      (match handleList ('[' :: (b ++ [']'])) with
        | .ok v => .ok (some [(name, v)])
        | .error e => .error e) := by
  have hw : ∀ c : Char, c = '{' ∨ c = '}' ∨ c = ':' → isWord c = false := by
    rintro c (rfl | rfl | rfl) <;>
      simp [isWord, isAscii, Char.isAlphanum, Char.isAlpha, Char.isDigit, Char.isUpper, Char.isLower]
  have h4 := hd_grp (n := gList) (hd_seq (hd_ch '[' _) (hd_seq (hd_plus' hb hne (notHead_cons (cs := ['}']) (c := ']') isListChar_close))
    (hd_ch ']' ['}'])))
  have h5 := hd_alt_left (b := .grp gString (plus isStrChar)) h4
  have hnd : ∀ p : Char → Bool, p '[' = false → ∀ t, NotHead p ('[' :: t) := fun p hp t => notHead_cons hp
  have h6 := hd_words_skip rfl (hd_alt_right (fails_grp (n := gFloat) (a := seqs [plus isDecimal, ch '.', plus isDecimal])
        (fails_seq_left (fails_plus (hnd isDecimal (by simp [isDecimal, isAscii, isDig]) _))))
      (hd_alt_right (fails_grp (n := gInt) (fails_plus (hnd isDig (by simp [isDig]) _))) h5))
  have hcolon : isSpace ':' = false := by simp [isSpace, isAscii]
  have h1 := hd_seq (hd_grp (n := gName) (hd_plus' hn hn' (notHead_cons (cs := ' ' :: ('[' :: (b ++ c!"]}"))) (hw ':' (by simp)))))
    (hd_seq (hd_star_none (notHead_cons hcolon))
    (hd_seq (hd_ch ':' (' ' :: ('[' :: (b ++ c!"]}")))) (hd_seq (hd_star (p := isSpace) (w := [' '])
      (s := '[' :: (b ++ c!"]}")) (by simp [isSpace, isAscii]) (notHead_cons (by simp [isSpace, isAscii])))
    (hd_grp (n := gValue) h6))))
  have h2 : Hd propKV _ _ := h1
  have hk := finditer_fail (fails_propKV (notHead_cons (cs := name ++ (c!": " ++ ('[' :: (b ++ c!"]}")))) (hw '{' (by simp))))
  rw [show name ++ (c!": " ++ ('[' :: (b ++ c!"]}"))) = name ++ (':' :: (' ' :: ('[' :: (b ++ c!"]}")))) by simp] at hk
  rw [finditer_hit h2 (by simp [hn']), finditer_noColon (s := ['}']) (by simp)] at hk
  have hs : stripValue ('[' :: (b ++ [']'])) = '[' :: (b ++ [']']) := by
    apply strip3_id
    · intro c hc; simp at hc; subst hc; simp [isEdge, isSpace, isAscii]
    · intro c hc
      rw [← List.cons_append, List.getLast?_append] at hc
      simp at hc; subst hc; simp [isEdge, isSpace, isAscii]
  have hne' : (strip ('[' :: (b ++ [']']))).isEmpty = false := by
    have : strip ('[' :: (b ++ [']'])) = '[' :: (b ++ [']']) := by
      apply stripP_id
      · intro c hc; simp at hc; subst hc; simp [isSpace, isAscii]
      · intro c hc
        rw [← List.cons_append, List.getLast?_append] at hc
        simp at hc; subst hc; simp [isSpace, isAscii]
    rw [this]; rfl
  have hcaps : parseOneProp [(gName, name), (gValue, '[' :: (b ++ [']'])), (gList, '[' :: (b ++ [']']))] =
      (match handleList ('[' :: (b ++ [']'])) with
        | .ok v => .ok (name, v)
        | .error e => .error e) := by
    simp only [parseOneProp]
    rw [show capGet gName [(gName, name), (gValue, '[' :: (b ++ [']'])), (gList, '[' :: (b ++ [']']))] = some name from rfl,
      show capGet gValue [(gName, name), (gValue, '[' :: (b ++ [']'])), (gList, '[' :: (b ++ [']']))] = some ('[' :: (b ++ [']'])) from rfl]
    simp only [hne', Bool.false_eq_true, if_false, handleExtracted, hs]
    rfl
  have e0 : ('{' :: (name ++ (':' :: (' ' :: ('[' :: (b ++ c!"]}")))))).isEmpty = false := rfl
  rw [show name ++ (c!": " ++ ('[' :: (b ++ c!"]}"))) = name ++ (':' :: (' ' :: ('[' :: (b ++ c!"]}")))) by simp]
  simp only [getPropertyDict, e0, Bool.false_eq_true, if_false, parseProperties, hk]
  simp only [List.append_nil, List.cons_append, List.nil_append, List.append_assoc] at hcaps ⊢
  simp only [parsePropsLoop, hcaps]
  cases handleList ('[' :: (b ++ [']'])) with
  | error e => rfl
  | ok v => simp [dictSet]

/-- C44, exactly, for every list of plain literals: it is stored with its elements in order, but `true`, `false` and `null` in every
text become `True`, `False` and `None`. -/
theorem C44_lists_exact {name : Str} (hn : name.all isWord = true) (hn' : name ≠ []) {l : List (Str × Atom)} {sp : Str}
    (h1 : ∀ x ∈ l, x.1.all isGap = true ∧ x.2.Plain) (h2 : sp.all isGap = true) (h3 : l = [] → sp ≠ [])
    {l' : List (Str × Atom)} (hl : RewordedList l l') {vs : List V} (hv : ListMeans l' vs) :
    getPropertyDict (some (listProp name l sp)) = .ok (some [(name, .list vs)]) := by
  obtain rfl := reworded_list.1 hl
  have hb : (commaSep (l.map fun x => x.1 ++ x.2.render) ++ sp).all isListChar = true := by
    simp only [List.all_append, Bool.and_eq_true]
    refine ⟨all_commaSep (by simp [isListChar]) ?_, all_mono (fun _ => gap_listChar) h2⟩
    intro s hs
    obtain ⟨x, hx, rfl⟩ := List.mem_map.mp hs
    simp only [List.all_append, all_mono (fun _ => gap_listChar) (h1 x hx).1, plain_all (h1 x hx).2, Bool.and_self]
  have hne : commaSep (l.map fun x => x.1 ++ x.2.render) ++ sp ≠ [] := by
    cases l with
    | nil => simpa [commaSep] using h3 rfl
    | cons x l => cases l <;> simp [commaSep, x.2.render_ne]
  have hok : (Lit.list (l.map fun x => (x.1, x.2.reword)) sp).OK := by
    refine ⟨fun x hx => ?_, h2, fun e => h3 (by simpa using e)⟩
    obtain ⟨y, hy, rfl⟩ := List.mem_map.1 hx
    exact ⟨(h1 y hy).1, reword_itemOK (h1 y hy).2⟩
  have := dict_list hn hn' hb hne
  have e : '[' :: (commaSep (l.map fun x => x.1 ++ x.2.render) ++ sp ++ [']']) = (Lit.list l sp).render := by simp [Lit.render]
  rw [e] at this
  simp only [handleList, py_list_reword h1 h2, literalEval_list hok hv] at this
  rw [← this]
  simp [listProp, Lit.render]

theorem listMeans_exists_texts {l : List (Str × Atom)} {vs : List V} (hv : ListMeans l vs) :
    ∃ vs', ListMeans (l.map fun x => (x.1, x.2.reword)) vs' ∧
      (vs' = vs ↔ ∀ x ∈ l, ∀ q s, x.2 = .str q s → pyKeywords s = s) := by
  induction l generalizing vs with
  | nil => exact ⟨[], rfl, by simp only [ListMeans] at hv; simp [hv]⟩
  | cons x l ih =>
    obtain ⟨v, vs0, rfl, h1, h2⟩ := hv
    obtain ⟨vs', h3, h4⟩ := ih h2
    obtain ⟨sp, a⟩ := x
    have key : ∃ v', a.reword.Means v' ∧ (v' = v ↔ ∀ q s, a = .str q s → pyKeywords s = s) := by
      cases a with
      | str q s =>
        simp only [Atom.Means] at h1
        subst h1
        refine ⟨.str (pyKeywords s), rfl, ?_⟩
        simp
      | _ => exact ⟨v, h1, by simp⟩
    obtain ⟨v', h5, h6⟩ := key
    refine ⟨v' :: vs', ⟨v', vs', rfl, h5, h3⟩, ?_⟩
    simp only [List.cons.injEq, h4, h6, List.mem_cons, forall_eq_or_imp]

/-- C44: so such a list is stored as written exactly if none of its texts contains one of the three words. -/
theorem C44_verbatim_iff {name : Str} (hn : name.all isWord = true) (hn' : name ≠ []) {l : List (Str × Atom)} {sp : Str}
    (h1 : ∀ x ∈ l, x.1.all isGap = true ∧ x.2.Plain) (h2 : sp.all isGap = true) (h3 : l = [] → sp ≠ [])
    {vs : List V} (hv : ListMeans l vs) :
    getPropertyDict (some (listProp name l sp)) = .ok (some [(name, .list vs)]) ↔
      ∀ x ∈ l, ∀ q s, x.2 = .str q s → ¬ c!"true" <:+: s ∧ ¬ c!"false" <:+: s ∧ ¬ c!"null" <:+: s := by
  obtain ⟨vs', h4, h5⟩ := listMeans_exists_texts hv
  rw [C44_lists_exact hn hn' h1 h2 h3 (reworded_list.2 rfl) h4]
  simp only [Except.ok.injEq, Option.some.injEq, List.cons.injEq, Prod.mk.injEq, true_and, and_true, Val.list.injEq, h5]
  constructor
  · intro h x hx q s e
    have := reworded_words (reworded_pyKeywords s)
    rwa [h x hx q s e] at this
  · intro h x hx q s e
    exact pyKeywords_words (h x hx q s e)

end

section
attribute [local instance] demoRuntime

/-- `x: ['untrue', 3, "null and void"]` is stored as `['unTrue', 3, 'None and void']`. -/
example : getPropertyDict (some (listProp c!"x" [([], .str false c!"untrue"), (c!" ", .int 0 3), (c!" ", .str true c!"null and void")] [])) =
    .ok (some [(c!"x", .list [.str c!"unTrue", .int 3, .str c!"None and void"])]) := by
  refine C44_lists_exact (by decide) (by decide) ?_ (by decide) (by decide)
    (l' := [([], .str false c!"unTrue"), (c!" ", .int 0 3), (c!" ", .str true c!"None and void")])
    (reworded_list.2 (by decide)) ?_
  · simp only [List.forall_mem_cons]
    exact ⟨⟨by decide, by decide, by decide⟩, ⟨by decide, rfl⟩, ⟨by decide, by decide, by decide⟩, by simp⟩
  · exact ⟨_, _, rfl, rfl, _, _, rfl, rfl, _, _, rfl, rfl, rfl⟩

end
end WG
