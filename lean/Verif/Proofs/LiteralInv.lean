/-
What a property found in any text is.
-/
import Verif.Proofs.Literal

set_option linter.unusedSectionVars false
set_option linter.unusedSimpArgs false

namespace WG
open Re
variable [PyRuntime]

/-- The shape of a value, by group. -/
inductive ValShape : Nat → Str → Prop where
  | null {v : Str} (h : CISpelling c!"null" v) : ValShape gNone v
  | bool {v : Str} (h : CISpelling c!"true" v ∨ CISpelling c!"false" v) : ValShape gBool v
  | float {d f : Str} (hd : d.all isDecimal = true) (hd' : d ≠ []) (hf : f.all isDecimal = true) (hf' : f ≠ []) :
    ValShape gFloat (d ++ '.' :: f)
  | int {v : Str} (h : v.all isDig = true) (h' : v ≠ []) : ValShape gInt v
  | list {b : Str} (h : b.all isListChar = true) (h' : b ≠ []) : ValShape gList ('[' :: (b ++ [']']))
  | str {v : Str} (h : v.all isStrChar = true) (h' : v ≠ []) : ValShape gString v

theorem wordCI_groups (kw : Str) : groups (wordCI kw) = [] := by
  induction kw with
  | nil => rfl
  | cons c cs ih =>
    cases cs with
    | nil => rfl
    | cons => simpa [wordCI, groups] using ih

theorem wordCI_caps {kw s : Str} {m : MRes} (h : m ∈ (wordCI kw).run s) : m.2.2 = [] := by
  cases hc : m.2.2 with
  | nil => rfl
  | cons x l =>
    have := caps_groups h (n := x.1) (t := x.2) (by simp [hc])
    simp [wordCI_groups] at this

theorem mem_alt_inv {a b : Re} {s : Str} {m : MRes} (h : m ∈ (Re.alt a b).run s) : m ∈ a.run s ∨ m ∈ b.run s := by
  simpa [run] using h

theorem valueAlts_mem {s : Str} {m : MRes} (h : m ∈ valueAlts.run s) : ∃ g, m.2.2 = [(g, m.1)] ∧ ValShape g m.1 := by
  rcases mem_alt_inv h with h | h
  · obtain ⟨x, hx, rfl⟩ := mem_grp_inv h
    exact ⟨_, by simp [wordCI_caps hx], .null (wordCI_mem (m := x) hx)⟩
  rcases mem_alt_inv h with h | h
  · obtain ⟨x, hx, rfl⟩ := mem_grp_inv h
    rcases mem_alt_inv hx with hx | hx
    · exact ⟨_, by simp [wordCI_caps hx], .bool (.inl (wordCI_mem (m := x) hx))⟩
    · exact ⟨_, by simp [wordCI_caps hx], .bool (.inr (wordCI_mem (m := x) hx))⟩
  rcases mem_alt_inv h with h | h
  · obtain ⟨x, hx, rfl⟩ := mem_grp_inv h
    obtain ⟨x1, h1, y1, k1, rfl⟩ := mem_seq_inv hx
    obtain ⟨x2, h2, y2, k2, rfl⟩ := mem_seq_inv k1
    obtain ⟨cs, -, rfl⟩ := mem_ch_inv h2
    obtain ⟨-, p1, p2, p3⟩ := mem_plus_inv h1
    obtain ⟨-, q1, q2, q3⟩ := mem_plus_inv k2
    refine ⟨gFloat, by simp [p3, q3], ?_⟩
    simpa using ValShape.float p1 p2 q1 q2
  rcases mem_alt_inv h with h | h
  · obtain ⟨x, hx, rfl⟩ := mem_grp_inv h
    obtain ⟨-, p1, p2, p3⟩ := mem_plus_inv hx
    exact ⟨_, by simp [p3], .int p1 p2⟩
  rcases mem_alt_inv h with h | h
  · obtain ⟨x, hx, rfl⟩ := mem_grp_inv h
    obtain ⟨x1, h1, y1, k1, rfl⟩ := mem_seq_inv hx
    obtain ⟨x2, h2, y2, k2, rfl⟩ := mem_seq_inv k1
    obtain ⟨cs, -, rfl⟩ := mem_ch_inv h1
    obtain ⟨cs', -, rfl⟩ := mem_ch_inv k2
    obtain ⟨-, p1, p2, p3⟩ := mem_plus_inv h2
    refine ⟨gList, by simp [p3], ?_⟩
    simpa using ValShape.list p1 p2
  · obtain ⟨x, hx, rfl⟩ := mem_grp_inv h
    obtain ⟨-, p1, p2, p3⟩ := mem_plus_inv hx
    exact ⟨_, by simp [p3], .str p1 p2⟩

/-- A match: name, value and the group of the value. -/
theorem propKV_mem {s : Str} {m : MRes} (h : m ∈ propKV.run s) :
    ∃ name val g, m.2.2 = [(gName, name), (gValue, val), (g, val)] ∧ name.all isWord = true ∧ name ≠ [] ∧
      ValShape g val ∧ name <:+: m.1 ∧ val <:+: m.1 := by
  obtain ⟨x1, h1, y1, k1, rfl⟩ := mem_seq_inv h
  obtain ⟨x2, h2, y2, k2, rfl⟩ := mem_seq_inv k1
  obtain ⟨x3, h3, y3, k3, rfl⟩ := mem_seq_inv k2
  obtain ⟨x4, h4, y4, k4, rfl⟩ := mem_seq_inv k3
  obtain ⟨z, hz, rfl⟩ := mem_grp_inv h1
  obtain ⟨w, hw, rfl⟩ := mem_grp_inv k4
  obtain ⟨-, p1, p2, p3⟩ := mem_plus_inv hz
  obtain ⟨-, -, s2⟩ := mem_star_inv h2
  obtain ⟨cs, -, rfl⟩ := mem_ch_inv h3
  obtain ⟨-, -, s4⟩ := mem_star_inv h4
  obtain ⟨g, hg, hv⟩ := valueAlts_mem hw
  refine ⟨z.1, w.1, g, by simp [p3, s2, s4, hg], p1, p2, hv, ⟨[], _, rfl⟩, ?_⟩
  exact ⟨z.1 ++ (x2.1 ++ ([':'] ++ x4.1)), [], by simp⟩

/-! ### The matches of a text -/

/-- A property found in a text. -/
structure FoundProp (s name val : Str) (g : Nat) : Prop where
  isName : name.all isWord = true
  name_ne : name ≠ []
  shape : ValShape g val
  name_in : ∀ c ∈ name, c ∈ s
  val_in : ∀ c ∈ val, c ∈ s

theorem finditer_found {s : Str} {x : Str × Caps} (h : x ∈ propKV.finditer s) :
    ∃ name val g, x.2 = [(gName, name), (gValue, val), (g, val)] ∧ FoundProp s name val g := by
  obtain ⟨pre, post, rfl, hm⟩ := finditer_sound h
  obtain ⟨name, val, g, hc, h1, h2, h3, h4, h5⟩ := propKV_mem hm
  refine ⟨name, val, g, hc, h1, h2, h3, ?_, ?_⟩
  · intro c hc; have := h4.subset hc; simp at this ⊢; simp [this]
  · intro c hc; have := h5.subset hc; simp at this ⊢; simp [this]

/-- How the value of a property is computed, by group. -/
theorem parseOneProp_found {s name val : Str} {g : Nat} (h : FoundProp s name val g) {k : Str} {v : V}
    (hp : parseOneProp [(gName, name), (gValue, val), (g, val)] = .ok (k, v)) : k = name ∧
      ((g = gNone ∧ handleNull (stripValue val) = .ok v) ∨ (g = gBool ∧ handleBool (stripValue val) = .ok v) ∨
       (g = gFloat ∧ handleFloat (stripValue val) = .ok v) ∨ (g = gInt ∧ handleInt (stripValue val) = .ok v) ∨
       (g = gList ∧ handleList (stripValue val) = .ok v) ∨ (g = gString ∧ handleString (stripValue val) = .ok v)) := by
  have h1 : capGet gName [(gName, name), (gValue, val), (g, val)] = some name := rfl
  have h2 : capGet gValue [(gName, name), (gValue, val), (g, val)] = some val := rfl
  rw [parseOneProp, h1, h2] at hp
  simp only at hp
  split at hp
  · simp at hp
  · split at hp
    · next w hw =>
      simp only [Except.ok.injEq, Prod.mk.injEq] at hp
      obtain ⟨rfl, rfl⟩ := hp
      refine ⟨rfl, ?_⟩
      rw [handleExtracted] at hw
      cases h.shape <;>
        (simp [extractedType, capGet, gName, gValue, gNone, gBool, gFloat, gInt, gList, gString] at hw
         simp [hw, gNone, gBool, gFloat, gInt, gList, gString])
    · simp at hp

theorem parsePropsLoop_mem {l : List (Str × Caps)} {d d' : Dict V} (h : parsePropsLoop l d = .ok d') {x : Str × V}
    (hx : x ∈ d') : x ∈ d ∨ ∃ m ∈ l, parseOneProp m.2 = .ok x := by
  induction l generalizing d with
  | nil =>
    simp only [parsePropsLoop, Except.ok.injEq] at h
    subst h
    exact .inl hx
  | cons m l ih =>
    rw [parsePropsLoop] at h
    split at h
    · next k v hm =>
      rcases ih h with hd | ⟨m', hm', hp⟩
      · rcases mem_dictSet hd with hd | hd
        · exact .inr ⟨m, by simp, by rw [hm, hd]⟩
        · exact .inl hd
      · exact .inr ⟨m', List.mem_cons_of_mem _ hm', hp⟩
    · simp at h

/-- Every property parsed from a text was found in it. -/
theorem parseProperties_mem {s : Str} {d : Dict V} (h : parseProperties s = .ok d) {k : Str} {v : V} (hx : (k, v) ∈ d) :
    ∃ val g, FoundProp s k val g ∧ parseOneProp [(gName, k), (gValue, val), (g, val)] = .ok (k, v) := by
  rcases parsePropsLoop_mem h hx with hd | ⟨m, hm, hp⟩
  · simp at hd
  · obtain ⟨name, val, g, hc, hf⟩ := finditer_found hm
    rw [hc] at hp
    have := (parseOneProp_found hf hp).1
    subst this
    exact ⟨val, g, hf, hp⟩

/-! ### Strings in values -/

theorem mem_stripP {p : Char → Bool} {s : Str} {c : Char} (h : c ∈ stripP p s) : c ∈ s := by
  have h1 : ∀ l : Str, ∀ c ∈ l.dropWhile p, c ∈ l := fun l c hc => (List.dropWhile_sublist p).subset hc
  simp only [stripP, rstripP, lstripP, List.mem_reverse] at h
  have := h1 _ _ h
  rw [List.mem_reverse] at this
  exact h1 _ _ this

theorem mem_stripValue {s : Str} {c : Char} (h : c ∈ stripValue s) : c ∈ s := mem_stripP (mem_stripP (mem_stripP h))

theorem mem_replaceAux {old new s : Str} {c : Char} (k : Nat) (h : c ∈ replaceAux old new k s) : c ∈ s ∨ c ∈ new := by
  induction s generalizing k with
  | nil => cases k <;> simp [replaceAux] at h
  | cons x s ih =>
    cases k with
    | succ k =>
      rw [replaceAux] at h
      exact (ih _ h).imp (List.mem_cons_of_mem _) id
    | zero =>
      rw [replaceAux] at h
      split at h
      · rcases List.mem_append.mp h with h | h
        · exact .inr h
        · exact (ih _ h).imp (List.mem_cons_of_mem _) id
      · rcases List.mem_cons.mp h with h | h
        · exact .inl (by simp [h])
        · exact (ih _ h).imp (List.mem_cons_of_mem _) id

/-- Letters that the keyword replacement may bring in. -/
def keywordChars : Str := c!"TrueFalseNone"

theorem mem_pyKeywords {s : Str} {c : Char} (h : c ∈ pyKeywords s) : c ∈ s ∨ c ∈ keywordChars := by
  have k3 : c ∈ c!"None" → c ∈ keywordChars := by simp [keywordChars]; grind
  have k2 : c ∈ c!"False" → c ∈ keywordChars := by simp [keywordChars]; grind
  have k1 : c ∈ c!"True" → c ∈ keywordChars := by simp [keywordChars]; grind
  rcases mem_replaceAux 0 h with h | h
  · rcases mem_replaceAux 0 h with h | h
    · exact (mem_replaceAux 0 h).imp id k1
    · exact .inr (k2 h)
  · exact .inr (k3 h)

theorem mem_takeWhile {p : Char → Bool} {l : Str} {c : Char} (h : c ∈ l.takeWhile p) : c ∈ l :=
  (List.takeWhile_sublist p).subset h

theorem spanDigits_split (s : Str) : (spanDigits s).1 ++ (spanDigits s).2 = s := by
  induction s with
  | nil => rfl
  | cons c s ih =>
    rw [spanDigits]
    split
    · simp [ih]
    · rfl

theorem litAtom_strings {s : Str} {v : V} {r : Str} (h : litAtom s = some (v, r)) :
    (∀ t ∈ v.strings, ∀ c ∈ t, c ∈ s) ∧ ∀ c ∈ r, c ∈ s := by
  have hdrop : ∀ (p : Char → Bool) (l : Str) c, c ∈ l.dropWhile p → c ∈ l := fun p l c hc => (List.dropWhile_sublist p).subset hc
  have hspan : ∀ (l : Str) c, c ∈ (spanDigits l).2 → c ∈ l := by
    intro l c hc
    rw [← spanDigits_split l]
    exact List.mem_append_right _ hc
  cases s with
  | nil => simp [litAtom] at h
  | cons x s =>
    simp only [litAtom] at h
    split at h
    · split at h
      · next q r' hq =>
        split at h
        · simp only [Option.some.injEq, Prod.mk.injEq] at h
          obtain ⟨rfl, rfl⟩ := h
          constructor
          · intro t ht c hc
            simp only [Val.strings, List.mem_singleton] at ht
            subst ht
            exact List.mem_cons_of_mem _ (mem_takeWhile hc)
          · intro c hc
            exact List.mem_cons_of_mem _ (hdrop (isLitStrChar x) _ _ (by rw [hq]; exact List.mem_cons_of_mem _ hc))
        · simp at h
      · simp at h
    · split at h
      · split at h
        · next d r' hd =>
          split at h
          · simp at h
          · next f r'' _ hf =>
            cases hx : PyRuntime.floatOfStr (d ++ '.' :: f) with
            | none => simp [hx] at h
            | some y =>
              simp only [hx, Option.map_some, Option.some.injEq, Prod.mk.injEq] at h
              obtain ⟨rfl, rfl⟩ := h
              refine ⟨by simp [Val.strings], ?_⟩
              intro c hc
              apply hspan
              rw [hd]
              apply List.mem_cons_of_mem
              apply hspan
              rw [hf]
              exact hc
        · next d r' hd' hd =>
          split at h
          · simp at h
          · simp only [Option.some.injEq, Prod.mk.injEq] at h
            obtain ⟨rfl, rfl⟩ := h
            refine ⟨by simp [Val.strings], ?_⟩
            intro c hc
            apply hspan
            rw [hd]
            exact hc
      · split at h
        · simp only [Option.some.injEq, Prod.mk.injEq] at h
          obtain ⟨rfl, rfl⟩ := h
          exact ⟨by simp [Val.strings], fun c hc => List.mem_cons_of_mem _ (List.mem_of_mem_drop hc)⟩
        · split at h
          · simp only [Option.some.injEq, Prod.mk.injEq] at h
            obtain ⟨rfl, rfl⟩ := h
            exact ⟨by simp [Val.strings], fun c hc => List.mem_cons_of_mem _ (List.mem_of_mem_drop hc)⟩
          · split at h
            · simp only [Option.some.injEq, Prod.mk.injEq] at h
              obtain ⟨rfl, rfl⟩ := h
              exact ⟨by simp [Val.strings], fun c hc => List.mem_cons_of_mem _ (List.mem_of_mem_drop hc)⟩
            · simp at h

theorem litElems_strings {n : Nat} {s : Str} {l : List V} (h : litElems n s = some l) :
    ∀ t ∈ Val.stringsList l, ∀ c ∈ t, c ∈ s := by
  have hsk : ∀ (l : Str) c, c ∈ skipLitSpace l → c ∈ l := fun l c hc => (List.dropWhile_sublist isLitSpace).subset hc
  induction n generalizing s l with
  | zero => simp [litElems] at h
  | succ n ih =>
    rw [litElems] at h
    split at h
    · simp at h; subst h; simp [Val.stringsList]
    · split at h
      · simp at h
      · next v r hv =>
        obtain ⟨h1, h2⟩ := litAtom_strings hv
        split at h
        · next r' hr =>
          cases hl : litElems n r' with
          | none => simp [hl] at h
          | some l' =>
            simp only [hl, Option.map_some, Option.some.injEq] at h
            subst h
            intro t ht c hc
            simp only [Val.stringsList, List.mem_append] at ht
            rcases ht with ht | ht
            · exact hsk _ _ (h1 t ht c hc)
            · exact hsk _ _ (h2 c (hsk _ _ (by rw [hr]; exact List.mem_cons_of_mem _ (ih hl t ht c hc))))
        · simp only [Option.some.injEq] at h
          subst h
          intro t ht c hc
          simp only [Val.stringsList, List.append_nil] at ht
          exact hsk _ _ (h1 t ht c hc)
        · simp at h

theorem literalEval_strings {s : Str} {v : V} (h : literalEval s = .ok v) (hb : '\\' ∉ s) :
    ∀ t ∈ v.strings, ∀ c ∈ t, c ∈ s ∨ c = '\n' := by
  unfold literalEval at h
  split at h
  · split at h
    · next l hl =>
      simp only [Except.ok.injEq] at h
      subst h
      intro t ht c hc
      exact .inl (List.mem_cons_of_mem _ (litElems_strings hl t ht c hc))
    · exact PyRuntime.literalEvalOther_chars _ _ h hb
  · exact PyRuntime.literalEvalOther_chars _ _ h hb

theorem strip_list (b : Str) : stripValue ('[' :: (b ++ [']'])) = '[' :: (b ++ [']']) := by
  apply strip3_id
  · intro c hc; simp at hc; subst hc; simp [isEdge, isSpace, isAscii]
  · intro c hc
    rw [← List.cons_append, List.getLast?_append] at hc
    simp at hc; subst hc; simp [isEdge, isSpace, isAscii]

theorem handleList_ok {s : Str} {v : V} (h : handleList s = .ok v) : literalEval (pyKeywords s) = .ok v := by
  rw [handleList] at h
  split at h
  · next w hw => simp at h; rw [hw, h]
  all_goals simp at h

theorem listChar_plain {b : Str} (h : b.all isListChar = true) : '[' ∉ b ∧ ']' ∉ b ∧ '\\' ∉ b := by
  refine ⟨fun hm => ?_, fun hm => ?_, fun hm => ?_⟩ <;>
    (have := List.all_eq_true.mp h _ hm
     simp [isListChar, isWord, isSpace, isAscii, Char.isAlphanum, Char.isAlpha, Char.isDigit, Char.isUpper, Char.isLower] at this)

/-- The keyword replacement keeps the brackets of a list. -/
theorem py_brackets {b : Str} (h : b.all isListChar = true) : ∃ b', pyKeywords ('[' :: (b ++ [']'])) = '[' :: (b' ++ [']']) ∧
    '[' ∉ b' ∧ ']' ∉ b' ∧ '\\' ∉ b' := by
  refine ⟨pyKeywords b, by rw [pyKeywords_cons rfl, pyKeywords_sep rfl]; rfl, ?_⟩
  obtain ⟨h1, h2, h3⟩ := listChar_plain h
  refine ⟨fun hm => ?_, fun hm => ?_, fun hm => ?_⟩
  · exact (mem_pyKeywords hm).elim h1 (by decide)
  · exact (mem_pyKeywords hm).elim h2 (by decide)
  · exact (mem_pyKeywords hm).elim h3 (by decide)

/-- A list literal gives a list. -/
theorem handleList_list {b : Str} (h : b.all isListChar = true) {v : V} (hv : handleList (stripValue ('[' :: (b ++ [']']))) = .ok v) :
    ∃ l, v = .list l := by
  rw [strip_list] at hv
  have hv := handleList_ok hv
  obtain ⟨b', hb, h1, h2, h3⟩ := py_brackets h
  rw [hb] at hv
  simp only [literalEval] at hv
  split at hv
  · simp only [Except.ok.injEq] at hv
    exact ⟨_, hv.symm⟩
  · exact PyRuntime.literalEvalOther_list _ _ h1 h2 hv

theorem found_strings {s name val : Str} {g : Nat} (h : FoundProp s name val g) {k : Str} {v : V}
    (hp : parseOneProp [(gName, name), (gValue, val), (g, val)] = .ok (k, v)) :
    ∀ t ∈ v.strings, ∀ c ∈ t, c ∈ s ∨ c ∈ keywordChars ∨ c = '\n' := by
  rcases (parseOneProp_found h hp).2 with ⟨-, hv⟩ | ⟨-, hv⟩ | ⟨-, hv⟩ | ⟨-, hv⟩ | ⟨rfl, hv⟩ | ⟨-, hv⟩
  · unfold handleNull at hv
    split at hv <;> simp at hv
    subst hv; simp [Val.strings]
  · unfold handleBool at hv
    (repeat' split at hv) <;> simp at hv <;> subst hv <;> simp [Val.strings]
  · unfold handleFloat at hv
    (repeat' split at hv) <;> simp at hv <;> subst hv <;> simp [Val.strings]
  · unfold handleInt at hv
    (repeat' split at hv) <;> simp at hv <;> subst hv <;> simp [Val.strings]
  · have hval := h.shape
    have hin := h.val_in
    generalize hg : gList = g' at hval
    cases hval <;> simp [gNone, gBool, gFloat, gInt, gList, gString] at hg
    next b hb hne =>
      rw [strip_list] at hv
      have hv := handleList_ok hv
      have hbs : '\\' ∉ pyKeywords ('[' :: (b ++ [']'])) := by
        obtain ⟨b', hb', -, -, h3⟩ := py_brackets hb
        rw [hb']
        simp [h3]
      intro t ht c hc
      rcases literalEval_strings hv hbs t ht c hc with h | h
      · rcases mem_pyKeywords h with h | h
        · exact .inl (hin c h)
        · exact .inr (.inl h)
      · exact .inr (.inr h)
  · unfold handleString at hv
    (repeat' split at hv) <;> simp at hv
    subst hv
    intro t ht c hc
    simp only [Val.strings, List.mem_singleton] at ht
    subst ht
    exact .inl (h.val_in c (mem_stripValue hc))

/-- The only strings stored directly come from string values. -/
theorem found_str {s name val : Str} {g : Nat} (h : FoundProp s name val g) {k t : Str}
    (hp : parseOneProp [(gName, name), (gValue, val), (g, val)] = .ok (k, .str t)) :
    g = gString ∧ t = stripValue val ∧ t.all isStrChar = true ∧ t ∉ [c!"Null", c!"None", c!"none"] ∧
      t ∉ [c!"true", c!"True", c!"false", c!"False"] := by
  have hval := h.shape
  rcases (parseOneProp_found h hp).2 with ⟨-, hv⟩ | ⟨-, hv⟩ | ⟨-, hv⟩ | ⟨-, hv⟩ | ⟨rfl, hv⟩ | ⟨rfl, hv⟩
  · unfold handleNull at hv
    split at hv <;> simp at hv
  · unfold handleBool at hv
    (repeat' split at hv) <;> simp at hv
  · unfold handleFloat at hv
    (repeat' split at hv) <;> simp at hv
  · unfold handleInt at hv
    (repeat' split at hv) <;> simp at hv
  · generalize hg : gList = g' at hval
    cases hval <;> simp [gNone, gBool, gFloat, gInt, gList, gString] at hg
    next b hb hne =>
      obtain ⟨l, hl⟩ := handleList_list hb hv
      simp at hl
  · generalize hg : gString = g' at hval
    cases hval <;> simp [gNone, gBool, gFloat, gInt, gList, gString] at hg
    next hs _ =>
      unfold handleString at hv
      split at hv
      · simp at hv
      · next h1 =>
        split at hv
        · simp at hv
        · next h2 =>
          simp only [Except.ok.injEq, Val.str.injEq] at hv
          subst hv
          refine ⟨rfl, rfl, ?_, by simpa using h1, by simpa using h2⟩
          rw [List.all_eq_true] at hs ⊢
          exact fun c hc => hs c (mem_stripValue hc)

/-! ### Last one wins -/

theorem dictOf_snoc {α : Type} (l : List (Str × α)) (x : Str × α) : dictOf (l ++ [x]) = dictSet x.1 x.2 (dictOf l) := by
  simp [dictOf]

theorem list_reverse_rec {α : Type} {P : List α → Prop} (nil : P []) (snoc : ∀ l x, P l → P (l ++ [x])) (l : List α) : P l := by
  have : ∀ l : List α, P l.reverse := by
    intro l
    induction l with
    | nil => exact nil
    | cons x l ih => rw [List.reverse_cons]; exact snoc _ _ ih
  simpa using this l.reverse

theorem dictGet_dictOf (l : List (Str × V)) (k : Str) : dictGet k (dictOf l) = lastValue k l := by
  induction l using list_reverse_rec with
  | nil => rfl
  | snoc l x ih =>
    rw [dictOf_snoc, dictGet_dictSet, ih]
    by_cases h : x.1 = k
    · simp [lastValue, h]
    · have h' : ¬ k = x.1 := fun e => h e.symm
      simp [lastValue, h, h']

theorem dictOf_distinct {α : Type} {l : List (Str × α)} (h : (l.map Prod.fst).Nodup) : dictOf l = l := by
  induction l using list_reverse_rec with
  | nil => rfl
  | snoc l x ih =>
    simp only [List.map_append, List.map_cons, List.map_nil] at h
    have h1 := List.nodup_append.mp h
    rw [dictOf_snoc, ih h1.1]
    exact dictSet_fresh fun hm => h1.2.2 _ hm _ (by simp) rfl

theorem parsePropsLoop_pairs {ms : List (Str × Caps)} {d d' : Dict V} (h : parsePropsLoop ms d = .ok d') :
    ∃ pairs : List (Str × V), ms.map (fun m => parseOneProp m.2) = pairs.map .ok ∧
      d' = pairs.foldl (fun d p => dictSet p.1 p.2 d) d := by
  induction ms generalizing d with
  | nil =>
    simp only [parsePropsLoop, Except.ok.injEq] at h
    exact ⟨[], rfl, h.symm⟩
  | cons m ms ih =>
    rw [parsePropsLoop] at h
    split at h
    · next k v hm =>
      obtain ⟨pairs, h1, h2⟩ := ih h
      exact ⟨(k, v) :: pairs, by simp [hm, h1], h2⟩
    · simp at h

/-- Exactly one property is found in `{name: "s"}` if `s` has no special characters. -/
theorem finditer_quotedProp {name s : Str} (hn : name.all isWord = true) (hn' : name ≠ []) (q : Bool) (hs : s.all isStrChar = true) :
    ∃ kv, propKV.finditer (quotedProp name q s) = [(kv, [(gName, name), (gValue, quoteChar q :: (s ++ [quoteChar q])),
      (gString, quoteChar q :: (s ++ [quoteChar q]))])] := by
  have hb : ∀ c : Char, c = '{' ∨ c = '}' ∨ c = ':' → isWord c = false := by
    rintro c (rfl | rfl | rfl) <;>
      simp [isWord, isAscii, Char.isAlphanum, Char.isAlpha, Char.isDigit, Char.isUpper, Char.isLower]
  have hr : EndText ['}'] := ⟨'}', [], rfl, by simp [isEnd]⟩
  have hv := hd_value_str hs q hr (notHead_cons (by simp [isSpace, isAscii]))
  have hsp : ∀ r, NotHead isSpace (quoteChar q :: r) := by
    intro r; apply notHead_cons; cases q <;> simp [quoteChar, isSpace, isAscii]
  have hcolon : isSpace ':' = false := by simp [isSpace, isAscii]
  have h1 := hd_seq (hd_grp (n := gName) (hd_plus' hn hn' (notHead_cons (cs := ' ' :: (quoteChar q :: (s ++ [quoteChar q]) ++ ['}'])) (hb ':' (by simp)))))
    (hd_seq (hd_star_none (notHead_cons hcolon))
    (hd_seq (hd_ch ':' (' ' :: (quoteChar q :: (s ++ [quoteChar q]) ++ ['}']))) (hd_seq (hd_star (p := isSpace) (w := [' '])
      (s := quoteChar q :: (s ++ [quoteChar q]) ++ ['}']) (by simp [isSpace, isAscii]) (hsp _))
    (hd_grp (n := gValue) hv))))
  rw [quotedProp, finditer_fail (fails_propKV (notHead_cons (hb '{' (by simp))))]
  have e : name ++ (c!": " ++ (quoteChar q :: (s ++ [quoteChar q, '}']))) =
      name ++ (':' :: (' ' :: (quoteChar q :: (s ++ [quoteChar q]) ++ ['}']))) := by simp
  rw [e]
  have h2 : Hd propKV _ _ := h1
  rw [finditer_hit h2 (by simp [hn'])]
  have h3 : propKV.finditer ['}'] = [] := finditer_nonword (by simp [hb])
  exact ⟨name ++ (':' :: ' ' :: quoteChar q :: (s ++ [quoteChar q])), by simp [h3]⟩

end WG
