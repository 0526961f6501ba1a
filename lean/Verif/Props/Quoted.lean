/-
What becomes of every quoted text: C43.
-/
import Verif.Spec.Quoted
import Verif.Spec.DemoFS
import Verif.Props.ExactLiteral

set_option linter.unusedSectionVars false
set_option linter.unusedSimpArgs false

namespace WG
open Re

section
variable [PyRuntime]

theorem strips_lstrip (p : Char → Bool) (s : Str) : ∃ a, s = a ++ lstripP p s ∧ (∀ c ∈ a, p c = true) ∧
    ∀ c, (lstripP p s).head? = some c → p c = false := by
  refine ⟨s.takeWhile p, (List.takeWhile_append_dropWhile).symm, fun c hc => ?_, fun c hc => ?_⟩
  · exact List.all_eq_true.1 (List.all_takeWhile (p := p) (l := s)) c hc
  · have := List.head?_dropWhile_not p s
    rw [show s.dropWhile p = lstripP p s from rfl, hc] at this
    simpa using this

theorem strips_strip (p : Char → Bool) (s : Str) : Strips (p · = true) s (stripP p s) := by
  obtain ⟨a, e1, h1, h2⟩ := strips_lstrip p s
  obtain ⟨b, e2, h3, h4⟩ := strips_lstrip p (lstripP p s).reverse
  have er : (lstripP p (lstripP p s).reverse).reverse = stripP p s := rfl
  have e3 : lstripP p s = stripP p s ++ b.reverse := by
    rw [← er, ← List.reverse_append, ← e2, List.reverse_reverse]
  refine ⟨a, b.reverse, by rw [← e3]; exact e1, h1, fun c hc => h3 c (by simpa using hc), fun c hc => ?_, fun c hc => ?_⟩
  · have : (lstripP p s).head? = some c := by
      rw [e3, List.head?_append, hc]
      rfl
    simp [h2 c this]
  · rw [← er, List.getLast?_reverse] at hc
    simp [h4 c hc]

theorem strips_imp {P Q : Char → Prop} (h : ∀ c, P c ↔ Q c) {s t : Str} (hs : Strips P s t) : Strips Q s t := by
  obtain ⟨a, b, e, h1, h2, h3, h4⟩ := hs
  exact ⟨a, b, e, fun c hc => (h c).1 (h1 c hc), fun c hc => (h c).1 (h2 c hc), fun c hc hq => h3 c hc ((h c).2 hq),
    fun c hc hq => h4 c hc ((h c).2 hq)⟩

theorem trimmed_stripValue (s : Str) : Trimmed s (stripValue s) :=
  ⟨stripP (· == '"') s, stripP (· == '\'') (stripP (· == '"') s), strips_imp (by simp) (strips_strip _ s),
    strips_imp (by simp) (strips_strip _ _), strips_strip isSpace _⟩

/-- A text has only one such middle part. -/
theorem strips_unique {P : Char → Prop} {s t t' : Str} (h : Strips P s t) (h' : Strips P s t') : t = t' := by
  have drop : ∀ {a a' t t' : Str}, (∀ c ∈ a, P c) → (∀ c ∈ a', P c) → (∀ c, t.head? = some c → ¬ P c) → (∀ c, t'.head? = some c → ¬ P c) →
      a ++ t = a' ++ t' → t = t' := by
    intro a
    induction a with
    | nil =>
      intro a' t t' _ h2 h3 _ e
      cases a' with
      | nil => simpa using e
      | cons c a' =>
        rw [List.nil_append, List.cons_append] at e
        exact absurd (h2 c (by simp)) (h3 c (by simp [e]))
    | cons c a ih =>
      intro a' t t' h1 h2 h3 h4 e
      cases a' with
      | nil =>
        rw [List.nil_append, List.cons_append] at e
        exact absurd (h1 c (by simp)) (h4 c (by simp [← e]))
      | cons c' a' =>
        simp only [List.cons_append, List.cons.injEq] at e
        exact ih (fun x hx => h1 x (by simp [hx])) (fun x hx => h2 x (by simp [hx])) h3 h4 e.2
  obtain ⟨a, b, e, h1, h2, h3, h4⟩ := h
  obtain ⟨a', b', e', h1', h2', h3', h4'⟩ := h'
  cases t with
  | nil =>
    cases t' with
    | nil => rfl
    | cons c t' =>
      have : c ∈ a ++ ([] ++ b) := by rw [← e, e']; simp
      simp only [List.nil_append, List.mem_append] at this
      exact absurd (this.elim (h1 c) (h2 c)) (h3' c rfl)
  | cons c t =>
    cases t' with
    | nil =>
      have : c ∈ a' ++ ([] ++ b') := by rw [← e', e]; simp
      simp only [List.nil_append, List.mem_append] at this
      exact absurd (this.elim (h1' c) (h2' c)) (h3 c rfl)
    | cons c' t' =>
      have e1 : (c :: t) ++ b = (c' :: t') ++ b' := drop h1 h1' (by simpa using h3 c rfl) (by simpa using h3' c' rfl) (e.symm.trans e')
      have e2 : b.reverse ++ (c :: t).reverse = b'.reverse ++ (c' :: t').reverse := by rw [← List.reverse_append, ← List.reverse_append, e1]
      have := drop (fun x hx => h2 x (by simpa using hx)) (fun x hx => h2' x (by simpa using hx))
        (fun x hx => h4 x (by rw [← List.head?_reverse]; exact hx)) (fun x hx => h4' x (by rw [← List.head?_reverse]; exact hx)) e2
      exact List.reverse_inj.1 this

theorem trimmed_unique {s t t' : Str} (h : Trimmed s t) (h' : Trimmed s t') : t = t' := by
  obtain ⟨x, y, h1, h2, h3⟩ := h
  obtain ⟨x', y', h1', h2', h3'⟩ := h'
  obtain rfl := strips_unique h1 h1'
  obtain rfl := strips_unique h2 h2'
  exact strips_unique h3 h3'

/-- No property begins where no colon follows a character. -/
theorem finditer_noColon {s : Str} (h : ':' ∉ s.tail) : propKV.finditer s = [] := by
  rw [finditer_nil_iff]
  rintro pre post rfl
  refine fails_of fun m hm => ?_
  obtain ⟨name, sp, t, rfl, -, hne, -⟩ := propKV_shape hm
  refine h ?_
  cases name with
  | nil => exact absurd rfl hne
  | cons c name =>
    cases pre with
    | nil => simp
    | cons d pre => simp

theorem hd_value_cut {u : Str} (h : u.all isStrChar = true) (q : Bool) {rest : Str} (hr : NotHead isStrChar rest) :
    Hd valueAlts (quoteChar q :: u ++ rest) (quoteChar q :: u, rest, [(gString, quoteChar q :: u)]) := by
  have hq : isStrChar (quoteChar q) = true := by cases q <;> simp [quoteChar, isStrChar]
  have h1 := hd_grp (n := gString) (hd_plus hq h hr)
  have hnd : ∀ p : Char → Bool, p '"' = false → p '\'' = false → NotHead p (quoteChar q :: (u ++ rest)) := by
    intro p e1 e2; apply notHead_cons; cases q
    · exact e2
    · exact e1
  have h2 := hd_alt_right (fails_grp (n := gFloat) (a := seqs [plus isDecimal, ch '.', plus isDecimal])
      (fails_seq_left (fails_plus (hnd isDecimal (by simp [isDecimal, isAscii, isDig]) (by simp [isDecimal, isAscii, isDig])))))
    (hd_alt_right (fails_grp (n := gInt) (fails_plus (hnd isDig (by simp [isDig]) (by simp [isDig]))))
    (hd_alt_right (fails_grp (n := gList) (a := seqs [ch '[', plus isListChar, ch ']'])
      (fails_seq_left (fails_cls (hnd (· == '[') (by simp) (by simp))))) h1))
  exact hd_words_skip (by cases q <;> rfl) h2

theorem finditer_cut_any {name u rest : Str} (hn : name.all isWord = true) (hn' : name ≠ []) (q : Bool) (hu : u.all isStrChar = true)
    (hr : NotHead isStrChar rest) :
    ∃ kv, propKV.finditer ('{' :: (name ++ (c!": " ++ (quoteChar q :: u ++ rest)))) =
      (kv, [(gName, name), (gValue, quoteChar q :: u), (gString, quoteChar q :: u)]) :: propKV.finditer rest := by
  have hb : ∀ c : Char, c = '{' ∨ c = '}' ∨ c = ':' → isWord c = false := by
    rintro c (rfl | rfl | rfl) <;>
      simp [isWord, isAscii, Char.isAlphanum, Char.isAlpha, Char.isDigit, Char.isUpper, Char.isLower]
  have hv := hd_value_cut hu q hr
  have hsp : ∀ r, NotHead isSpace (quoteChar q :: r) := by
    intro r; apply notHead_cons; cases q <;> simp [quoteChar, isSpace, isAscii]
  have hcolon : isSpace ':' = false := by simp [isSpace, isAscii]
  have h1 := hd_seq (hd_grp (n := gName) (hd_plus' hn hn' (notHead_cons (cs := ' ' :: (quoteChar q :: u ++ rest)) (hb ':' (by simp)))))
    (hd_seq (hd_star_none (notHead_cons hcolon))
    (hd_seq (hd_ch ':' (' ' :: (quoteChar q :: u ++ rest))) (hd_seq (hd_star (p := isSpace) (w := [' '])
      (s := quoteChar q :: u ++ rest) (by simp [isSpace, isAscii]) (hsp _))
    (hd_grp (n := gValue) hv))))
  rw [finditer_fail (fails_propKV (notHead_cons (hb '{' (by simp))))]
  have e : name ++ (c!": " ++ (quoteChar q :: u ++ rest)) = name ++ (':' :: (' ' :: (quoteChar q :: u ++ rest))) := by simp
  rw [e]
  have h2 : Hd propKV _ _ := h1
  rw [finditer_hit h2 (by simp [hn'])]
  exact ⟨name ++ (':' :: ' ' :: quoteChar q :: u), by simp⟩

theorem finditer_cut {name u rest : Str} (hn : name.all isWord = true) (hn' : name ≠ []) (q : Bool) (hu : u.all isStrChar = true)
    (hr : NotHead isStrChar rest) (hc : ':' ∉ rest.tail) :
    ∃ kv, propKV.finditer ('{' :: (name ++ (c!": " ++ (quoteChar q :: u ++ rest)))) =
      [(kv, [(gName, name), (gValue, quoteChar q :: u), (gString, quoteChar q :: u)])] := by
  obtain ⟨kv, h⟩ := finditer_cut_any hn hn' q hu hr
  exact ⟨kv, by rw [h, finditer_noColon hc]⟩

theorem strip_quote_ne (q : Bool) (u : Str) : (strip (quoteChar q :: u)).isEmpty = false := by
  obtain ⟨a, b, e, h1, h2, -⟩ := strips_strip isSpace (quoteChar q :: u)
  have hq : isSpace (quoteChar q) = false := by cases q <;> simp [quoteChar, isSpace, isAscii]
  cases h : strip (quoteChar q :: u) with
  | cons c t => rfl
  | nil =>
    rw [show stripP isSpace (quoteChar q :: u) = [] from h, List.nil_append] at e
    have : quoteChar q ∈ a ++ b := by rw [← e]; simp
    rcases List.mem_append.1 this with hm | hm
    · simp [hq] at h1
      exact absurd (h1 _ hm) (by simp [hq])
    · exact absurd (h2 _ hm) (by simp [hq])

theorem handleString_eq (t : Str) : handleString t = if t ∈ refusedWords then .error .illegalPropertyValue else .ok (.str t) := by
  unfold handleString
  by_cases h1 : t = c!"Null" ∨ t = c!"None" ∨ t = c!"none"
  · rw [if_pos h1, if_pos]
    rcases h1 with rfl | rfl | rfl <;> simp [refusedWords]
  · rw [if_neg h1]
    by_cases h2 : t = c!"true" ∨ t = c!"True" ∨ t = c!"false" ∨ t = c!"False"
    · rw [if_pos h2, if_pos]
      rcases h2 with rfl | rfl | rfl | rfl <;> simp [refusedWords]
    · rw [if_neg h2, if_neg]
      simp only [refusedWords, List.mem_cons, List.not_mem_nil, or_false]
      rintro (h | h | h | h | h | h | h) <;> simp [h] at h1 h2

theorem dict_cut {name u rest : Str} (hn : name.all isWord = true) (hn' : name ≠ []) (q : Bool) (hu : u.all isStrChar = true)
    (hr : NotHead isStrChar rest) (hc : ':' ∉ rest.tail) {t : Str} (ht : Trimmed (quoteChar q :: u) t) :
    getPropertyDict (some ('{' :: (name ++ (c!": " ++ (quoteChar q :: u ++ rest))))) =
      if t ∈ refusedWords then .error .illegalPropertyValue else .ok (some [(name, .str t)]) := by
  obtain ⟨kv, hk⟩ := finditer_cut hn hn' q hu hr hc
  obtain rfl := trimmed_unique ht (trimmed_stripValue _)
  have hcaps : parseOneProp [(gName, name), (gValue, quoteChar q :: u), (gString, quoteChar q :: u)] =
      (match handleString (stripValue (quoteChar q :: u)) with
        | .ok v => .ok (name, v)
        | .error e => .error e) := by
    simp only [parseOneProp]
    rw [show capGet gName [(gName, name), (gValue, quoteChar q :: u), (gString, quoteChar q :: u)] = some name from rfl,
      show capGet gValue [(gName, name), (gValue, quoteChar q :: u), (gString, quoteChar q :: u)] = some (quoteChar q :: u) from rfl]
    simp only [strip_quote_ne, Bool.false_eq_true, if_false, handleExtracted]
    rfl
  have e0 : ('{' :: (name ++ (c!": " ++ (quoteChar q :: u ++ rest)))).isEmpty = false := rfl
  simp only [getPropertyDict, e0, Bool.false_eq_true, if_false, parseProperties, hk, parsePropsLoop, hcaps, handleString_eq]
  by_cases hw : stripValue (quoteChar q :: u) ∈ refusedWords
  · simp [hw]
  · simp [hw, dictSet]

theorem parseOneProp_cut (name : Str) (q : Bool) {u t : Str} (ht : Trimmed (quoteChar q :: u) t) :
    parseOneProp [(gName, name), (gValue, quoteChar q :: u), (gString, quoteChar q :: u)] =
      if t ∈ refusedWords then .error .illegalPropertyValue else .ok (name, .str t) := by
  obtain rfl := trimmed_unique ht (trimmed_stripValue _)
  simp only [parseOneProp]
  rw [show capGet gName [(gName, name), (gValue, quoteChar q :: u), (gString, quoteChar q :: u)] = some name from rfl,
    show capGet gValue [(gName, name), (gValue, quoteChar q :: u), (gString, quoteChar q :: u)] = some (quoteChar q :: u) from rfl]
  simp only [strip_quote_ne, Bool.false_eq_true, if_false, handleExtracted]
  show (match handleString (stripValue (quoteChar q :: u)) with
    | .ok v => (.ok (name, v) : Except PyErr (Str × V))
    | .error e => .error e) = _
  rw [handleString_eq]
  by_cases hw : stripValue (quoteChar q :: u) ∈ refusedWords <;> simp only [hw, if_true, if_false]

/-- The loop over the matches gives the same error whatever was found before. -/
theorem parsePropsLoop_error_any {ms : List (Str × Caps)} {d : Dict V} {e : PyErr} (h : parsePropsLoop ms d = .error e) (d' : Dict V) :
    parsePropsLoop ms d' = .error e := by
  induction ms generalizing d d' with
  | nil => simp [parsePropsLoop] at h
  | cons m ms ih =>
    rw [parsePropsLoop] at h ⊢
    split at h
    · next k v hk => exact ih h _
    · exact h

/-- What was found before is kept unless it is found again. -/
theorem parsePropsLoop_from {ms : List (Str × Caps)} {d d1 : Dict V} (h : parsePropsLoop ms d = .ok d1) (d' : Dict V) (hn : (keys d').Nodup) :
    ∃ d2, parsePropsLoop ms d' = .ok d2 ∧ (keys d2).Nodup ∧ ∃ pairs : List (Str × V), d1 = pairs.foldl (fun d p => dictSet p.1 p.2 d) d ∧
      d2 = pairs.foldl (fun d p => dictSet p.1 p.2 d) d' := by
  induction ms generalizing d d' with
  | nil =>
    simp only [parsePropsLoop, Except.ok.injEq] at h
    exact ⟨d', rfl, hn, [], h.symm, rfl⟩
  | cons m ms ih =>
    rw [parsePropsLoop] at h
    split at h
    · next k v hk =>
      obtain ⟨d2, h1, h2, pairs, h3, h4⟩ := ih h (dictSet k v d') (foldl_dictSet_nodup_keys [(k, v)] d' hn)
      exact ⟨d2, by simp only [parsePropsLoop, hk]; exact h1, h2, (k, v) :: pairs, h3, h4⟩
    · simp at h

theorem dictGet_foldl_dictSet (pairs : List (Str × V)) (d : Dict V) (k : Str) :
    dictGet k (pairs.foldl (fun d p => dictSet p.1 p.2 d) d) = (lastValue k pairs).or (dictGet k d) := by
  induction pairs using list_reverse_rec with
  | nil => simp [lastValue]
  | snoc l x ih =>
    rw [List.foldl_append, List.foldl_cons, List.foldl_nil, dictGet_dictSet, ih]
    by_cases h : x.1 = k
    · simp [lastValue, h]
    · simp [lastValue, h]

/-- C43, exactly, for every quoted text of allowed characters: it is stored without double quotes, then without single quotes, then
without white space at its ends; if one of seven words is left, the query is refused. -/
theorem C43_quoted_exact {name : Str} (hn : name.all isWord = true) (hn' : name ≠ []) (q : Bool) {s : Str} (hs : s.all isStrChar = true)
    {t : Str} (ht : Trimmed (quoteChar q :: (s ++ [quoteChar q])) t) :
    getPropertyDict (some (quotedProp name q s)) =
      if t ∈ refusedWords then .error .illegalPropertyValue else .ok (some [(name, .str t)]) := by
  have hq : isStrChar (quoteChar q) = true := by cases q <;> simp [quoteChar, isStrChar]
  have := dict_cut hn hn' q (u := s ++ [quoteChar q]) (by simp [hs, hq, -List.all_eq_true]) (rest := ['}'])
    (notHead_cons (by simp [isStrChar, isWord, isSpace, isAscii, Char.isAlphanum, Char.isAlpha, Char.isDigit, Char.isUpper, Char.isLower]))
    (by simp) ht
  rw [← this]
  simp [quotedProp]

/-- C43 fails for every text with a character that is not allowed (any but word characters, white space and `+ ' " @ .`): it is cut
off there without a message, and what is left is stored without quotes and white space at its ends.  (If a second colon follows, more
properties may be found in the rest: `C43_cut_off_rest`.) -/
theorem C43_cut_off {name : Str} (hn : name.all isWord = true) (hn' : name ≠ []) (q : Bool) {u w : Str} {c : Char}
    (hu : u.all isStrChar = true) (hc : isStrChar c = false) (hw : ':' ∉ w) {t : Str} (ht : Trimmed (quoteChar q :: u) t) :
    getPropertyDict (some (quotedProp name q (u ++ c :: w))) =
      if t ∈ refusedWords then .error .illegalPropertyValue else .ok (some [(name, .str t)]) := by
  have hq : ':' ≠ quoteChar q := by cases q <;> decide
  have := dict_cut hn hn' q hu (rest := c :: (w ++ [quoteChar q, '}'])) (notHead_cons hc)
    (by simp [hw, hq]) ht
  rw [← this]
  simp [quotedProp]

/-- C43, the rest of a text that is cut off, whatever it is: it is read as if it were a text of properties of its own.  If that is
refused, so is the whole; otherwise its properties are stored too, and the cut text is stored under its name unless the rest has a
property of that name. -/
theorem C43_cut_off_rest {name : Str} (hn : name.all isWord = true) (hn' : name ≠ []) (q : Bool) {u w : Str} {c : Char}
    (hu : u.all isStrChar = true) (hc : isStrChar c = false) {t : Str} (ht : Trimmed (quoteChar q :: u) t) :
    (t ∈ refusedWords → getPropertyDict (some (quotedProp name q (u ++ c :: w))) = .error .illegalPropertyValue) ∧
    (t ∉ refusedWords →
      (∀ e, getPropertyDict (some (c :: (w ++ [quoteChar q, '}']))) = .error e →
        getPropertyDict (some (quotedProp name q (u ++ c :: w))) = .error e) ∧
      ∀ r, getPropertyDict (some (c :: (w ++ [quoteChar q, '}']))) = .ok r → ∃ dr d, r = some dr ∧
        getPropertyDict (some (quotedProp name q (u ++ c :: w))) = .ok (some d) ∧ (keys d).Nodup ∧
        ∀ k, dictGet k d = match dictGet k dr with
          | some v => some v
          | none => if k = name then some (.str t) else none) := by
  have e0 : quotedProp name q (u ++ c :: w) = '{' :: (name ++ (c!": " ++ (quoteChar q :: u ++ c :: (w ++ [quoteChar q, '}'])))) := by
    simp [quotedProp]
  obtain ⟨kv, hk⟩ := finditer_cut_any hn hn' q hu (rest := c :: (w ++ [quoteChar q, '}'])) (notHead_cons hc)
  have e1 : ∀ (x : Char) (s : Str), getPropertyDict (some (x :: s)) = (match parseProperties (x :: s) with
      | .ok d => .ok (some d)
      | .error e => .error e) := fun _ _ => rfl
  rw [e0, e1, e1]
  have e2 : parseProperties ('{' :: (name ++ (c!": " ++ (quoteChar q :: u ++ c :: (w ++ [quoteChar q, '}']))))) =
      (match (if t ∈ refusedWords then (.error .illegalPropertyValue : Except PyErr (Str × V)) else .ok (name, .str t)) with
      | .ok (k, v) => parsePropsLoop (propKV.finditer (c :: (w ++ [quoteChar q, '}']))) (dictSet k v [])
      | .error e => .error e) := by
    rw [parseProperties, hk, parsePropsLoop, parseOneProp_cut name q ht]
    by_cases hw : t ∈ refusedWords <;> simp only [hw, if_true, if_false]
  rw [e2]
  refine ⟨fun h => by simp [h], fun h => ?_⟩
  simp only [h, if_false, parseProperties]
  constructor
  · intro e he
    cases hp : parsePropsLoop (propKV.finditer (c :: (w ++ [quoteChar q, '}']))) [] with
    | ok d => simp [hp] at he
    | error e' =>
      rw [hp] at he
      rw [parsePropsLoop_error_any hp]
      exact he
  · intro r hr
    cases hp : parsePropsLoop (propKV.finditer (c :: (w ++ [quoteChar q, '}']))) [] with
    | error e' => simp [hp] at hr
    | ok dr =>
      rw [hp] at hr
      obtain ⟨d2, h1, h2, pairs, h3, h4⟩ := parsePropsLoop_from hp (dictSet name (.str t) []) (by simp [dictSet, keys])
      refine ⟨dr, d2, by simpa using hr.symm, by rw [h1], h2, fun k => ?_⟩
      rw [h3, h4, dictGet_foldl_dictSet, dictGet_foldl_dictSet]
      cases lastValue k pairs with
      | some v => simp
      | none =>
        by_cases hkn : k = name
        · simp [dictSet, dictGet, hkn]
        · simp [dictSet, dictGet, hkn, Ne.symm hkn]

/-- C43: so no text with such a character is ever stored as written. -/
theorem C43_cut_off_differs {name : Str} (hn : name.all isWord = true) (hn' : name ≠ []) (q : Bool) {u w : Str} {c : Char}
    (hu : u.all isStrChar = true) (hc : isStrChar c = false) (hw : ':' ∉ w) :
    getPropertyDict (some (quotedProp name q (u ++ c :: w))) ≠ .ok (some [(name, .str (u ++ c :: w))]) := by
  rw [C43_cut_off hn hn' q hu hc hw (trimmed_stripValue _)]
  split
  · simp
  · intro h
    simp only [Except.ok.injEq, Option.some.injEq, List.cons.injEq, Prod.mk.injEq, true_and, and_true, Val.str.injEq] at h
    have hm : c ∈ stripValue (quoteChar q :: u) := by rw [h]; simp
    have := mem_stripValue hm
    rcases List.mem_cons.1 this with rfl | hm
    · cases q <;> simp [quoteChar, isStrChar] at hc
    · rw [List.all_eq_true.1 hu c hm] at hc
      simp at hc

end

section
attribute [local instance] demoRuntime

/-- `x: "'tis so "` is stored as `tis so`. -/
example : getPropertyDict (some (quotedProp c!"x" true c!"'tis so ")) = .ok (some [(c!"x", .str c!"tis so")]) := by
  rw [C43_quoted_exact (by decide) (by decide) true (by decide) (t := c!"tis so")]
  · exact if_neg (by decide)
  · exact ⟨c!"'tis so ", c!"tis so ", ⟨c!"\"", c!"\"", by decide, by simp, by simp, by simp, by simp⟩,
      ⟨c!"'", [], by decide, by simp, by simp, by simp, by simp⟩, ⟨[], c!" ", by decide, by simp, by decide, by decide, by decide⟩⟩

/-- `x: "New-York"` is stored as `New`. -/
example : getPropertyDict (some (quotedProp c!"x" true c!"New-York")) = .ok (some [(c!"x", .str c!"New")]) := by
  have := C43_cut_off (name := c!"x") (by decide) (by decide) true (u := c!"New") (c := '-') (w := c!"York") (by decide) (by decide) (by decide)
    (t := c!"New") ⟨c!"New", c!"New", ⟨c!"\"", [], by decide, by simp, by simp, by simp, by simp⟩,
      ⟨[], [], by decide, by simp, by simp, by simp, by simp⟩, ⟨[], [], by decide, by simp, by simp, by decide, by decide⟩⟩
  rw [if_neg (by decide)] at this
  exact this

/-- `x: "see (page: 7)"` is stored as `x`: `see` and a property `page`: 7. -/
example : ∃ d, getPropertyDict (some (quotedProp c!"x" true c!"see (page: 7)")) = .ok (some d) ∧ dictGet c!"x" d = some (.str c!"see") ∧
    dictGet c!"page" d = some (.int 7) := by
  obtain ⟨dr, d, h0, h1, -, h2⟩ := (C43_cut_off_rest (name := c!"x") (by decide) (by decide) true (u := c!"see ") (c := '(') (w := c!"page: 7)")
    (by decide) (by decide) (t := c!"see") ⟨c!"see ", c!"see ", ⟨c!"\"", [], by decide, by simp, by simp, by simp, by simp⟩,
      ⟨[], [], by decide, by simp, by simp, by simp, by simp⟩, ⟨[], c!" ", by decide, by simp, by decide, by decide, by decide⟩⟩).2 (by decide) |>.2
    (some [(c!"page", .int 7)]) (by decide +kernel)
  obtain rfl : [(c!"page", .int 7)] = dr := by simpa using h0
  exact ⟨d, h1, by rw [h2]; decide, by rw [h2]; decide⟩

end
end WG
