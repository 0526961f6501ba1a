/-
What becomes of negative numbers and empty lists in property lists, in every case: C34 and C44.
-/
import Verif.Spec.Unread
import Verif.Props.Literal

set_option linter.unusedSectionVars false
set_option linter.unusedSimpArgs false

namespace WG
open Re

section
variable [PyRuntime]

/-- No value starts here. -/
def NoValue (t : Str) : Prop := (∃ u, t = '-' :: u) ∨ ∃ u, t = '[' :: ']' :: u

theorem dash_chars : isWord '-' = false ∧ isStrChar '-' = false ∧ isDig '-' = false ∧ isDecimal '-' = false ∧ isSpace '-' = false ∧
    isWord '[' = false ∧ isStrChar '[' = false ∧ isDig '[' = false ∧ isDecimal '[' = false ∧ isSpace '[' = false ∧ isListChar ']' = false ∧
    isWord ']' = false ∧ isSpace ']' = false := by
  refine ⟨?_, ?_, ?_, ?_, ?_, ?_, ?_, ?_, ?_, ?_, ?_, ?_, ?_⟩ <;>
    simp [isWord, isStrChar, isListChar, isDig, isDecimal, isSpace, isAscii, Char.isAlphanum, Char.isAlpha, Char.isDigit, Char.isUpper, Char.isLower]

theorem noValue_head {t : Str} (h : NoValue t) : ∃ x u, t = x :: u ∧ isWord x = false ∧ isSpace x = false := by
  rcases h with ⟨u, rfl⟩ | ⟨u, rfl⟩
  · exact ⟨_, _, rfl, dash_chars.1, dash_chars.2.2.2.2.1⟩
  · exact ⟨_, _, rfl, dash_chars.2.2.2.2.2.1, dash_chars.2.2.2.2.2.2.2.2.2.1⟩

theorem noValue_fails {t : Str} (h : NoValue t) : Fails valueAlts t := by
  refine fails_of fun m hm => ?_
  obtain ⟨g, -, hs⟩ := valueAlts_mem hm
  have e := run_append hm
  obtain ⟨d1, d2, d3, d4, d5, b1, b2, b3, b4, b5, b6, -⟩ := dash_chars
  have key : ∀ {p : Char → Bool} {v : Str}, p '-' = false → p '[' = false → v.all p = true → v ≠ [] → ∀ r, v ++ r = t → False := by
    intro p v hp hp' hv hne r er
    cases v with
    | nil => exact hne rfl
    | cons c v =>
      simp only [List.all_cons, Bool.and_eq_true] at hv
      rcases h with ⟨u, rfl⟩ | ⟨u, rfl⟩
      · simp only [List.cons_append, List.cons.injEq] at er; rw [er.1, hp] at hv; simp at hv
      · simp only [List.cons_append, List.cons.injEq] at er; rw [er.1, hp'] at hv; simp at hv
  have kw : ∀ {k : Char} {ks v : Str}, sameLetter k '-' = false → sameLetter k '[' = false → CISpelling (k :: ks) v → ∀ r, v ++ r = t → False := by
    intro k ks v hk hk' hv r er
    cases v with
    | nil => exact hv
    | cons c v =>
      have := hv.1
      rcases h with ⟨u, rfl⟩ | ⟨u, rfl⟩
      · simp only [List.cons_append, List.cons.injEq] at er; rw [er.1, hk] at this; simp at this
      · simp only [List.cons_append, List.cons.injEq] at er; rw [er.1, hk'] at this; simp at this
  generalize m.1 = v at hs e
  cases hs with
  | null hv => exact kw (by simp [sameLetter]) (by simp [sameLetter]) hv _ e
  | bool hv => rcases hv with hv | hv <;> exact kw (by simp [sameLetter]) (by simp [sameLetter]) hv _ e
  | float hd hd' hf hf' => exact key d4 b4 hd hd' _ (by rw [List.append_assoc] at e; exact e)
  | int hv hv' => exact key d3 b3 hv hv' _ e
  | @list b hb hb' =>
    cases b with
    | nil => exact hb' rfl
    | cons c b =>
      simp only [List.all_cons, Bool.and_eq_true] at hb
      rcases h with ⟨u, rfl⟩ | ⟨u, rfl⟩
      · simp at e
      · simp only [List.cons_append, List.cons.injEq, true_and] at e; rw [e.1, b6] at hb; simp at hb
  | str hv hv' => exact key d2 b2 hv hv' _ e

/-- Where the match of a property can begin and how it goes on. -/
theorem propKV_shape {s : Str} {m : MRes} (h : m ∈ propKV.run s) :
    ∃ name sp t, s = name ++ (sp ++ ':' :: t) ∧ name.all isWord = true ∧ name ≠ [] ∧ sp.all isSpace = true ∧
      ∃ sp' t', t = sp' ++ t' ∧ sp'.all isSpace = true ∧ ¬ Fails valueAlts t' := by
  obtain ⟨x1, h1, y1, k1, rfl⟩ := mem_seq_inv h
  obtain ⟨x2, h2, y2, k2, rfl⟩ := mem_seq_inv k1
  obtain ⟨x3, h3, y3, k3, rfl⟩ := mem_seq_inv k2
  obtain ⟨x4, h4, y4, k4, rfl⟩ := mem_seq_inv k3
  obtain ⟨z, hz, rfl⟩ := mem_grp_inv h1
  obtain ⟨w, hw, rfl⟩ := mem_grp_inv k4
  obtain ⟨e1, p1, p2, p3⟩ := mem_plus_inv hz
  obtain ⟨e2, q2, s2⟩ := mem_star_inv h2
  obtain ⟨cs, e3, rfl⟩ := mem_ch_inv h3
  obtain ⟨e4, q4, s4⟩ := mem_star_inv h4
  simp only at *
  exact ⟨z.1, x2.1, cs, by rw [← e1, ← e2, e3], p1, p2, q2, x4.1, x4.2.1, e4.symm, q4, not_fails hw⟩

theorem span_unique {p : Char → Bool} {a b s t : Str} (ha : a.all p = true) (hb : b.all p = true) (hs : NotHead p s) (ht : NotHead p t)
    (e : a ++ s = b ++ t) : a = b ∧ s = t := by
  induction a generalizing b with
  | nil =>
    cases b with
    | nil => exact ⟨rfl, e⟩
    | cons c b =>
      simp only [List.all_cons, Bool.and_eq_true] at hb
      have := hs c (b ++ t) (by simpa using e)
      rw [this] at hb; simp at hb
  | cons x a ih =>
    simp only [List.all_cons, Bool.and_eq_true] at ha
    cases b with
    | nil =>
      have := ht x (a ++ s) (by simpa using e.symm)
      rw [this] at ha; simp at ha
    | cons c b =>
      simp only [List.all_cons, Bool.and_eq_true] at hb
      simp only [List.cons_append, List.cons.injEq] at e
      obtain ⟨rfl, rfl⟩ := ih ha.2 hb.2 e.2
      exact ⟨by rw [e.1], rfl⟩

theorem notHead_spaces {sp t : Str} (h : sp.all isSpace = true) {x : Char} (hx : isWord x = false) : NotHead isWord (sp ++ x :: t) :=
  notHead_append (fun c hc => space_not_word (List.all_eq_true.mp h c hc)) (notHead_cons hx)

/-- A name, a colon and then no value: no match begins in the name. -/
theorem fails_unread {name sp t : Str} (hn : name.all isWord = true) (hsp : sp.all isSpace = true) (ht : NoValue t) :
    Fails propKV (name ++ (sp ++ ':' :: t)) := by
  refine fails_of fun m hm => ?_
  obtain ⟨n', sp', t', e, hn', _, hsp', u, t'', rfl, hu, hf⟩ := propKV_shape hm
  obtain ⟨rfl, e1⟩ := span_unique hn hn' (notHead_spaces hsp wd_lit.1) (notHead_spaces hsp' wd_lit.1) e
  obtain ⟨rfl, e2⟩ := span_unique hsp hsp' (notHead_cons sp_lit.1) (notHead_cons sp_lit.1) e1
  have e : t = u ++ t'' := by simpa using e2
  cases u with
  | nil => exact hf (noValue_fails (by rw [List.nil_append] at e; exact e ▸ ht))
  | cons c u =>
    obtain ⟨x, v, rfl, -, hx⟩ := noValue_head ht
    simp only [List.all_cons, Bool.and_eq_true] at hu
    simp only [List.cons_append, List.cons.injEq] at e
    rw [← e.1, hx] at hu
    simp at hu

/-- A word that is not followed by a colon. -/
theorem fails_word {w t : Str} (hw : w.all isWord = true) (ht : NotHead isWord t) (hc : ∀ sp u, sp.all isSpace = true → t ≠ sp ++ ':' :: u) :
    Fails propKV (w ++ t) := by
  refine fails_of fun m hm => ?_
  obtain ⟨n', sp', t', e, hn', _, hsp', -⟩ := propKV_shape hm
  obtain ⟨rfl, e1⟩ := span_unique hw hn' ht (notHead_spaces hsp' wd_lit.1) e
  exact hc _ _ hsp' e1

theorem unread_noValue {u : Unread} (h : u.OK) (r : Str) : NoValue (u.value ++ r) := by
  rcases h.value with ⟨n, e, -⟩ | e <;> rw [e]
  · exact .inl ⟨_, rfl⟩
  · exact .inr ⟨_, rfl⟩

/-- Digits and points before white space and a comma or brace: no property begins there. -/
theorem fails_number {n sp t : Str} {x : Char} (hn : n.all (fun c => isWord c || c == '.') = true) (hsp : sp.all isSpace = true)
    (hx : x = ',' ∨ x = '}') : Fails propKV (n ++ (sp ++ x :: t)) := by
  have hxs : isSpace x = false := by rcases hx with rfl | rfl <;> simp [isSpace, isAscii]
  have hxw : isWord x = false := by
    rcases hx with rfl | rfl <;> simp [isWord, isAscii, Char.isAlphanum, Char.isAlpha, Char.isDigit, Char.isUpper, Char.isLower]
  have hxc : x ≠ ':' := by rcases hx with rfl | rfl <;> decide
  have dot : isWord '.' = false ∧ isSpace '.' = false := by
    constructor <;> simp [isWord, isSpace, isAscii, Char.isAlphanum, Char.isAlpha, Char.isDigit, Char.isUpper, Char.isLower]
  have e : n = n.takeWhile isWord ++ n.dropWhile isWord := (List.takeWhile_append_dropWhile).symm
  have hw : (n.takeWhile isWord).all isWord = true := List.all_takeWhile
  have hd : n.dropWhile isWord = [] ∨ ∃ r, n.dropWhile isWord = '.' :: r := by
    cases hdw : n.dropWhile isWord with
    | nil => exact .inl rfl
    | cons c r =>
      have h1 : isWord c = false := by
        have := List.head?_dropWhile_not isWord n
        rw [hdw] at this
        simpa using this
      have h2 : c ∈ n := (List.dropWhile_sublist isWord).subset (by rw [hdw]; simp)
      have := List.all_eq_true.1 hn c h2
      simp [h1] at this
      exact .inr ⟨r, by rw [this]⟩
  rw [e, List.append_assoc]
  rcases hd with hd | ⟨r, hd⟩ <;> rw [hd]
  · refine fails_word hw (notHead_spaces hsp hxw) fun sp' u hsp' e' => ?_
    have := (span_unique hsp hsp' (notHead_cons hxs) (notHead_cons sp_lit.1) e').2
    simp at this
    exact hxc this.1
  · refine fails_word hw (notHead_cons dot.1) fun sp' u hsp' e' => ?_
    cases sp' with
    | nil => simp at e'
    | cons c sp' =>
      simp only [List.cons_append, List.cons.injEq] at e'
      simp only [List.all_cons, Bool.and_eq_true] at hsp'
      rw [← e'.1, dot.2] at hsp'
      simp at hsp'

/-- An entry whose value cannot be read and stands directly after the colon is not found. -/
theorem finditer_lost {u : Unread} (h : u.OK) (h3 : u.sp3 = []) {x : Char} (hx : x = ',' ∨ x = '}') (t : Str) :
    propKV.finditer (u.render ++ x :: t) = propKV.finditer t := by
  have hxw : isWord x = false := by
    rcases hx with rfl | rfl <;> simp [isWord, isAscii, Char.isAlphanum, Char.isAlpha, Char.isDigit, Char.isUpper, Char.isLower]
  have e : u.render ++ x :: t = u.sp1 ++ (u.name ++ ((u.sp2 ++ [':']) ++ (u.value ++ (u.sp4 ++ x :: t)))) := by
    simp [Unread.render, h3]
  rw [e, finditer_skip_nonword (space_nonword h.sp1)]
  have e2 : propKV.finditer (u.name ++ ((u.sp2 ++ [':']) ++ (u.value ++ (u.sp4 ++ x :: t)))) =
      propKV.finditer ((u.sp2 ++ [':']) ++ (u.value ++ (u.sp4 ++ x :: t))) := by
    refine finditer_skip fun a b hab hb => ?_
    have := h.name
    rw [hab, List.all_append, Bool.and_eq_true] at this
    have := fails_unread this.2 h.sp2 (unread_noValue h (u.sp4 ++ x :: t))
    simpa using this
  rw [e2, finditer_skip_nonword (by simp only [List.all_append, space_nonword h.sp2]; simp [wd_lit.1])]
  have e3 : propKV.finditer (u.value ++ (u.sp4 ++ x :: t)) = propKV.finditer (u.sp4 ++ x :: t) := by
    rcases h.value with ⟨n, e, hn⟩ | e <;> rw [e]
    · rw [List.cons_append, finditer_fail (fails_propKV (notHead_cons dash_chars.1))]
      refine finditer_skip fun a b hab hb => ?_
      rw [hab, List.all_append, Bool.and_eq_true] at hn
      exact fails_number hn.2 h.sp4 hx
    · exact finditer_skip_nonword (by simp [wd_lit])
  have e4 : u.sp4 ++ x :: t = (u.sp4 ++ [x]) ++ t := by simp
  rw [e3, e4, finditer_skip_nonword (by simp only [List.all_append, space_nonword h.sp4]; simp [hxw])]

theorem hd_value_space {c : Char} (hc : isSpace c = true) {t : Str} (ht : NoValue t) :
    Hd valueAlts (c :: t) ([c], t, [(gString, [c])]) := by
  have hm : ∀ k, k ∈ ['n', 't', 'f'] → matchCI k c = false := by
    intro k hk
    cases hm : matchCI k c with
    | false => rfl
    | true =>
      exfalso
      simp only [List.mem_cons, List.not_mem_nil, or_false] at hk
      rcases hk with rfl | rfl | rfl <;> simp [matchCI] at hm <;> rcases hm with rfl | rfl <;> simp [isSpace, isAscii] at hc
  have hw := space_not_word hc
  have hdec : isDecimal c = false := by
    cases h : isDecimal c with
    | false => rfl
    | true => rw [decimal_word h] at hw; simp at hw
  have hdig : isDig c = false := by
    cases h : isDig c with
    | false => rfl
    | true => rw [dig_word h] at hw; simp at hw
  have hb : c ≠ '[' := by rintro rfl; rw [dash_chars.2.2.2.2.2.2.2.2.2.1] at hc; simp at hc
  have hstr : isStrChar c = true := by simp [isStrChar, hc]
  have hend : NotHead isStrChar t := by
    rcases ht with ⟨u, rfl⟩ | ⟨u, rfl⟩
    · exact notHead_cons dash_chars.2.1
    · exact notHead_cons dash_chars.2.2.2.2.2.2.1
  refine hd_alt_right (fails_grp (fails_wordCI_head (hm _ (by simp)))) ?_
  refine hd_alt_right (fails_grp (fails_alt (fails_wordCI_head (hm _ (by simp))) (fails_wordCI_head (hm _ (by simp))))) ?_
  refine hd_alt_right (fails_grp (fails_seq_left (fails_plus (notHead_cons hdec)))) ?_
  refine hd_alt_right (fails_grp (fails_plus (notHead_cons hdig))) ?_
  refine hd_alt_right (fails_grp (fails_seq_left (fails_ch (by rintro cs e; exact hb (by simpa using (List.cons.inj e).1))))) ?_
  exact hd_grp (hd_plus (w := []) hstr rfl hend)

/-- After white space the last blank is taken for the value. -/
theorem finditer_blank {u : Unread} (h : u.OK) (h3 : u.sp3 ≠ []) (t : Str) :
    ∃ kv c r, isSpace c = true ∧ propKV.finditer (u.render ++ t) = (kv, [(gName, u.name), (gValue, [c]), (gString, [c])]) :: r := by
  obtain ⟨s, c, e3⟩ : ∃ s c, u.sp3 = s ++ [c] := by
    rcases List.eq_nil_or_concat u.sp3 with e | ⟨s, c, e⟩
    · exact absurd e h3
    · exact ⟨s, c, by rw [e, List.concat_eq_append]⟩
  have hs3 := h.sp3
  rw [e3, List.all_append, Bool.and_eq_true] at hs3
  have hc : isSpace c = true := by simpa using hs3.2
  have hno := unread_noValue h (u.sp4 ++ t)
  obtain ⟨x, v, ex, hxw, hxs⟩ := noValue_head hno
  have hnh : NotHead isSpace (u.value ++ (u.sp4 ++ t)) := by rw [ex]; exact notHead_cons hxs
  obtain ⟨tl, hst⟩ := starRuns_second hs3.1 hc hnh
  have hv : Hd (.seq (.star isSpace) (.grp gValue valueAlts)) (s ++ c :: (u.value ++ (u.sp4 ++ t))) _ :=
    hd_seq_skip (a := .star isSpace) (pre := [(s ++ [c], u.value ++ (u.sp4 ++ t), [])]) (m := (s, c :: (u.value ++ (u.sp4 ++ t)), []))
      (t := tl.map fun x => (x.1, x.2, []))
      (by simp [run, hst]) (by simp only [List.mem_singleton, forall_eq]; exact fails_grp (noValue_fails hno))
      (hd_grp (n := gValue) (hd_value_space hc hno))
  have h1 := hd_seq (hd_grp (n := gName) (hd_plus' h.name h.name_ne
      (notHead_spaces (t := s ++ c :: (u.value ++ (u.sp4 ++ t))) h.sp2 wd_lit.1)))
    (hd_seq (hd_star h.sp2 (notHead_cons sp_lit.1)) (hd_seq (hd_ch ':' _) hv))
  have e : u.render ++ t = u.sp1 ++ (u.name ++ (u.sp2 ++ ':' :: (s ++ c :: (u.value ++ (u.sp4 ++ t))))) := by
    simp [Unread.render, e3]
  rw [e, finditer_skip_nonword (space_nonword h.sp1)]
  have := finditer_hit (r := propKV) h1 (by simp)
  exact ⟨_, c, _, hc, this⟩

/-- The entries that can be read. -/
def reads (l : List LitEntry) : List (PropText × V) := l.filterMap fun
  | .read p v => some (p, v)
  | .unread _ => none

def entryMatch : LitEntry → List (Str × Caps)
  | .read p _ => [(p.kv, p.caps)]
  | .unread _ => []

theorem finditer_entries {l : List LitEntry} (h : ∀ e ∈ l, e.OK) (hs : ¬ Spaced l) {tail : Str} (ht : tail.all (fun c => !isWord c) = true) :
    propKV.finditer (commaSep (l.map LitEntry.render) ++ '}' :: tail) = (reads l).map fun x => (x.1.kv, x.1.caps) := by
  have hbrace : isWord '}' = false := by simp [isWord, isAscii, Char.isAlphanum, Char.isAlpha, Char.isDigit, Char.isUpper, Char.isLower]
  induction l with
  | nil => exact finditer_nonword (by simp only [List.map_nil, commaSep, List.nil_append, List.all_cons, ht]; simp [hbrace])
  | cons e l ih =>
    have ih := ih (fun x hx => h x (List.mem_cons_of_mem _ hx)) fun ⟨u, hu, hne⟩ => hs ⟨u, List.mem_cons_of_mem _ hu, hne⟩
    have step : ∀ x t, (x = ',' ∨ x = '}') → propKV.finditer (e.render ++ x :: t) =
        entryMatch e ++ propKV.finditer t := by
      intro x t hx
      have he := h e (by simp)
      cases e with
      | read p v => exact finditer_prop he.1 hx t
      | unread u =>
        exact finditer_lost he (Classical.byContradiction fun hne => hs ⟨u, by simp, hne⟩) hx t
    have hreads : (reads (e :: l)).map (fun x => (x.1.kv, x.1.caps)) =
        entryMatch e ++ (reads l).map fun x => (x.1.kv, x.1.caps) := by
      cases e <;> simp [reads, entryMatch]
    rw [hreads]
    cases l with
    | nil =>
      simp only [List.map_cons, List.map_nil, commaSep]
      rw [step _ _ (.inr rfl), finditer_nonword ht]
      simp [reads]
    | cons q l =>
      simp only [List.map_cons, commaSep, List.append_assoc, List.cons_append] at ih ⊢
      rw [step _ _ (.inl rfl), ih]

theorem stripped_blank {c : Char} (h : isSpace c = true) : (strip [c]).isEmpty = true := by
  simp [strip, stripP, lstripP, rstripP, h]

theorem finditer_spaced {l : List LitEntry} (h : ∀ e ∈ l, e.OK) (hs : Spaced l) (tail : Str) :
    ∃ (l' : List (PropText × V)) (m : Str × Caps) (r : List (Str × Caps)), (∀ x ∈ l', x.1.OK ∧ x.1.lit.Means x.2) ∧
      parseOneProp m.2 = .error .illegalPropertyValue ∧
      propKV.finditer (commaSep (l.map LitEntry.render) ++ '}' :: tail) = (l'.map fun x => (x.1.kv, x.1.caps)) ++ m :: r := by
  induction l with
  | nil => obtain ⟨u, hu, -⟩ := hs; simp at hu
  | cons e l ih =>
    obtain ⟨x, t, hx, hxt⟩ : ∃ x t, (x = ',' ∨ x = '}') ∧ commaSep ((e :: l).map LitEntry.render) ++ '}' :: tail = e.render ++ x :: t ∧
        (Spaced l → t = commaSep (l.map LitEntry.render) ++ '}' :: tail) := by
      cases l with
      | nil => exact ⟨'}', tail, .inr rfl, rfl, fun ⟨u, hu, _⟩ => by simp at hu⟩
      | cons q l => exact ⟨',', commaSep ((q :: l).map LitEntry.render) ++ '}' :: tail, .inl rfl, by simp [commaSep], fun _ => rfl⟩
    rw [hxt.1]
    have hl : Spaced l → ∃ (l' : List (PropText × V)) (m : Str × Caps) (r : List (Str × Caps)), (∀ x ∈ l', x.1.OK ∧ x.1.lit.Means x.2) ∧
      parseOneProp m.2 = .error .illegalPropertyValue ∧ propKV.finditer t = (l'.map fun x => (x.1.kv, x.1.caps)) ++ m :: r := by
      intro hsl
      rw [hxt.2 hsl]
      exact ih (fun x hx => h x (List.mem_cons_of_mem _ hx)) hsl
    have he := h e (by simp)
    cases e with
    | read p v =>
      have hsl : Spaced l := by
        obtain ⟨u, hu, hne⟩ := hs
        exact ⟨u, by simpa using hu, hne⟩
      obtain ⟨l', m, r, h1, h2, h3⟩ := hl hsl
      refine ⟨(p, v) :: l', m, r, ?_, h2, ?_⟩
      · intro y hy
        rcases List.mem_cons.1 hy with rfl | hy
        · exact he
        · exact h1 y hy
      · show propKV.finditer (p.render ++ x :: t) = _
        rw [finditer_prop he.1 hx, h3]
        rfl
    | unread u =>
      show ∃ (l' : List (PropText × V)) (m : Str × Caps) (r : List (Str × Caps)), _ ∧ _ ∧ propKV.finditer (u.render ++ x :: t) = _
      by_cases h3 : u.sp3 = []
      · have hsl : Spaced l := by
          obtain ⟨u', hu, hne⟩ := hs
          rcases List.mem_cons.1 hu with e | hu
          · simp only [LitEntry.unread.injEq] at e; subst e; exact absurd h3 hne
          · exact ⟨u', hu, hne⟩
        rw [finditer_lost he h3 hx]
        exact hl hsl
      · obtain ⟨kv, c, r, hc, e⟩ := finditer_blank he h3 (x :: t)
        refine ⟨[], _, r, by simp, ?_, e⟩
        show parseOneProp [(gName, u.name), (gValue, [c]), (gString, [c])] = _
        rw [parseOneProp, show capGet gName [(gName, u.name), (gValue, [c]), (gString, [c])] = some u.name from rfl,
          show capGet gValue [(gName, u.name), (gValue, [c]), (gString, [c])] = some [c] from rfl]
        simp only [stripped_blank hc, if_true]

theorem parsePropsLoop_fails {l : List (PropText × V)} (h : ∀ x ∈ l, x.1.OK ∧ x.1.lit.Means x.2) {m : Str × Caps} {e : PyErr}
    (hm : parseOneProp m.2 = .error e) (r : List (Str × Caps)) (d : Dict V) :
    parsePropsLoop ((l.map fun x => (x.1.kv, x.1.caps)) ++ m :: r) d = .error e := by
  induction l generalizing d with
  | nil => simp [parsePropsLoop, hm]
  | cons x l ih =>
    have hx := h x (by simp)
    simp only [List.map_cons, List.cons_append, parsePropsLoop, parseOneProp_lit hx.1 hx.2]
    exact ih (fun y hy => h y (List.mem_cons_of_mem _ hy)) _

/-- C34 and C44, every property list in which negative numbers and empty lists stand among entries that can be read: if
white space stands before one of these values, the list is refused; otherwise these entries vanish without a message and
the others are kept. -/
theorem C34_unread_entries (l : List LitEntry) (h : ∀ e ∈ l, e.OK) (hn : ((readEntries l).map Prod.fst).Nodup) (tail : Str)
    (ht : tail.all (fun c => !isWord c) = true) :
    (¬ Spaced l → getPropertyDict (some (renderEntries l ++ tail)) = .ok (some (readEntries l))) ∧
    (Spaced l → getPropertyDict (some (renderEntries l ++ tail)) = .error .illegalPropertyValue) := by
  have hne : (renderEntries l ++ tail).isEmpty = false := rfl
  have e : renderEntries l ++ tail = '{' :: (commaSep (l.map LitEntry.render) ++ '}' :: tail) := by simp [renderEntries]
  have e2 : propKV.finditer (renderEntries l ++ tail) = propKV.finditer (commaSep (l.map LitEntry.render) ++ '}' :: tail) := by
    rw [e, finditer_fail (fails_propKV (notHead_cons wd_lit.2.2.2.2.2.1))]
  simp only [getPropertyDict, hne, Bool.false_eq_true, if_false, parseProperties, e2]
  constructor
  · intro hs
    have hr : ∀ x ∈ reads l, x.1.OK ∧ x.1.lit.Means x.2 := by
      intro x hx
      obtain ⟨y, hy, ey⟩ := List.mem_filterMap.1 hx
      have := h y hy
      cases y with
      | read p v => simp at ey; subst ey; exact this
      | unread u => simp at ey
    have hread : readEntries l = (reads l).map fun x => (x.1.name, x.2) := by
      rw [readEntries, reads, List.map_filterMap]
      congr 1
      funext x
      cases x <;> rfl
    rw [finditer_entries h hs ht, parsePropsLoop_lits hr []]
    simp only
    rw [hread] at hn ⊢
    rw [← dictOf_distinct hn, dictOf, List.foldl_map]
  · intro hs
    obtain ⟨l', m, r, h1, h2, h3⟩ := finditer_spaced h hs tail
    rw [h3, parsePropsLoop_fails h1 h2]
end

section
attribute [local instance] demoRuntime

/-- `{x:-5, y: 1,z:[] , w: [2]}` -/
def demoEntries : List LitEntry :=
  [.unread ⟨c!"", c!"x", c!"", c!"", c!"-5", c!""⟩, .read ⟨c!" ", c!"y", c!"", c!" ", .atom (.int 0 1), c!""⟩ (.int 1),
    .unread ⟨c!"", c!"z", c!"", c!"", c!"[]", c!" "⟩, .read ⟨c!" ", c!"w", c!"", c!" ", .list [(c!"", .int 0 2)] c!"", c!""⟩ (.list [.int 2])]

theorem demoEntries_ok : ∀ e ∈ demoEntries, e.OK := by
  intro e he
  simp only [demoEntries, List.mem_cons, List.not_mem_nil, or_false] at he
  rcases he with rfl | rfl | rfl | rfl
  · exact ⟨by decide, by decide, by decide, by decide, by decide, .inl ⟨c!"5", rfl, by decide⟩, by decide⟩
  · exact ⟨⟨by decide, by decide, by decide, by decide, by decide, trivial, by decide, by decide⟩, rfl⟩
  · exact ⟨by decide, by decide, by decide, by decide, by decide, .inr rfl, by decide⟩
  · refine ⟨⟨by decide, by decide, by decide, by decide, by decide, ⟨?_, by decide, by decide⟩, by decide, by decide⟩,
      _, rfl, _, _, rfl, rfl, rfl⟩
    simp only [List.mem_cons, List.not_mem_nil, or_false]
    rintro y rfl
    exact ⟨by decide, rfl⟩

/-- A negative number, a number, an empty list and a list. -/
example : getPropertyDict (some c!"{x:-5, y: 1,z:[] , w: [2]}") = .ok (some [(c!"y", .int 1), (c!"w", .list [.int 2])]) :=
  (C34_unread_entries demoEntries demoEntries_ok (by decide) [] rfl).1 (by
    rintro ⟨u, hu, hne⟩
    simp only [demoEntries, List.mem_cons, List.not_mem_nil, or_false, LitEntry.unread.injEq, reduceCtorEq, false_or] at hu
    rcases hu with rfl | rfl <;> exact hne rfl)
/-- A blank before the negative number. -/
example : getPropertyDict (some c!"{v: -1.5,x:-5, y: 1,z:[] , w: [2]}") = .error .illegalPropertyValue :=
  (C34_unread_entries (.unread ⟨c!"", c!"v", c!"", c!" ", c!"-1.5", c!""⟩ :: demoEntries) (by
    intro e he
    rcases List.mem_cons.1 he with rfl | he
    · exact ⟨by decide, by decide, by decide, by decide, by decide, .inl ⟨c!"1.5", rfl, by decide⟩, by decide⟩
    · exact demoEntries_ok e he) (by decide) [] rfl).2 ⟨_, List.mem_cons_self .., by decide⟩
end
end WG
