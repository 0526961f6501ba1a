/-
Lemmas: the checks accept property lists as they are written.
-/
import Verif.Proofs.Literal
import Verif.Proofs.Checks
import Verif.Proofs.Pattern
set_option linter.unusedSectionVars false
set_option linter.unusedSimpArgs false

namespace WG
open Re
variable [PyRuntime]

/-! ### `str.replace` and counts -/

theorem replaceAux_count {old new : Str} {ch : Char} (ho : old ≠ []) (h1 : ch ∉ old) (h2 : ch ∉ new) (k : Nat) (s : Str) :
    countChar ch (replaceAux old new k s) = countChar ch (s.drop k) := by
  induction s generalizing k with
  | nil => cases k <;> rfl
  | cons c cs ih =>
    cases k with
    | succ k => exact ih k
    | zero =>
      rw [replaceAux]
      split
      · next hp =>
        obtain ⟨t, ht⟩ := List.isPrefixOf_iff_prefix.mp hp
        have hd : cs.drop (old.length - 1) = t := by
          cases old with
          | nil => simp at ho
          | cons o os =>
            simp only [List.cons_append, List.cons.injEq] at ht
            rw [← ht.2]
            simp
        have z : ∀ {u : Str}, ch ∉ u → countChar ch u = 0 := by
          intro u hu
          rw [countChar, List.countP_eq_zero]
          rintro x hx e
          exact hu (by simpa [beq_iff_eq] using (beq_iff_eq.1 e) ▸ hx)
        have e1 : countChar ch (new ++ replaceAux old new (old.length - 1) cs) =
            countChar ch new + countChar ch (replaceAux old new (old.length - 1) cs) := List.countP_append
        have e2 : countChar ch (old ++ t) = countChar ch old + countChar ch t := List.countP_append
        rw [e1, ih, z h2, hd, List.drop_zero, ← ht, e2, z h1]
      · have := ih 0
        rw [List.drop_zero] at this ⊢
        simp only [countChar, List.countP_cons] at this ⊢
        rw [this]

theorem replace_count {old new : Str} {ch : Char} (ho : old ≠ []) (h1 : ch ∉ old) (h2 : ch ∉ new) (s : Str) :
    countChar ch (replace old new s) = countChar ch s := replaceAux_count ho h1 h2 0 s

/-- The characters that the replaced words and their replacements do not have. -/
def isBreak2 (c : Char) : Bool := !c!"truefalsnTFNo".contains c

theorem pyKeywords_count {ch : Char} (h : isBreak2 ch = true) (s : Str) : countChar ch (pyKeywords s) = countChar ch s := by
  have h : ch ∉ c!"truefalsnTFNo" := by simpa [isBreak2] using h
  simp only [String.toList, List.mem_cons, not_or] at h
  rw [pyKeywords, replace_count (by simp) (by simp at h ⊢; simp [h]) (by simp at h ⊢; simp [h]),
    replace_count (by simp) (by simp at h ⊢; simp [h]) (by simp at h ⊢; simp [h]),
    replace_count (by simp) (by simp at h ⊢; simp [h]) (by simp at h ⊢; simp [h])]

theorem count_zero_iff {ch : Char} {s : Str} : countChar ch s = 0 ↔ ch ∉ s := by
  rw [countChar, List.countP_eq_zero]
  constructor
  · intro h hc; exact h ch hc (by simp)
  · rintro h x hx e
    exact h ((beq_iff_eq.1 e) ▸ hx)

theorem replaceAux_all {p : Char → Bool} {old new : Str} (hn : new.all p = true) (k : Nat) {s : Str} (h : s.all p = true) :
    (replaceAux old new k s).all p = true := by
  induction s generalizing k with
  | nil => cases k <;> rfl
  | cons c cs ih =>
    simp only [List.all_cons, Bool.and_eq_true] at h
    cases k with
    | succ k => exact ih k h.2
    | zero =>
      rw [replaceAux]
      split
      · rw [List.all_append, hn, ih _ h.2]; rfl
      · rw [List.all_cons, h.1, ih _ h.2]; rfl

theorem pyKeywords_all {p : Char → Bool} (h1 : c!"True".all p = true) (h2 : c!"False".all p = true) (h3 : c!"None".all p = true)
    {s : Str} (h : s.all p = true) : (pyKeywords s).all p = true :=
  replaceAux_all h3 0 (replaceAux_all h2 0 (replaceAux_all h1 0 h))

theorem replace_ne {old new s : Str} (hn : new ≠ []) (h : s ≠ []) : replace old new s ≠ [] := by
  cases s with
  | nil => simp at h
  | cons c cs =>
    rw [replace, replaceAux]
    split
    · simp [hn]
    · simp

theorem pyKeywords_ne {s : Str} (h : s ≠ []) : pyKeywords s ≠ [] :=
  replace_ne (by simp) (replace_ne (by simp) (replace_ne (by simp) h))

/-! ### Lists are taken out -/

theorem fails_listValue {s : Str} (h : ∀ cs, s ≠ '[' :: cs) : Fails listValue s :=
  fails_grp (fails_seq_left (fails_ch h))

theorem hd_listValue {b : Str} (hb : b.all isListValChar = true) (hne : b ≠ []) (s : Str) :
    Hd listValue ('[' :: (b ++ ']' :: s)) ('[' :: (b ++ [']']), s, [(0, '[' :: (b ++ [']']))]) := by
  have hc : isListValChar ']' = false := by
    simp [isListValChar, isWord, isSpace, isAscii, Char.isAlphanum, Char.isAlpha, Char.isDigit, Char.isUpper, Char.isLower]
  exact hd_grp (n := 0) (hd_seq (hd_ch '[' _) (hd_seq (hd_plus' hb hne (notHead_cons hc)) (hd_ch ']' s)))

theorem listValue_skip {u : Str} (h : '[' ∉ u) (s : Str) : listValue.finditer (u ++ s) = listValue.finditer s := by
  refine finditer_skip fun a b e hb => fails_listValue fun cs hcs => ?_
  cases b with
  | nil => exact hb rfl
  | cons c b =>
    simp only [List.cons_append, List.cons.injEq] at hcs
    apply h
    rw [e, hcs.1]
    simp

theorem eraseFuel_eq (r : Re) (n k : Nat) (s : Str) (hn : s.length < n) (hk : s.length < k) : eraseFuel r n s = eraseFuel r k s := by
  induction n generalizing k s with
  | zero => omega
  | succ n ih =>
    cases k with
    | zero => omega
    | succ k =>
      cases s with
      | nil => rfl
      | cons c cs =>
        simp only [List.length_cons] at hn hk
        rw [eraseFuel, eraseFuel]
        cases hm : r.matchAt (c :: cs) with
        | none => simp only; rw [ih k cs (by omega) (by omega)]
        | some m =>
          simp only
          split
          · rw [ih k cs (by omega) (by omega)]
          · next he =>
            have hl := rest_shorter (mem_of_head? hm) (by simpa using he)
            simp only [List.length_cons] at hl
            exact ih k _ (by omega) (by omega)

theorem erase_fail {r : Re} {c : Char} {cs : Str} (h : Fails r (c :: cs)) : r.erase (c :: cs) = c :: r.erase cs := by
  unfold erase
  rw [eraseFuel, h.matchAt]
  simp only
  rw [eraseFuel_eq r _ (cs.length + 1) cs (by simp) (by simp)]

theorem erase_hit {r : Re} {s : Str} {m : MRes} (h : Hd r s m) (hne : m.1 ≠ []) : r.erase s = r.erase m.2.1 := by
  unfold erase
  have hl := rest_shorter h.mem hne
  cases s with
  | nil => simp at hl
  | cons c cs =>
    have hm : m.1.isEmpty = false := by simpa using hne
    rw [eraseFuel, h.matchAt]
    simp only [hm, Bool.false_eq_true, if_false]
    simp only [List.length_cons] at hl
    exact eraseFuel_eq r _ _ _ (by simp; omega) (by simp)

theorem listValue_keep {u : Str} (h : '[' ∉ u) (s : Str) : listValue.erase (u ++ s) = u ++ listValue.erase s := by
  induction u with
  | nil => rfl
  | cons c cs ih =>
    simp only [List.mem_cons, not_or] at h
    rw [List.cons_append, erase_fail (fails_listValue fun x hx => by
      simp only [List.cons.injEq] at hx; exact h.1 hx.1.symm), ih h.2]
    rfl

/-! ### The characters of a property -/

theorem str_check {c : Char} (h : isStrChar c = true) (hp : c ≠ '+') : isCheckChar c = true := by
  simp [isStrChar, isCheckChar, hp] at h ⊢
  grind

theorem propsChar_plus : isPropsChar '+' = false := by
  simp [isPropsChar, isWord, isSpace, isAscii, Char.isAlphanum, Char.isAlpha, Char.isDigit, Char.isUpper, Char.isLower]

/-- The literal of a property is a list or has no comma, colon, bracket, brace or parenthesis. -/
theorem atom_str {a : Atom} (h : a.OK) : a.render.all isStrChar = true := by
  have hd : ∀ c, isDig c = true → isStrChar c = true := fun c hc => by simp [isStrChar, dig_word hc]
  cases a with
  | null => simp [Atom.render, isStrChar, isWord, isAscii, Char.isAlphanum, Char.isAlpha, Char.isDigit, Char.isUpper, Char.isLower]
  | bool b =>
    cases b <;> simp [Atom.render, isStrChar, isWord, isAscii, Char.isAlphanum, Char.isAlpha, Char.isDigit, Char.isUpper, Char.isLower]
  | int z n => exact all_mono hd (int_render_all z n)
  | float d f =>
    obtain ⟨_, h1, _, h2⟩ := h
    simp only [Atom.render, List.all_append, List.all_cons, all_mono hd h1,
      all_mono hd h2, Bool.true_and, Bool.and_true]
    simp [isStrChar]
  | str q s =>
    have hq : isStrChar (quoteChar q) = true := by cases q <;> simp [quoteChar, isStrChar]
    simp only [Atom.render, List.all_append, List.all_cons, List.all_nil, hq, h.chars, Bool.and_self]

theorem strChar_not {c : Char} (h : isStrChar c = true) : c ≠ ',' ∧ c ≠ ':' ∧ c ≠ '[' ∧ c ≠ ']' := by
  refine ⟨?_, ?_, ?_, ?_⟩ <;> rintro rfl <;>
    simp [isStrChar, isWord, isSpace, isAscii, Char.isAlphanum, Char.isAlpha, Char.isDigit, Char.isUpper, Char.isLower] at h

theorem word_str {c : Char} (h : isWord c = true) : isStrChar c = true := by simp [isStrChar, h]
theorem space_str {c : Char} (h : isSpace c = true) : isStrChar c = true := by simp [isStrChar, h]

/-- The text before the colon. -/
def PropText.pre (p : PropText) : Str := p.sp1 ++ (p.name ++ p.sp2)

theorem PropText.pre_str {p : PropText} (h : p.OK) : p.pre.all isStrChar = true := by
  simp only [PropText.pre, List.all_append, all_mono (fun _ => space_str) h.sp1, all_mono (fun _ => word_str) h.name,
    all_mono (fun _ => space_str) h.sp2, Bool.and_self]

/-- A property is a plain text, a colon, a plain text, a list or nothing, and a plain text. -/
theorem PropText.shape {p : PropText} (h : p.OK) :
    (∃ v, v.all isStrChar = true ∧ p.render = p.pre ++ ':' :: v) ∨
    (∃ v b w l sp, v.all isStrChar = true ∧ w.all isStrChar = true ∧ b.all isListChar = true ∧ b ≠ [] ∧
      p.lit = .list l sp ∧ '[' :: (b ++ [']']) = p.lit.render ∧
      p.render = p.pre ++ ':' :: (v ++ '[' :: (b ++ ']' :: w))) := by
  cases hl : p.lit with
  | atom a =>
    refine .inl ⟨p.sp3 ++ (a.render ++ p.sp4), ?_, ?_⟩
    · have ha := h.lit
      rw [hl] at ha
      simp only [List.all_append, all_mono (fun _ => space_str) h.sp3, atom_str ha, all_mono (fun _ => space_str) h.sp4,
        Bool.and_self]
    · simp [PropText.render, PropText.pre, hl, Lit.render]
  | list l sp =>
    have ha := h.lit
    rw [hl] at ha
    refine .inr ⟨p.sp3, commaSep (l.map fun x => x.1 ++ x.2.render) ++ sp, p.sp4, l, sp, all_mono (fun _ => space_str) h.sp3,
      all_mono (fun _ => space_str) h.sp4, list_body_all ha.1 ha.2.1, ?_, rfl, ?_, ?_⟩
    · cases l with
      | nil => simp [commaSep, ha.2.2 rfl]
      | cons x l =>
        cases l with
        | nil => simp [commaSep, Atom.render_ne]
        | cons y l => simp [commaSep]
    · simp [Lit.render]
    · simp [PropText.render, PropText.pre, hl, Lit.render]

/-! ### The check of the properties -/

/-- What the check sees of one property: no comma, one colon, and lists that are read. -/
structure SeenProp (P : Str) : Prop where
  comma : ∀ s, countChar ',' (listValue.erase (P ++ s)) = countChar ',' (listValue.erase s)
  colon : ∀ s, countChar ':' (listValue.erase (P ++ s)) = 1 + countChar ':' (listValue.erase s)
  lists : ∀ s, ∃ ms : List (Str × Caps), (∀ m ∈ ms, checkList m.1 = .ok ()) ∧
    listValue.finditer (P ++ s) = ms ++ listValue.finditer s

theorem count_append (ch : Char) (a b : Str) : countChar ch (a ++ b) = countChar ch a + countChar ch b := List.countP_append
theorem count_cons_self (ch : Char) (a : Str) : countChar ch (ch :: a) = 1 + countChar ch a := by
  simp [countChar, Nat.add_comm]
theorem count_cons_ne {ch c : Char} (h : c ≠ ch) (a : Str) : countChar ch (c :: a) = countChar ch a := by
  simp [countChar, h]

theorem pk_str {u : Str} (h : u.all isStrChar = true) : '[' ∉ pyKeywords u ∧ countChar ',' (pyKeywords u) = 0 ∧
    countChar ':' (pyKeywords u) = 0 := by
  rw [List.all_eq_true] at h
  rw [← count_zero_iff, pyKeywords_count (by decide), pyKeywords_count (by decide), pyKeywords_count (by decide)]
  refine ⟨count_zero_iff.2 fun hc => ?_, count_zero_iff.2 fun hc => ?_, count_zero_iff.2 fun hc => ?_⟩ <;>
    simpa using strChar_not (h _ hc)

theorem list_listVal {b : Str} (h : b.all isListChar = true) (hp : '+' ∉ b) : b.all isListValChar = true := by
  rw [List.all_eq_true] at *
  intro c hc
  have h1 := h c hc
  have h2 : c ≠ '+' := fun e => hp (e ▸ hc)
  simp [isListChar, isListValChar, h2] at h1 ⊢
  exact h1

theorem seenProp {p : PropText} (h : p.OK) (hp : '+' ∉ p.render) : SeenProp (pyKeywords p.render) := by
  have hpre := pk_str (PropText.pre_str h)
  rcases PropText.shape h with ⟨v, hv, e⟩ | ⟨v, b, w, l, sp, hv, hw, hb, hne, hl, hr, e⟩
  · have hv := pk_str hv
    have e' : pyKeywords p.render = pyKeywords p.pre ++ ':' :: pyKeywords v := by rw [e, pyKeywords_sep rfl]
    have hn : '[' ∉ pyKeywords p.render := by rw [e']; simp [hpre.1, hv.1]
    refine ⟨fun s => ?_, fun s => ?_, fun s => ⟨[], by simp, by rw [listValue_skip hn, List.nil_append]⟩⟩
    · rw [listValue_keep hn, count_append, e', count_append, count_cons_ne (by decide), hpre.2.1, hv.2.1]; omega
    · rw [listValue_keep hn, count_append, e', count_append, count_cons_self, hpre.2.2, hv.2.2]
  · have hv := pk_str hv
    have hw := pk_str hw
    have hpb : '+' ∉ b := by rw [e] at hp; simp at hp; exact hp.2.2.1
    have hb' := pyKeywords_all (p := isListValChar) (by simp [isListValChar, isWord, isAscii, Char.isAlphanum, Char.isAlpha, Char.isDigit, Char.isUpper, Char.isLower])
      (by simp [isListValChar, isWord, isAscii, Char.isAlphanum, Char.isAlpha, Char.isDigit, Char.isUpper, Char.isLower])
      (by simp [isListValChar, isWord, isAscii, Char.isAlphanum, Char.isAlpha, Char.isDigit, Char.isUpper, Char.isLower]) (list_listVal hb hpb)
    have hne' := pyKeywords_ne hne
    have e' : pyKeywords p.render = pyKeywords p.pre ++ ':' :: (pyKeywords v ++ '[' :: (pyKeywords b ++ ']' :: pyKeywords w)) := by
      rw [e, pyKeywords_sep rfl, pyKeywords_sep rfl, pyKeywords_sep rfl]
    have hlead : '[' ∉ pyKeywords p.pre ++ ':' :: pyKeywords v := by simp [hpre.1, hv.1]
    have hhd := fun s => hd_listValue hb' hne' s
    have split : ∀ s, pyKeywords p.render ++ s =
        (pyKeywords p.pre ++ ':' :: pyKeywords v) ++ '[' :: (pyKeywords b ++ ']' :: (pyKeywords w ++ s)) := by
      intro s; rw [e']; simp
    have herase : ∀ s, listValue.erase (pyKeywords p.render ++ s) =
        (pyKeywords p.pre ++ ':' :: pyKeywords v) ++ (pyKeywords w ++ listValue.erase s) := by
      intro s
      rw [split, listValue_keep hlead, erase_hit (hhd _) (by simp), listValue_keep hw.1]
    refine ⟨fun s => ?_, fun s => ?_, fun s => ⟨[('[' :: (pyKeywords b ++ [']']), [(0, '[' :: (pyKeywords b ++ [']']))])], ?_, ?_⟩⟩
    · rw [herase, count_append, count_append, count_append, count_cons_ne (by decide), hpre.2.1, hv.2.1, hw.2.1]; simp
    · rw [herase, count_append, count_append, count_append, count_cons_self, hpre.2.2, hv.2.2, hw.2.2]; simp
    · intro m hm
      simp only [List.mem_singleton] at hm
      subst hm
      have hlit := h.lit
      obtain ⟨x, hx⟩ := Lit.means_total hlit
      rw [hl] at hlit hx
      obtain ⟨vs, -, hvs⟩ := hx
      have h1 := py_list hlit
      rw [← hl, ← hr, pyKeywords_cons rfl, pyKeywords_sep rfl] at h1
      have h2 := literalEval_list hlit hvs
      rw [← h1] at h2
      have h3 : pyKeywords ([] : Str) = [] := rfl
      simp only [checkList, h3] at h2 ⊢
      rw [h2]
    · rw [split, listValue_skip hlead, finditer_hit (hhd _) (by simp), listValue_skip hw.1]
      rfl

theorem seen_commaSep {l : List PropText} (h : ∀ p ∈ l, p.OK ∧ '+' ∉ p.render) (hne : l ≠ []) {x : Char} (hx : isBreak x = true) (b : Str) :
    ∃ E, pyKeywords (commaSep (l.map PropText.render) ++ x :: b) = E ++ x :: pyKeywords b ∧
      (∀ s, countChar ',' (listValue.erase (E ++ s)) + 1 = l.length + countChar ',' (listValue.erase s)) ∧
      (∀ s, countChar ':' (listValue.erase (E ++ s)) = l.length + countChar ':' (listValue.erase s)) ∧
      ∀ s, ∃ ms : List (Str × Caps), (∀ m ∈ ms, checkList m.1 = .ok ()) ∧
        listValue.finditer (E ++ s) = ms ++ listValue.finditer s := by
  induction l with
  | nil => simp at hne
  | cons p l ih =>
    have hp := seenProp (h p (by simp)).1 (h p (by simp)).2
    cases l with
    | nil =>
      refine ⟨pyKeywords p.render, ?_, fun s => ?_, fun s => ?_, hp.lists⟩
      · rw [List.map_singleton, commaSep, pyKeywords_sep hx]
      · rw [hp.comma]; simp; omega
      · rw [hp.colon]; simp
    | cons q l =>
      obtain ⟨E, e, hc, hd, hf⟩ := ih (fun y hy => h y (List.mem_cons_of_mem _ hy)) (by simp)
      refine ⟨pyKeywords p.render ++ ',' :: E, ?_, fun s => ?_, fun s => ?_, fun s => ?_⟩
      · simp only [List.map_cons, commaSep, List.append_assoc, List.cons_append] at e ⊢
        rw [pyKeywords_sep rfl, e]
      · have := hc s
        rw [List.append_assoc, hp.comma, List.cons_append, erase_fail (fails_listValue (by simp)), count_cons_self]
        simp only [List.length_cons] at this ⊢
        omega
      · have := hd s
        rw [List.append_assoc, hp.colon, List.cons_append, erase_fail (fails_listValue (by simp)), count_cons_ne (by decide)]
        simp only [List.length_cons] at this ⊢
        omega
      · obtain ⟨ms, h1, h2⟩ := hf s
        obtain ⟨ms', h1', h2'⟩ := hp.lists (',' :: E ++ s)
        refine ⟨ms' ++ ms, ?_, ?_⟩
        · intro m hm
          rcases List.mem_append.1 hm with hm | hm
          · exact h1' m hm
          · exact h1 m hm
        · rw [List.append_assoc, h2', List.cons_append, finditer_fail (fails_listValue (by simp)), h2]
          simp

/-- A property list is accepted by the check. -/
theorem checkParams_renderProps {l : List PropText} (h : ∀ p ∈ l, p.OK) (hp : '+' ∉ renderProps l) (hne : l ≠ []) :
    checkParams (renderProps l) = .ok () := by
  have hmem : ∀ {L : List Str} {x : Str}, x ∈ L → ∀ c ∈ x, c ∈ commaSep L := by
    intro L
    induction L with
    | nil => simp
    | cons a L ih =>
      intro x hx c hc
      cases L with
      | nil => simp at hx; subst hx; exact hc
      | cons b L =>
        simp only [commaSep, List.mem_append, List.mem_cons]
        rcases List.mem_cons.1 hx with rfl | hx
        · exact .inl hc
        · exact .inr (.inr (ih hx c hc))
  have hok : ∀ p ∈ l, p.OK ∧ '+' ∉ p.render := by
    intro p hpl
    refine ⟨h p hpl, fun hc => hp ?_⟩
    rw [renderProps]
    simp only [List.mem_cons, List.mem_append]
    exact .inr (.inl (hmem (List.mem_map_of_mem hpl) _ hc))
  obtain ⟨E, e, hc, hd, hf⟩ := seen_commaSep hok hne (x := '}') rfl []
  have e' : pyKeywords (renderProps l) = '{' :: (E ++ ['}']) := by
    rw [renderProps, pyKeywords_cons rfl, e]; rfl
  have hc := hc ['}']
  have hd := hd ['}']
  obtain ⟨ms, h1, h2⟩ := hf ['}']
  have hend : listValue.erase ['}'] = ['}'] := by
    rw [erase_fail (fails_listValue (by simp))]; rfl
  have hend' : listValue.finditer ['}'] = [] := by
    rw [finditer_fail (fails_listValue (by simp)), finditer_nil (fails_listValue (by simp))]
  rw [hend] at hc hd
  have z1 : countChar ',' ['}'] = 0 := rfl
  have z2 : countChar ':' ['}'] = 0 := rfl
  have hsyn : checkPropertySyntax (listValue.erase (pyKeywords (renderProps l))) = .ok () := by
    rw [e', erase_fail (fails_listValue (by simp)), checkPropertySyntax, count_cons_ne (by decide), count_cons_ne (by decide)]
    rw [if_neg]
    omega
  rw [checkParams, hsyn]
  simp only
  rw [forEach_ok, e', finditer_fail (fails_listValue (by simp)), h2, hend']
  intro x hx
  simp only [List.append_nil, List.mem_map] at hx
  obtain ⟨m, hm, rfl⟩ := hx
  exact h1 m hm

end WG
