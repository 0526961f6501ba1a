/-
Lemmas: the checks accept statements as they are written.
-/
import Verif.Proofs.Accept
import Verif.Proofs.Rel
import Verif.Proofs.Chain
import Verif.Proofs.Parse
import Verif.Spec.Query
set_option linter.unusedSectionVars false
set_option linter.unusedSimpArgs false

namespace WG
open Re
variable [PyRuntime]

/-! ### Even counts -/

/-- Each of the three counts is even. -/
def Even3 (u : Str) : Prop := checkPiece u = .ok ()

theorem even3_append {a b : Str} (ha : Even3 a) (hb : Even3 b) : Even3 (a ++ b) := by
  simp only [Even3, checkPiece_ok, List.countP_append] at *
  omega

theorem even3_none {u : Str} (h : ∀ c ∈ u, c ≠ '(' ∧ c ≠ ')' ∧ c ≠ '{' ∧ c ≠ '}' ∧ c ≠ '[' ∧ c ≠ ']') : Even3 u := by
  simp only [Even3, checkPiece_ok]
  refine ⟨?_, ?_, ?_⟩ <;>
  · rw [List.countP_eq_zero.2]
    intro c hc
    have := h c hc
    simp [this]

theorem even3_wrap {b : Str} {o c : Char} (ho : (o = '(' ∧ c = ')') ∨ (o = '{' ∧ c = '}') ∨ (o = '[' ∧ c = ']'))
    (h : Even3 b) : Even3 (o :: (b ++ [c])) := by
  simp only [Even3, checkPiece_ok] at *
  rcases ho with ⟨rfl, rfl⟩ | ⟨rfl, rfl⟩ | ⟨rfl, rfl⟩ <;> simp [List.countP_cons, List.countP_append] <;> omega

theorem listChar_not {c : Char} (h : isListChar c = true ∨ isStrChar c = true) :
    c ≠ '(' ∧ c ≠ ')' ∧ c ≠ '{' ∧ c ≠ '}' ∧ c ≠ '[' ∧ c ≠ ']' := by
  refine ⟨?_, ?_, ?_, ?_, ?_, ?_⟩ <;> rintro rfl <;>
    simp [isListChar, isStrChar, isWord, isSpace, isAscii, Char.isAlphanum, Char.isAlpha, Char.isDigit, Char.isUpper, Char.isLower] at h

theorem even3_str {u : Str} (h : u.all isStrChar = true) : Even3 u :=
  even3_none fun c hc => listChar_not (.inr (List.all_eq_true.1 h c hc))

theorem even3_space {u : Str} (h : u.all isSpace = true) : Even3 u := even3_str (all_mono (fun _ => space_str) h)
theorem even3_word {u : Str} (h : u.all isWord = true) : Even3 u := even3_str (all_mono (fun _ => word_str) h)

theorem even3_cons {c : Char} {u : Str} (hc : c ≠ '(' ∧ c ≠ ')' ∧ c ≠ '{' ∧ c ≠ '}' ∧ c ≠ '[' ∧ c ≠ ']') (h : Even3 u) :
    Even3 (c :: u) :=
  even3_append (a := [c]) (even3_none (by simpa using hc)) h

theorem even3_prop {p : PropText} (h : p.OK) : Even3 p.render := by
  rcases PropText.shape h with ⟨v, hv, e⟩ | ⟨v, b, w, l, sp, hv, hw, hb, hne, hl, hr, e⟩
  · rw [e]
    exact even3_append (even3_str (PropText.pre_str h)) (even3_cons (by decide) (even3_str hv))
  · rw [e]
    refine even3_append (even3_str (PropText.pre_str h)) (even3_cons (by decide) (even3_append (even3_str hv) ?_))
    rw [show '[' :: (b ++ ']' :: w) = '[' :: (b ++ [']']) ++ w by simp]
    exact even3_append (even3_wrap (.inr (.inr ⟨rfl, rfl⟩)) (even3_none fun c hc => listChar_not (.inl (List.all_eq_true.1 hb c hc))))
      (even3_str hw)

theorem even3_commaSep {l : List Str} (h : ∀ s ∈ l, Even3 s) : Even3 (commaSep l) := by
  induction l with
  | nil => exact even3_none (by simp [commaSep])
  | cons a l ih =>
    cases l with
    | nil => exact h a (by simp)
    | cons b l => exact even3_append (h a (by simp)) (even3_cons (by decide) (ih fun s hs => h s (List.mem_cons_of_mem _ hs)))

theorem even3_props {o : Option Str} (h : GoodProps o) : Even3 (o.getD []) := by
  cases o with
  | none => exact even3_none (by simp)
  | some p =>
    obtain ⟨l, sp, rfl, hl, hsp⟩ := h p rfl
    refine even3_append (even3_wrap (.inr (.inl ⟨rfl, rfl⟩)) (even3_commaSep ?_)) (even3_space hsp)
    intro s hs
    obtain ⟨p, hp, rfl⟩ := List.mem_map.1 hs
    exact even3_prop (hl p hp)

theorem even3_node {n : NodeText} (h : n.Good) : Even3 n.render := by
  obtain ⟨h, hp⟩ := h
  have e : n.render = '(' :: ((n.sp1 ++ (n.handle ++ (n.sp2 ++ ':' :: (n.sp3 ++ (n.label ++ (n.sp4 ++ n.props.getD [])))))) ++ [')']) ++ n.sp5 := by
    simp [NodeText.render]
  rw [e]
  refine even3_append (even3_wrap (.inl ⟨rfl, rfl⟩) ?_) (even3_space h.sp5)
  exact even3_append (even3_space h.sp1) (even3_append (even3_word h.handle) (even3_append (even3_space h.sp2)
    (even3_cons (by decide) (even3_append (even3_space h.sp3) (even3_append (even3_word h.label)
      (even3_append (even3_space h.sp4) (even3_props hp)))))))

theorem even3_content {r : RelText} (h : r.Loose) : Even3 r.content := by
  obtain ⟨h, hp⟩ := h
  refine even3_append (even3_space h.sp1) (even3_append (even3_word h.handle) (even3_append (even3_space h.sp2)
    (even3_append ?_ (even3_props hp))))
  rcases hn : r.name with _ | ⟨a, l, b⟩
  · exact even3_none (by simp)
  · obtain ⟨h1, h2, h3, -⟩ := h.name a l b hn
    exact even3_cons (by decide) (even3_append (even3_space h1) (even3_append (even3_word h2) (even3_space h3)))

/-! ### Pieces between arrow heads -/

/-- Every piece has even counts. -/
def Bal (s : Str) : Prop := ∀ piece ∈ splitClass isAngle s, checkPiece piece = .ok ()

theorem bal_append {u s : Str} (hu : ∀ c ∈ u, isAngle c = false) (he : Even3 u) (h : Bal s) : Bal (u ++ s) := by
  obtain ⟨w, ws, e1, e2⟩ := splitClass_plain (s := s) hu
  intro piece hp
  rw [e2] at hp
  rcases List.mem_cons.1 hp with rfl | hp
  · exact even3_append he (h w (by rw [e1]; simp))
  · exact h piece (by rw [e1]; simp [hp])

theorem bal_angle {c : Char} {s : Str} (hc : isAngle c = true) (h : Bal s) : Bal (c :: s) := by
  intro piece hp
  rw [splitClass, splitClassAux] at hp
  simp only [hc, if_true, Bool.false_eq_true, if_false, List.mem_cons] at hp
  rcases hp with rfl | hp
  · rfl
  · apply h
    rw [splitClass]
    cases s with
    | nil => exact hp
    | cons d ds =>
      rw [splitClassAux] at hp ⊢
      split
      · next hd => simp only [hd, if_true] at hp; simp [hp]
      · next hd =>
        have hd : isAngle d = false := by simpa using hd
        simpa only [hd, Bool.false_eq_true, if_false] using hp

theorem param_angle {c : Char} (h : isParamChar c = true) : isAngle c = false ∧ c ≠ '-' ∧ c ≠ '<' ∧ isIllegal c = false := by
  have hi : ∀ d, isIllegal d = true → isParamChar d = false := by
    intro d hd
    rw [isIllegal_iff] at hd
    simp only [illegalChars, String.toList] at hd
    simp only [List.mem_cons, List.not_mem_nil, or_false] at hd
    rcases hd with rfl | rfl | rfl | rfl | rfl <;>
      simp [isParamChar, isWord, isSpace, isAscii, Char.isAlphanum, Char.isAlpha, Char.isDigit, Char.isUpper, Char.isLower]
  refine ⟨?_, ?_, ?_, ?_⟩
  · cases ha : isAngle c with
    | false => rfl
    | true =>
      simp only [isAngle, Bool.or_eq_true, beq_iff_eq] at ha
      rcases ha with rfl | rfl <;>
        simp [isParamChar, isWord, isSpace, isAscii, Char.isAlphanum, Char.isAlpha, Char.isDigit, Char.isUpper, Char.isLower] at h
  · rintro rfl
    simp [isParamChar, isWord, isSpace, isAscii, Char.isAlphanum, Char.isAlpha, Char.isDigit, Char.isUpper, Char.isLower] at h
  · rintro rfl
    simp [isParamChar, isWord, isSpace, isAscii, Char.isAlphanum, Char.isAlpha, Char.isDigit, Char.isUpper, Char.isLower] at h
  · cases hi' : isIllegal c with
    | false => rfl
    | true => rw [hi c hi'] at h; simp at h

/-- A node consists of the characters of the classes and parentheses. -/
theorem node_chars {n : NodeText} (h : n.OK) : ∀ c ∈ n.render, isParamChar c = true ∨ c = '(' ∨ c = ')' := by
  have a1 := List.all_eq_true.1 (all_mono (fun c => space_param) h.sp1)
  have a2 := List.all_eq_true.1 (all_mono (fun c => word_param) h.handle)
  have a3 := List.all_eq_true.1 (all_mono (fun c => space_param) h.sp2)
  have a4 := List.all_eq_true.1 (all_mono (fun c => space_param) h.sp3)
  have a5 := List.all_eq_true.1 (all_mono (fun c => word_param) h.label)
  have a6 := List.all_eq_true.1 (all_mono (fun c => space_param) h.sp4)
  have a8 := List.all_eq_true.1 (all_mono (fun c => space_param) h.sp5)
  have a7 : ∀ c ∈ n.props.getD [], isParamChar c = true := by
    rw [← List.all_eq_true]
    cases hp : n.props with
    | none => rfl
    | some p => exact (h.props p hp).all
  intro c hc
  simp only [NodeText.render, List.mem_cons, List.mem_append] at hc
  rcases hc with rfl | hc | hc | hc | rfl | hc | hc | hc | hc | rfl | hc
  · simp
  · exact .inl (a1 c hc)
  · exact .inl (a2 c hc)
  · exact .inl (a3 c hc)
  · exact .inl (by simp [isParamChar])
  · exact .inl (a4 c hc)
  · exact .inl (a5 c hc)
  · exact .inl (a6 c hc)
  · exact .inl (a7 c hc)
  · simp
  · exact .inl (a8 c hc)

theorem node_plain {n : NodeText} (h : n.OK) : ∀ c ∈ n.render, isAngle c = false ∧ c ≠ '-' ∧ c ≠ '<' ∧ isIllegal c = false := by
  intro c hc
  rcases node_chars h c hc with h | rfl | rfl
  · exact param_angle h
  · decide
  · decide

/-! ### Properties that are checked -/

/-- What the property check finds in the text is accepted. -/
def PropsAccepted (s : Str) : Prop := ∀ x ∈ checkProps.finditer s, checkParams x.1 = .ok ()

theorem props_skip {u s : Str} (h : '{' ∉ u) (hs : PropsAccepted s) : PropsAccepted (u ++ s) := by
  have e : checkProps.finditer (u ++ s) = checkProps.finditer s := by
    refine finditer_skip fun a b e hb => fails_checkProps fun cs hcs => ?_
    cases b with
    | nil => exact hb rfl
    | cons c b =>
      simp only [List.cons_append, List.cons.injEq] at hcs
      apply h
      rw [e, hcs.1]
      simp
  rw [PropsAccepted, e]
  exact hs

theorem listChar_check {c : Char} (h : isListChar c = true ∨ isStrChar c = true) (hp : c ≠ '+') : isCheckChar c = true := by
  simp [isListChar, isStrChar, isCheckChar, hp] at h ⊢
  grind

theorem prop_check {p : PropText} (h : p.OK) : ∀ c ∈ p.render, c ≠ '+' → isCheckChar c = true := by
  intro c hc hp
  have s1 := List.all_eq_true.1 (PropText.pre_str h)
  rcases PropText.shape h with ⟨v, hv, e⟩ | ⟨v, b, w, l, sp, hv, hw, hb, hne, hl, hr, e⟩
  · rw [e] at hc
    simp only [List.mem_append, List.mem_cons] at hc
    rcases hc with hc | rfl | hc
    · exact str_check (s1 c hc) hp
    · simp [isCheckChar]
    · exact str_check (List.all_eq_true.1 hv c hc) hp
  · rw [e] at hc
    simp only [List.mem_append, List.mem_cons] at hc
    rcases hc with hc | rfl | hc | rfl | hc | rfl | hc
    · exact str_check (s1 c hc) hp
    · simp [isCheckChar]
    · exact str_check (List.all_eq_true.1 hv c hc) hp
    · simp [isCheckChar]
    · exact listChar_check (.inl (List.all_eq_true.1 hb c hc)) hp
    · simp [isCheckChar]
    · exact str_check (List.all_eq_true.1 hw c hc) hp

theorem props_renderProps {l : List PropText} (h : ∀ p ∈ l, p.OK) (hp : '+' ∉ renderProps l) {s : Str} (hs : PropsAccepted s) :
    PropsAccepted (renderProps l ++ s) := by
  have hclose : isCheckChar '}' = false := by
    simp [isCheckChar, isWord, isSpace, isAscii, Char.isAlphanum, Char.isAlpha, Char.isDigit, Char.isUpper, Char.isLower]
  have hnb : ∀ c : Char, isCheckChar c = true → c ≠ '{' := by
    rintro c hc rfl
    simp [isCheckChar, isWord, isSpace, isAscii, Char.isAlphanum, Char.isAlpha, Char.isDigit, Char.isUpper, Char.isLower] at hc
  cases l with
  | nil =>
    have e : checkProps.finditer (renderProps [] ++ s) = checkProps.finditer s := by
      have : renderProps [] ++ s = '{' :: '}' :: s := rfl
      have hf : Fails checkProps ('{' :: '}' :: s) := by
        refine fails_grp (fails_seq fun m hm => ?_)
        obtain ⟨cs, e, rfl⟩ := mem_ch_inv hm
        simp only [List.cons.injEq, true_and] at e
        subst e
        exact fails_seq_left (fails_plus (notHead_cons hclose))
      rw [this, finditer_fail hf, finditer_fail (fails_checkProps (by simp))]
    rw [PropsAccepted, e]
    exact hs
  | cons p l =>
    have hall : (commaSep ((p :: l).map PropText.render)).all isCheckChar = true := by
      have h1 : (commaSep ((p :: l).map PropText.render)).all (fun c => c == '+' || isCheckChar c) = true := by
        apply all_commaSep
        · simp [isCheckChar]
        · intro x hx
          obtain ⟨q, hq, rfl⟩ := List.mem_map.1 hx
          rw [List.all_eq_true]
          intro c hc
          by_cases e : c = '+'
          · simp [e]
          · simp [prop_check (h q hq) c hc e]
      rw [List.all_eq_true] at h1 ⊢
      intro c hc
      have := h1 c hc
      have hne : c ≠ '+' := by
        rintro rfl
        exact hp (by rw [renderProps]; exact List.mem_cons_of_mem _ (List.mem_append_left _ hc))
      simpa [hne] using this
    have hne : commaSep ((p :: l).map PropText.render) ≠ [] := by
      cases l with
      | nil => simp [commaSep, PropText.render]
      | cons q l => simp [commaSep]
    have hd : Hd checkProps (renderProps (p :: l) ++ s) (renderProps (p :: l), s, [(0, renderProps (p :: l))]) := by
      have := hd_grp (n := 0) (hd_seq (hd_ch '{' _) (hd_seq (hd_plus' hall hne (notHead_cons (cs := s) hclose)) (hd_ch '}' s)))
      rw [show renderProps (p :: l) ++ s = '{' :: (commaSep ((p :: l).map PropText.render) ++ '}' :: s) by simp [renderProps]]
      exact this
    intro x hx
    rw [finditer_hit hd (by simp [renderProps])] at hx
    rcases List.mem_cons.1 hx with rfl | hx
    · exact checkParams_renderProps h hp (by simp)
    · exact hs x hx

theorem props_part {o : Option Str} (h : GoodProps o) (ht : ∀ p, o = some p → PropsText p) {s : Str} (hs : PropsAccepted s) :
    PropsAccepted (o.getD [] ++ s) := by
  cases o with
  | none => exact hs
  | some p =>
    obtain ⟨l, sp, rfl, hl, hsp⟩ := h p rfl
    have hplus : '+' ∉ renderProps l := by
      intro hc
      have := List.all_eq_true.1 (ht _ rfl).all '+' (List.mem_append_left _ hc)
      simp [isParamChar, isWord, isSpace, isAscii, Char.isAlphanum, Char.isAlpha, Char.isDigit, Char.isUpper, Char.isLower] at this
    rw [Option.getD_some, List.append_assoc]
    refine props_renderProps hl hplus (props_skip ?_ hs)
    intro hc
    have := List.all_eq_true.1 hsp _ hc
    simp [sp_lit] at this

theorem space_brace {u : Str} (h : u.all isSpace = true) : '{' ∉ u := fun hc => by
  have := List.all_eq_true.1 h _ hc
  simp [sp_lit] at this
theorem word_brace {u : Str} (h : u.all isWord = true) : '{' ∉ u := fun hc => by
  have := List.all_eq_true.1 h _ hc
  simp [wd_lit] at this

theorem props_node {n : NodeText} (h : n.Good) {s : Str} (hs : PropsAccepted s) : PropsAccepted (n.render ++ s) := by
  obtain ⟨h, hp⟩ := h
  have e : n.render ++ s = ('(' :: (n.sp1 ++ (n.handle ++ (n.sp2 ++ ':' :: (n.sp3 ++ (n.label ++ n.sp4)))))) ++
      (n.props.getD [] ++ ((')' :: n.sp5) ++ s)) := by
    simp [NodeText.render]
  rw [e]
  refine props_skip ?_ (props_part hp h.props (props_skip ?_ hs))
  · simp [space_brace h.sp1, word_brace h.handle, space_brace h.sp2, space_brace h.sp3, word_brace h.label, space_brace h.sp4]
  · simp [space_brace h.sp5]

theorem props_rel {r : RelText} (h : r.Loose) {s : Str} (hs : PropsAccepted s) : PropsAccepted (r.render ++ s) := by
  obtain ⟨h, hp⟩ := h
  obtain ⟨N, hN⟩ : ∃ N, N = (match r.name with
    | none => []
    | some (a, l, b) => ':' :: (a ++ (l ++ b))) := ⟨_, rfl⟩
  have e : r.render ++ s = ((if r.toLeft then c!"<" else []) ++ (List.replicate (r.dashes1 + 1) '-' ++ '[' ::
      (r.sp1 ++ (r.handle ++ (r.sp2 ++ N))))) ++ (r.props.getD [] ++ ((']' ::
      (List.replicate (r.dashes2 + 1) '-' ++ ((if r.toRight then c!">" else []) ++ r.sp3))) ++ s)) := by
    rw [hN]
    simp [RelText.render, RelText.content]
    rcases r.name with _ | ⟨a, l, b⟩ <;> rfl
  have hNb : '{' ∉ N := by
    rw [hN]
    rcases hn : r.name with _ | ⟨a, l, b⟩
    · simp
    · obtain ⟨h1, h2, h3, -⟩ := h.name a l b hn
      simp [space_brace h1, word_brace h2, space_brace h3]
  rw [e]
  refine props_skip ?_ (props_part hp h.props (props_skip ?_ hs))
  · simp only [List.mem_append, List.mem_cons, not_or]
    refine ⟨by split <;> simp, by simp, by simp, space_brace h.sp1, word_brace h.handle, space_brace h.sp2, hNb⟩
  · simp only [List.mem_append, List.mem_cons, not_or]
    refine ⟨by simp, by simp, by split <;> simp, space_brace h.sp3⟩

/-! ### Relationships that are checked -/

/-- The part of a relationship that the direction check looks at. -/
def RelText.core (r : RelText) : Str :=
  relCore (if r.toLeft then c!"<" else []) (List.replicate (r.dashes1 + 1) '-') r.content (List.replicate (r.dashes2 + 1) '-')
    (if r.toRight then c!">" else [])

/-- What the direction check finds there. -/
def RelText.dirCaps (r : RelText) : Caps := [(0, r.core), (1, relName r.content)]

/-- The direction check finds these relationships in the text. -/
def RelsFound (rs : List RelText) (s : Str) : Prop := (relDirCheck.finditer s).map Prod.snd = rs.map RelText.dirCaps

theorem rels_skip {u s : Str} {rs : List RelText} (h : ∀ c ∈ u, c ≠ '<' ∧ c ≠ '-') (hs : RelsFound rs s) : RelsFound rs (u ++ s) := by
  have e : relDirCheck.finditer (u ++ s) = relDirCheck.finditer s := by
    refine finditer_skip fun a b e hb => fails_relDirCheck ?_
    cases b with
    | nil => exact absurd rfl hb
    | cons c b =>
      have := h c (by rw [e]; simp)
      exact notHead_cons (by simp [this])
  rw [RelsFound, e]
  exact hs

theorem RelText.angle {r : RelText} (h : r.OK) : ('<' ∈ r.core ↔ r.toLeft = true) ∧ ('>' ∈ r.core ↔ r.toRight = true) := by
  have hcont : '<' ∉ r.content ∧ '>' ∉ r.content := by
    have := List.all_eq_true.1 (RelText.content_all h)
    constructor <;> intro hc <;> have := (param_angle (this _ hc)).1 <;> simp [isAngle] at this
  unfold RelText.core
  cases r.toLeft <;> cases r.toRight <;> simp [relCore, hcont]

/-- The check of one relationship. -/
def RelText.check (r : RelText) : Except PyErr Unit :=
  if r.toLeft = r.toRight then .error .nonDirected
  else if isUpperStr r.nm = false ∧ r.nm ≠ [] then .error .relationshipName
  else .ok ()

theorem checkRel_text {r : RelText} (h : r.OK) : checkRel r.dirCaps = r.check := by
  have c0 : capGet 0 r.dirCaps = some r.core := rfl
  have c1 : capGet 1 r.dirCaps = some (relName r.content) := rfl
  have ⟨h1, h2⟩ := RelText.angle h
  simp only [checkRel, c0, c1, Option.getD_some, h1, h2, (RelText.tokens h).2.1, RelText.check]
  cases r.toLeft <;> cases r.toRight <;> simp

theorem check_ok {r : RelText} : r.check = .ok () ↔ r.Proper := by
  have hn : (∀ a l b, r.name = some (a, l, b) → l ≠ [] → isUpperStr l = true) ↔ (r.nm ≠ [] → isUpperStr r.nm = true) := by
    rw [RelText.nm]
    rcases hn : r.name with _ | ⟨a, l, b⟩
    · simp
    · constructor
      · intro h; exact h a l b rfl
      · rintro h _ _ _ ⟨⟩; exact h
  rw [RelText.Proper, hn, RelText.check]
  cases r.toLeft <;> cases r.toRight <;> simp <;> cases isUpperStr r.nm <;> simp

theorem rels_rel {r : RelText} (h : r.Loose) {rs : List RelText} {s : Str} (hs : RelsFound rs ('(' :: s)) :
    RelsFound (r :: rs) (r.render ++ '(' :: s) := by
  obtain ⟨h, hp⟩ := h
  have hat := RelText.relAt h (rest := '(' :: s) (notHead_cons sp_lit.2.1) (notHead_cons (by decide)) (notHead_cons (by decide))
  have hd := hd_relDirCheck hat
  rw [RelsFound, finditer_hit hd (relDirCheck_ne hd.mem), List.map_cons, List.map_cons]
  refine congr (congrArg _ ?_) (rels_skip (u := r.sp3) ?_ hs)
  · rfl
  · intro c hc
    have := List.all_eq_true.1 h.sp3 c hc
    constructor <;> rintro rfl <;> simp [sp_lit] at this

/-! ### Statements that are accepted -/

/-- Every check but that of relationships accepts the text, which has these relationships. -/
structure Accepted (rs : List RelText) (s : Str) : Prop where
  bal : Bal s
  legal : ∀ c ∈ s, isIllegal c = false
  props : PropsAccepted s
  rels : RelsFound rs s

theorem accepted_nil : Accepted [] [] where
  bal := by
    intro piece hp
    simp [splitClass, splitClassAux] at hp
    subst hp
    rfl
  legal := by simp
  props := by
    intro x hx
    rw [finditer_nil (fails_checkProps (by simp))] at hx
    simp at hx
  rels := by rw [RelsFound, finditer_nil (fails_relDirCheck (notHead_nil _))]; rfl

/-- A character that starts nothing. -/
def mildChar (c : Char) : Bool := isSpace c || plainChar c

theorem accepted_mild {u s : Str} {rs : List RelText} (hu : u.all mildChar = true) (h : Accepted rs s) : Accepted rs (u ++ s) := by
  have hm : ∀ c ∈ u, (c ≠ '(' ∧ c ≠ ')' ∧ c ≠ '{' ∧ c ≠ '}' ∧ c ≠ '[' ∧ c ≠ ']') ∧ c ≠ '<' ∧ c ≠ '>' ∧ c ≠ '-' ∧ isIllegal c = false := by
    intro c hc
    have := List.all_eq_true.1 hu c hc
    simp only [mildChar, Bool.or_eq_true] at this
    rcases this with h | h
    · have h1 := space_param h
      have h2 := param_angle h1
      have h3 := listChar_not (.inr (space_str h))
      exact ⟨h3, h2.2.2.1, by rintro rfl; simp [sp_lit] at h, h2.2.1, h2.2.2.2⟩
    · have := plainChar_iff.1 h
      simp [this]
  refine ⟨bal_append ?_ (even3_none fun c hc => (hm c hc).1) h.bal, ?_, props_skip ?_ h.props, rels_skip ?_ h.rels⟩
  · intro c hc; simp [isAngle, hm c hc]
  · intro c hc
    rcases List.mem_append.1 hc with hc | hc
    · exact (hm c hc).2.2.2.2
    · exact h.legal c hc
  · intro hc; exact absurd rfl (hm _ hc).1.2.2.1
  · intro c hc; exact ⟨(hm c hc).2.1, (hm c hc).2.2.2.1⟩

theorem accepted_node {n : NodeText} (hn : n.Good) {rs : List RelText} {s : Str} (h : Accepted rs s) : Accepted rs (n.render ++ s) := by
  have hp := node_plain hn.1
  refine ⟨bal_append (fun c hc => (hp c hc).1) (even3_node hn) h.bal, ?_, props_node hn h.props,
    rels_skip (fun c hc => ⟨(hp c hc).2.2.1, (hp c hc).2.1⟩) h.rels⟩
  intro c hc
  rcases List.mem_append.1 hc with hc | hc
  · exact (hp c hc).2.2.2
  · exact h.legal c hc

theorem accepted_rel {r : RelText} (hr : r.Loose) {rs : List RelText} {s : Str} (h : Accepted rs ('(' :: s)) :
    Accepted (r :: rs) (r.render ++ '(' :: s) := by
  have hd : ∀ n, Even3 (List.replicate n '-') := fun n => even3_none (by simp)
  have hda : ∀ (n : Nat), ∀ c ∈ List.replicate n '-', isAngle c = false := by
    intro n c hc; rw [(List.mem_replicate.1 hc).2]; decide
  have hca : ∀ c ∈ r.content, isAngle c = false ∧ isIllegal c = false := fun c hc =>
    ⟨(param_angle (List.all_eq_true.1 (RelText.content_all hr.1) c hc)).1,
      (param_angle (List.all_eq_true.1 (RelText.content_all hr.1) c hc)).2.2.2⟩
  have hsa : ∀ c ∈ r.sp3, isAngle c = false ∧ isIllegal c = false := fun c hc =>
    ⟨(param_angle (space_param (List.all_eq_true.1 hr.1.sp3 c hc))).1, (param_angle (space_param (List.all_eq_true.1 hr.1.sp3 c hc))).2.2.2⟩
  refine ⟨?_, ?_, props_rel hr h.props, rels_rel hr h.rels⟩
  · have e : r.render ++ '(' :: s = (if r.toLeft then c!"<" else []) ++ ((List.replicate (r.dashes1 + 1) '-' ++
        ('[' :: (r.content ++ [']']) ++ List.replicate (r.dashes2 + 1) '-')) ++ ((if r.toRight then c!">" else []) ++
        (r.sp3 ++ '(' :: s))) := by simp [RelText.render]
    have h1 : Bal (r.sp3 ++ '(' :: s) := bal_append (fun c hc => (hsa c hc).1) (even3_space hr.1.sp3) h.bal
    have h2 : Bal ((if r.toRight then c!">" else []) ++ (r.sp3 ++ '(' :: s)) := by
      split
      · exact bal_angle (by decide) h1
      · exact h1
    have h3 := bal_append (u := List.replicate (r.dashes1 + 1) '-' ++ ('[' :: (r.content ++ [']']) ++ List.replicate (r.dashes2 + 1) '-')) (by
      intro c hc
      simp only [List.mem_append, List.mem_cons, List.not_mem_nil, or_false] at hc
      rcases hc with hc | (rfl | hc | rfl) | hc
      · exact hda _ c hc
      · decide
      · exact (hca c hc).1
      · decide
      · exact hda _ c hc)
      (even3_append (hd _) (even3_append (even3_wrap (.inr (.inr ⟨rfl, rfl⟩)) (even3_content hr)) (hd _))) h2
    rw [e]
    split
    · exact bal_angle (by decide) h3
    · exact h3
  · intro c hc
    rcases List.mem_append.1 hc with hc | hc
    · simp only [RelText.render, List.mem_append, List.mem_cons] at hc
      rcases hc with hc | hc | rfl | hc | rfl | hc | hc | hc
      · cases h : r.toLeft <;> simp [h] at hc; subst hc; decide
      · rw [(List.mem_replicate.1 hc).2]; decide
      · decide
      · exact (hca c hc).2
      · decide
      · rw [(List.mem_replicate.1 hc).2]; decide
      · cases h : r.toRight <;> simp [h] at hc; subst hc; decide
      · exact (hsa c hc).2
    · exact h.legal c hc

theorem node_open (n : NodeText) (s : Str) : ∃ t, n.render ++ s = '(' :: t := ⟨_, rfl⟩

theorem accepted_rel_node {r : RelText} (hr : r.Loose) {n : NodeText} {rs : List RelText} {s : Str} (h : Accepted rs (n.render ++ s)) :
    Accepted (r :: rs) (r.render ++ (n.render ++ s)) := by
  obtain ⟨t, e⟩ := node_open n s
  rw [e] at h ⊢
  exact accepted_rel hr h

theorem accepted_chain {c : ChainText} (hc : c.Loose) {rs : List RelText} {s : Str} (h : Accepted rs s) :
    Accepted (c.rels ++ rs) (c.render ++ s) := by
  cases c with
  | one n => exact accepted_node hc h
  | two n r m =>
    simp only [ChainText.render, List.append_assoc]
    exact accepted_node hc.1 (accepted_rel_node hc.2.1 (accepted_node hc.2.2 h))
  | three n r m r' m' =>
    simp only [ChainText.render, List.append_assoc]
    exact accepted_node hc.1 (accepted_rel_node hc.2.1 (accepted_node hc.2.2.1 (accepted_rel_node hc.2.2.2.1 (accepted_node hc.2.2.2.2 h))))

theorem space_mild {u : Str} (h : u.all isSpace = true) : u.all mildChar = true :=
  all_mono (fun c hc => by simp [mildChar, hc]) h

theorem comma_mild : mildChar ',' = true := by simp [mildChar, plainChar, sp_lit, isSpace, isAscii, isIllegal]
theorem semi_mild : mildChar ';' = true := by simp [mildChar, plainChar, sp_lit, isSpace, isAscii, isIllegal]

theorem accepted_rest {l : List (Str × ChainText)} (h : ∀ x ∈ l, x.1.all isSpace = true ∧ x.2.Loose) {rs : List RelText} {s : Str}
    (hs : Accepted rs s) : Accepted (l.flatMap (fun x => x.2.rels) ++ rs) (renderRest l ++ s) := by
  induction l with
  | nil => exact hs
  | cons x l ih =>
    obtain ⟨sp, c⟩ := x
    have hx := h (sp, c) (by simp)
    have ih := ih fun y hy => h y (List.mem_cons_of_mem _ hy)
    have := accepted_mild (u := ',' :: sp) (by rw [List.all_cons, comma_mild, space_mild hx.1]; rfl) (accepted_chain hx.2 ih)
    simpa [renderRest] using this

theorem accepted_stmt_app {up low : Str} (h1 : up.all mildChar = true) (h2 : low.all mildChar = true) {t : StmtText}
    (h : t.Loose up low) {rs : List RelText} {s : Str} (hs : Accepted rs s) : Accepted (t.rels ++ rs) (t.render ++ s) := by
  have hkw : t.kw.all mildChar = true := by rcases h.kw with e | e <;> rw [e] <;> assumption
  have hf := (h.chains t.first (by simp [StmtText.chains])).1
  have hr : ∀ x ∈ t.rest, x.1.all isSpace = true ∧ x.2.Loose := fun x hx =>
    ⟨h.rest x hx, (h.chains x.2 (by simp only [StmtText.chains, List.mem_cons]; exact .inr (List.mem_map_of_mem hx))).1⟩
  have := accepted_mild (u := c!";") (by simp [semi_mild]) hs
  have := accepted_mild hkw (accepted_mild (space_mild h.sp) (accepted_chain hf (accepted_rest hr this)))
  simpa [StmtText.render, StmtText.rels, StmtText.chains, List.flatMap_map] using this

theorem accepted_stmt {up low : Str} (h1 : up.all mildChar = true) (h2 : low.all mildChar = true) {t : StmtText}
    (h : t.Loose up low) : Accepted t.rels t.render := by
  have := accepted_stmt_app h1 h2 h accepted_nil
  rwa [List.append_nil, List.append_nil] at this

/-- The check of relationships, for statements given by their relationships: the first statement without one ends it. -/
def checkRels : List (List RelText) → Except PyErr Unit
  | [] => .ok ()
  | [] :: _ => .ok ()
  | (r :: rs) :: l =>
    match forEach RelText.check (r :: rs) with
    | .error e => .error e
    | .ok _ => checkRels l

theorem forEach_map' {α β : Type} (g : α → β) (f : β → Except PyErr Unit) (l : List α) : forEach f (l.map g) = forEach (fun x => f (g x)) l := by
  induction l with
  | nil => rfl
  | cons x l ih => simp only [List.map_cons, forEach, ih]

theorem forEach_congr' {α : Type} {f g : α → Except PyErr Unit} {l : List α} (h : ∀ x ∈ l, f x = g x) : forEach f l = forEach g l := by
  induction l with
  | nil => rfl
  | cons x l ih => simp only [forEach, h x (by simp), ih fun y hy => h y (List.mem_cons_of_mem _ hy)]

theorem checkRelationships_text {l : List (List RelText × Str)} (h : ∀ x ∈ l, RelsFound x.1 x.2 ∧ ∀ r ∈ x.1, r.OK) :
    checkRelationships (l.map Prod.snd) = checkRels (l.map Prod.fst) := by
  induction l with
  | nil => rfl
  | cons x l ih =>
    obtain ⟨rs, s⟩ := x
    obtain ⟨hs, hok⟩ := h (rs, s) (by simp)
    have ih := ih fun y hy => h y (List.mem_cons_of_mem _ hy)
    simp only [List.map_cons]
    rw [checkRelationships]
    cases rs with
    | nil =>
      have : relDirCheck.finditer s = [] := by simpa [RelsFound] using hs
      simp only [this, checkRels]
    | cons r rs =>
      have e : forEach (fun m : Str × Caps => checkRel m.2) (relDirCheck.finditer s) = forEach RelText.check (r :: rs) := by
        rw [← forEach_map' Prod.snd checkRel, show (relDirCheck.finditer s).map Prod.snd = _ from hs, forEach_map']
        exact forEach_congr' fun x hx => checkRel_text (hok x hx)
      cases hf : relDirCheck.finditer s with
      | nil => rw [RelsFound, hf] at hs; simp at hs
      | cons m ms =>
        rw [hf] at e
        simp only [e, checkRels, ih]
        cases forEach RelText.check (r :: rs) <;> rfl

theorem checkRels_proper {l : List (List RelText)} (h : ∀ rs ∈ l, ∀ r ∈ rs, r.Proper) : checkRels l = .ok () := by
  induction l with
  | nil => rfl
  | cons rs l ih =>
    cases rs with
    | nil => rfl
    | cons r rs =>
      have : forEach RelText.check (r :: rs) = .ok () := forEach_ok.2 fun x hx => check_ok.2 (h _ (by simp) x hx)
      simp only [checkRels, this]
      exact ih fun rs' h' => h rs' (List.mem_cons_of_mem _ h')

/-- For such statements, the checks do what the check of relationships does. -/
theorem validate_loose {l : List (List RelText × Str)} (h : ∀ x ∈ l, Accepted x.1 x.2 ∧ ∀ r ∈ x.1, r.OK) :
    validateStatement (l.map Prod.snd) = checkRels (l.map Prod.fst) := by
  have h1 : checkStatementSyntax (l.map Prod.snd) = .ok () := syntax_ok.2 fun s hs => by
    obtain ⟨x, hx, rfl⟩ := List.mem_map.1 hs
    exact (h x hx).1.bal
  have h2 : checkIllegalCharacters (l.map Prod.snd) = .ok () := illegal_ok.2 fun s hs => by
    obtain ⟨x, hx, rfl⟩ := List.mem_map.1 hs
    exact (h x hx).1.legal
  have h3 : checkNodeRelProperties (l.map Prod.snd) = .ok () := by
    refine forEach_ok.2 fun s hs => forEach_ok.2 fun x hx => ?_
    obtain ⟨y, hy, rfl⟩ := List.mem_map.1 hs
    obtain ⟨m, hm, rfl⟩ := List.mem_map.1 hx
    exact (h y hy).1.props m hm
  simp only [validateStatement, h1, h2, h3]
  exact checkRelationships_text fun x hx => ⟨(h x hx).1.rels, (h x hx).2⟩

end WG
