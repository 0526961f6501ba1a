/-
The pattern regex on nodes, relationships and chains.
-/
import Verif.Proofs.Parse
import Verif.Spec.Pattern

set_option linter.unusedSectionVars false
set_option linter.unusedSimpArgs false

namespace WG
open Re
variable [PyRuntime]

/-! ### Characters -/

theorem word_not_space {c : Char} (h : isWord c = true) : isSpace c = false := by
  unfold isWord at h
  unfold isSpace
  split at h
  · next ha =>
    rw [if_pos ha]
    simp only [Char.isAlphanum, Char.isAlpha, Char.isUpper, Char.isLower, Char.isDigit, Bool.or_eq_true, Bool.and_eq_true,
      decide_eq_true_eq, beq_iff_eq] at h
    simp only [Bool.or_eq_false_iff, Bool.and_eq_false_iff, decide_eq_false_iff_not]
    have hn : c.toNat = c.val.toNat := rfl
    simp only [UInt32.le_iff_toNat_le] at h
    have e1 : 'A'.val.toNat = 65 := rfl
    have e2 : 'a'.val.toNat = 97 := rfl
    have e3 : '0'.val.toNat = 48 := rfl
    simp at h
    rcases h with ((h | h) | h) | h
    · omega
    · omega
    · omega
    · subst h; decide
  · next ha =>
    rw [if_neg ha]
    exact PyRuntime.uWord_uSpace c h

theorem space_not_word {c : Char} (h : isSpace c = true) : isWord c = false := by
  cases hw : isWord c with
  | false => rfl
  | true => rw [word_not_space hw] at h; simp at h

theorem propsChar_iff (c : Char) : isPropsChar c = isParamChar c := by
  rw [Bool.eq_iff_iff]
  simp only [isPropsChar, isParamChar, Bool.or_eq_true, beq_iff_eq, List.contains_iff_mem, List.mem_cons, List.not_mem_nil,
    or_false]
  grind

theorem word_param {c : Char} (h : isWord c = true) : isParamChar c = true := by simp [isParamChar, h]
theorem space_param {c : Char} (h : isSpace c = true) : isParamChar c = true := by simp [isParamChar, h]

theorem all_mono {p q : Char → Bool} {s : Str} (h : ∀ c, p c = true → q c = true) (hs : s.all p = true) :
    s.all q = true := by
  rw [List.all_eq_true] at *
  exact fun c hc => h c (hs c hc)

/-- A single character in the classes. -/
theorem sp_lit : isSpace ':' = false ∧ isSpace '(' = false ∧ isSpace ')' = false ∧ isSpace '[' = false ∧
    isSpace ']' = false ∧ isSpace '{' = false ∧ isSpace '-' = false ∧ isSpace '<' = false ∧ isSpace '>' = false ∧
    isSpace ';' = false ∧ isSpace ',' = false := by simp [isSpace, isAscii]
theorem wd_lit : isWord ':' = false ∧ isWord '(' = false ∧ isWord ')' = false ∧ isWord '[' = false ∧
    isWord ']' = false ∧ isWord '{' = false ∧ isWord '-' = false ∧ isWord '<' = false ∧ isWord '>' = false ∧
    isWord ';' = false ∧ isWord ',' = false := by simp [isWord, isAscii, Char.isAlphanum, Char.isAlpha, Char.isUpper,
      Char.isLower, Char.isDigit]
theorem pc_lit : isParamChar '-' = false ∧ isParamChar ')' = false ∧ isParamChar ']' = true ∧ isParamChar '(' = false ∧
    isParamChar '<' = false ∧ isParamChar '>' = false ∧ isParamChar ';' = false := by
  simp [isParamChar, sp_lit, wd_lit]

/-! ### Greedy tokens -/

theorem notHead_dropWhile (p : Char → Bool) (s : Str) : NotHead p (s.dropWhile p) := by
  induction s with
  | nil => exact notHead_nil p
  | cons c cs ih =>
    rw [List.dropWhile_cons]
    split
    · exact ih
    · next h => exact notHead_cons (by simpa using h)

theorem all_takeWhile (p : Char → Bool) (s : Str) : (s.takeWhile p).all p = true := by
  induction s with
  | nil => rfl
  | cons c cs ih =>
    rw [List.takeWhile_cons]
    split
    · next h => simp [h, ih]
    · rfl

theorem hd_star_greedy (p : Char → Bool) (s : Str) : Hd (.star p) s (s.takeWhile p, s.dropWhile p, []) := by
  have := hd_star (all_takeWhile p s) (notHead_dropWhile p s)
  rwa [List.takeWhile_append_dropWhile] at this

theorem takeWhile_stop {p : Char → Bool} {a b : Str} (ha : a.all p = true) (hb : NotHead p b) :
    (a ++ b).takeWhile p = a ∧ (a ++ b).dropWhile p = b := by
  induction a with
  | nil =>
    cases b with
    | nil => simp
    | cons c cs => simp [hb c cs rfl]
  | cons c cs ih =>
    simp only [List.all_cons, Bool.and_eq_true] at ha
    simp [ha.1, ih ha.2]

/-- A repetition that does not match `x` stops there at the latest. -/
theorem hd_star_close {p : Char → Bool} {x : Char} (hx : p x = false) (C t : Str) :
    Hd (.star p) (C ++ x :: t) (C.takeWhile p, C.dropWhile p ++ x :: t, []) := by
  have h1 := all_takeWhile p C
  have h2 : NotHead p (C.dropWhile p ++ x :: t) := by
    cases h : C.dropWhile p with
    | nil => exact notHead_cons hx
    | cons c cs => exact notHead_cons (notHead_dropWhile p C c cs h)
  have := hd_star h1 h2
  rwa [← List.append_assoc, List.takeWhile_append_dropWhile] at this

/-- An optional colon. -/
def dropColon : Str → Str
  | [] => []
  | c :: cs => if c = ':' then cs else c :: cs

/-- The optional colon that was dropped. -/
def takeColon : Str → Str
  | [] => []
  | c :: _ => if c = ':' then [c] else []

theorem colon_append (s : Str) : takeColon s ++ dropColon s = s := by
  cases s with
  | nil => rfl
  | cons c cs =>
    simp only [takeColon, dropColon]
    split <;> simp

theorem hd_colon_close {x : Char} (hx : x ≠ ':') (C t : Str) :
    Hd (optC (· == ':')) (C ++ x :: t) (takeColon C, dropColon C ++ x :: t, []) := by
  cases C with
  | nil => exact hd_optC_none (notHead_cons (by simpa using hx))
  | cons c cs =>
    simp only [takeColon, dropColon, List.cons_append]
    split
    · next h => subst h; exact hd_optC _ (by simp)
    · next h => exact hd_optC_none (notHead_cons (by simpa using h))

/-- The content of a relationship, after the handle. -/
def relC1 (C : Str) : Str := (C.dropWhile isSpace).dropWhile isWord
/-- … after the colon. -/
def relC2 (C : Str) : Str := (dropColon ((relC1 C).dropWhile isSpace)).dropWhile isSpace
/-- … after the name. -/
def relC3 (C : Str) : Str := ((relC2 C).dropWhile isWord).dropWhile isSpace
/-- The handle. -/
def relHandle (C : Str) : Str := (C.dropWhile isSpace).takeWhile isWord
/-- The name. -/
def relName (C : Str) : Str := (relC2 C).takeWhile isWord

/-- The first way leaves `rest` and captures `caps`. -/
def HdR (r : Re) (s rest : Str) (caps : Caps) : Prop := ∃ w, Hd r s (w, rest, caps)

theorem Hd.toR {r : Re} {s : Str} {m : MRes} (h : Hd r s m) : HdR r s m.2.1 m.2.2 := ⟨m.1, h⟩

theorem HdR.toHd {r : Re} {w rest : Str} {caps : Caps} (h : HdR r (w ++ rest) rest caps) :
    Hd r (w ++ rest) (w, rest, caps) := by
  obtain ⟨v, h⟩ := h
  have := run_append h.mem
  simp only [List.append_cancel_right_eq] at this
  rwa [this] at h

theorem HdR.seq {a b : Re} {s s1 s2 : Str} {c1 c2 : Caps} (ha : HdR a s s1 c1) (hb : HdR b s1 s2 c2) :
    HdR (.seq a b) s s2 (c1 ++ c2) := by
  obtain ⟨w1, h1⟩ := ha
  obtain ⟨w2, h2⟩ := hb
  exact ⟨_, hd_seq h1 h2⟩

/-- The tokens of a relationship's content, followed by `b`. -/
theorem hd_tokens {g1 g2 : Str → Caps} {H L : Re} (hH : ∀ s m, Hd (.star isWord) s m → HdR H s m.2.1 (g1 m.1))
    (hL : ∀ s m, Hd (.star isWord) s m → HdR L s m.2.1 (g2 m.1)) {b : Re} {C t rest : Str} {caps : Caps}
    (hb : HdR b (relC3 C ++ ']' :: t) rest caps) :
    HdR (.seq (.star isSpace) (.seq H (.seq (.star isSpace) (.seq (optC (· == ':')) (.seq (.star isSpace) (.seq L
      (.seq (.star isSpace) b))))))) (C ++ ']' :: t) rest (g1 (relHandle C) ++ (g2 (relName C) ++ caps)) := by
  have hs : isSpace ']' = false := sp_lit.2.2.2.2.1
  have hw : isWord ']' = false := wd_lit.2.2.2.2.1
  have h1 := (hd_star_close hs C t).toR
  have h2 := hH _ _ (hd_star_close hw (C.dropWhile isSpace) t)
  have h3 := (hd_star_close hs (relC1 C) t).toR
  have h4 := (hd_colon_close (x := ']') (by decide) ((relC1 C).dropWhile isSpace) t).toR
  have h5 := (hd_star_close hs (dropColon ((relC1 C).dropWhile isSpace)) t).toR
  have h6 := hL _ _ (hd_star_close hw (relC2 C) t)
  have h7 := (hd_star_close hs ((relC2 C).dropWhile isWord) t).toR
  have h := h1.seq (h2.seq (h3.seq (h4.seq (h5.seq (h6.seq (h7.seq hb))))))
  simpa [relHandle, relName] using h

/-! ### Relationships -/

/-- A text that starts like a relationship: `<?-+[content]-+>?`, white space, and the rest. -/
structure RelAt (s lt d1 C d2 gt sp rest : Str) : Prop where
  eq : s = lt ++ (d1 ++ '[' :: (C ++ ']' :: (d2 ++ (gt ++ (sp ++ rest)))))
  hlt : lt = [] ∨ lt = ['<']
  hd1 : d1.all (· == '-') = true
  hd1' : d1 ≠ []
  hC : C.all isParamChar = true
  hd2 : d2.all (· == '-') = true
  hd2' : d2 ≠ []
  hgt : gt = [] ∨ gt = ['>']
  stop1 : NotHead (· == '-') (gt ++ (sp ++ rest))
  stop2 : gt = [] → NotHead (· == '>') (sp ++ rest)
  hsp : sp.all isSpace = true
  stop3 : NotHead isSpace rest

theorem hd_lt {lt s : Str} (h : lt = [] ∨ lt = ['<']) (hs : NotHead (· == '<') s) :
    Hd (optC (· == '<')) (lt ++ s) (lt, s, []) := by
  rcases h with rfl | rfl
  · exact hd_optC_none hs
  · exact hd_optC _ (by simp)

theorem hd_gt {gt s : Str} (h : gt = [] ∨ gt = ['>']) (hs : gt = [] → NotHead (· == '>') s) :
    Hd (optC (· == '>')) (gt ++ s) (gt, s, []) := by
  rcases h with rfl | rfl
  · exact hd_optC_none (hs rfl)
  · exact hd_optC _ (by simp)

theorem dash_head {d s : Str} (h : d.all (· == '-') = true) (hne : d ≠ []) : ∃ d', d ++ s = '-' :: (d' ++ s) := by
  cases d with
  | nil => simp at hne
  | cons c d =>
    simp only [List.all_cons, Bool.and_eq_true, beq_iff_eq] at h
    exact ⟨d, by simp [h.1]⟩

/-- The arrow after the content. -/
theorem hd_arrow {d2 gt sp rest : Str} {b : Re} {m : MRes} (h2 : d2.all (· == '-') = true) (h2' : d2 ≠ [])
    (hgt : gt = [] ∨ gt = ['>']) (stop1 : NotHead (· == '-') (gt ++ (sp ++ rest)))
    (stop2 : gt = [] → NotHead (· == '>') (sp ++ rest)) (hb : Hd b (sp ++ rest) m) :
    Hd (seqs [plus (· == '-'), optC (· == '>'), b]) (d2 ++ (gt ++ (sp ++ rest))) (d2 ++ (gt ++ m.1), m.2.1, m.2.2) := by
  have := hd_seq (hd_plus' h2 h2' stop1) (hd_seq (hd_gt hgt stop2) hb)
  simpa [seqs] using this

/-- Captured properties. -/
def propsCaps (n : Nat) (C : Str) : Caps := if C = [] then [] else [(n, C)]

/-- Optional properties, then the closing bracket. -/
theorem hd_close {n : Nat} {C d t : Str} {b : Re} {m : MRes} (hC : C.all isParamChar = true)
    (hd : d.all (· == '-') = true) (hd' : d ≠ []) (hb : Hd b (d ++ t) m) :
    HdR (.seq (.opt (.grp n (plus isParamChar))) (.seq (.star isSpace) (.seq (ch ']') b))) (C ++ ']' :: (d ++ t))
      m.2.1 (propsCaps n C ++ m.2.2) := by
  obtain ⟨d', hdt⟩ := dash_head (s := t) hd hd'
  have hstop : NotHead isParamChar (d ++ t) := by rw [hdt]; exact notHead_cons pc_lit.1
  have hfail : Fails (.seq (.star isSpace) (.seq (ch ']') b)) (d ++ t) := by
    refine fails_seq fun x hx => ?_
    have : x = ([], d ++ t, []) := by
      have h1 : NotHead isSpace (d ++ t) := by rw [hdt]; exact notHead_cons sp_lit.2.2.2.2.2.2.1
      simpa [run, starRuns_notHead h1] using hx
    subst this
    exact fails_seq_left (fails_ch (by rw [hdt]; simp))
  have hgood : Hd (.seq (.star isSpace) (.seq (ch ']') b)) (']' :: (d ++ t)) (']' :: m.1, m.2.1, m.2.2) := by
    have := hd_seq (hd_star_none (p := isSpace) (s := ']' :: (d ++ t)) (notHead_cons sp_lit.2.2.2.2.1))
      (hd_seq (hd_ch ']' (d ++ t)) hb)
    simpa using this
  cases C with
  | nil =>
    have hrun : (Re.opt (.grp n (plus isParamChar))).run (']' :: (d ++ t)) =
        [([']'], d ++ t, [(n, [']'])])] ++ [([], ']' :: (d ++ t), [])] := by
      simp [run, plus, pc_lit.2.2.1, starRuns_notHead hstop]
    have := hd_seq_skip (t := []) hrun (by simpa using hfail) hgood
    exact this.toR
  | cons c cs =>
    simp only [List.all_cons, Bool.and_eq_true] at hC
    obtain ⟨u, hu⟩ := starRuns_second hC.2 pc_lit.2.2.1 hstop
    have hrun : (Re.opt (.grp n (plus isParamChar))).run (c :: cs ++ ']' :: (d ++ t)) =
        [(c :: (cs ++ [']']), d ++ t, [(n, c :: (cs ++ [']']))])] ++ (c :: cs, ']' :: (d ++ t), [(n, c :: cs)]) ::
          ((u.map fun x => ((c :: x.1, x.2, [(n, c :: x.1)]) : MRes)) ++ [([], c :: (cs ++ ']' :: (d ++ t)), [])]) := by
      simp [run, plus, hC.1, hu, Function.comp_def]
    have := hd_seq_skip hrun (by simpa using hfail) hgood
    exact this.toR

theorem relC3_suffix (C : Str) : ∃ P, C = P ++ relC3 C := by
  have h : ∀ (p : Char → Bool) (s : Str), ∃ P, s = P ++ s.dropWhile p := fun p s =>
    ⟨_, (List.takeWhile_append_dropWhile (p := p) (l := s)).symm⟩
  have hc : ∀ s : Str, ∃ P, s = P ++ dropColon s := fun s => ⟨_, (colon_append s).symm⟩
  obtain ⟨p1, e1⟩ := h isSpace C
  obtain ⟨p2, e2⟩ := h isWord (C.dropWhile isSpace)
  obtain ⟨p3, e3⟩ := h isSpace (relC1 C)
  obtain ⟨p4, e4⟩ := hc ((relC1 C).dropWhile isSpace)
  obtain ⟨p5, e5⟩ := h isSpace (dropColon ((relC1 C).dropWhile isSpace))
  obtain ⟨p6, e6⟩ := h isWord (relC2 C)
  obtain ⟨p7, e7⟩ := h isSpace ((relC2 C).dropWhile isWord)
  refine ⟨p1 ++ (p2 ++ (p3 ++ (p4 ++ (p5 ++ (p6 ++ p7))))), ?_⟩
  simp only [List.append_assoc]
  rw [show relC3 C = ((relC2 C).dropWhile isWord).dropWhile isSpace from rfl, ← e7, ← e6,
    show relC2 C = (dropColon ((relC1 C).dropWhile isSpace)).dropWhile isSpace from rfl, ← e5, ← e4, ← e3,
    show relC1 C = (C.dropWhile isSpace).dropWhile isWord from rfl, ← e2, ← e1]

theorem relC3_all {C : Str} (h : C.all isParamChar = true) : (relC3 C).all isParamChar = true := by
  obtain ⟨P, e⟩ := relC3_suffix C
  rw [e, List.all_append, Bool.and_eq_true] at h
  exact h.2

/-- The text of a relationship without the white space behind it. -/
def relCore (lt d1 C d2 gt : Str) : Str := lt ++ (d1 ++ '[' :: (C ++ ']' :: (d2 ++ gt)))

theorem RelAt.eq' {s lt d1 C d2 gt sp rest : Str} (h : RelAt s lt d1 C d2 gt sp rest) :
    s = (relCore lt d1 C d2 gt ++ sp) ++ rest := by
  rw [h.eq]; simp [relCore]

theorem RelAt.notLt {s lt d1 C d2 gt sp rest : Str} (h : RelAt s lt d1 C d2 gt sp rest) (t : Str) :
    NotHead (· == '<') (d1 ++ t) := by
  obtain ⟨d', e⟩ := dash_head (s := t) h.hd1 h.hd1'
  rw [e]
  exact notHead_cons (by decide)

/-- The relationship group of the pattern regex. -/
theorem hd_relGrp {s lt d1 C d2 gt sp rest : Str} (h : RelAt s lt d1 C d2 gt sp rest) (i : Nat) :
    Hd (relGrp i) s (relCore lt d1 C d2 gt ++ sp, rest, (gAll i, relCore lt d1 C d2 gt ++ sp) ::
      (gHandle i, relHandle C) :: (gLabel i, relName C) :: propsCaps (gProps i) (relC3 C)) := by
  have hb := hd_arrow h.hd2 h.hd2' h.hgt h.stop1 h.stop2 (hd_star h.hsp h.stop3)
  have hc := hd_close (n := gProps i) (relC3_all h.hC) h.hd2 h.hd2' hb
  have ht := hd_tokens (g1 := fun w => [(gHandle i, w)]) (g2 := fun w => [(gLabel i, w)])
    (H := .grp (gHandle i) (.star isWord)) (L := .grp (gLabel i) (.star isWord))
    (fun s m hm => by
      have := (hd_star_greedy isWord s).unique hm
      subst this
      exact (hd_grp (hd_star_greedy isWord s)).toR)
    (fun s m hm => by
      have := (hd_star_greedy isWord s).unique hm
      subst this
      exact (hd_grp (hd_star_greedy isWord s)).toR)
    hc
  have hd := (hd_lt h.hlt (h.notLt ('[' :: (C ++ ']' :: (d2 ++ (gt ++ (sp ++ rest))))))).toR.seq
    ((hd_plus' h.hd1 h.hd1' (s := '[' :: (C ++ ']' :: (d2 ++ (gt ++ (sp ++ rest))))) (notHead_cons (by decide))).toR.seq
      ((hd_ch '[' _).toR.seq ht))
  simp only [← h.eq] at hd
  rw [h.eq'] at hd
  have := hd_grp (n := gAll i) hd.toHd
  rw [h.eq']
  simpa [relGrp, seqs] using this

/-- The regex of the direction check finds the same relationship, without the white space behind it. -/
theorem hd_relDirCheck {s lt d1 C d2 gt sp rest : Str} (h : RelAt s lt d1 C d2 gt sp rest) :
    Hd relDirCheck s (relCore lt d1 C d2 gt, sp ++ rest, [(0, relCore lt d1 C d2 gt), (1, relName C)]) := by
  have hstop : NotHead isParamChar (d2 ++ (gt ++ (sp ++ rest))) := by
    obtain ⟨d', e⟩ := dash_head (s := gt ++ (sp ++ rest)) h.hd2 h.hd2'
    rw [e]
    exact notHead_cons pc_lit.1
  have hall : (relC3 C ++ [']']).all isParamChar = true := by simp [relC3_all h.hC, pc_lit]
  have hb := (hd_plus' hall (by simp) hstop).toR.seq ((hd_plus' h.hd2 h.hd2' h.stop1).toR.seq (hd_gt h.hgt h.stop2).toR)
  simp only [List.append_assoc, List.cons_append, List.nil_append] at hb
  have ht := hd_tokens (g1 := fun w => []) (g2 := fun w => [(1, w)])
    (H := .star isWord) (L := .grp 1 (.star isWord)) (fun s m hm => by
      have := (hd_star_greedy isWord s).unique hm
      subst this
      exact (hd_star_greedy isWord s).toR)
    (fun s m hm => by
      have := (hd_star_greedy isWord s).unique hm
      subst this
      exact (hd_grp (hd_star_greedy isWord s)).toR)
    hb
  have hd := (hd_lt h.hlt (h.notLt ('[' :: (C ++ ']' :: (d2 ++ (gt ++ (sp ++ rest))))))).toR.seq
    ((hd_plus' h.hd1 h.hd1' (s := '[' :: (C ++ ']' :: (d2 ++ (gt ++ (sp ++ rest))))) (notHead_cons (by decide))).toR.seq
      ((hd_ch '[' _).toR.seq ht))
  simp only [← h.eq] at hd
  rw [h.eq', List.append_assoc] at hd
  have := hd_grp (n := 0) hd.toHd
  rw [h.eq', List.append_assoc]
  simpa [relDirCheck, seqs] using this

/-! ### Nodes -/

theorem notHead_space_of_word {a b : Str} (ha : a.all isWord = true) (hb : a = [] → NotHead isSpace b) :
    NotHead isSpace (a ++ b) := by
  cases a with
  | nil => exact hb rfl
  | cons c cs =>
    simp only [List.all_cons, Bool.and_eq_true] at ha
    exact notHead_cons (word_not_space ha.1)

theorem notHead_word_of_space {a b : Str} (ha : a.all isSpace = true) (hb : a = [] → NotHead isWord b) :
    NotHead isWord (a ++ b) := by
  cases a with
  | nil => exact hb rfl
  | cons c cs =>
    simp only [List.all_cons, Bool.and_eq_true] at ha
    exact notHead_cons (space_not_word ha.1)

/-- Captured properties of a part. -/
def optCaps (n : Nat) : Option Str → Caps
  | none => []
  | some p => [(n, p)]

theorem PropsText.all {p : Str} (h : PropsText p) : p.all isParamChar = true := by
  obtain ⟨r, rfl, hr⟩ := h
  simp only [List.all_cons, Bool.and_eq_true]
  exact ⟨by simp [isParamChar], all_mono (fun c hc => by rwa [← propsChar_iff]) hr⟩

theorem PropsText.ne {p : Str} (h : PropsText p) : p ≠ [] := by
  obtain ⟨r, rfl, _⟩ := h
  simp

/-- Optional properties are followed by neither white space nor a word. -/
theorem props_notHead {props : Option Str} (h : ∀ p, props = some p → PropsText p) (x : Char) (t : Str)
    (p : Char → Bool) (h1 : p '{' = false) (h2 : p x = false) : NotHead p (props.getD [] ++ x :: t) := by
  cases props with
  | none => exact notHead_cons h2
  | some q =>
    obtain ⟨r, rfl, _⟩ := h q rfl
    exact notHead_cons h1

/-- The node group of the pattern regex. -/
theorem hd_nodeGrp {n : NodeText} (h : n.OK) {rest : Str} (hr : NotHead isSpace rest) (i : Nat) :
    Hd (nodeGrp i) (n.render ++ rest) (n.render, rest, (gAll i, n.render) :: (gHandle i, n.handle) ::
      (gLabel i, n.label) :: optCaps (gProps i) n.props) := by
  have s5 := (hd_star h.sp5 hr).toR
  have sc := (hd_ch ')' (n.sp5 ++ rest)).toR
  have sn := (hd_star_none (p := isSpace) (s := ')' :: (n.sp5 ++ rest)) (notHead_cons sp_lit.2.2.1)).toR
  have sp : HdR (.opt (.grp (gProps i) (plus isParamChar))) (n.props.getD [] ++ ')' :: (n.sp5 ++ rest))
      (')' :: (n.sp5 ++ rest)) (optCaps (gProps i) n.props) := by
    have hc : NotHead isParamChar (')' :: (n.sp5 ++ rest)) := notHead_cons pc_lit.2.1
    cases hp : n.props with
    | none => exact (hd_opt_none (fails_grp (fails_plus hc))).toR
    | some p => exact (hd_opt (hd_grp (hd_plus' (h.props p hp).all (h.props p hp).ne hc))).toR
  have s4 := (hd_star (p := isSpace) h.sp4 (props_notHead h.props ')' (n.sp5 ++ rest) isSpace (by simp [sp_lit]) sp_lit.2.2.1)).toR
  have sl := (hd_grp (n := gLabel i) (hd_plus' h.label h.label_ne (notHead_word_of_space h.sp4
    fun _ => props_notHead h.props ')' (n.sp5 ++ rest) isWord (by simp [wd_lit]) wd_lit.2.2.1))).toR
  have s3 := (hd_star (p := isSpace) (s := n.label ++ (n.sp4 ++ (n.props.getD [] ++ ')' :: (n.sp5 ++ rest)))) h.sp3
    (notHead_space_of_word h.label fun e => absurd e h.label_ne)).toR
  have scol := (hd_ch ':' (n.sp3 ++ (n.label ++ (n.sp4 ++ (n.props.getD [] ++ ')' :: (n.sp5 ++ rest)))))).toR
  have s2 := (hd_star (p := isSpace) (s := ':' :: (n.sp3 ++ (n.label ++ (n.sp4 ++ (n.props.getD [] ++ ')' :: (n.sp5 ++ rest))))))
    h.sp2 (notHead_cons sp_lit.1)).toR
  have sh := (hd_grp (n := gHandle i) (hd_star (p := isWord) (s := n.sp2 ++ ':' :: (n.sp3 ++ (n.label ++ (n.sp4 ++
    (n.props.getD [] ++ ')' :: (n.sp5 ++ rest)))))) h.handle
    (notHead_word_of_space h.sp2 fun _ => notHead_cons wd_lit.1))).toR
  have s1 := (hd_star (p := isSpace) (s := n.handle ++ (n.sp2 ++ ':' :: (n.sp3 ++ (n.label ++ (n.sp4 ++
    (n.props.getD [] ++ ')' :: (n.sp5 ++ rest))))))) h.sp1
    (notHead_space_of_word h.handle fun e => by rw [h.noHandle e]; exact notHead_cons sp_lit.1)).toR
  have so := (hd_ch '(' (n.sp1 ++ (n.handle ++ (n.sp2 ++ ':' :: (n.sp3 ++ (n.label ++ (n.sp4 ++
    (n.props.getD [] ++ ')' :: (n.sp5 ++ rest))))))))).toR
  have hd := so.seq (s1.seq (sh.seq (s2.seq (scol.seq (s3.seq (sl.seq (s4.seq (sp.seq (sn.seq (sc.seq s5))))))))))
  have e : n.render ++ rest = '(' :: (n.sp1 ++ (n.handle ++ (n.sp2 ++ ':' :: (n.sp3 ++ (n.label ++ (n.sp4 ++
    (n.props.getD [] ++ ')' :: (n.sp5 ++ rest)))))))) := by simp [NodeText.render]
  rw [← e] at hd
  have := hd_grp (n := gAll i) hd.toHd
  simpa [nodeGrp, seqs] using this

/-! ### Relationships as written -/

theorem RelText.content_all {r : RelText} (h : r.OK) : r.content.all isParamChar = true := by
  have a1 := all_mono (fun c => space_param) h.sp1
  have a2 := all_mono (fun c => word_param) h.handle
  have a3 := all_mono (fun c => space_param) h.sp2
  have a5 : (r.props.getD []).all isParamChar = true := by
    cases hp : r.props with
    | none => rfl
    | some p => exact (h.props p hp).all
  simp only [RelText.content, List.all_append, Bool.and_eq_true]
  refine ⟨a1, a2, a3, ?_, a5⟩
  rcases hn : r.name with _ | ⟨a, l, b⟩
  · rfl
  · have := h.name a l b hn
    simp only [List.all_cons, List.all_append, Bool.and_eq_true]
    exact ⟨by simp [isParamChar], all_mono (fun c => space_param) this.1, all_mono (fun c => word_param) this.2.1,
      all_mono (fun c => space_param) this.2.2.1⟩

/-- The name as written, or nothing. -/
def RelText.nm (r : RelText) : Str := match r.name with
  | none => []
  | some (_, l, _) => l

theorem props_head {props : Option Str} (h : ∀ p, props = some p → PropsText p) (p : Char → Bool) (h1 : p '{' = false) :
    NotHead p (props.getD []) := by
  cases props with
  | none => exact notHead_nil p
  | some q =>
    obtain ⟨r, rfl, _⟩ := h q rfl
    exact notHead_cons h1

theorem RelText.tokens {r : RelText} (h : r.OK) :
    relHandle r.content = r.handle ∧ relName r.content = r.nm ∧ relC3 r.content = r.props.getD [] := by
  obtain ⟨N, hN⟩ : ∃ N, N = (match r.name with
    | none => []
    | some (a, l, b) => ':' :: (a ++ (l ++ b))) ++ r.props.getD [] := ⟨_, rfl⟩
  have hpS := props_head h.props isSpace (by simp [sp_lit])
  have hpW := props_head h.props isWord (by simp [wd_lit])
  have hNS : NotHead isSpace N := by
    rw [hN]
    rcases r.name with _ | ⟨a, l, b⟩
    · exact hpS
    · exact notHead_cons sp_lit.1
  have hNW : NotHead isWord N := by
    rw [hN]
    rcases r.name with _ | ⟨a, l, b⟩
    · exact hpW
    · exact notHead_cons wd_lit.1
  have hc : r.content = r.sp1 ++ (r.handle ++ (r.sp2 ++ N)) := by rw [hN]; rfl
  have e1 := takeWhile_stop (p := isSpace) h.sp1 (b := r.handle ++ (r.sp2 ++ N))
    (notHead_space_of_word h.handle fun e => by rw [h.noHandle e]; exact hNS)
  have e2 := takeWhile_stop (p := isWord) h.handle (b := r.sp2 ++ N) (notHead_word_of_space h.sp2 fun _ => hNW)
  have e3 := takeWhile_stop (p := isSpace) h.sp2 hNS
  have c1 : relC1 r.content = r.sp2 ++ N := by rw [relC1, hc, e1.2, e2.2]
  refine ⟨by rw [relHandle, hc, e1.2, e2.1], ?_⟩
  rw [relName, relC3, relC2, c1, e3.2, RelText.nm, hN]
  rcases hn : r.name with _ | ⟨a, l, b⟩
  · simp only [List.nil_append]
    have : dropColon (r.props.getD []) = r.props.getD [] := by
      cases hp : r.props with
      | none => rfl
      | some p => obtain ⟨q, rfl, _⟩ := h.props p hp; rfl
    rw [this]
    have d1 := takeWhile_stop (p := isSpace) (a := []) rfl hpS
    have d2 := takeWhile_stop (p := isWord) (a := []) rfl hpW
    simp only [List.nil_append] at d1 d2
    rw [d1.2, d2.1, d2.2, d1.2]
    exact ⟨rfl, rfl⟩
  · have hl := h.name a l b hn
    simp only [List.cons_append, List.append_assoc, dropColon, if_pos]
    have d1 := takeWhile_stop (p := isSpace) hl.1 (b := l ++ (b ++ r.props.getD []))
      (notHead_space_of_word hl.2.1 fun e => by rw [hl.2.2.2 e]; exact hpS)
    have d2 := takeWhile_stop (p := isWord) hl.2.1 (b := b ++ r.props.getD []) (notHead_word_of_space hl.2.2.1 fun _ => hpW)
    have d3 := takeWhile_stop (p := isSpace) hl.2.2.1 hpS
    rw [d1.2, d2.1, d2.2, d3.2]
    exact ⟨rfl, rfl⟩

theorem notHead_of_space {a b : Str} {p : Char → Bool} (ha : a.all isSpace = true) (hp : ∀ c, isSpace c = true → p c = false)
    (hb : NotHead p b) : NotHead p (a ++ b) :=
  notHead_append (fun c hc => hp c (List.all_eq_true.1 ha c hc)) hb

theorem RelText.relAt {r : RelText} (h : r.OK) {rest : Str} (hr : NotHead isSpace rest) (h1 : NotHead (· == '-') rest)
    (h2 : NotHead (· == '>') rest) :
    RelAt (r.render ++ rest) (if r.toLeft then c!"<" else []) (List.replicate (r.dashes1 + 1) '-') r.content
      (List.replicate (r.dashes2 + 1) '-') (if r.toRight then c!">" else []) r.sp3 rest where
  eq := by simp [RelText.render]
  hlt := by split <;> simp
  hd1 := by simp
  hd1' := by simp
  hC := RelText.content_all h
  hd2 := by simp
  hd2' := by simp
  hgt := by split <;> simp
  stop1 := by
    split
    · exact notHead_cons (by decide)
    · rw [List.nil_append]
      exact notHead_of_space h.sp3 (fun c hc => by
        simp only [beq_eq_false_iff_ne]
        rintro rfl
        simp [sp_lit] at hc) h1
  stop2 := fun _ => notHead_of_space h.sp3 (fun c hc => by
        simp only [beq_eq_false_iff_ne]
        rintro rfl
        simp [sp_lit] at hc) h2
  hsp := h.sp3
  stop3 := hr

/-- The relationship group of the pattern regex on a relationship as written. -/
theorem hd_relText {r : RelText} (h : r.OK) {rest : Str} (hr : NotHead isSpace rest) (h1 : NotHead (· == '-') rest)
    (h2 : NotHead (· == '>') rest) (i : Nat) :
    Hd (relGrp i) (r.render ++ rest) (r.render, rest, (gAll i, r.render) :: (gHandle i, r.handle) ::
      (gLabel i, r.nm) :: optCaps (gProps i) r.props) := by
  have hd := hd_relGrp (RelText.relAt h hr h1 h2) i
  have ht := RelText.tokens h
  have e : relCore (if r.toLeft then c!"<" else []) (List.replicate (r.dashes1 + 1) '-') r.content
      (List.replicate (r.dashes2 + 1) '-') (if r.toRight then c!">" else []) ++ r.sp3 = r.render := by
    simp [relCore, RelText.render]
  have ep : propsCaps (gProps i) (relC3 r.content) = optCaps (gProps i) r.props := by
    rw [ht.2.2]
    cases hp : r.props with
    | none => rfl
    | some p => simp [propsCaps, optCaps, (h.props p hp).ne]
  rw [e, ht.1, ht.2.1, ep] at hd
  exact hd

end WG
