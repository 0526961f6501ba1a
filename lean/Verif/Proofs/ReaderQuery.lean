/-
The reader of Spec/Reader makes of a query what the parser makes of it.
-/
import Verif.Proofs.Reader
import Verif.Proofs.Checks
import Verif.Props.Exact
import Verif.Props.Spelled

set_option linter.unusedSectionVars false
set_option linter.unusedSimpArgs false

namespace WG
open Re
variable [PyRuntime]

/-! ### Arrows -/

/-- A continuation that needs at least one character in front of `s`. -/
structure Needs (X : Re) (s rest : Str) (f : Str → Caps) : Prop where
  fail : Fails X s
  hit : ∀ t, t ≠ [] → t.all isParamChar = true → HdR X (t ++ s) rest (f t)

theorem skipButLast_drop {p : Char → Bool} {t : Str} (h : t.dropWhile p ≠ []) : skipButLast p t = t.dropWhile p := by
  induction t with
  | nil => rfl
  | cons c cs ih =>
    cases cs with
    | nil =>
      by_cases hc : p c = true
      · rw [List.dropWhile_cons_of_pos hc] at h; simp at h
      · rw [List.dropWhile_cons_of_neg hc]; rfl
    | cons d ds =>
      rw [skipButLast]
      by_cases hc : p c = true
      · rw [List.dropWhile_cons_of_pos hc] at h ⊢
        rw [if_pos hc, ih h]
      · rw [List.dropWhile_cons_of_neg hc, if_neg hc]

theorem skipButLast_last {p : Char → Bool} {u : Str} (x : Char) (h : u.all p = true) : skipButLast p (u ++ [x]) = [x] := by
  induction u with
  | nil => rfl
  | cons c cs ih =>
    simp only [List.all_cons, Bool.and_eq_true] at h
    have ih := ih h.2
    cases hc : cs ++ [x] with
    | nil => simp at hc
    | cons d ds =>
      rw [hc] at ih
      rw [List.cons_append, hc, skipButLast, if_pos h.1, ih]

theorem exists_last {t : Str} (h : t ≠ []) : ∃ u x, t = u ++ [x] :=
  ⟨_, _, (List.dropLast_concat_getLast h).symm⟩

theorem notHead_append_of_ne {p : Char → Bool} {a b : Str} (h : NotHead p a) (hne : a ≠ []) : NotHead p (a ++ b) := by
  cases a with
  | nil => exact absurd rfl hne
  | cons c cs => exact notHead_cons (h c cs rfl)

/-- A repetition in front of such a continuation leaves one character. -/
theorem Needs.star {X R : Re} {s rest : Str} {f : Str → Caps} {g : Str → Caps} {p : Char → Bool} (h : Needs X s rest f)
    (hs : NotHead p s) (hR : ∀ t, R.run t = (starRuns p t).map fun x => (x.1, x.2, g x.1)) :
    Needs (.seq R X) s rest fun t => g (upTo t (skipButLast p t)) ++ f (skipButLast p t) where
  fail := by
    refine fails_seq fun m hm => ?_
    rw [hR, starRuns_notHead hs] at hm
    simp only [List.map_cons, List.map_nil, List.mem_singleton] at hm
    subst hm
    exact h.fail
  hit := by
    intro t hne ha
    have et : t.takeWhile p ++ t.dropWhile p = t := List.takeWhile_append_dropWhile
    by_cases hd : t.dropWhile p = []
    · rw [hd, List.append_nil] at et
      obtain ⟨u, x, hx⟩ := exists_last hne
      have hall := all_takeWhile p t
      rw [et, hx, List.all_append, Bool.and_eq_true] at hall
      have hpx : p x = true := by simpa using hall.2
      obtain ⟨tl, htl⟩ := starRuns_second hall.1 hpx hs
      have hrun : R.run (t ++ s) = [(u ++ [x], s, g (u ++ [x]))] ++ (u, x :: s, g u) :: tl.map fun y => (y.1, y.2, g y.1) := by
        rw [hR, hx, List.append_assoc, List.cons_append, List.nil_append, htl]
        simp
      have hax : [x].all isParamChar = true := by
        rw [hx, List.all_append, Bool.and_eq_true] at ha
        exact ha.2
      obtain ⟨w, hw⟩ := h.hit [x] (by simp) hax
      have := hd_seq_skip hrun (b := X) (by simpa using h.fail) hw
      have e1 : skipButLast p t = [x] := by rw [hx]; exact skipButLast_last x hall.1
      have e2 : upTo t [x] = u := by rw [hx]; exact upTo_append u [x]
      simp only [e1, e2]
      exact this.toR
    · have e1 := skipButLast_drop hd
      have e2 : upTo t (t.dropWhile p) = t.takeWhile p := by
        have := upTo_append (t.takeWhile p) (t.dropWhile p)
        rwa [et] at this
      have hd' : (t.dropWhile p).all isParamChar = true := by
        rw [← et, List.all_append, Bool.and_eq_true] at ha
        exact ha.2
      obtain ⟨w, hw⟩ := h.hit _ hd hd'
      have hn : NotHead p (t.dropWhile p ++ s) := notHead_append_of_ne (notHead_dropWhile p t) hd
      obtain ⟨tl, htl⟩ := starRuns_first (all_takeWhile p t) hn
      rw [← List.append_assoc, et] at htl
      have hR' : Hd R (t ++ s) (t.takeWhile p, t.dropWhile p ++ s, g (t.takeWhile p)) := ⟨_, by rw [hR, htl]; rfl⟩
      have := hd_seq hR' hw
      simp only [e1, e2]
      exact this.toR

/-- So does an optional character. -/
theorem Needs.opt {X : Re} {s rest : Str} {f : Str → Caps} {x : Char} (h : Needs X s rest f) (hs : NotHead (· == x) s) :
    Needs (.seq (optC (· == x)) X) s rest fun t => f (skipOneButLast x t) where
  fail := by
    refine fails_seq fun m hm => ?_
    rcases mem_optC_inv hm with ⟨c, cs, e, hc, rfl⟩ | rfl
    · have := hs c cs e
      simp [hc] at this
    · exact h.fail
  hit := by
    intro t hne ha
    cases t with
    | nil => exact absurd rfl hne
    | cons c cs =>
      by_cases hc : c = x
      · subst hc
        cases cs with
        | nil =>
          obtain ⟨w, hw⟩ := h.hit [c] (by simp) ha
          have hrun : (optC (· == c)).run ([c] ++ s) = [([c], s, [])] ++ ([], c :: s, []) :: [] := by
            simp [optC, run]
          have := hd_seq_skip hrun (b := X) (by simpa using h.fail) hw
          exact this.toR
        | cons d ds =>
          simp only [List.all_cons, Bool.and_eq_true] at ha
          obtain ⟨w, hw⟩ := h.hit (d :: ds) (by simp) (by simp [ha.2])
          have := hd_seq (hd_optC (p := (· == c)) (c := c) (d :: ds ++ s) (by simp)) hw
          simp only [skipOneButLast, if_true]
          exact this.toR
      · obtain ⟨w, hw⟩ := h.hit (c :: cs) (by simp) ha
        have := hd_seq (hd_optC_none (p := (· == x)) (s := c :: cs ++ s) (notHead_cons (by simpa using hc))) hw
        have e : skipOneButLast x (c :: cs) = c :: cs := by
          cases cs with
          | nil => rfl
          | cons d ds => simp [skipOneButLast, hc]
        simp only [e]
        exact this.toR

/-- The name of an arrow. -/
def arrowName (t : Str) : Str :=
  let c1 := skipButLast isSpace (skipButLast isWord (skipButLast isSpace t))
  let c2 := skipButLast isSpace (skipOneButLast ':' c1)
  upTo c2 (skipButLast isWord c2)

theorem needs_arrow {d2 gt u : Str} (h2 : d2.all (· == '-') = true) (h2' : d2 ≠ []) (hgt : gt = [] ∨ gt = ['>'])
    (stop1 : NotHead (· == '-') (gt ++ u)) (stop2 : gt = [] → NotHead (· == '>') u) :
    Needs (seqs [.star isSpace, .star isWord, .star isSpace, optC (· == ':'), .star isSpace, .grp 1 (.star isWord), .star isSpace,
      plus isParamChar, plus (· == '-'), optC (· == '>')]) (d2 ++ (gt ++ u)) u fun t => [(1, arrowName t)] := by
  obtain ⟨d', hd⟩ := dash_head (s := gt ++ u) h2 h2'
  have hp : ∀ p : Char → Bool, p '-' = false → NotHead p (d2 ++ (gt ++ u)) := by
    intro p hp
    rw [hd]
    exact notHead_cons hp
  have hbase : Needs (.seq (plus isParamChar) (.seq (plus (· == '-')) (optC (· == '>')))) (d2 ++ (gt ++ u)) u fun _ => [] :=
    { fail := fails_seq_left (fails_plus (hp _ pc_lit.1))
      hit := fun t hne ha => by
        have := (hd_plus' ha hne (hp _ pc_lit.1)).toR.seq ((hd_plus' h2 h2' stop1).toR.seq (hd_gt hgt stop2).toR)
        simpa using this }
  have hsp : isSpace '-' = false := sp_lit.2.2.2.2.2.2.1
  have hwd : isWord '-' = false := by simp [isWord, isAscii]
  have s1 := hbase.star (R := .star isSpace) (g := fun _ => []) (hp _ hsp) (fun t => rfl)
  have s2 := s1.star (R := .grp 1 (.star isWord)) (g := fun w => [(1, w)]) (hp _ hwd) (fun t => by simp [run])
  have s3 := s2.star (R := .star isSpace) (g := fun _ => []) (hp _ hsp) (fun t => rfl)
  have s4 := s3.opt (x := ':') (hp _ (by decide))
  have s5 := s4.star (R := .star isSpace) (g := fun _ => []) (hp _ hsp) (fun t => rfl)
  have s6 := s5.star (R := .star isWord) (g := fun _ => []) (hp _ hwd) (fun t => rfl)
  have s7 := s6.star (R := .star isSpace) (g := fun _ => []) (hp _ hsp) (fun t => rfl)
  exact s7

/-- An arrow as the check sees it: the text, from the opening bracket to the next dash. -/
structure ArrowAt (s lt d1 t d2 gt u : Str) : Prop where
  eq : s = lt ++ (d1 ++ '[' :: (t ++ (d2 ++ (gt ++ u))))
  hlt : lt = [] ∨ lt = ['<']
  hd1 : d1.all (· == '-') = true
  hd1' : d1 ≠ []
  ht : t.all isParamChar = true
  ht' : t ≠ []
  hd2 : d2.all (· == '-') = true
  hd2' : d2 ≠ []
  hgt : gt = [] ∨ gt = ['>']
  stop1 : NotHead (· == '-') (gt ++ u)
  stop2 : gt = [] → NotHead (· == '>') u

theorem arrowAt_of_prefix {s lt d1 t v : Str} (e : s = lt ++ (d1 ++ '[' :: (t ++ '-' :: v)))
    (hlt : lt = [] ∨ lt = ['<']) (h1 : d1.all (· == '-') = true) (h1' : d1 ≠ []) (ht : t.all isParamChar = true) (ht' : t ≠ []) :
    ∃ d2 gt u, ArrowAt s lt d1 t d2 gt u := by
  obtain ⟨d, r, ed, hd, hr⟩ := notHead_dash_after v
  obtain ⟨g, r', eg, hg, hg'⟩ := gt_after r
  refine ⟨'-' :: d, g, r', ?_⟩
  exact
  { eq := by rw [← eg, e, ed]; simp
    hlt := hlt, hd1 := h1, hd1' := h1', ht := ht, ht' := ht'
    hd2 := by simpa using hd
    hd2' := by simp
    hgt := hg
    stop1 := by rw [← eg]; exact hr
    stop2 := hg' }

theorem arrowAt_of_mem {s : Str} {m : MRes} (h : m ∈ relDirCheck.run s) : ∃ lt d1 t d2 gt u, ArrowAt s lt d1 t d2 gt u := by
  obtain ⟨m0, k, rfl⟩ := mem_grp_inv h
  obtain ⟨a1, h1, x1, k10, -⟩ := mem_seq_inv k
  obtain ⟨a2, h2, x2, k20, -⟩ := mem_seq_inv k10
  obtain ⟨a3, h3, x3, k30, -⟩ := mem_seq_inv k20
  obtain ⟨a4, h4, x4, k40, -⟩ := mem_seq_inv k30
  obtain ⟨a5, h5, x5, k50, -⟩ := mem_seq_inv k40
  obtain ⟨a6, h6, x6, k60, -⟩ := mem_seq_inv k50
  obtain ⟨a7, h7, x7, k70, -⟩ := mem_seq_inv k60
  obtain ⟨a8, h8, x8, k80, -⟩ := mem_seq_inv k70
  obtain ⟨a9, h9, x9, k90, -⟩ := mem_seq_inv k80
  obtain ⟨b1, h10, y1, k100, -⟩ := mem_seq_inv k90
  obtain ⟨b2, h11, y2, k110, -⟩ := mem_seq_inv k100
  obtain ⟨b3, h12, y3, k120, -⟩ := mem_seq_inv k110
  obtain ⟨e2, p2, n2, -⟩ := mem_plus_inv h2
  obtain ⟨cs3, e3, rfl⟩ := mem_ch_inv h3
  obtain ⟨e4, p4, -⟩ := mem_star_inv h4
  obtain ⟨e5, p5, -⟩ := mem_star_inv h5
  obtain ⟨e6, p6, -⟩ := mem_star_inv h6
  obtain ⟨e8, p8, -⟩ := mem_star_inv h8
  obtain ⟨m9, k9, rfl⟩ := mem_grp_inv h9
  obtain ⟨e9, p9, -⟩ := mem_star_inv k9
  obtain ⟨e10, p10, -⟩ := mem_star_inv h10
  obtain ⟨e11, p11, n11, -⟩ := mem_plus_inv h11
  obtain ⟨e12, p12, n12, -⟩ := mem_plus_inv h12
  have e1 := run_append h1
  have e7 := run_append h7
  have p7 : a7.1.all isParamChar = true := by
    rcases mem_optC_inv h7 with ⟨c, cs, _, hc, rfl⟩ | rfl
    · simp only [beq_iff_eq] at hc
      subst hc
      simp [isParamChar]
    · rfl
  obtain ⟨d', ed⟩ := dash_head (s := b3.2.1) p12 n12
  refine (fun ⟨d2, gt, u, h⟩ => ⟨a1.1, a2.1, a4.1 ++ (a5.1 ++ (a6.1 ++ (a7.1 ++ (a8.1 ++ (m9.1 ++ (b1.1 ++ b2.1)))))),
    d2, gt, u, h⟩) (arrowAt_of_prefix (v := d' ++ b3.2.1) ?_ ?_ p2 n2 ?_ ?_)
  · simp only at *
    rw [← e1, ← e2, e3, ← e4, ← e5, ← e6, ← e7, ← e8, ← e9, ← e10, ← e11, ← e12, ed]
    simp
  · rcases mem_optC_inv h1 with ⟨c, cs, _, hc, rfl⟩ | rfl
    · simp only [beq_iff_eq] at hc
      subst hc
      exact .inr rfl
    · exact .inl rfl
  · have w := fun {s : Str} (h : s.all isWord = true) => all_mono (fun c => word_param) h
    have q := fun {s : Str} (h : s.all isSpace = true) => all_mono (fun c => space_param) h
    simp only [List.all_append, Bool.and_eq_true]
    exact ⟨q p4, w p5, q p6, p7, q p8, w p9, q p10, p11⟩
  · simp only at *
    simp [n11]

/-- The text of an arrow. -/
def arrowText (lt d1 t d2 gt : Str) : Str := lt ++ (d1 ++ '[' :: (t ++ (d2 ++ gt)))

theorem ArrowAt.eq' {s lt d1 t d2 gt u : Str} (h : ArrowAt s lt d1 t d2 gt u) : s = arrowText lt d1 t d2 gt ++ u := by
  rw [h.eq, arrowText]
  simp

theorem ArrowAt.notLt {s lt d1 t d2 gt u : Str} (h : ArrowAt s lt d1 t d2 gt u) (v : Str) : NotHead (· == '<') (d1 ++ v) := by
  obtain ⟨d', e⟩ := dash_head (s := v) h.hd1 h.hd1'
  rw [e]
  exact notHead_cons (by decide)

theorem hd_relDir {s lt d1 t d2 gt u : Str} (h : ArrowAt s lt d1 t d2 gt u) :
    Hd relDirCheck s (arrowText lt d1 t d2 gt, u, [(0, arrowText lt d1 t d2 gt), (1, arrowName t)]) := by
  have h1 := (needs_arrow h.hd2 h.hd2' h.hgt h.stop1 h.stop2).hit t h.ht' h.ht
  have h2 := (hd_ch '[' (t ++ (d2 ++ (gt ++ u)))).toR.seq h1
  have h3 := (hd_plus' h.hd1 h.hd1' (notHead_cons (by decide))).toR.seq h2
  have h4 := (hd_lt h.hlt (h.notLt _)).toR.seq h3
  simp only [List.nil_append] at h4
  rw [← h.eq, h.eq'] at h4
  have := hd_grp (n := 0) h4.toHd
  rw [← h.eq'] at this
  exact this

theorem dashes {d : Str} (h : d.all (· == '-') = true) (h' : d ≠ []) : ∃ d', d = '-' :: d' ∧ d'.all (· == '-') = true := by
  cases d with
  | nil => exact absurd rfl h'
  | cons c cs =>
    simp only [List.all_cons, Bool.and_eq_true, beq_iff_eq] at h
    exact ⟨cs, by rw [h.1], h.2⟩

theorem readArrow_of {s lt d1 t d2 gt u : Str} (h : ArrowAt s lt d1 t d2 gt u) :
    readArrow s = some ((arrowText lt d1 t d2 gt, arrowName t), u) := by
  have hup : upTo s u = arrowText lt d1 t d2 gt := by rw [h.eq', upTo_append]
  have e1 : skipChar '<' s = d1 ++ '[' :: (t ++ (d2 ++ (gt ++ u))) := by
    rw [h.eq]
    rcases h.hlt with e | e
    · rw [e, List.nil_append]
      exact skipChar_miss (h.notLt _)
    · rw [e]
      exact skipChar_hit _ _
  obtain ⟨d1', hd1⟩ := dashes h.hd1 h.hd1'
  obtain ⟨d2', hd2⟩ := dashes h.hd2 h.hd2'
  have e2 : skipChar '<' s = '-' :: (d1' ++ '[' :: (t ++ '-' :: (d2' ++ (gt ++ u)))) := by
    rw [e1, hd1.1, hd2.1]
    simp
  have e3 := takeWhile_stop h.ht (notHead_cons (cs := d2' ++ (gt ++ u)) pc_lit.1)
  have e4 : skipChar '>' ((d2' ++ (gt ++ u)).dropWhile (· == '-')) = u := by
    rw [dropWhile_stop hd2.2 h.stop1]
    rcases h.hgt with e | e
    · rw [e, List.nil_append]
      exact skipChar_miss (h.stop2 e)
    · rw [e]
      exact skipChar_hit _ _
  have e5 := dropWhile_stop hd1.2 (notHead_cons (p := (· == '-')) (c := '[') (cs := t ++ '-' :: (d2' ++ (gt ++ u))) (by decide))
  rw [readArrow, e2]
  simp only [afterChar_some.2 rfl, Option.bind_eq_bind, Option.bind_some, e5, props_eq_param, e3, e4, hup]
  rw [if_neg (by simpa using h.ht')]
  rfl

theorem readArrow_at {s rest : Str} {a : Str × Str} (h : readArrow s = some (a, rest)) :
    ∃ lt d1 t d2 gt u, ArrowAt s lt d1 t d2 gt u := by
  simp only [readArrow, Option.bind_eq_bind, Option.bind_eq_some_iff, props_eq_param] at h
  obtain ⟨s1, h1, s2, h2, s3, h3, h⟩ := h
  rw [afterChar_some] at h1 h2 h3
  split at h
  · simp at h
  · rename_i hl
    have es2 : s2 = s2.takeWhile isParamChar ++ '-' :: s3 := by
      have := List.takeWhile_append_dropWhile (p := isParamChar) (l := s2)
      rw [h3] at this
      exact this.symm
    have es1 : '-' :: s1 = ('-' :: s1.takeWhile (· == '-')) ++ '[' :: s2 := by
      rw [List.cons_append, ← h2, List.takeWhile_append_dropWhile]
    obtain ⟨lt, hlt, es⟩ : ∃ lt, (lt = [] ∨ lt = ['<']) ∧ s = lt ++ '-' :: s1 := by
      cases s with
      | nil => simp [skipChar, afterChar] at h1
      | cons c cs =>
        by_cases hc : c = '<'
        · subst hc
          rw [skipChar_hit] at h1
          exact ⟨['<'], .inr rfl, by rw [h1]; rfl⟩
        · rw [skipChar_miss (notHead_cons (by simpa using hc))] at h1
          exact ⟨[], .inl rfl, h1⟩
    have := arrowAt_of_prefix (s := s) (lt := lt) (d1 := '-' :: s1.takeWhile (· == '-')) (t := s2.takeWhile isParamChar) (v := s3)
      (by rw [← es2, es, es1]) hlt (by simp) (by simp) (all_takeWhile _ _) (by simpa using hl)
    obtain ⟨d2, gt, u, h⟩ := this
    exact ⟨_, _, _, _, _, _, h⟩

theorem agrees_arrow : Agrees relDirCheck readArrow fun m => ((capGet 0 m.2).getD [], (capGet 1 m.2).getD []) where
  none := by
    intro s h
    refine fails_of fun m hm => ?_
    obtain ⟨lt, d1, t, d2, gt, u, hr⟩ := arrowAt_of_mem hm
    rw [readArrow_of hr] at h
    simp at h
  some := by
    intro s a rest h
    obtain ⟨lt, d1, t, d2, gt, u, hr⟩ := readArrow_at h
    have e := readArrow_of hr
    rw [h] at e
    simp only [Option.some.injEq, Prod.mk.injEq] at e
    obtain ⟨rfl, rfl⟩ := e
    refine ⟨_, _, hd_relDir hr, ?_, ?_⟩
    · simp [arrowText]
    · simp [capGet_cons]

/-! ### Checks -/

theorem forM_forEach {α : Type} (f : α → Except PyErr Unit) (l : List α) : l.forM f = forEach f l := by
  induction l with
  | nil => rfl
  | cons x l ih =>
    rw [forEach, ← ih]
    cases h : f x with
    | error e => simp [List.forM_cons, h, bind, Except.bind]
    | ok u => simp [List.forM_cons, h, bind, Except.bind]

theorem forEach_map {α β : Type} (f : β → Except PyErr Unit) (g : α → β) (l : List α) :
    forEach f (l.map g) = forEach (fun x => f (g x)) l := by
  induction l with
  | nil => rfl
  | cons x l ih => rw [List.map_cons, forEach, forEach, ih]

theorem forEach_skip {α : Type} {f : α → Except PyErr Unit} {x : α} (l : List α) (h : f x = .ok ()) : forEach f (x :: l) = forEach f l := by
  rw [forEach, h]

/-- Empty pieces do not matter. -/
theorem pieces_split {f : Str → Except PyErr Unit} (h : f [] = .ok ()) (s : Str) :
    (∃ w ws ws', splitClassAux isAngle false s = w :: ws ∧ pieces s = w :: ws' ∧ forEach f ws = forEach f ws') ∧
    forEach f (splitClassAux isAngle true s) = forEach f (pieces s) := by
  induction s with
  | nil => exact ⟨⟨[], [], [], rfl, rfl, rfl⟩, rfl⟩
  | cons c cs ih =>
    obtain ⟨⟨w, ws, ws', h1, h2, h3⟩, h4⟩ := ih
    by_cases hc : c = '<' ∨ c = '>'
    · have hc' : isAngle c = true := by simpa [isAngle] using hc
      simp only [splitClassAux, pieces, hc, hc', if_true]
      refine ⟨⟨[], _, _, rfl, rfl, h4⟩, ?_⟩
      rw [forEach_skip _ h]
      simpa using h4
    · have hc' : isAngle c = false := by simpa [isAngle] using hc
      simp only [splitClassAux, pieces, hc, hc', if_false, h1, h2, Bool.false_eq_true]
      refine ⟨⟨_, _, _, rfl, rfl, h3⟩, ?_⟩
      rw [forEach, forEach, h3]

theorem bind_if {b : Prop} [Decidable b] (e : PyErr) (k : Unit → Except PyErr Unit) :
    (unless' b e >>= k) = if b then k () else .error e := by
  unfold unless'
  split <;> rfl

theorem howOften_two (a b : Char) (s : Str) : howOften [a, b] s = s.countP fun c => c == a || c == b := by
  unfold howOften
  congr 1
  funext c
  rw [Bool.eq_iff_iff]
  simp

theorem howOften_one (a : Char) (s : Str) : howOften [a] s = s.countP (· == a) := by
  unfold howOften
  congr 1
  funext c
  rw [Bool.eq_iff_iff]
  simp

theorem howOften_illegal (s : Str) : howOften c!"#%&*$" s = 0 ↔ s.any isIllegal = false := by
  unfold howOften
  rw [List.countP_eq_zero, List.any_eq_false]
  refine forall_congr' fun c => imp_congr Iff.rfl ?_
  simp [isIllegal, List.contains_cons, Bool.or_assoc]

theorem checkPiece_read (w : Str) : checkPiece w = (do
    unless' (howOften c!"()" w % 2 = 0) .clauseSyntax
    unless' (howOften c!"{}" w % 2 = 0) .clauseSyntax
    unless' (howOften c!"[]" w % 2 = 0) .clauseSyntax) := by
  rw [bind_if, bind_if, howOften_two, howOften_two, howOften_two, checkPiece, unless']
  have : ∀ n : Nat, n % 2 = 1 ↔ ¬ n % 2 = 0 := by omega
  simp only [this, ite_not]

theorem listValChar_close : isListValChar ']' = false := by
  simp [isListValChar, sp_lit, wd_lit]

theorem checkChar_close : isCheckChar '}' = false := by
  have h1 : isWord '}' = false := by simp [isWord, isAscii]
  have h2 : isSpace '}' = false := by simp [isSpace, isAscii]
  simp [isCheckChar, h1, h2]

theorem agrees_listValue : Agrees listValue (readBetween '[' ']' isItemChar) Prod.fst := by
  rw [itemChar_eq]
  exact (agrees_between listValChar_close).grp 0

theorem agrees_checkProps : Agrees checkProps (readBetween '{' '}' isBraceChar) Prod.fst := by
  rw [braceChar_eq]
  exact (agrees_between checkChar_close).grp 0

theorem checkList_read : checkList = fun l =>
    match literalEval l with
    | .ok _ => .ok ()
    | .error .syntaxError => .error .paramSyntax
    | .error .valueError => .error .value
    | .error .other => .error .other := by
  funext l
  unfold checkList
  generalize literalEval l = r
  rcases r with (_ | _ | _) | _ <;> rfl

theorem checkParams_read (w : Str) : checkParams w = (do
    let w := replace c!"null" c!"None" (replace c!"false" c!"False" (replace c!"true" c!"True" w))
    let out := leave (readBetween '[' ']' isItemChar) w
    unless' (howOften c!"," out + 1 = howOften c!":" out) .paramSyntax
    (scan (readBetween '[' ']' isItemChar) w).forM fun l =>
      match literalEval l with
      | .ok _ => .ok ()
      | .error .syntaxError => .error .paramSyntax
      | .error .valueError => .error .value
      | .error .other => .error .other) := by
  simp only [bind_if, forM_forEach, ← agrees_listValue.finditer, ← agrees_listValue.erase, howOften_one]
  rw [← checkList_read, checkParams, checkPropertySyntax]
  change _ = if List.countP (· == ',') (listValue.erase (pyKeywords w)) + 1 = List.countP (· == ':') (listValue.erase (pyKeywords w))
    then forEach checkList ((listValue.finditer (pyKeywords w)).map Prod.fst) else .error .paramSyntax
  simp only [countChar]
  by_cases h : List.countP (· == ',') (listValue.erase (pyKeywords w)) + 1 = List.countP (· == ':') (listValue.erase (pyKeywords w))
  · simp [h]
  · simp [h]

theorem checkRel_read (m : Str × Caps) : checkRel m.2 = (do
    unless' ('<' ∈ (capGet 0 m.2).getD [] ↔ '>' ∉ (capGet 0 m.2).getD []) .nonDirected
    unless' ((capGet 1 m.2).getD [] = [] ∨ isUpperStr ((capGet 1 m.2).getD []) = true) .relationshipName) := by
  rw [bind_if, unless', checkRel]
  generalize (capGet 0 m.2).getD [] = p
  generalize (capGet 1 m.2).getD [] = n
  by_cases h1 : '<' ∈ p <;> by_cases h2 : '>' ∈ p <;> simp [h1, h2]
  all_goals
    by_cases h3 : n = [] <;> by_cases h4 : isUpperStr n = true <;> simp [h3, h4]

theorem checkRelationships_read (stmts : List Str) : checkRelationships stmts =
    ((stmts.takeWhile fun s => !(scan readArrow s).isEmpty).forM fun s => (scan readArrow s).forM fun a => do
      unless' ('<' ∈ a.1 ↔ '>' ∉ a.1) .nonDirected
      unless' (a.2 = [] ∨ isUpperStr a.2 = true) .relationshipName) := by
  induction stmts with
  | nil => rfl
  | cons s ss ih =>
    rw [checkRelationships]
    have hs := agrees_arrow.finditer s
    cases hf : relDirCheck.finditer s with
    | nil =>
      rw [hf] at hs
      simp only [List.map_nil] at hs
      rw [List.takeWhile_cons_of_neg (by simp [← hs])]
      rfl
    | cons m ms =>
      rw [hf] at hs
      rw [List.takeWhile_cons_of_pos (by simp [← hs]), forM_forEach, forEach, ← forM_forEach, ← ih, ← hs, forM_forEach, forEach_map]
      have hc := forEach_congr (l := m :: ms) fun m _ => checkRel_read m
      simp only [hc]
      generalize forEach _ (m :: ms) = r
      cases r <;> rfl

theorem in_order (a b c d : Except PyErr Unit) :
    (match a with
    | .error e => .error e
    | .ok _ =>
      match b with
      | .error e => .error e
      | .ok _ =>
        match c with
        | .error e => .error e
        | .ok _ => d) = (do a; b; c; d) := by
  cases a <;> cases b <;> cases c <;> rfl

theorem validate_read (stmts : List Str) : validateStatement stmts = readChecks stmts := by
  have h1 : checkStatementSyntax stmts = (stmts.forM fun s => (pieces s).forM fun w => do
      unless' (howOften c!"()" w % 2 = 0) .clauseSyntax
      unless' (howOften c!"{}" w % 2 = 0) .clauseSyntax
      unless' (howOften c!"[]" w % 2 = 0) .clauseSyntax) := by
    rw [checkStatementSyntax, forM_forEach]
    refine forEach_congr fun s _ => ?_
    rw [forM_forEach, ← forEach_congr fun w _ => checkPiece_read w]
    obtain ⟨⟨w, ws, ws', e1, e2, e3⟩, -⟩ := pieces_split (f := checkPiece) rfl s
    rw [splitClass, e1, e2, forEach, forEach, e3]
  have h2 : checkIllegalCharacters stmts = stmts.forM fun s => unless' (howOften c!"#%&*$" s = 0) .illegalCharacter := by
    rw [checkIllegalCharacters, forM_forEach]
    refine forEach_congr fun s _ => ?_
    rw [illegalRe, search_cls, unless']
    simp only [howOften_illegal]
    cases s.any isIllegal <;> simp
  have h3 : checkNodeRelProperties stmts = (stmts.forM fun s => (scan (readBetween '{' '}' isBraceChar) s).forM fun w => do
      let w := replace c!"null" c!"None" (replace c!"false" c!"False" (replace c!"true" c!"True" w))
      let out := leave (readBetween '[' ']' isItemChar) w
      unless' (howOften c!"," out + 1 = howOften c!":" out) .paramSyntax
      (scan (readBetween '[' ']' isItemChar) w).forM fun l =>
        match literalEval l with
        | .ok _ => .ok ()
        | .error .syntaxError => .error .paramSyntax
        | .error .valueError => .error .value
        | .error .other => .error .other) := by
    rw [checkNodeRelProperties, forM_forEach]
    refine forEach_congr fun s _ => ?_
    rw [checkStmtProps, forM_forEach, agrees_checkProps.finditer]
    exact forEach_congr fun w _ => checkParams_read w
  rw [validateStatement, h1, h2, h3, checkRelationships_read]
  unfold readChecks
  exact in_order _ _ _ _

/-! ### Queries -/

theorem starts_of_length {a w t : Str} (h : a <+: w ++ t) (hl : a.length = w.length) : w = a :=
  ((List.prefix_of_prefix_length_le h ⟨_, rfl⟩ (by omega)).eq_of_length hl).symm

theorem cs_iff {kw up low q s : Str} (hu : up.length = kw.length) (hl : low.length = kw.length) (hs : s ∈ scan (readStatement kw) q) :
    ((clauseAllCS up low).matchAt s).isSome = true ↔ (up <+: s ∨ low <+: s) := by
  refine ⟨cs_starts, fun h => ?_⟩
  obtain ⟨t, rest, hr⟩ := scan_mem hs
  obtain ⟨w, sp, body, tail, s', e, rfl, rfl, hw, hsp, hb, hn, ht, hs'⟩ := readStatement_some hr
  have hlen := ciSpelling_length hw
  refine cs_match ?_ hsp hb hn
  rcases h with h | h
  · exact .inl (starts_of_length h (by omega))
  · exact .inr (starts_of_length h (by omega))

theorem reportCS_iff {q s : Str} (hs : s ∈ scan readReport q) :
    (reportAllCS.matchAt s).isSome = true ↔ (c!"REPORT" <+: s ∨ c!"report" <+: s) := by
  refine ⟨reportCS_starts, fun h => ?_⟩
  obtain ⟨t, rest, hr⟩ := scan_mem hs
  obtain ⟨w, body, tail, s', e, rfl, rfl, hw, hb, hn, ht, hs'⟩ := readReport_some hr
  have hlen := ciSpelling_length hw
  refine report_cs ?_ hb hn
  rcases h with h | h
  · exact .inl (starts_of_length h hlen.symm)
  · exact .inr (starts_of_length h hlen.symm)

theorem handleNames_read (p : ParsedPattern) : p.handleNames = handlesIn p := by
  have : (fun t : PartText => if truthy t.handle then t.handle else none) = fun t => t.handle.bind orNone := by
    funext t
    cases h : t.handle with
    | none => rfl
    | some x => cases x <;> simp [truthy, orNone]
  unfold ParsedPattern.handleNames handlesIn ParsedPattern.parts
  rw [this]

theorem validatePatterns_read (ps : List ParsedPattern) :
    validatePatterns ps = if ∀ p ∈ ps, (handlesIn p).Nodup then .ok ps else .error .makeDuplicateHandles := by
  induction ps with
  | nil => simp [validatePatterns]
  | cons p ps ih =>
    rw [validatePatterns, ParsedPattern.validate, handleNames_read, ih]
    by_cases h1 : (handlesIn p).Nodup
    · by_cases h2 : ∀ p ∈ ps, (handlesIn p).Nodup
      · rw [if_pos h1, if_pos h2, if_pos (by simpa [h1] using h2)]
      · rw [if_pos h1, if_neg h2, if_neg (by simpa [h1] using h2)]
    · have h2 : ¬ ∀ x ∈ p :: ps, (handlesIn x).Nodup := fun h => h1 (h p List.mem_cons_self)
      rw [if_neg h1, if_neg h2]

theorem extract_read {q : Str} {clause : Clause} {r : Re} {f : Str → Option (Str × Str)} {P : Prop} [Decidable P]
    (hr : clauseRe clause = some r) (ha : Agrees r f Prod.fst)
    (hc : checkClauseSpelling q clause = if P then .error .clauseSyntax else .ok ()) :
    extractAllStatements q clause = match scan f q with
      | [] => if P then .error .clauseSyntax else .ok none
      | s :: ss => .ok (some (s :: ss)) := by
  rw [extract_def, hr]
  simp only [ha.finditer, hc]
  cases scan f q with
  | nil => by_cases h : P <;> simp [h]
  | cons s ss => rfl

theorem spelling_read {l : List (Str × Caps)} {P : Prop} [Decidable P] (h : l ≠ [] ↔ P) :
    (if l.isEmpty then (.ok () : Except PyErr Unit) else .error .clauseSyntax) = if P then .error .clauseSyntax else .ok () := by
  cases l with
  | nil => rw [if_neg fun hp => h.2 hp rfl]; rfl
  | cons x l => rw [if_pos (h.1 (by simp))]; rfl

open Classical in
theorem extract_make_read (q : Str) : extractAllStatements q .make = match scan (readStatement c!"make") q with
      | [] => if LooksMisspelt c!"make" q then .error .clauseSyntax else .ok none
      | s :: ss => .ok (some (s :: ss)) :=
  extract_read rfl (agrees_clause c!"make") (spelling_read (spelling_iff c!"make" q))

open Classical in
theorem extract_find_read (q : Str) : extractAllStatements q .find = match scan (readStatement c!"find") q with
      | [] => if LooksMisspelt c!"find" q then .error .clauseSyntax else .ok none
      | s :: ss => .ok (some (s :: ss)) :=
  extract_read rfl (agrees_clause c!"find") (spelling_read (spelling_iff c!"find" q))

open Classical in
theorem extract_report_read (q : Str) : extractAllStatements q .report = match scan readReport q with
      | [] => if LooksMisspeltReport q then .error .clauseSyntax else .ok none
      | s :: ss => .ok (some (s :: ss)) :=
  extract_read rfl agrees_report (spelling_read (reportSpelling_iff q))

theorem buildMake_read {q s : Str} (hs : s ∈ scan (readStatement c!"make") q) : buildParsedMake s = readOneMake s := by
  have hcs := cs_iff (kw := c!"make") (up := c!"MAKE") (low := c!"make") rfl rfl hs
  rw [buildParsedMake, statementPatterns_scan, validatePatterns_read, makeAllCS, readOneMake]
  unfold unless'
  by_cases h1 : ∀ p ∈ scan readPattern s, (handlesIn p).Nodup
  · by_cases h2 : c!"MAKE" <+: s ∨ c!"make" <+: s
    · rw [if_pos h1, if_pos h1, if_pos h2]
      simp only [if_pos (hcs.2 h2)]
      rfl
    · rw [if_pos h1, if_pos h1, if_neg h2]
      simp only [if_neg (fun h => h2 (hcs.1 h))]
      rfl
  · rw [if_neg h1, if_neg h1]
    rfl

theorem buildMakes_read {q : Str} {l : List Str} (h : ∀ s ∈ l, s ∈ scan (readStatement c!"make") q) :
    buildParsedMakes l = l.mapM readOneMake := by
  induction l with
  | nil => rfl
  | cons s ss ih =>
    rw [buildParsedMakes, ih fun x hx => h x (by simp [hx]), List.mapM_cons, buildMake_read (h s (by simp))]
    cases readOneMake s with
    | error e => rfl
    | ok m => cases ss.mapM readOneMake <;> rfl

theorem parseMake_read (q : Str) : parseMake q = readMake q := by
  rw [parseMake, extract_make_read, readMake]
  have hb := buildMakes_read (q := q) (l := scan (readStatement c!"make") q) fun s hs => hs
  revert hb
  cases scan (readStatement c!"make") q with
  | nil =>
    intro _
    rw [if_pos rfl]
    by_cases h : LooksMisspelt c!"make" q
    · simp only [unless', if_pos h, if_neg (not_not_intro h)]; rfl
    · simp only [unless', if_pos h, if_neg h]; rfl
  | cons s ss =>
    intro hb
    rw [if_neg (List.cons_ne_nil s ss)]
    simp only [validate_read, hb]
    cases readChecks (s :: ss) with
    | error e => rfl
    | ok u => cases List.mapM readOneMake (s :: ss) <;> rfl

theorem parseFind_read (q : Str) : parseFind q = readFind q := by
  rw [parseFind, extract_find_read, readFind]
  have hcs : ∀ s ∈ scan (readStatement c!"find") q, ((findAllCS.matchAt s).isSome = true ↔ (c!"FIND" <+: s ∨ c!"find" <+: s)) :=
    fun s hs => cs_iff (kw := c!"find") (up := c!"FIND") (low := c!"find") rfl rfl hs
  revert hcs
  cases scan (readStatement c!"find") q with
  | nil =>
    intro _
    by_cases h : LooksMisspelt c!"find" q
    · simp only [unless', if_pos h, if_neg (not_not_intro h)]; rfl
    · simp only [unless', if_pos h, if_neg h]; rfl
  | cons s ss =>
    intro hcs
    replace hcs := hcs s (by simp)
    cases ss with
    | cons t ts => rfl
    | nil =>
      simp only [validate_read, ne_eq, not_true_eq_false, if_false]
      cases readChecks [s] with
      | error e => rfl
      | ok u =>
        simp only [buildParsedFind, statementPatterns_scan]
        cases scan readPattern s with
        | nil => rfl
        | cons p ps =>
          simp only [ParsedPattern.validate, handleNames_read, unless']
          by_cases h1 : (handlesIn p).Nodup
          · by_cases h2 : c!"FIND" <+: s ∨ c!"find" <+: s
            · simp only [if_pos h1, if_pos h2, if_pos (hcs.2 h2)]
              rfl
            · simp only [if_pos h1, if_neg h2, if_neg (fun h => h2 (hcs.1 h))]
              rfl
          · simp only [if_neg h1]
            rfl

theorem parseReport_read (q : Str) (hs : List Str) : parseReport q hs = readReports q hs := by
  rw [parseReport, extract_report_read, readReports]
  have hcs : ∀ s ∈ scan readReport q, ((reportAllCS.matchAt s).isSome = true ↔ (c!"REPORT" <+: s ∨ c!"report" <+: s)) :=
    fun s hs => reportCS_iff hs
  revert hcs
  cases scan readReport q with
  | nil =>
    intro _
    by_cases h : LooksMisspeltReport q
    · simp only [unless', if_pos h, if_neg (not_not_intro h)]; rfl
    · simp only [unless', if_pos h, if_neg h]; rfl
  | cons s ss =>
    intro hcs
    replace hcs := hcs s (by simp)
    cases ss with
    | cons t ts => rfl
    | nil =>
      have hall : (hs.all fun x => isSubstr x s) = true ↔ ∀ x ∈ hs, x <:+: s := by
        rw [List.all_eq_true]
        exact ⟨fun h x hx => (isSubstr_iff _ _).1 (h x hx), fun h x hx => (isSubstr_iff _ _).2 (h x hx)⟩
      simp only [ne_eq, not_true_eq_false, if_false, checkFindReportHandles, unless']
      by_cases h1 : ∀ x ∈ hs, x <:+: s
      · by_cases h2 : c!"REPORT" <+: s ∨ c!"report" <+: s
        · simp only [if_pos (hall.2 h1), if_pos h1, if_pos h2, if_pos (hcs.2 h2)]
          rfl
        · simp only [if_pos (hall.2 h1), if_pos h1, if_neg h2, if_neg (fun h => h2 (hcs.1 h))]
          rfl
      · simp only [if_neg h1, if_neg fun h => h1 (hall.1 h)]
        rfl

theorem parseQuery_read (q : Str) : parseQueryString q = readQuery q := by
  rw [parseQueryString, readQuery, parseMake_read, parseFind_read]
  cases readMake q with
  | error e => rfl
  | ok mk =>
    cases hf : readFind q with
    | error e => rfl
    | ok f =>
      cases f with
      | none => rfl
      | some f =>
        simp only [parseReport_read, ParsedPattern.patternHandles, handleNames_read]
        cases hr : readReports q (handlesIn f.pattern) with
        | error e => simp [bind, Except.bind, hr]
        | ok r => simp [bind, Except.bind, hr, pure, Except.pure]

end WG
