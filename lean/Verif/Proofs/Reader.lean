/-
The reader of Spec/Reader takes what the regular expressions take.
-/
import Verif.Spec.Reader
import Verif.Proofs.Rel
import Verif.Proofs.Accept
import Verif.Proofs.Report
import Verif.Proofs.LiteralInv

set_option linter.unusedSectionVars false
set_option linter.unusedSimpArgs false

namespace WG
open Re
variable [PyRuntime]

/-! ### Going through a text -/

theorem hd_shorter {r : Re} {s w rest : Str} {caps : Caps} (h : Hd r s (w, rest, caps)) (hw : w ≠ []) : rest.length < s.length :=
  rest_shorter h.mem hw

theorem hd_ne_nil {r : Re} {s w rest : Str} {caps : Caps} (h : Hd r s (w, rest, caps)) (hw : w ≠ []) : s ≠ [] := by
  rintro rfl
  have := hd_shorter h hw
  simp at this

/-- What a reader and a regular expression have in common. -/
structure Agrees {α : Type} (r : Re) (f : Str → Option (α × Str)) (g : Str × Caps → α) : Prop where
  none : ∀ s, f s = none → Fails r s
  some : ∀ s a rest, f s = some (a, rest) → ∃ w caps, Hd r s (w, rest, caps) ∧ w ≠ [] ∧ g (w, caps) = a

theorem Agrees.finditer {α : Type} {r : Re} {f : Str → Option (α × Str)} {g : Str × Caps → α} (h : Agrees r f g) (s : Str) :
    (r.finditer s).map g = scan f s := by
  have : ∀ n (s : Str), s.length ≤ n → (r.finditer s).map g = scanN f n s := by
    intro n
    induction n with
    | zero =>
      intro s hs
      have : s = [] := List.length_eq_zero_iff.1 (by omega)
      subst this
      cases hf : f [] with
      | none => rw [finditer_nil (h.none _ hf)]; simp [scanN]
      | some x =>
        obtain ⟨w, caps, h1, h2, _⟩ := h.some [] x.1 x.2 hf
        exact absurd rfl (hd_ne_nil h1 h2)
    | succ n ih =>
      intro s hs
      cases hf : f s with
      | none =>
        have h1 := h.none _ hf
        cases s with
        | nil => rw [finditer_nil h1]; simp [scanN]
        | cons c cs =>
          rw [finditer_fail h1, scanN]
          simp only [hf]
          exact ih cs (by simpa using hs)
      | some x =>
        obtain ⟨w, caps, h1, h2, h3⟩ := h.some s x.1 x.2 hf
        have hl := hd_shorter h1 h2
        cases s with
        | nil => simp at hl
        | cons c cs =>
          rw [finditer_hit h1 h2, scanN]
          simp only [hf, List.map_cons, h3]
          rw [ih x.2 (by omega)]
  exact this _ _ (Nat.le_refl _)

theorem Agrees.erase {α : Type} {r : Re} {f : Str → Option (α × Str)} {g : Str × Caps → α} (h : Agrees r f g) (s : Str) :
    r.erase s = leave f s := by
  have : ∀ n (s : Str), s.length ≤ n → r.erase s = leaveN f n s := by
    intro n
    induction n with
    | zero =>
      intro s hs
      have : s = [] := List.length_eq_zero_iff.1 (by omega)
      subst this
      rfl
    | succ n ih =>
      intro s hs
      cases s with
      | nil => rfl
      | cons c cs =>
        rw [leaveN]
        cases hf : f (c :: cs) with
        | none =>
          rw [erase_fail (h.none _ hf)]
          simp only
          rw [ih cs (by simpa using hs)]
        | some x =>
          obtain ⟨w, caps, h1, h2, h3⟩ := h.some _ x.1 x.2 hf
          have hl := hd_shorter h1 h2
          rw [erase_hit h1 h2]
          simp only
          exact ih x.2 (by omega)
  exact this _ _ (Nat.le_refl _)

theorem solid_scan {α : Type} {r : Re} {f : Str → Option (α × Str)} {g : Str × Caps → α}
    (hn : ∀ s, f s = none → OnlyEmpty r s)
    (hs : ∀ s a rest, f s = some (a, rest) → ∃ w caps, Hd r s (w, rest, caps) ∧ w ≠ [] ∧ g (w, caps) = a) (s : Str) :
    (solid (r.finditer s)).map g = scan f s := by
  have : ∀ n (s : Str), s.length ≤ n → (solid (r.finditer s)).map g = scanN f n s := by
    intro n
    induction n with
    | zero =>
      intro s hl
      have : s = [] := List.length_eq_zero_iff.1 (by omega)
      subst this
      rw [solid_onlyEmpty_nil (onlyEmpty_nil r)]
      simp [scanN]
    | succ n ih =>
      intro s hl
      cases s with
      | nil => rw [solid_onlyEmpty_nil (onlyEmpty_nil r)]; simp [scanN]
      | cons c cs =>
        rw [scanN]
        cases hf : f (c :: cs) with
        | none =>
          rw [solid_onlyEmpty (hn _ hf)]
          exact ih cs (by simpa using hl)
        | some x =>
          obtain ⟨w, caps, h1, h2, h3⟩ := hs _ x.1 x.2 hf
          have hl' := hd_shorter h1 h2
          rw [solid_hit h1 h2]
          simp only [List.map_cons, h3]
          rw [ih x.2 (by omega)]
  exact this _ _ (Nat.le_refl _)

/-! ### Characters and words -/

theorem afterChar_some {c : Char} {s t : Str} : afterChar c s = some t ↔ s = c :: t := by
  cases s with
  | nil => simp [afterChar]
  | cons d s =>
    by_cases h : d = c
    · simp [afterChar, h]
    · simp [afterChar, h]

theorem afterChar_none {c : Char} {s : Str} : afterChar c s = none ↔ ∀ t, s ≠ c :: t := by
  rw [← Option.not_isSome_iff_eq_none, Option.isSome_iff_exists]
  simp [afterChar_some]

theorem upTo_append (w rest : Str) : upTo (w ++ rest) rest = w := by
  simp [upTo]

theorem afterWord_some {kw s t : Str} : afterWord kw s = some t ↔ ∃ w, CISpelling kw w ∧ s = w ++ t := by
  induction kw generalizing s with
  | nil =>
    constructor
    · intro h
      simp only [afterWord, Option.some.injEq] at h
      exact ⟨[], trivial, h⟩
    · rintro ⟨w, hw, rfl⟩
      cases w with
      | nil => rfl
      | cons c cs => exact absurd hw (by simp [CISpelling])
  | cons k ks ih =>
    cases s with
    | nil =>
      simp only [afterWord, false_iff, reduceCtorEq]
      rintro ⟨w, hw, e⟩
      cases w with
      | nil => exact absurd hw (by simp [CISpelling])
      | cons c cs => simp at e
    | cons c cs =>
      simp only [afterWord]
      split
      · rename_i hc
        rw [ih]
        constructor
        · rintro ⟨w, hw, rfl⟩
          exact ⟨c :: w, ⟨hc, hw⟩, rfl⟩
        · rintro ⟨w, hw, e⟩
          cases w with
          | nil => exact absurd hw (by simp [CISpelling])
          | cons d ds =>
            simp only [List.cons_append, List.cons.injEq] at e
            exact ⟨ds, hw.2, e.2⟩
      · rename_i hc
        simp only [false_iff, reduceCtorEq]
        rintro ⟨w, hw, e⟩
        cases w with
        | nil => exact absurd hw (by simp [CISpelling])
        | cons d ds =>
          simp only [List.cons_append, List.cons.injEq] at e
          rw [e.1] at hc
          exact hc hw.1

theorem afterWord_none {kw s : Str} : afterWord kw s = none ↔ ∀ w t, s = w ++ t → ¬ CISpelling kw w := by
  rw [← Option.not_isSome_iff_eq_none, Option.isSome_iff_exists]
  simp only [afterWord_some]
  constructor
  · intro h w t e hw
    exact h ⟨t, w, hw, e⟩
  · rintro h ⟨t, w, hw, e⟩
    exact h w t e hw

theorem afterLast_some {x s t : Str} (h : afterLast x s = some t) : ∃ b, s = b ++ (x ++ t) := by
  induction s generalizing t with
  | nil => simp [afterLast] at h
  | cons c cs ih =>
    rw [afterLast] at h
    cases hl : afterLast x cs with
    | some u =>
      simp only [hl, Option.some_or, Option.some.injEq] at h
      subst h
      obtain ⟨b, e⟩ := ih hl
      exact ⟨c :: b, by rw [e]; rfl⟩
    | none =>
      simp only [hl, Option.none_or] at h
      split at h
      · rename_i hp
        have hp := List.isPrefixOf_iff_prefix.1 hp
        obtain ⟨u, e⟩ := hp
        refine ⟨[], ?_⟩
        simp only [Option.some.injEq] at h
        rw [← e] at h ⊢
        simp only [List.drop_left] at h
        rw [h, List.nil_append]
      · simp at h

theorem afterLast_none {x s : Str} (hx : x ≠ []) (h : afterLast x s = none) : ¬ x <:+: s := by
  induction s with
  | nil =>
    rintro ⟨a, b, e⟩
    cases a <;> simp_all
  | cons c cs ih =>
    rw [afterLast, Option.or_eq_none_iff] at h
    rintro ⟨a, b, e⟩
    cases a with
    | nil =>
      have : x.isPrefixOf (c :: cs) = true := List.isPrefixOf_iff_prefix.2 ⟨b, by simpa using e⟩
      rw [if_pos this] at h
      simp at h
    | cons d a =>
      simp only [List.cons_append, List.cons.injEq] at e
      exact ih h.1 ⟨a, b, e.2⟩

/-- Behind the last occurrence of a text there is no other. -/
theorem afterLast_last {x s t : Str} (hx : x ≠ []) (h : afterLast x s = some t) : ¬ x <:+: t := by
  induction s generalizing t with
  | nil => simp [afterLast] at h
  | cons c cs ih =>
    rw [afterLast] at h
    cases hl : afterLast x cs with
    | some u =>
      simp only [hl, Option.some_or, Option.some.injEq] at h
      subst h
      exact ih hl
    | none =>
      simp only [hl, Option.none_or] at h
      split at h
      · rename_i hp
        simp only [Option.some.injEq] at h
        subst h
        have h1 := afterLast_none hx hl
        intro h2
        refine h1 (h2.trans ?_)
        obtain ⟨y, ys, rfl⟩ := List.exists_cons_of_ne_nil hx
        simp only [List.length_cons, List.drop_succ_cons]
        exact (List.drop_suffix _ _).isInfix
      · simp at h

/-! ### Statements -/

theorem afterWord_spelt {kw w : Str} (h : CISpelling kw w) (t : Str) : afterWord kw (w ++ t) = some t :=
  afterWord_some.2 ⟨w, h, rfl⟩

theorem dropWhile_stop {p : Char → Bool} {a b : Str} (ha : a.all p = true) (hb : NotHead p b) : (a ++ b).dropWhile p = b :=
  (takeWhile_stop ha hb).2

theorem line_all {u : Str} (h : '\n' ∉ u) : u.all (fun c => decide (c ≠ '\n')) = true := by
  rw [List.all_eq_true]
  intro c hc
  simp only [ne_eq, decide_not, Bool.not_eq_eq_eq_not, Bool.not_true, decide_eq_false_iff_not]
  rintro rfl
  exact h hc

theorem lineEnd_dropWhile (s : Str) : LineEnd (s.dropWhile fun c => decide (c ≠ '\n')) := by
  induction s with
  | nil => exact .inl rfl
  | cons c cs ih =>
    by_cases h : c = '\n'
    · subst h
      exact .inr ⟨cs, by simp⟩
    · rw [List.dropWhile_cons_of_pos (by simpa using h)]
      exact ih

theorem noNL_takeWhile (s : Str) : '\n' ∉ s.takeWhile fun c => decide (c ≠ '\n') := by
  intro h
  have := List.all_eq_true.1 (all_takeWhile (fun c => decide (c ≠ '\n')) s) _ h
  simp at this

theorem takeWhile_line {u v : Str} (h : '\n' ∉ u) :
    (u ++ v).takeWhile (fun c => decide (c ≠ '\n')) = u ++ v.takeWhile fun c => decide (c ≠ '\n') := by
  rw [List.takeWhile_append_of_pos]
  exact fun c hc => List.all_eq_true.1 (line_all h) c hc

theorem lineEnd_head {s : Str} (h : LineEnd s) {c : Char} {cs : Str} (e : s = c :: cs) : c = '\n' := by
  rcases h with rfl | ⟨s', rfl⟩
  · simp at e
  · simpa using (List.cons.inj e).1.symm

/-- `.+` and the last closing text `x` of the line. -/
theorem hd_lastDots {b : Re} {x body tail s : Str} (hxl : '\n' ∉ x) (hb : body ≠ []) (hn : '\n' ∉ body)
    (ht : ¬ x <:+: tail) (ho : ∀ v1 v2, x = v1 ++ v2 → v1 ≠ [] → v2 ≠ [] → ¬ v2 <+: x)
    (hs : LineEnd s) (hbx : ∀ t, Hd b (x ++ t) (x, t, [])) (hbf : ∀ t, ¬ x <+: t → Fails b t) :
    Hd (.seq (plus isDot) b) (body ++ (x ++ (tail ++ s))) (body ++ x, tail ++ s, []) := by
  have := hd_dots (b := b) (u := body) (v := x ++ tail) (s := s) (m := (x, tail ++ s, [])) hb hn hs.notDot ?_ ?_
  · simpa using this
  · intro v1 v2 e h1
    refine hbf _ fun hp => ?_
    have hp2 : x <+: v2 := by
      rcases List.prefix_or_prefix_of_prefix hp (List.prefix_append v2 s) with h | h
      · exact h
      · obtain ⟨z, hz⟩ := h
        obtain ⟨y, hy⟩ := hp
        rw [← hz, List.append_assoc, List.append_cancel_left_eq] at hy
        cases z with
        | nil => rw [← hz]; simp
        | cons c z =>
          have := lineEnd_head hs hy.symm
          subst this
          exact absurd (by rw [← hz]; simp) hxl
    rcases List.append_eq_append_iff.1 e with ⟨z, e1, e2⟩ | ⟨z, e1, e2⟩
    · exact ht (hp2.isInfix.trans (by rw [e2]; exact (List.suffix_append z v2).isInfix))
    · cases z with
      | nil =>
        simp only [List.nil_append] at e2
        exact ht (by rw [← e2]; exact hp2.isInfix)
      | cons c z =>
        refine ho v1 (c :: z) e1 h1 (by simp) ?_
        rw [e2] at hp2
        rcases List.prefix_or_prefix_of_prefix hp2 (List.prefix_append (c :: z) tail) with h | h
        · have hl := h.length_le
          rw [e1, List.length_append] at hl
          exact absurd (List.length_eq_zero_iff.1 (by omega)) h1
        · exact h
  · rw [List.append_assoc]
    exact hbx _

theorem closing_overlap : ∀ v1 v2 : Str, c!");" = v1 ++ v2 → v1 ≠ [] → v2 ≠ [] → ¬ v2 <+: c!");" := by
  intro v1 v2 e h1 h2
  match v1, h1 with
  | [a], _ =>
    simp only [List.cons_append, List.nil_append, List.cons.injEq] at e
    rw [← e.2]
    decide
  | a :: b :: v, _ =>
    simp only [List.cons_append, List.cons.injEq, List.nil_eq, List.append_eq_nil_iff] at e
    exact absurd e.2.2.2 h2

theorem hd_clause {kw w sp body tail s : Str} (hw : CISpelling kw w) (hsp : sp.all isSpace = true) (hb : body ≠ [])
    (hn : '\n' ∉ body) (ht : ¬ c!");" <:+: tail) (hs : LineEnd s) :
    Hd (clauseAll kw) (stmtText w sp body ++ (tail ++ s))
      (stmtText w sp body, tail ++ s, [(0, stmtText w sp body), (1, w)]) := by
  have h1 : Hd (seqs [plus isDot, ch ')', ch ';']) (body ++ (c!");" ++ (tail ++ s))) (body ++ c!");", tail ++ s, []) := by
    refine hd_lastDots (b := .seq (ch ')') (ch ';')) (by decide) hb hn ht closing_overlap hs (fun t => ?_) fun t h => ?_
    · exact hd_seq (hd_ch _ _) (hd_ch _ _)
    · refine fails_of fun m hm => ?_
      obtain ⟨m1, h1, m2, h2, rfl⟩ := mem_seq_inv hm
      obtain ⟨cs, e1, rfl⟩ := mem_ch_inv h1
      obtain ⟨cs', e2, rfl⟩ := mem_ch_inv h2
      simp only at e2
      exact h ⟨cs', by rw [e1, e2]; rfl⟩
  have h2 := hd_grp (n := 0) (hd_seq (hd_keyword hw (sp ++ '(' :: (body ++ (c!");" ++ (tail ++ s)))))
    (hd_seq (hd_star hsp (s := '(' :: (body ++ (c!");" ++ (tail ++ s)))) (notHead_cons (by simp [isSpace, isAscii])))
      (hd_seq (hd_ch '(' _) h1)))
  have e : stmtText w sp body ++ (tail ++ s) = w ++ (sp ++ '(' :: (body ++ (c!");" ++ (tail ++ s)))) := by
    simp [stmtText]
  rw [e]
  change Hd (clauseAll kw) _ _ at h2
  simpa [stmtText] using h2

theorem readStatement_some {kw s a rest : Str} (h : readStatement kw s = some (a, rest)) :
    ∃ w sp body tail s', s = stmtText w sp body ++ (tail ++ s') ∧ rest = tail ++ s' ∧ a = stmtText w sp body ∧ CISpelling kw w ∧
      sp.all isSpace = true ∧ body ≠ [] ∧ '\n' ∉ body ∧ ¬ c!");" <:+: tail ∧ LineEnd s' := by
  simp only [readStatement, Option.bind_eq_bind, Option.bind_eq_some_iff, Option.some.injEq, Prod.mk.injEq] at h
  obtain ⟨s1, h1, s2, h2, t, h3, rfl, rfl⟩ := h
  obtain ⟨w, hw, rfl⟩ := afterWord_some.1 h1
  have h2 := afterChar_some.1 h2
  obtain ⟨b, e⟩ := afterLast_some h3
  have hl := noNL_takeWhile s2
  cases hline : s2.takeWhile (fun c => decide (c ≠ '\n')) with
  | nil => rw [hline] at e; simp at e
  | cons c l =>
    rw [hline] at e hl h3
    simp only [List.drop_succ_cons, List.drop_zero] at e h3
    have es : w ++ s1 = stmtText w (s1.takeWhile isSpace) (c :: b) ++ (t ++ s2.dropWhile fun c => decide (c ≠ '\n')) := by
      have e1 : s1 = s1.takeWhile isSpace ++ '(' :: s2 := by rw [← h2, List.takeWhile_append_dropWhile]
      have e2 : s2 = c :: (b ++ (c!");" ++ t)) ++ s2.dropWhile fun c => decide (c ≠ '\n') := by
        rw [← e, ← hline, List.takeWhile_append_dropWhile]
      conv => lhs; rw [e1, e2]
      simp [stmtText]
    refine ⟨w, _, c :: b, t, _, es, rfl, ?_, hw, all_takeWhile _ _, by simp, ?_, afterLast_last (by simp) h3, lineEnd_dropWhile _⟩
    · rw [es]
      exact upTo_append _ _
    · intro hc
      refine hl ?_
      rw [e]
      simp only [List.mem_cons, List.mem_append] at hc ⊢
      grind

theorem agrees_clause (kw : Str) : Agrees (clauseAll kw) (readStatement kw) Prod.fst where
  none := by
    intro s h
    refine fails_of fun m hm => ?_
    obtain ⟨w, sp, body, e, _, hw, hsp, hb, hn⟩ := clauseAll_inv hm
    rw [e] at h
    simp only [readStatement, stmtText, List.append_assoc, afterWord_spelt hw, Option.bind_eq_bind, Option.bind_some,
      List.cons_append, dropWhile_stop hsp (notHead_cons (sp_lit.2.1)), afterChar_some.2 rfl] at h
    rw [Option.bind_eq_none_iff] at h
    have hne : afterLast c!");" (((body ++ (c!");" ++ m.2.1)).takeWhile fun c => decide (c ≠ '\n')).drop 1) ≠ none := by
      intro h0
      refine afterLast_none (by simp) h0 ?_
      rw [← List.append_assoc, takeWhile_line (by simp [hn])]
      cases body with
      | nil => exact absurd rfl hb
      | cons c b => exact ⟨b, m.2.1.takeWhile (fun c => decide (c ≠ '\n')), by simp⟩
    obtain ⟨t, ht⟩ := Option.ne_none_iff_exists'.1 hne
    have := h t (by simpa using ht)
    simp at this
  some := by
    intro s a rest h
    obtain ⟨w, sp, body, tail, s', e, rfl, rfl, hw, hsp, hb, hn, ht, hs⟩ := readStatement_some h
    exact ⟨_, _, by rw [e]; exact hd_clause hw hsp hb hn ht hs, by simp [stmtText], rfl⟩

theorem readReport_some {s a rest : Str} (h : readReport s = some (a, rest)) :
    ∃ w body tail s', s = (w ++ (body ++ c!";")) ++ (tail ++ s') ∧ rest = tail ++ s' ∧ a = w ++ (body ++ c!";") ∧
      CISpelling c!"report" w ∧ body ≠ [] ∧ '\n' ∉ body ∧ ';' ∉ tail ∧ LineEnd s' := by
  simp only [readReport, Option.bind_eq_bind, Option.bind_eq_some_iff, Option.some.injEq, Prod.mk.injEq] at h
  obtain ⟨s1, h1, t, h3, rfl, rfl⟩ := h
  obtain ⟨w, hw, rfl⟩ := afterWord_some.1 h1
  obtain ⟨b, e⟩ := afterLast_some h3
  have hl := noNL_takeWhile s1
  cases hline : s1.takeWhile (fun c => decide (c ≠ '\n')) with
  | nil => rw [hline] at e; simp at e
  | cons c l =>
    rw [hline] at e hl h3
    simp only [List.drop_succ_cons, List.drop_zero] at e h3
    have es : w ++ s1 = (w ++ ((c :: b) ++ c!";")) ++ (t ++ s1.dropWhile fun c => decide (c ≠ '\n')) := by
      have e2 : s1 = c :: (b ++ (c!";" ++ t)) ++ s1.dropWhile fun c => decide (c ≠ '\n') := by
        rw [← e, ← hline, List.takeWhile_append_dropWhile]
      conv => lhs; rw [e2]
      simp
    refine ⟨w, c :: b, t, _, es, rfl, ?_, hw, by simp, ?_, ?_, lineEnd_dropWhile _⟩
    · rw [es]
      exact upTo_append _ _
    · intro hc
      refine hl ?_
      rw [e]
      simp only [List.mem_cons, List.mem_append] at hc ⊢
      grind
    · intro hc
      obtain ⟨u, v, e⟩ := List.append_of_mem hc
      exact afterLast_last (by simp) h3 ⟨u, v, by simp [e]⟩

theorem agrees_report : Agrees reportAll readReport Prod.fst where
  none := by
    intro s h
    refine fails_of fun m hm => ?_
    obtain ⟨w, body, e, _, hw, hb, hn⟩ := reportAll_inv hm
    rw [e] at h
    simp only [readReport, List.append_assoc, afterWord_spelt hw, Option.bind_eq_bind, Option.bind_some] at h
    rw [Option.bind_eq_none_iff] at h
    have hne : afterLast c!";" (((body ++ (c!";" ++ m.2.1)).takeWhile fun c => decide (c ≠ '\n')).drop 1) ≠ none := by
      intro h0
      refine afterLast_none (by simp) h0 ?_
      rw [← List.append_assoc, takeWhile_line (by simp [hn])]
      cases body with
      | nil => exact absurd rfl hb
      | cons c b => exact ⟨b, m.2.1.takeWhile (fun c => decide (c ≠ '\n')), by simp⟩
    obtain ⟨t, ht⟩ := Option.ne_none_iff_exists'.1 hne
    have := h t (by simpa using ht)
    simp at this
  some := by
    intro s a rest h
    obtain ⟨w, body, tail, s', e, rfl, rfl, hw, hb, hn, ht, hs⟩ := readReport_some h
    exact ⟨_, _, by rw [e]; exact hd_reportAll hw hb hn ht hs, by simp, rfl⟩

/-! ### Nodes -/

theorem props_eq_param : isPropsChar = isParamChar := funext propsChar_iff

theorem drop_within {p q : Char → Bool} {x : Char} (hx : p x = false) {X : Str}
    (hX : X.all q = true) (t : Str) : ∃ X', (X ++ x :: t).dropWhile p = X' ++ x :: t ∧ X'.all q = true := by
  induction X with
  | nil => exact ⟨[], by simp [hx], rfl⟩
  | cons c cs ih =>
    simp only [List.all_cons, Bool.and_eq_true] at hX
    by_cases hc : p c = true
    · obtain ⟨X', e, h'⟩ := ih hX.2
      exact ⟨X', by rw [List.cons_append, List.dropWhile_cons_of_pos hc, e], h'⟩
    · exact ⟨c :: cs, by rw [List.cons_append, List.dropWhile_cons_of_neg hc], by simp [hX]⟩

/-- White space, a word, white space. -/
theorem drop_token {a h b t : Str} (ha : a.all isSpace = true) (hh : h.all isWord = true) (hb : b.all isSpace = true)
    (ht : NotHead isSpace t) (ht' : NotHead isWord t) : (((a ++ (h ++ (b ++ t))).dropWhile isSpace).dropWhile isWord).dropWhile isSpace = t := by
  cases h with
  | nil =>
    rw [List.nil_append, ← List.append_assoc, dropWhile_stop (by simp [ha, hb]) ht]
    have h1 : t.dropWhile isWord = t := dropWhile_stop (a := []) rfl ht'
    rw [h1]
    exact dropWhile_stop (a := []) rfl ht
  | cons c cs =>
    have hc : isWord c = true := by simp only [List.all_cons, Bool.and_eq_true] at hh; exact hh.1
    rw [dropWhile_stop ha (b := c :: cs ++ (b ++ t)) (notHead_cons (word_not_space hc)), dropWhile_stop hh, dropWhile_stop hb ht]
    exact notHead_word_of_space hb fun _ => ht'

theorem capGet_cons (n k : Nat) (t : Str) (caps : Caps) : capGet n ((k, t) :: caps) = if k = n then some t else capGet n caps := rfl

theorem orNone_caps (n : Nat) (C : Str) : capGet n (propsCaps n C) = orNone C := by
  cases C <;> simp [propsCaps, orNone, capGet]

theorem hd_nodeEnd {n : Nat} {p s : Str} (hp : p.all isParamChar = true) :
    HdR (seqs [.opt (.grp n (plus isParamChar)), .star isSpace, ch ')', .star isSpace]) (p ++ ')' :: s) (s.dropWhile isSpace)
      (propsCaps n p) := by
  have h1 : HdR (.opt (.grp n (plus isParamChar))) (p ++ ')' :: s) (')' :: s) (propsCaps n p) := by
    have hs : NotHead isParamChar (')' :: s) := notHead_cons pc_lit.2.1
    cases p with
    | nil => exact (hd_opt_none (fails_grp (fails_plus hs))).toR
    | cons c cs => exact (hd_opt (hd_grp (hd_plus' hp (by simp) hs))).toR
  have h2 := h1.seq ((hd_star_none (p := isSpace) (s := ')' :: s) (notHead_cons sp_lit.2.2.1)).toR.seq
    ((hd_ch ')' s).toR.seq (hd_star_greedy isSpace s).toR))
  simpa [seqs] using h2

theorem readNode_some {s rest : Str} {a : PartText} (h : readNode s = some (a, rest)) (i : Nat) :
    ∃ w caps, Hd (nodeGrp i) s (w, rest, caps) ∧ w ≠ [] ∧ partOf i caps = a := by
  simp only [readNode, Option.bind_eq_bind, Option.bind_eq_some_iff, props_eq_param] at h
  obtain ⟨s1, h1, s3, h3, s6, h6, h⟩ := h
  rw [afterChar_some] at h1 h3 h6
  subst h1
  split at h
  · simp at h
  · rename_i hl
    have hl : (s3.dropWhile isSpace).takeWhile isWord ≠ [] := by simpa using hl
    simp only [Option.some.injEq, Prod.mk.injEq] at h
    obtain ⟨rfl, rfl⟩ := h
    have hlab : HdR (.grp (gLabel i) (plus isWord)) (s3.dropWhile isSpace) ((s3.dropWhile isSpace).dropWhile isWord)
        [(gLabel i, (s3.dropWhile isSpace).takeWhile isWord)] := by
      have := hd_grp (n := gLabel i) (hd_plus' (all_takeWhile isWord (s3.dropWhile isSpace)) hl (notHead_dropWhile isWord (s3.dropWhile isSpace)))
      rw [List.takeWhile_append_dropWhile] at this
      exact this.toR
    have hend := hd_nodeEnd (n := gProps i) (s := s6)
      (all_takeWhile isParamChar (((s3.dropWhile isSpace).dropWhile isWord).dropWhile isSpace))
    rw [← h6, List.takeWhile_append_dropWhile] at hend
    have hseq := (hd_ch '(' s1).toR.seq ((hd_star_greedy isSpace s1).toR.seq
      ((hd_grp (n := gHandle i) (hd_star_greedy isWord (s1.dropWhile isSpace))).toR.seq
      ((hd_star_greedy isSpace ((s1.dropWhile isSpace).dropWhile isWord)).toR.seq
      ((by rw [h3]; exact (hd_ch ':' s3).toR : HdR (ch ':') (((s1.dropWhile isSpace).dropWhile isWord).dropWhile isSpace) s3 []).seq
      ((hd_star_greedy isSpace s3).toR.seq (hlab.seq ((hd_star_greedy isSpace ((s3.dropWhile isSpace).dropWhile isWord)).toR.seq hend)))))))
    obtain ⟨w, hw⟩ := hseq
    have hg := hd_grp (n := gAll i) hw
    have hm := run_append hw.mem
    refine ⟨w, _, hg, ?_, ?_⟩
    · exact nodeGrp_ne hg
    · simp only [partOf, capGet_cons, List.nil_append, List.cons_append, gAll, gHandle, gLabel, gProps]
      simp only at hm
      congr 1
      · rw [← hm]
        simp [upTo_append]
      · simp
      · simp
      · simp [orNone_caps]

theorem readNode_none {s : Str} (h : readNode s = none) (i : Nat) : Fails (nodeGrp i) s := by
  refine fails_of fun m hm => ?_
  obtain ⟨m0, h0, rfl⟩ := mem_grp_inv hm
  obtain ⟨n1, h1, n2, h2, rfl⟩ := mem_seq_inv h0
  obtain ⟨s1, e1, rfl⟩ := mem_ch_inv h1
  obtain ⟨n3, h3, n4, h4, rfl⟩ := mem_seq_inv h2
  obtain ⟨e3, a3, _⟩ := mem_star_inv h3
  obtain ⟨n5, h5, n6, h6, rfl⟩ := mem_seq_inv h4
  obtain ⟨n5', h5', rfl⟩ := mem_grp_inv h5
  obtain ⟨e5, a5, _⟩ := mem_star_inv h5'
  obtain ⟨n7, h7, n8, h8, rfl⟩ := mem_seq_inv h6
  obtain ⟨e7, a7, _⟩ := mem_star_inv h7
  obtain ⟨n9, h9, n10, h10, rfl⟩ := mem_seq_inv h8
  obtain ⟨s9, e9, rfl⟩ := mem_ch_inv h9
  obtain ⟨n11, h11, n12, h12, rfl⟩ := mem_seq_inv h10
  obtain ⟨e11, a11, _⟩ := mem_star_inv h11
  obtain ⟨n13, h13, n14, h14, rfl⟩ := mem_seq_inv h12
  obtain ⟨n13', h13', rfl⟩ := mem_grp_inv h13
  obtain ⟨e13, a13, ne13, _⟩ := mem_plus_inv h13'
  obtain ⟨n15, h15, n16, h16, rfl⟩ := mem_seq_inv h14
  obtain ⟨e15, a15, _⟩ := mem_star_inv h15
  obtain ⟨n17, h17, n18, h18, rfl⟩ := mem_seq_inv h16
  have e17 := run_append h17
  have a17 : n17.1.all isParamChar = true := by
    simp only [run, List.mem_append, List.mem_singleton] at h17
    rcases h17 with h17 | rfl
    · obtain ⟨n17', h17', rfl⟩ := mem_grp_inv h17
      exact (mem_plus_inv h17').2.1
    · rfl
  obtain ⟨n19, h19, n20, h20, rfl⟩ := mem_seq_inv h18
  obtain ⟨e19, a19, _⟩ := mem_star_inv h19
  obtain ⟨n21, h21, n22, h22, rfl⟩ := mem_seq_inv h20
  obtain ⟨s21, e21, rfl⟩ := mem_ch_inv h21
  simp only at *
  have es1 : s1 = n3.1 ++ (n5'.1 ++ (n7.1 ++ ':' :: s9)) := by rw [← e9, e7, e5, e3]
  have es9 : s9 = n11.1 ++ (n13'.1 ++ ((n15.1 ++ n17.1 ++ n19.1) ++ ')' :: s21)) := by
    rw [← e21, List.append_assoc, List.append_assoc, e19, e17, e15, e13, e11]
  have hl : NotHead isSpace (n13'.1 ++ ((n15.1 ++ n17.1 ++ n19.1) ++ ')' :: s21)) :=
    notHead_space_of_word a13 fun e => absurd e ne13
  have hU : (n15.1 ++ n17.1 ++ n19.1).all isParamChar = true := by
    simp [a17, all_mono (fun _ => space_param) a15, all_mono (fun _ => space_param) a19]
  have hW : (n13'.1 ++ (n15.1 ++ n17.1 ++ n19.1)).all isParamChar = true := by
    rw [List.all_append, hU, all_mono (fun _ => word_param) a13]; rfl
  obtain ⟨X1, eX1, aX1⟩ := drop_within (p := isWord) wd_lit.2.2.1 hW s21
  obtain ⟨X2, eX2, aX2⟩ := drop_within (p := isSpace) sp_lit.2.2.1 aX1 s21
  rw [List.append_assoc] at eX1
  have hne : (n13'.1 ++ ((n15.1 ++ n17.1 ++ n19.1) ++ ')' :: s21)).takeWhile isWord ≠ [] := by
    cases hc : n13'.1 with
    | nil => exact absurd hc ne13
    | cons c cs =>
      rw [hc] at a13
      simp only [List.all_cons, Bool.and_eq_true] at a13
      rw [List.cons_append, List.takeWhile_cons_of_pos a13.1]
      simp
  rw [readNode, e1] at h
  simp only [afterChar_some.2 rfl, Option.bind_eq_bind, Option.bind_some, es1,
    drop_token a3 a5 a7 (notHead_cons sp_lit.1) (notHead_cons wd_lit.1), es9, dropWhile_stop a11 hl, eX1, eX2, props_eq_param,
    dropWhile_stop aX2 (notHead_cons pc_lit.2.1)] at h
  rw [if_neg (by simpa using hne)] at h
  simp at h

theorem agrees_node (i : Nat) : Agrees (nodeGrp i) readNode fun m => partOf i m.2 where
  none := fun _ h => readNode_none h i
  some := fun _ _ _ h => readNode_some h i

/-! ### Relationships -/

theorem skipColon (s : Str) : skipChar ':' s = dropColon s := by
  cases s with
  | nil => rfl
  | cons c cs =>
    by_cases h : c = ':' <;> simp [skipChar, afterChar, dropColon, h]

theorem skipChar_hit (c : Char) (s : Str) : skipChar c (c :: s) = s := by simp [skipChar, afterChar]

theorem skipChar_miss {c : Char} {s : Str} (h : NotHead (· == c) s) : skipChar c s = s := by
  cases s with
  | nil => rfl
  | cons d s =>
    have : d ≠ c := by simpa using h d s rfl
    simp [skipChar, afterChar, this]

theorem readRel_of {s lt d1 C d2 gt sp rest : Str} (h : RelAt s lt d1 C d2 gt sp rest) :
    readRel s = some (⟨some (relCore lt d1 C d2 gt ++ sp), some (relHandle C), some (relName C), orNone (relC3 C)⟩, rest) := by
  have hup : upTo s rest = relCore lt d1 C d2 gt ++ sp := by rw [h.eq', upTo_append]
  have e1 : skipChar '<' s = d1 ++ '[' :: (C ++ ']' :: (d2 ++ (gt ++ (sp ++ rest)))) := by
    rw [h.eq]
    rcases h.hlt with e | e
    · rw [e, List.nil_append]
      exact skipChar_miss (h.notLt _)
    · rw [e]
      exact skipChar_hit _ _
  obtain ⟨d1', hd1⟩ : ∃ d1', d1 = '-' :: d1' ∧ d1'.all (· == '-') = true := by
    have h1 := h.hd1
    cases hd : d1 with
    | nil => exact absurd hd h.hd1'
    | cons c cs =>
      rw [hd] at h1
      simp only [List.all_cons, Bool.and_eq_true, beq_iff_eq] at h1
      exact ⟨cs, by rw [h1.1], h1.2⟩
  obtain ⟨d2', hd2⟩ : ∃ d2', d2 = '-' :: d2' ∧ d2'.all (· == '-') = true := by
    have h1 := h.hd2
    cases hd : d2 with
    | nil => exact absurd hd h.hd2'
    | cons c cs =>
      rw [hd] at h1
      simp only [List.all_cons, Bool.and_eq_true, beq_iff_eq] at h1
      exact ⟨cs, by rw [h1.1], h1.2⟩
  have e2 : skipChar '<' s = '-' :: (d1' ++ '[' :: ((C ++ [']']) ++ '-' :: (d2' ++ (gt ++ (sp ++ rest))))) := by
    rw [e1, hd1.1, hd2.1]
    simp
  have hCb : (C ++ [']']).all isParamChar = true := by simp [h.hC, pc_lit]
  have e3 := takeWhile_stop hCb (notHead_cons (cs := d2' ++ (gt ++ (sp ++ rest))) pc_lit.1)
  have e4 : skipChar '>' ((d2' ++ (gt ++ (sp ++ rest))).dropWhile (· == '-')) = sp ++ rest := by
    rw [dropWhile_stop hd2.2 h.stop1]
    rcases h.hgt with e | e
    · rw [e, List.nil_append]
      exact skipChar_miss (h.stop2 e)
    · rw [e]
      exact skipChar_hit _ _
  have e5 := dropWhile_stop hd1.2 (notHead_cons (p := (· == '-')) (c := '[')
    (cs := (C ++ [']']) ++ '-' :: (d2' ++ (gt ++ (sp ++ rest)))) (by decide))
  rw [readRel, e2]
  simp only [afterChar_some.2 rfl, Option.bind_eq_bind, Option.bind_some, e5, props_eq_param, e3, e4, dropWhile_stop h.hsp h.stop3, hup,
    List.dropLast_concat, List.getLast?_concat, if_true, skipColon]
  rfl

theorem readRel_at {s rest : Str} {a : PartText} (h : readRel s = some (a, rest)) :
    ∃ lt d1 C d2 gt sp rest, RelAt s lt d1 C d2 gt sp rest := by
  simp only [readRel, Option.bind_eq_bind, Option.bind_eq_some_iff, props_eq_param] at h
  obtain ⟨s1, h1, s2, h2, s3, h3, h⟩ := h
  rw [afterChar_some] at h1 h2 h3
  split at h
  · rename_i hl
    obtain ⟨C, hC⟩ : ∃ C, s2.takeWhile isParamChar = C ++ [']'] := by
      rw [List.getLast?_eq_some_iff] at hl
      exact hl
    have hall := all_takeWhile isParamChar s2
    rw [hC, List.all_append, Bool.and_eq_true] at hall
    have es2 : s2 = C ++ ']' :: '-' :: s3 := by
      have := List.takeWhile_append_dropWhile (p := isParamChar) (l := s2)
      rw [hC, h3] at this
      rw [← this]
      simp
    have es1 : '-' :: s1 = ('-' :: s1.takeWhile (· == '-')) ++ '[' :: s2 := by
      rw [List.cons_append, ← h2, List.takeWhile_append_dropWhile]
    obtain ⟨lt, hlt, es⟩ : ∃ lt, (lt = [] ∨ lt = ['<']) ∧ s = lt ++ '-' :: s1 := by
      cases s with
      | nil => simp [skipChar, afterChar] at h1
      | cons c cs =>
        by_cases hc : c = '<'
        · subst hc
          rw [skipChar_hit] at h1
          exact ⟨['<'], .inr rfl, by rw [h1]; rfl⟩
        · rw [skipChar_miss (notHead_cons (by simpa using hc))] at h1
          exact ⟨[], .inl rfl, h1⟩
    have := relAt_of_prefix (s := s) (lt := lt) (d1 := '-' :: s1.takeWhile (· == '-')) (C := C) (t := s3)
      (by rw [es, es1, es2]) hlt (by simp) (by simp) hall.1
    obtain ⟨d2, gt, sp, rest, h⟩ := this
    exact ⟨_, _, _, _, _, _, _, h⟩
  · simp at h

theorem agrees_rel (i : Nat) : Agrees (relGrp i) readRel fun m => partOf i m.2 where
  none := by
    intro s h
    refine fails_of fun m hm => ?_
    obtain ⟨lt, d1, C, d2, gt, sp, rest, hr⟩ := relAt_of_mem hm
    rw [readRel_of hr] at h
    simp at h
  some := by
    intro s a rest h
    obtain ⟨lt, d1, C, d2, gt, sp, rest', hr⟩ := readRel_at h
    have e := readRel_of hr
    rw [h] at e
    simp only [Option.some.injEq, Prod.mk.injEq] at e
    obtain ⟨rfl, rfl⟩ := e
    refine ⟨_, _, hd_relGrp hr i, relGrp_ne (hd_relGrp hr i), ?_⟩
    simp only [partOf, capGet_cons, gAll, gHandle, gLabel, gProps]
    congr 1 <;> simp [orNone_caps]

/-! ### Patterns -/

theorem readPart_hd {g : Re} {f : Str → Option (PartText × Str)} {i : Nat} (h : Agrees g f fun m => partOf i m.2) (s : Str) :
    ∃ m, Hd (part g) s m ∧ m.2.1 = (readPart f s).2 ∧ partOf i m.2.2 = (readPart f s).1 := by
  have hsp := all_takeWhile isSpace s
  have hs := notHead_dropWhile isSpace s
  have es : s.takeWhile isSpace ++ s.dropWhile isSpace = s := List.takeWhile_append_dropWhile
  cases hf : f (s.dropWhile isSpace) with
  | none =>
    have := hd_part_none hsp hs (h.none _ hf)
    rw [es] at this
    exact ⟨_, this, by simp [readPart, hf], by simp [readPart, hf, partOf, capGet]⟩
  | some x =>
    obtain ⟨w, caps, h1, _, h3⟩ := h.some _ x.1 x.2 hf
    have := hd_part_hit hsp hs h1
    rw [es] at this
    exact ⟨_, this, by simp [readPart, hf], by simpa [readPart, hf] using h3⟩

theorem statementPatterns_scan (stmt : Str) : statementPatterns stmt = scan readPattern stmt := by
  have key : ∀ s, ∃ m, Hd nodesRelsPattern s m ∧
      readPattern s = if m.1 = [] then none else some (patternOf m.2.2, m.2.1) := by
    intro s
    obtain ⟨m0, h0, r0, p0⟩ := readPart_hd (agrees_node 0) s
    obtain ⟨m1, h1, r1, p1⟩ := readPart_hd (agrees_rel 1) m0.2.1
    obtain ⟨m2, h2, r2, p2⟩ := readPart_hd (agrees_node 2) m1.2.1
    obtain ⟨m3, h3, r3, p3⟩ := readPart_hd (agrees_rel 3) m2.2.1
    obtain ⟨m4, h4, r4, p4⟩ := readPart_hd (agrees_node 4) m3.2.1
    have hsplit : Split s m0 m1 m2 m3 m4 := ⟨h0, h1, h2, h3, h4⟩
    have hall := hd_seq h0 (hd_seq h1 (hd_seq h2 (hd_seq h3 h4)))
    refine ⟨_, hall, ?_⟩
    have happ := run_append hall.mem
    have hp := split_pattern hsplit
    have q0 : readPart readNode s = (partOf 0 m0.2.2, m0.2.1) := by rw [p0, r0]
    have q1 : readPart readRel m0.2.1 = (partOf 1 m1.2.2, m1.2.1) := by rw [p1, r1]
    have q2 : readPart readNode m1.2.1 = (partOf 2 m2.2.2, m2.2.1) := by rw [p2, r2]
    have q3 : readPart readRel m2.2.1 = (partOf 3 m3.2.2, m3.2.1) := by rw [p3, r3]
    have q4 : readPart readNode m3.2.1 = (partOf 4 m4.2.2, m4.2.1) := by rw [p4, r4]
    simp only [readPattern, q0, q1, q2, q3, q4, ← hp]
    simp only at happ
    have hl := congrArg List.length happ
    rw [List.length_append] at hl
    by_cases hm : m0.1 ++ (m1.1 ++ (m2.1 ++ (m3.1 ++ m4.1))) = []
    · rw [if_pos hm, if_pos]
      rw [hm] at hl
      simpa using hl
    · rw [if_neg hm, if_neg]
      · rfl
      · intro h
        exact hm (List.length_eq_zero_iff.1 (by omega))
  refine solid_scan (g := fun m => patternOf m.2) ?_ ?_ stmt
  · intro s h
    obtain ⟨m, hm, e⟩ := key s
    rw [h] at e
    by_cases h0 : m.1 = []
    · exact pattern_empty hm h0
    · rw [if_neg h0] at e
      simp at e
  · intro s a rest h
    obtain ⟨m, hm, e⟩ := key s
    rw [h] at e
    by_cases h0 : m.1 = []
    · rw [if_pos h0] at e
      simp at e
    · rw [if_neg h0] at e
      simp only [Option.some.injEq, Prod.mk.injEq] at e
      obtain ⟨rfl, rfl⟩ := e
      exact ⟨m.1, m.2.2, hm, h0, rfl⟩

/-! ### Properties -/

theorem braceChar_eq : isBraceChar = isCheckChar := by
  funext c
  simp only [isBraceChar, isCheckChar, List.contains_cons, List.contains_nil, Bool.or_false]
  cases isWord c <;> cases isSpace c <;> simp [Bool.or_assoc]

theorem itemChar_eq : isItemChar = isListValChar := by
  funext c
  simp only [isItemChar, isListValChar, List.contains_cons, List.contains_nil, Bool.or_false]
  cases isWord c <;> cases isSpace c <;> simp [Bool.or_assoc]

theorem listText_eq : isListText = isListChar := by
  funext c
  simp only [isListText, isItemChar, isListChar, List.contains_cons, List.contains_nil, Bool.or_false]
  cases isWord c <;> cases isSpace c <;> simp [Bool.or_assoc]

theorem stringText_eq : isStringText = isStrChar := by
  funext c
  simp only [isStringText, isStrChar, List.contains_cons, List.contains_nil, Bool.or_false]
  cases isWord c <;> cases isSpace c <;> simp [Bool.or_assoc]

/-- A reader that takes what the regular expression takes, and the regular expression has no groups. -/
structure AgreesText (r : Re) (f : Str → Option (Str × Str)) : Prop where
  none : ∀ s, f s = none → Fails r s
  some : ∀ s a rest, f s = some (a, rest) → Hd r s (a, rest, []) ∧ a ≠ []

theorem AgreesText.grp {r : Re} {f : Str → Option (Str × Str)} (h : AgreesText r f) (n : Nat) : Agrees (.grp n r) f Prod.fst where
  none := fun s hs => fails_grp (h.none s hs)
  some := fun s a rest hs => ⟨a, [(n, a)], hd_grp (h.some s a rest hs).1, (h.some s a rest hs).2, rfl⟩

theorem agrees_between {l r : Char} {p : Char → Bool} (hr : p r = false) :
    AgreesText (seqs [ch l, plus p, ch r]) (readBetween l r p) where
  none := by
    intro s h
    refine fails_of fun m hm => ?_
    obtain ⟨n1, h1, n2, h2, rfl⟩ := mem_seq_inv hm
    obtain ⟨s1, e1, rfl⟩ := mem_ch_inv h1
    obtain ⟨n3, h3, n4, h4, rfl⟩ := mem_seq_inv h2
    obtain ⟨e3, a3, ne3, _⟩ := mem_plus_inv h3
    obtain ⟨s4, e4, rfl⟩ := mem_ch_inv h4
    simp only at *
    rw [e4] at e3
    have ht := takeWhile_stop a3 (notHead_cons (cs := s4) hr)
    rw [e3] at ht
    rw [readBetween, e1] at h
    simp only [afterChar_some.2 rfl, Option.bind_eq_bind, Option.bind_some, ht.2, ht.1] at h
    rw [if_neg (by simpa using ne3)] at h
    simp at h
  some := by
    intro s a rest h
    simp only [readBetween, Option.bind_eq_bind, Option.bind_eq_some_iff] at h
    obtain ⟨s1, h1, s2, h2, h⟩ := h
    rw [afterChar_some] at h1 h2
    split at h
    · simp at h
    · rename_i hne
      simp only [Option.some.injEq, Prod.mk.injEq] at h
      obtain ⟨rfl, rfl⟩ := h
      have hne : s1.takeWhile p ≠ [] := by simpa using hne
      have es : s1 = s1.takeWhile p ++ r :: s2 := by rw [← h2, List.takeWhile_append_dropWhile]
      have hd := hd_seq (hd_ch l (s1.takeWhile p ++ r :: s2))
        (hd_seq (hd_plus' (all_takeWhile p s1) hne (notHead_cons (cs := s2) hr)) (hd_ch r s2))
      rw [← es] at hd
      have hup : upTo s s2 = l :: (s1.takeWhile p ++ [r]) := by
        have : s = (l :: (s1.takeWhile p ++ [r])) ++ s2 := by
          rw [h1]
          conv => lhs; rw [es]
          simp
        rw [this, upTo_append]
      rw [hup, h1]
      exact ⟨by simpa [seqs] using hd, by simp⟩

theorem agrees_run (p : Char → Bool) : AgreesText (plus p) (readRun p) where
  none := by
    intro s h
    simp only [readRun] at h
    split at h
    · rename_i hn
      refine fails_plus ?_
      intro c cs e
      subst e
      cases hc : p c with
      | false => rfl
      | true => rw [List.takeWhile_cons_of_pos hc] at hn; simp at hn
    · simp at h
  some := by
    intro s a rest h
    simp only [readRun] at h
    split at h
    · simp at h
    · rename_i hn
      simp only [Option.some.injEq, Prod.mk.injEq] at h
      obtain ⟨rfl, rfl⟩ := h
      have hn : s.takeWhile p ≠ [] := by simpa using hn
      have := hd_plus' (all_takeWhile p s) hn (notHead_dropWhile p s)
      rw [List.takeWhile_append_dropWhile] at this
      exact ⟨this, hn⟩

theorem ciSpelling_ne {kw w : Str} (hk : kw ≠ []) (h : CISpelling kw w) : w ≠ [] := by
  cases kw with
  | nil => exact absurd rfl hk
  | cons k ks =>
    cases w with
    | nil => exact absurd h (by simp [CISpelling])
    | cons c cs => simp

theorem agrees_word {kw : Str} (hk : kw ≠ []) : AgreesText (wordCI kw) (readWord kw) where
  none := by
    intro s h
    simp only [readWord, Option.map_eq_none_iff, afterWord_none] at h
    exact fails_wordCI h
  some := by
    intro s a rest h
    simp only [readWord, Option.map_eq_some_iff, Prod.mk.injEq] at h
    obtain ⟨t, h1, rfl, rfl⟩ := h
    obtain ⟨w, hw, rfl⟩ := afterWord_some.1 h1
    rw [upTo_append]
    exact ⟨hd_wordCI hw t, ciSpelling_ne hk hw⟩

theorem dot_decimal : isDecimal '.' = false := by
  simp [isDecimal, isAscii, isDig]

theorem agrees_float : AgreesText (seqs [plus isDecimal, ch '.', plus isDecimal]) readFloat where
  none := by
    intro s h
    refine fails_of fun m hm => ?_
    obtain ⟨n1, h1, n2, h2, rfl⟩ := mem_seq_inv hm
    obtain ⟨e1, a1, ne1, _⟩ := mem_plus_inv h1
    obtain ⟨n3, h3, n4, h4, rfl⟩ := mem_seq_inv h2
    obtain ⟨s3, e3, rfl⟩ := mem_ch_inv h3
    obtain ⟨e4, a4, ne4, _⟩ := mem_plus_inv h4
    simp only at *
    rw [e3] at e1
    have ht := takeWhile_stop a1 (notHead_cons (cs := s3) dot_decimal)
    rw [e1] at ht
    have h5 : readRun isDecimal s3 ≠ none := fun h0 => not_fails h4 ((agrees_run _).none _ h0)
    obtain ⟨x, hx⟩ := Option.ne_none_iff_exists'.1 h5
    simp only [readFloat, readRun, ht.1, ht.2, Option.bind_eq_bind] at h
    rw [if_neg (by simpa using ne1)] at h
    simp only [Option.bind_some, afterChar_some.2 rfl] at h
    simp only [readRun] at hx
    rw [hx] at h
    simp at h
  some := by
    intro s a rest h
    simp only [readFloat, Option.bind_eq_bind, Option.bind_eq_some_iff] at h
    obtain ⟨x, h1, s1, h2, y, h3, h⟩ := h
    rw [afterChar_some] at h2
    simp only [Option.some.injEq, Prod.mk.injEq] at h
    obtain ⟨rfl, rfl⟩ := h
    obtain ⟨d1, ne1⟩ := (agrees_run _).some s x.1 x.2 h1
    obtain ⟨d2, ne2⟩ := (agrees_run _).some s1 y.1 y.2 h3
    have hd := hd_seq d1 (hd_seq (by rw [h2]; exact hd_ch '.' s1 : Hd (ch '.') x.2 (['.'], s1, [])) d2)
    have happ := run_append hd.mem
    simp only at happ
    have hup : upTo s y.2 = x.1 ++ (['.'] ++ y.1) := by rw [← happ, upTo_append]
    rw [hup]
    exact ⟨hd, by simp [ne1]⟩

/-- The group of a type. -/
def typeGroup : PropType → Nat
  | .noneT => gNone
  | .boolT => gBool
  | .floatT => gFloat
  | .intT => gInt
  | .listT => gList
  | .stringT => gString

/-- The regular expression of a value. -/
def valueRe : Re :=
  .grp gValue (alts [
    .grp gNone (wordCI c!"null"),
    .grp gBool (.alt (wordCI c!"true") (wordCI c!"false")),
    .grp gFloat (seqs [plus isDecimal, ch '.', plus isDecimal]),
    .grp gInt (plus isDig),
    .grp gList (seqs [ch '[', plus isListChar, ch ']']),
    .grp gString (plus isStrChar)])

theorem listChar_close : isListChar ']' = false := by simp [isListChar, wd_lit, sp_lit]

theorem readValue_none {s : Str} (h : readValue s = none) : Fails valueRe s := by
  simp only [readValue, Option.orElse_eq_orElse, Option.orElse_eq_or, Option.or_eq_none_iff, Option.map_eq_none_iff, stringText_eq, listText_eq] at h
  obtain ⟨h1, h2, h3, h4, h5, h6, h7⟩ := h
  exact fails_grp (fails_alt (fails_grp ((agrees_word (by simp)).none s h1)) (fails_alt (fails_grp (fails_alt ((agrees_word (by simp)).none s h2)
    ((agrees_word (by simp)).none s h3))) (fails_alt (fails_grp (agrees_float.none s h4)) (fails_alt (fails_grp ((agrees_run _).none s h5))
    (fails_alt (fails_grp ((agrees_between listChar_close).none s h6)) (fails_grp ((agrees_run _).none s h7)))))))

theorem readValue_some {s v rest : Str} {t : PropType} (h : readValue s = some (t, v, rest)) :
    Hd valueRe s (v, rest, [(gValue, v), (typeGroup t, v)]) ∧ v ≠ [] := by
  simp only [readValue, Option.orElse_eq_orElse, Option.orElse_eq_or, stringText_eq, listText_eq] at h
  suffices h' : ∃ m, Hd (alts [
    .grp gNone (wordCI c!"null"),
    .grp gBool (.alt (wordCI c!"true") (wordCI c!"false")),
    .grp gFloat (seqs [plus isDecimal, ch '.', plus isDecimal]),
    .grp gInt (plus isDig),
    .grp gList (seqs [ch '[', plus isListChar, ch ']']),
    .grp gString (plus isStrChar)]) s m ∧ m = (v, rest, [(typeGroup t, v)]) ∧ v ≠ [] by
    obtain ⟨m, h1, rfl, h3⟩ := h'
    exact ⟨hd_grp h1, h3⟩
  cases h1 : readWord c!"null" s with
  | some x =>
    simp only [h1, Option.map_some, Option.some_or, Option.some.injEq, Prod.mk.injEq] at h
    obtain ⟨rfl, rfl⟩ := h
    obtain ⟨d, ne⟩ := (agrees_word (by simp)).some s _ _ h1
    exact ⟨_, hd_alt_left (hd_grp d), rfl, ne⟩
  | none =>
  have f1 := fails_grp (n := gNone) ((agrees_word (by simp)).none s h1)
  simp only [h1, Option.map_none, Option.none_or] at h
  cases h2 : readWord c!"true" s with
  | some x =>
    simp only [h2, Option.map_some, Option.some_or, Option.some.injEq, Prod.mk.injEq] at h
    obtain ⟨rfl, rfl⟩ := h
    obtain ⟨d, ne⟩ := (agrees_word (by simp)).some s _ _ h2
    exact ⟨_, hd_alt_right f1 (hd_alt_left (hd_grp (hd_alt_left d))), rfl, ne⟩
  | none =>
  have f2 := (agrees_word (by simp)).none s h2
  simp only [h2, Option.map_none, Option.none_or] at h
  cases h3 : readWord c!"false" s with
  | some x =>
    simp only [h3, Option.map_some, Option.some_or, Option.some.injEq, Prod.mk.injEq] at h
    obtain ⟨rfl, rfl⟩ := h
    obtain ⟨d, ne⟩ := (agrees_word (by simp)).some s _ _ h3
    exact ⟨_, hd_alt_right f1 (hd_alt_left (hd_grp (hd_alt_right f2 d))), rfl, ne⟩
  | none =>
  have f3 := fails_grp (n := gBool) (fails_alt f2 ((agrees_word (by simp)).none s h3))
  simp only [h3, Option.map_none, Option.none_or] at h
  cases h4 : readFloat s with
  | some x =>
    simp only [h4, Option.map_some, Option.some_or, Option.some.injEq, Prod.mk.injEq] at h
    obtain ⟨rfl, rfl⟩ := h
    obtain ⟨d, ne⟩ := agrees_float.some s _ _ h4
    exact ⟨_, hd_alt_right f1 (hd_alt_right f3 (hd_alt_left (hd_grp d))), rfl, ne⟩
  | none =>
  have f4 := fails_grp (n := gFloat) (agrees_float.none s h4)
  simp only [h4, Option.map_none, Option.none_or] at h
  cases h5 : readRun isDig s with
  | some x =>
    simp only [h5, Option.map_some, Option.some_or, Option.some.injEq, Prod.mk.injEq] at h
    obtain ⟨rfl, rfl⟩ := h
    obtain ⟨d, ne⟩ := (agrees_run _).some s _ _ h5
    exact ⟨_, hd_alt_right f1 (hd_alt_right f3 (hd_alt_right f4 (hd_alt_left (hd_grp d)))), rfl, ne⟩
  | none =>
  have f5 := fails_grp (n := gInt) ((agrees_run _).none s h5)
  simp only [h5, Option.map_none, Option.none_or] at h
  cases h6 : readBetween '[' ']' isListChar s with
  | some x =>
    simp only [h6, Option.map_some, Option.some_or, Option.some.injEq, Prod.mk.injEq] at h
    obtain ⟨rfl, rfl⟩ := h
    obtain ⟨d, ne⟩ := (agrees_between listChar_close).some s _ _ h6
    exact ⟨_, hd_alt_right f1 (hd_alt_right f3 (hd_alt_right f4 (hd_alt_right f5 (hd_alt_left (hd_grp d))))), rfl, ne⟩
  | none =>
  have f6 := fails_grp (n := gList) ((agrees_between listChar_close).none s h6)
  simp only [h6, Option.map_none, Option.none_or, Option.map_eq_some_iff, Prod.mk.injEq] at h
  obtain ⟨x, h7, rfl, rfl⟩ := h
  obtain ⟨d, ne⟩ := (agrees_run _).some s _ _ h7
  exact ⟨_, hd_alt_right f1 (hd_alt_right f3 (hd_alt_right f4 (hd_alt_right f5 (hd_alt_right f6 (hd_grp d))))), rfl, ne⟩

theorem space_not_letter {c k : Char} (h : isSpace c = true) (hk : k ∈ c!"ntf") : sameLetter k c = false := by
  cases hs : sameLetter k c with
  | false => rfl
  | true =>
    simp only [List.mem_cons, List.not_mem_nil, or_false] at hk
    rcases hk with rfl | rfl | rfl <;>
    · simp only [sameLetter, Bool.or_eq_true, Bool.and_eq_true, beq_iff_eq, Char.reduceEq, false_and, or_false] at hs
      rcases hs with rfl | hs
      · revert h; simp [isSpace, isAscii]
      · rw [hs] at h; revert h; simp [isSpace, isAscii, Char.toUpper]

theorem readValue_space {c : Char} {s : Str} (hc : isSpace c = true) (h : readValue s = none) :
    readValue (c :: s) = some (.stringT, [c], s) := by
  simp only [readValue, Option.orElse_eq_orElse, Option.orElse_eq_or, Option.or_eq_none_iff, Option.map_eq_none_iff] at h
  have hs : s.takeWhile isStringText = [] := by
    have := h.2.2.2.2.2.2
    simp only [readRun] at this
    split at this
    · rename_i hn; simpa using hn
    · simp at this
  have hw : ∀ k ks, k ∈ c!"ntf" → readWord (k :: ks) (c :: s) = none := by
    intro k ks hk
    simp [readWord, afterWord, space_not_letter hc hk]
  have hd : isDecimal c = false := by
    cases hd : isDecimal c with
    | false => rfl
    | true => exact absurd (decimal_word hd) (by simp [space_not_word hc])
  have hf : readFloat (c :: s) = none := by simp [readFloat, readRun, hd]
  have hi : readRun isDig (c :: s) = none := by
    have : isDig c = false := by
      cases hd' : isDig c with
      | false => rfl
      | true => rw [dig_decimal hd'] at hd; simp at hd
    simp [readRun, this]
  have hl : readBetween '[' ']' isListText (c :: s) = none := by
    have : c ≠ '[' := by
      rintro rfl
      simp [sp_lit] at hc
    simp [readBetween, afterChar, this]
  have hstr : isStringText c = true := by simp [isStringText, hc]
  have hr : readRun isStringText (c :: s) = some ([c], s) := by
    have e : s.dropWhile isStringText = s := by
      have := List.takeWhile_append_dropWhile (p := isStringText) (l := s)
      rw [hs] at this
      simpa using this
    simp [readRun, hstr, hs, e]
  simp only [readValue, Option.orElse_eq_orElse, Option.orElse_eq_or, hw 'n' _ (by simp), hw 't' _ (by simp), hw 'f' _ (by simp), hf, hi, hl, hr,
    Option.map_none, Option.map_some, Option.none_or]

/-- The groups of a property. -/
def propCaps (x : Str × PropType × Str) : Caps := [(gName, x.1), (gValue, x.2.2), (typeGroup x.2.1, x.2.2)]

theorem propKV_eq : propKV = seqs [.grp gName (plus isWord), .star isSpace, ch ':', .star isSpace, valueRe] := rfl

theorem agrees_prop : Agrees propKV (fun s => (readProp s).map fun x => (propCaps x.1, x.2)) Prod.snd where
  none := by
    intro s h
    simp only [Option.map_eq_none_iff] at h
    rw [propKV_eq]
    refine fails_of fun m hm => ?_
    obtain ⟨n1, h1, n2, h2, rfl⟩ := mem_seq_inv hm
    obtain ⟨n1', h1', rfl⟩ := mem_grp_inv h1
    obtain ⟨e1, a1, ne1, _⟩ := mem_plus_inv h1'
    obtain ⟨n3, h3, n4, h4, rfl⟩ := mem_seq_inv h2
    obtain ⟨e3, a3, _⟩ := mem_star_inv h3
    obtain ⟨n5, h5, n6, h6, rfl⟩ := mem_seq_inv h4
    obtain ⟨s5, e5, rfl⟩ := mem_ch_inv h5
    obtain ⟨n7, h7, n8, h8, rfl⟩ := mem_seq_inv h6
    obtain ⟨e7, a7, _⟩ := mem_star_inv h7
    simp only at *
    rw [e5] at e3
    have hb : NotHead isWord (n3.1 ++ ':' :: s5) := notHead_word_of_space a3 fun _ => notHead_cons wd_lit.1
    have ht := takeWhile_stop a1 hb
    rw [e3, e1] at ht
    have hd : n1'.2.1.dropWhile isSpace = ':' :: s5 := by
      rw [← e3]
      exact dropWhile_stop a3 (notHead_cons sp_lit.1)
    have hr : readRun isWord s = some (n1'.1, n1'.2.1) := by
      simp only [readRun, ht.1, ht.2]
      rw [if_neg (by simpa using ne1)]
    simp only [readProp, hr, Option.bind_eq_bind, Option.bind_some, hd, afterChar_some.2 rfl] at h
    split at h
    · simp at h
    · simp at h
    · rename_i hv hl
      rw [List.getLast?_eq_none_iff] at hl
      have hn : s5.dropWhile isSpace = s5 := by
        have := List.takeWhile_append_dropWhile (p := isSpace) (l := s5)
        rwa [hl, List.nil_append] at this
      rw [hn] at hv
      have e0 : n7.1 = [] := by
        cases hc : n7.1 with
        | nil => rfl
        | cons c cs =>
          rw [hc] at a7 e7
          simp only [List.all_cons, Bool.and_eq_true] at a7
          rw [← e7, List.cons_append, List.takeWhile_cons_of_pos a7.1] at hl
          simp at hl
      rw [e0, List.nil_append] at e7
      rw [e7] at h8
      exact not_fails h8 (readValue_none hv)
  some := by
    intro s a rest h
    rw [Option.map_eq_some_iff] at h
    obtain ⟨x, h, e⟩ := h
    simp only [Prod.mk.injEq] at e
    obtain ⟨rfl, rfl⟩ := e
    simp only [readProp, Option.bind_eq_bind, Option.bind_eq_some_iff] at h
    obtain ⟨y, h1, s1, h2, h⟩ := h
    rw [afterChar_some] at h2
    obtain ⟨d1, ne1⟩ := (agrees_run _).some s y.1 y.2 h1
    have hpre : ∀ {r : Re} {m : MRes}, Hd r s1 m → Hd (seqs [.grp gName (plus isWord), .star isSpace, ch ':', r]) s
        (y.1 ++ (y.2.takeWhile isSpace ++ (':' :: m.1)), m.2.1, (gName, y.1) :: m.2.2) := by
      intro r m hm
      have := hd_seq (hd_grp (n := gName) d1) (hd_seq (hd_star_greedy isSpace y.2)
        (hd_seq (by rw [h2]; exact hd_ch ':' s1 : Hd (ch ':') (y.2.dropWhile isSpace) ([':'], s1, [])) hm))
      simpa [seqs] using this
    split at h
    · rename_i t v rest' hv
      simp only [Option.some.injEq] at h
      subst h
      obtain ⟨hd, ne⟩ := readValue_some hv
      exact ⟨_, _, hpre (hd_seq (hd_star_greedy isSpace s1) hd), by simp [ne1], rfl⟩
    · rename_i c hv hl
      simp only [Option.some.injEq] at h
      subst h
      obtain ⟨u, hu⟩ := List.getLast?_eq_some_iff.1 hl
      have ha := all_takeWhile isSpace s1
      rw [hu, List.all_append, Bool.and_eq_true] at ha
      have hc : isSpace c = true := by simpa using ha.2
      obtain ⟨t, ht⟩ := starRuns_second ha.1 hc (notHead_dropWhile isSpace s1)
      have es : u ++ c :: s1.dropWhile isSpace = s1 := by
        conv => rhs; rw [← List.takeWhile_append_dropWhile (p := isSpace) (l := s1), hu]
        simp
      rw [es] at ht
      have hrun : (Re.star isSpace).run s1 = [(u ++ [c], s1.dropWhile isSpace, [])] ++ (u, c :: s1.dropWhile isSpace, []) ::
          t.map fun x => (x.1, x.2, []) := by simp [run, ht]
      have hd := hd_seq_skip hrun (b := valueRe) (by simpa using readValue_none hv) (readValue_some (readValue_space hc hv)).1
      exact ⟨_, _, hpre hd, by simp [ne1], rfl⟩
    · simp at h

theorem scan_map {α β : Type} (f : Str → Option (α × Str)) (h : α → β) (s : Str) :
    scan (fun s => (f s).map fun x => (h x.1, x.2)) s = (scan f s).map h := by
  have : ∀ n (s : Str), scanN (fun s => (f s).map fun x => (h x.1, x.2)) n s = (scanN f n s).map h := by
    intro n
    induction n with
    | zero => intro s; simp [scanN]
    | succ n ih =>
      intro s
      cases s with
      | nil => simp [scanN]
      | cons c cs =>
        simp only [scanN]
        cases f (c :: cs) with
        | none => simp [ih]
        | some x => simp [ih]
  exact this _ _

theorem scan_mem {α : Type} {f : Str → Option (α × Str)} {s : Str} {x : α} (h : x ∈ scan f s) : ∃ s' rest, f s' = some (x, rest) := by
  have : ∀ n (s : Str), x ∈ scanN f n s → ∃ s' rest, f s' = some (x, rest) := by
    intro n
    induction n with
    | zero => intro s h; simp [scanN] at h
    | succ n ih =>
      intro s h
      cases s with
      | nil => simp [scanN] at h
      | cons c cs =>
        simp only [scanN] at h
        cases hf : f (c :: cs) with
        | none => rw [hf] at h; exact ih _ h
        | some y =>
          rw [hf] at h
          rcases List.mem_cons.1 h with rfl | h
          · exact ⟨_, _, hf⟩
          · exact ih _ h
  exact this _ _ h

theorem sp_dot : isSpace '.' = false := by simp [isSpace, isAscii]

/-- Floats have a dot, integers have none. -/
def Typed' (t : PropType) (v : Str) : Prop := (t = .floatT → '.' ∈ v) ∧ (t = .intT → '.' ∉ v)

theorem readFloat_dot {s v rest : Str} (h : readFloat s = some (v, rest)) : '.' ∈ v := by
  simp only [readFloat, Option.bind_eq_bind, Option.bind_eq_some_iff] at h
  obtain ⟨x, h1, s1, h2, y, h3, h⟩ := h
  rw [afterChar_some] at h2
  simp only [Option.some.injEq, Prod.mk.injEq] at h
  obtain ⟨rfl, rfl⟩ := h
  have e1 := run_append ((agrees_run _).some s x.1 x.2 h1).1.mem
  have e2 := run_append ((agrees_run _).some s1 y.1 y.2 h3).1.mem
  simp only at e1 e2
  have : s = (x.1 ++ '.' :: y.1) ++ y.2 := by
    rw [← e1, h2, ← e2]
    simp
  rw [this, upTo_append]
  simp

theorem readInt_dot {s v rest : Str} (h : readRun isDig s = some (v, rest)) : '.' ∉ v := by
  simp only [readRun] at h
  split at h
  · simp at h
  · simp only [Option.some.injEq, Prod.mk.injEq] at h
    obtain ⟨rfl, rfl⟩ := h
    intro hm
    have := List.all_eq_true.1 (all_takeWhile isDig s) _ hm
    simp [isDig] at this

theorem readValue_typed {s v rest : Str} {t : PropType} (h : readValue s = some (t, v, rest)) : Typed' t v := by
  simp only [readValue, Option.orElse_eq_orElse, Option.orElse_eq_or] at h
  cases h1 : readWord c!"null" s with
  | some x =>
    simp only [h1, Option.map_some, Option.some_or, Option.some.injEq, Prod.mk.injEq] at h
    obtain ⟨rfl, rfl⟩ := h
    exact ⟨by simp, by simp⟩
  | none =>
  simp only [h1, Option.map_none, Option.none_or] at h
  cases h2 : readWord c!"true" s with
  | some x =>
    simp only [h2, Option.map_some, Option.some_or, Option.some.injEq, Prod.mk.injEq] at h
    obtain ⟨rfl, rfl⟩ := h
    exact ⟨by simp, by simp⟩
  | none =>
  simp only [h2, Option.map_none, Option.none_or] at h
  cases h3 : readWord c!"false" s with
  | some x =>
    simp only [h3, Option.map_some, Option.some_or, Option.some.injEq, Prod.mk.injEq] at h
    obtain ⟨rfl, rfl⟩ := h
    exact ⟨by simp, by simp⟩
  | none =>
  simp only [h3, Option.map_none, Option.none_or] at h
  cases h4 : readFloat s with
  | some x =>
    simp only [h4, Option.map_some, Option.some_or, Option.some.injEq, Prod.mk.injEq] at h
    obtain ⟨rfl, rfl⟩ := h
    exact ⟨fun _ => readFloat_dot h4, by simp⟩
  | none =>
  simp only [h4, Option.map_none, Option.none_or] at h
  cases h5 : readRun isDig s with
  | some x =>
    simp only [h5, Option.map_some, Option.some_or, Option.some.injEq, Prod.mk.injEq] at h
    obtain ⟨rfl, rfl⟩ := h
    exact ⟨by simp, fun _ => readInt_dot h5⟩
  | none =>
  simp only [h5, Option.map_none, Option.none_or] at h
  cases h6 : readBetween '[' ']' isListText s with
  | some x =>
    simp only [h6, Option.map_some, Option.some_or, Option.some.injEq, Prod.mk.injEq] at h
    obtain ⟨rfl, rfl⟩ := h
    exact ⟨by simp, by simp⟩
  | none =>
  simp only [h6, Option.map_none, Option.none_or, Option.map_eq_some_iff, Prod.mk.injEq] at h
  obtain ⟨x, h7, rfl, rfl⟩ := h
  exact ⟨by simp, by simp⟩

theorem readProp_typed {s rest : Str} {x : Str × PropType × Str} (h : readProp s = some (x, rest)) : Typed' x.2.1 x.2.2 := by
  simp only [readProp, Option.bind_eq_bind, Option.bind_eq_some_iff] at h
  obtain ⟨y, h1, s1, h2, h⟩ := h
  split at h
  · rename_i t v rest' hv
    simp only [Option.some.injEq, Prod.mk.injEq] at h
    obtain ⟨rfl, rfl⟩ := h
    exact readValue_typed hv
  · simp only [Option.some.injEq, Prod.mk.injEq] at h
    obtain ⟨rfl, rfl⟩ := h
    exact ⟨by simp, by simp⟩
  · simp at h

theorem mem_dropWhile_keep {p : Char → Bool} {s : Str} {c : Char} (h : c ∈ s) (hc : p c = false) : c ∈ s.dropWhile p := by
  have := List.takeWhile_append_dropWhile (p := p) (l := s)
  rw [← this, List.mem_append] at h
  rcases h with h | h
  · have := List.all_eq_true.1 (all_takeWhile p s) _ h
    rw [hc] at this
    simp at this
  · exact h

theorem mem_stripP_keep {p : Char → Bool} {s : Str} {c : Char} (h : c ∈ s) (hc : p c = false) : c ∈ stripP p s := by
  simp only [stripP, rstripP, lstripP, List.mem_reverse]
  exact mem_dropWhile_keep (List.mem_reverse.2 (mem_dropWhile_keep h hc)) hc

theorem stripP_empty {p : Char → Bool} {s : Str} : (stripP p s).isEmpty = s.all p := by
  cases h : s.all p with
  | true =>
    have : s.dropWhile p = [] := by
      simpa using dropWhile_stop (b := []) h (notHead_nil p)
    simp [stripP, rstripP, lstripP, this]
  | false =>
    have : ∃ c ∈ s, p c = false := by simpa using h
    obtain ⟨c, hc, hp⟩ := this
    have := mem_stripP_keep hc hp
    cases hs : stripP p s with
    | nil => rw [hs] at this; simp at this
    | cons a b => rfl

theorem dot_stripValue {v : Str} : '.' ∈ stripValue v ↔ '.' ∈ v :=
  ⟨mem_stripValue, fun h => mem_stripP_keep (mem_stripP_keep (mem_stripP_keep h (by decide)) (by decide)) sp_dot⟩

theorem extractedType_propCaps (x : Str × PropType × Str) : extractedType (propCaps x) = .ok x.2.1 := by
  obtain ⟨a, t, v⟩ := x
  cases t <;> simp [extractedType, propCaps, capGet, typeGroup, gName, gValue, gNone, gBool, gFloat, gInt, gList, gString]

theorem handleExtracted_caps {x : Str × PropType × Str} (h : Typed' x.2.1 x.2.2) (hs : x.2.2.all isSpace = false) :
    handleExtracted x.2.2 (propCaps x) = propValue x.2.1 x.2.2 := by
  have hst : strip (stripP (· == '\'') (stripP (· == '"') x.2.2)) = stripValue x.2.2 := rfl
  simp only [handleExtracted, extractedType_propCaps, propValue, hst, hs]
  obtain ⟨a, t, v⟩ := x
  cases t with
  | noneT => rfl
  | boolT => rfl
  | floatT =>
    have := dot_stripValue.2 (h.1 rfl)
    simp only [handleFloat, this, not_true, if_false]
    rfl
  | intT =>
    have := mt dot_stripValue.1 (h.2 rfl)
    simp only [handleInt, this, if_false]
    rfl
  | listT =>
    simp only [handleList, pyKeywords, Bool.false_eq_true, if_false]
    generalize literalEval (replace c!"null" c!"None" (replace c!"false" c!"False" (replace c!"true" c!"True" (stripValue v)))) = r
    rcases r with e | v
    · cases e <;> rfl
    · rfl
  | stringT =>
    simp only [handleString]
    by_cases h1 : stripValue v = c!"Null" ∨ stripValue v = c!"None" ∨ stripValue v = c!"none"
    · rw [if_pos h1, if_neg (by simp), if_pos (by simp only [List.mem_cons]; grind)]
    · rw [if_neg h1]
      by_cases h2 : stripValue v = c!"true" ∨ stripValue v = c!"True" ∨ stripValue v = c!"false" ∨ stripValue v = c!"False"
      · rw [if_pos h2, if_neg (by simp), if_pos (by simp only [List.mem_cons]; grind)]
      · rw [if_neg h2, if_neg (by simp), if_neg (by simp only [List.mem_cons, List.not_mem_nil]; grind)]

theorem parseOneProp_caps {x : Str × PropType × Str} (h : Typed' x.2.1 x.2.2) :
    parseOneProp (propCaps x) = (propValue x.2.1 x.2.2).map fun v => (x.1, v) := by
  have hn : capGet gName (propCaps x) = some x.1 := by simp [propCaps, capGet]
  have hv : capGet gValue (propCaps x) = some x.2.2 := by simp [propCaps, capGet, gName, gValue]
  have hs : (strip x.2.2).isEmpty = x.2.2.all isSpace := stripP_empty
  simp only [parseOneProp, hn, hv, hs]
  cases ha : x.2.2.all isSpace with
  | true => simp [propValue, ha, Except.map]
  | false =>
    simp only [handleExtracted_caps h ha]
    cases propValue x.2.1 x.2.2 <;> rfl

theorem parseProperties_read (s : Str) : parseProperties s = readProps s := by
  have h1 : (propKV.finditer s).map Prod.snd = (scan readProp s).map propCaps := by
    rw [agrees_prop.finditer, scan_map]
  have h2 : ∀ x ∈ scan readProp s, Typed' x.2.1 x.2.2 := fun x hx => by
    obtain ⟨_, _, h⟩ := scan_mem hx
    exact readProp_typed h
  unfold parseProperties readProps
  generalize propKV.finditer s = l at h1
  generalize scan readProp s = k at h1 h2
  generalize ([] : Dict V) = d
  induction k generalizing l d with
  | nil =>
    have : l = [] := by simpa using h1
    subst this
    rfl
  | cons x k ih =>
    cases l with
    | nil => simp at h1
    | cons y l =>
      simp only [List.map_cons, List.cons.injEq] at h1
      simp only [parsePropsLoop, h1.1, parseOneProp_caps (h2 x (by simp)), List.foldlM_cons]
      cases propValue x.2.1 x.2.2 with
      | error e => rfl
      | ok v => exact ih l h1.2 (fun x hx => h2 x (by simp [hx])) _

end WG
