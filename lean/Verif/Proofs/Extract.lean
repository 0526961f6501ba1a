/-
Extraction of statements from a query.
-/
import Verif.Proofs.Regex
import Verif.Model.Parse
import Verif.Spec.Parse

set_option linter.unusedSectionVars false
set_option linter.unusedSimpArgs false

namespace WG
open Re
variable [PyRuntime]

/-! ### Keywords -/

omit [PyRuntime] in
theorem sameLetter_eq : sameLetter = matchCI := rfl

theorem hd_wordCI {kw w : Str} (h : CISpelling kw w) (s : Str) : Hd (wordCI kw) (w ++ s) (w, s, []) := by
  induction kw generalizing w with
  | nil =>
    cases w with
    | nil => exact hd_eps s
    | cons => simp [CISpelling] at h
  | cons k ks ih =>
    cases w with
    | nil => simp [CISpelling] at h
    | cons c cs =>
      cases ks with
      | nil =>
        cases cs with
        | nil => exact hd_cls _ h.1
        | cons => simp [CISpelling] at h
      | cons k' ks' => exact hd_seq (hd_cls _ h.1) (ih h.2)

theorem wordCI_mem {kw s : Str} {m : MRes} (h : m ∈ (wordCI kw).run s) : CISpelling kw m.1 := by
  induction kw generalizing s m with
  | nil => simp [wordCI, run] at h; subst h; simp [CISpelling]
  | cons k ks ih =>
    have hc : ∀ {s : Str} {m : MRes}, m ∈ (Re.cls (matchCI k)).run s → ∃ c, matchCI k c = true ∧ m.1 = [c] := by
      intro s m h
      cases s with
      | nil => simp [run] at h
      | cons c cs =>
        rw [run] at h
        split at h
        · next hp => simp at h; subst h; exact ⟨c, hp, rfl⟩
        · simp at h
    cases ks with
    | nil =>
      obtain ⟨c, h1, h2⟩ := hc h
      simp [h2, CISpelling, sameLetter_eq, h1]
    | cons k' ks' =>
      simp only [wordCI, run, List.mem_flatMap, List.mem_map] at h
      obtain ⟨x, hx, y, hy, rfl⟩ := h
      obtain ⟨c, h1, h2⟩ := hc hx
      have := ih hy
      simp [h2, CISpelling, sameLetter_eq, h1, this]

theorem fails_wordCI {kw s : Str} (h : ∀ w r, s = w ++ r → ¬ CISpelling kw w) : Fails (wordCI kw) s := by
  rcases hd_or_fails (wordCI kw) s with ⟨m, hm⟩ | hf
  · exact absurd (wordCI_mem hm.mem) (h _ _ (run_append hm.mem).symm)
  · exact hf

theorem toLower_cases (c : Char) : c.toLower = c ∨ c.toLower.toUpper = c := by
  unfold Char.toLower
  split
  · next h =>
    right
    apply Char.ext
    unfold Char.toUpper
    have h1 : 'A'.val.toNat ≤ c.val.toNat := h.1
    have h2 : c.val.toNat ≤ 'Z'.val.toNat := h.2
    simp at h1 h2
    split
    · simp only
      rw [UInt32.add_assoc]
      have : 'a'.val - 'A'.val + ('A'.val - 'a'.val) = 0 := by decide
      rw [this]
      simp
    · next h' =>
      exfalso
      apply h'
      simp only [UInt32.le_iff_toNat_le, UInt32.toNat_add]
      simp
      omega
  · left; rfl

theorem matchCI_of_toLower {k c : Char} (h : c.toLower = k) : matchCI k c = true := by
  subst h
  unfold matchCI
  rcases toLower_cases c with h | h <;> simp [h]

theorem ciSpelling_of {kw w : Str} (h : IsSpelling kw w) : CISpelling kw w := by
  induction kw generalizing w with
  | nil =>
    cases w with
    | nil => trivial
    | cons => simp [IsSpelling] at h
  | cons k ks ih =>
    cases w with
    | nil => simp [IsSpelling] at h
    | cons c cs =>
      simp only [IsSpelling, List.map_cons, List.cons.injEq] at h
      exact ⟨matchCI_of_toLower h.1, ih h.2⟩

theorem hd_keyword {kw w : Str} (h : CISpelling kw w) (s : Str) :
    Hd (.grp 1 (.alt (wordCI kw) (wordCI kw))) (w ++ s) (w, s, [(1, w)]) :=
  hd_grp (hd_alt_left (hd_wordCI h s))

theorem fails_keyword {kw s : Str} {b : Re} (h : ∀ w r, s = w ++ r → ¬ CISpelling kw w) :
    Fails (.grp 0 (.seq (.grp 1 (.alt (wordCI kw) (wordCI kw))) b)) s :=
  fails_grp (fails_seq_left (fails_grp (fails_alt (fails_wordCI h) (fails_wordCI h))))

/-! ### `.+` up to the last terminator of the line -/

theorem starRuns_mem {p : Char → Bool} {w s : Str} (h : NotHead p s) {x : Str × Str} (hx : x ∈ starRuns p (w ++ s)) :
    ∃ v1 v2, w = v1 ++ v2 ∧ x = (v1, v2 ++ s) := by
  induction w generalizing x with
  | nil =>
    rw [List.nil_append, starRuns_notHead h] at hx
    simp at hx
    exact ⟨[], [], rfl, hx⟩
  | cons c cs ih =>
    rw [List.cons_append, starRuns] at hx
    split at hx
    · rcases List.mem_append.1 hx with hx | hx
      · obtain ⟨y, hy, rfl⟩ := List.mem_map.1 hx
        obtain ⟨v1, v2, rfl, rfl⟩ := ih hy
        exact ⟨c :: v1, v2, rfl, rfl⟩
      · simp at hx
        exact ⟨[], c :: cs, rfl, hx⟩
    · simp at hx
      exact ⟨[], c :: cs, rfl, hx⟩

/-- The ways of a greedy repetition, as seen from one of them. -/
theorem starRuns_at {p : Char → Bool} {u v s : Str} (hu : u.all p = true) (h : NotHead p s) :
    ∃ pre t, starRuns p (u ++ (v ++ s)) = pre ++ (u, v ++ s) :: t ∧
      ∀ x ∈ pre, ∃ v1 v2, v = v1 ++ v2 ∧ v1 ≠ [] ∧ x = (u ++ v1, v2 ++ s) := by
  induction u with
  | nil =>
    cases v with
    | nil => exact ⟨[], [], by simpa using starRuns_notHead h, by simp⟩
    | cons c cs =>
      by_cases hc : p c = true
      · refine ⟨(starRuns p (cs ++ s)).map (fun x => (c :: x.1, x.2)), [], by simp [starRuns, hc], ?_⟩
        intro x hx
        obtain ⟨y, hy, rfl⟩ := List.mem_map.1 hx
        obtain ⟨v1, v2, rfl, rfl⟩ := starRuns_mem h hy
        exact ⟨c :: v1, v2, rfl, by simp, rfl⟩
      · exact ⟨[], [], by simp [starRuns, hc], by simp⟩
  | cons c cs ih =>
    simp only [List.all_cons, Bool.and_eq_true] at hu
    obtain ⟨pre, t, h1, h2⟩ := ih hu.2
    refine ⟨pre.map (fun x => (c :: x.1, x.2)), t.map (fun x => (c :: x.1, x.2)) ++ [([], c :: (cs ++ (v ++ s)))],
      by simp [starRuns, hu.1, h1], ?_⟩
    intro x hx
    obtain ⟨y, hy, rfl⟩ := List.mem_map.1 hx
    obtain ⟨v1, v2, e1, e2, e3⟩ := h2 y hy
    exact ⟨v1, v2, e1, e2, by simp [e3]⟩

/-- `.+` followed by `b`: the last place on the line where `b` matches. -/
theorem hd_dots {b : Re} {u v s : Str} {m : MRes} (hne : u ≠ []) (hu : '\n' ∉ u) (hs : NotHead isDot s)
    (hf : ∀ v1 v2, v = v1 ++ v2 → v1 ≠ [] → Fails b (v2 ++ s)) (hb : Hd b (v ++ s) m) :
    Hd (.seq (plus isDot) b) (u ++ (v ++ s)) (u ++ m.1, m.2.1, m.2.2) := by
  cases u with
  | nil => simp at hne
  | cons c cs =>
    have hc : ∀ c' ∈ c :: cs, isDot c' = true := by
      intro c' h
      simp only [isDot, bne_iff_ne, ne_eq]
      rintro rfl
      exact hu h
    have hall : cs.all isDot = true := by
      rw [List.all_eq_true]
      exact fun x hx => hc x (by simp [hx])
    obtain ⟨pre, t, h1, h2⟩ := starRuns_at (v := v) hall hs
    have hrun : (plus isDot).run (c :: cs ++ (v ++ s)) =
        (pre.map fun x => ((c :: x.1, x.2, []) : MRes)) ++ (c :: cs, v ++ s, []) ::
          t.map fun x => ((c :: x.1, x.2, []) : MRes) := by
      simp [plus, run, hc c (by simp), h1, Function.comp_def]
    have := hd_seq_skip hrun (b := b) (m' := m) ?_ hb
    · simpa using this
    · intro x hx
      obtain ⟨y, hy, rfl⟩ := List.mem_map.1 hx
      obtain ⟨v1, v2, e1, e2, e3⟩ := h2 y hy
      rw [e3]
      exact hf v1 v2 e1 e2

/-- End of text or line feed. -/
def LineEnd (s : Str) : Prop := s = [] ∨ ∃ s', s = '\n' :: s'

theorem LineEnd.notDot {s : Str} (h : LineEnd s) : NotHead isDot s := by
  rcases h with rfl | ⟨s', rfl⟩
  · exact notHead_nil _
  · exact notHead_cons (by decide)

/-- `(kw)\s*\(.+\);` on a statement followed by the rest of its line. -/
theorem hd_clauseAll {kw w sp body tail s : Str} (hw : CISpelling kw w) (hsp : sp.all isSpace = true) (hb : body ≠ [])
    (hn : '\n' ∉ body) (ht : ')' ∉ tail) (hs : LineEnd s) :
    Hd (clauseAll kw) (stmtText w sp body ++ (tail ++ s))
      (stmtText w sp body, tail ++ s, [(0, stmtText w sp body), (1, w)]) := by
  have h1 : Hd (seqs [plus isDot, ch ')', ch ';']) (body ++ ((c!");" ++ tail) ++ s)) (body ++ c!");", tail ++ s, []) := by
    refine hd_dots (m := (c!");", tail ++ s, [])) hb hn hs.notDot ?_ ?_
    · intro v1 v2 hv hne
      refine fails_seq_left (fails_ch ?_)
      intro cs hcs
      cases v2 with
      | nil =>
        rcases hs with rfl | ⟨s', rfl⟩
        · simp at hcs
        · simp at hcs
      | cons c v2 =>
        simp only [List.cons_append, List.cons.injEq] at hcs
        obtain ⟨rfl, _⟩ := hcs
        cases v1 with
        | nil => simp at hne
        | cons d v1 =>
          simp only [List.cons_append, List.cons.injEq] at hv
          obtain ⟨_, hv⟩ := hv
          cases v1 with
          | nil => simp at hv
          | cons d v1 =>
            simp only [List.cons_append, List.cons.injEq] at hv
            exact ht (by rw [← List.nil_append tail, hv.2]; simp)
    · exact hd_seq (hd_ch _ _) (hd_ch _ _)
  have h2 := hd_grp (n := 0) (hd_seq (hd_keyword hw (sp ++ '(' :: (body ++ ((c!");" ++ tail) ++ s))))
    (hd_seq (hd_star hsp (s := '(' :: (body ++ ((c!");" ++ tail) ++ s))) (notHead_cons (by simp [isSpace, isAscii])))
      (hd_seq (hd_ch '(' _) h1)))
  have e : stmtText w sp body ++ (tail ++ s) = w ++ (sp ++ '(' :: (body ++ ((c!");" ++ tail) ++ s))) := by
    simp [stmtText]
  rw [e]
  change Hd (clauseAll kw) _ _ at h2
  simpa [stmtText] using h2

/-- `(kw).+;` -/
theorem hd_reportAll {w body tail s : Str} (hw : CISpelling c!"report" w) (hb : body ≠ [])
    (hn : '\n' ∉ body) (ht : ';' ∉ tail) (hs : LineEnd s) :
    Hd reportAll (w ++ (body ++ c!";") ++ (tail ++ s))
      (w ++ (body ++ c!";"), tail ++ s, [(0, w ++ (body ++ c!";")), (1, w)]) := by
  have h1 : Hd (seqs [plus isDot, ch ';']) (body ++ ((c!";" ++ tail) ++ s)) (body ++ c!";", tail ++ s, []) := by
    refine hd_dots (m := (c!";", tail ++ s, [])) hb hn hs.notDot ?_ (hd_ch _ _)
    intro v1 v2 hv hne
    refine fails_ch ?_
    intro cs hcs
    cases v2 with
    | nil =>
      rcases hs with rfl | ⟨s', rfl⟩
      · simp at hcs
      · simp at hcs
    | cons c v2 =>
      simp only [List.cons_append, List.cons.injEq] at hcs
      obtain ⟨rfl, _⟩ := hcs
      cases v1 with
      | nil => simp at hne
      | cons d v1 =>
        simp only [List.cons_append, List.cons.injEq] at hv
        exact ht (by rw [← List.nil_append tail, hv.2]; simp)
  have h2 := hd_grp (n := 0) (hd_seq (hd_keyword hw (body ++ ((c!";" ++ tail) ++ s))) h1)
  have e : w ++ (body ++ c!";") ++ (tail ++ s) = w ++ (body ++ ((c!";" ++ tail) ++ s)) := by
    simp
  rw [e]
  change Hd reportAll _ _ at h2
  simpa using h2

/-! ### Lines -/

theorem ciSpelling_noNL {kw w : Str} (hk : '\n' ∉ kw) (hk' : ∀ c ∈ kw, c.toUpper ≠ '\n') (h : CISpelling kw w) :
    '\n' ∉ w := by
  induction kw generalizing w with
  | nil =>
    cases w with
    | nil => simp
    | cons => simp [CISpelling] at h
  | cons k ks ih =>
    cases w with
    | nil => simp
    | cons c cs =>
      have h1 := ih (fun h => hk (by simp [h])) (fun c hc => hk' c (by simp [hc])) h.2
      have h2 := hk' k (by simp)
      have h3 : '\n' ≠ k := fun e => hk (List.mem_cons.2 (.inl e))
      intro hm
      rcases List.mem_cons.1 hm with hm | hm
      · subst hm
        have := h.1
        simp [sameLetter, h3, Ne.symm h2] at this
      · exact h1 hm

/-- No match starts inside a text without the keyword that is followed by the end of its line. -/
theorem skip_noKeyword {kw t s : Str} {b : Re} (hk : ∀ w, CISpelling kw w → '\n' ∉ w) (h : NoKeyword kw t) (hs : LineEnd s) :
    (Re.grp 0 (.seq (.grp 1 (.alt (wordCI kw) (wordCI kw))) b)).finditer (t ++ s) =
      (Re.grp 0 (.seq (.grp 1 (.alt (wordCI kw) (wordCI kw))) b)).finditer s := by
  refine finditer_skip fun a c e _ => fails_keyword fun w r hw hc => ?_
  have hnl := hk w hc
  rw [List.append_eq_append_iff] at hw
  rcases hw with ⟨d, rfl, hd⟩ | ⟨d, rfl, _⟩
  · cases d with
    | nil => exact h a c [] (by simp [e]) (by simpa using hc)
    | cons x d =>
      rcases hs with rfl | ⟨s', rfl⟩
      · simp at hd
      · simp only [List.cons_append, List.cons.injEq] at hd
        exact hnl (by simp [← hd.1])
  · exact h a w d (by simp [e]) hc

theorem fails_lineEnd {kw s : Str} {b : Re} (hne : kw ≠ []) (hk : ∀ w, CISpelling kw w → '\n' ∉ w) (hs : LineEnd s) :
    Fails (.grp 0 (.seq (.grp 1 (.alt (wordCI kw) (wordCI kw))) b)) s := by
  refine fails_keyword fun w r hw hc => ?_
  have := hk w hc
  cases w with
  | nil =>
    cases kw with
    | nil => simp at hne
    | cons => simp [CISpelling] at hc
  | cons c w =>
    rcases hs with rfl | ⟨s', rfl⟩
    · simp at hw
    · simp at hw
      exact this (by simp [← hw.1])

/-- `finditer` on lines, given its effect on every single line. -/
theorem finditer_lines {re : Re} {ls : List (Str × Option Str)} (h0 : Fails re []) (hnl : ∀ s, Fails re ('\n' :: s))
    (h : ∀ l ∈ ls, ∀ s, LineEnd s → (re.finditer (l.1 ++ s)).map Prod.fst = l.2.toList ++ (re.finditer s).map Prod.fst) :
    (re.finditer (joinLines (ls.map Prod.fst))).map Prod.fst = ls.filterMap Prod.snd := by
  induction ls with
  | nil => simp [joinLines, finditer_nil h0]
  | cons l ls ih =>
    have ih := ih fun x hx => h x (by simp [hx])
    cases ls with
    | nil =>
      have := h l (by simp) [] (.inl rfl)
      simp only [List.append_nil, finditer_nil h0, List.map_nil] at this
      simp only [List.map_cons, List.map_nil, joinLines, this]
      obtain ⟨l, o⟩ := l
      cases o <;> simp
    | cons l' ls =>
      simp only [List.map_cons, joinLines]
      rw [h l (by simp) _ (.inr ⟨_, rfl⟩), finditer_fail (hnl _)]
      simp only [List.map_cons] at ih
      rw [ih]
      obtain ⟨l, o⟩ := l
      cases o <;> simp

/-- Keywords start with a letter that is neither a blank nor a tab. -/
def KwStart (kw : Str) : Prop := ∃ k ks, kw = k :: ks ∧ matchCI k ' ' = false ∧ matchCI k '\t' = false

theorem skip_indent {kw ind s : Str} {b : Re} (hk : KwStart kw) (h : Indent ind) :
    (Re.grp 0 (.seq (.grp 1 (.alt (wordCI kw) (wordCI kw))) b)).finditer (ind ++ s) =
      (Re.grp 0 (.seq (.grp 1 (.alt (wordCI kw) (wordCI kw))) b)).finditer s := by
  refine finditer_skip fun a c e hc => fails_keyword fun w r hw hs => ?_
  obtain ⟨k, ks, rfl, h1, h2⟩ := hk
  cases c with
  | nil => simp at hc
  | cons x c =>
    cases w with
    | nil => simp [CISpelling] at hs
    | cons y w =>
      simp only [List.cons_append, List.cons.injEq] at hw
      have := hs.1
      rw [← hw.1, sameLetter_eq] at this
      rcases h x (by simp [e]) with rfl | rfl
      · simp [h1] at this
      · simp [h2] at this

theorem line_clauseAll {kw l s : Str} {o : Option Str} (hst : KwStart kw) (hk : ∀ w, CISpelling kw w → '\n' ∉ w)
    (h : QLine kw l o) (hs : LineEnd s) :
    ((clauseAll kw).finditer (l ++ s)).map Prod.fst = o.toList ++ ((clauseAll kw).finditer s).map Prod.fst := by
  cases h with
  | stmt ind w sp body tail hi hw hsp hb hn htn ht hnk =>
    rw [List.append_assoc, show (clauseAll kw).finditer (ind ++ _) = (clauseAll kw).finditer _ from skip_indent hst hi,
      List.append_assoc, finditer_hit (hd_clauseAll (ciSpelling_of hw) hsp hb hn ht hs) (by simp [stmtText])]
    simp only [List.map_cons, Option.toList_some, List.cons_append, List.nil_append]
    rw [show (clauseAll kw).finditer (tail ++ s) = (clauseAll kw).finditer s from skip_noKeyword hk hnk hs]
  | other l hl hnk =>
    rw [show (clauseAll kw).finditer (l ++ s) = (clauseAll kw).finditer s from skip_noKeyword hk hnk hs]
    simp

theorem line_reportAll {l s : Str} {o : Option Str} (h : RLine l o) (hs : LineEnd s) :
    (reportAll.finditer (l ++ s)).map Prod.fst = o.toList ++ (reportAll.finditer s).map Prod.fst := by
  have hk : ∀ w, CISpelling c!"report" w → '\n' ∉ w := fun w h => ciSpelling_noNL (by decide) (by decide) h
  cases h with
  | stmt ind w body tail hi hw hb hn htn ht hnk =>
    rw [List.append_assoc ind, show reportAll.finditer (ind ++ _) = reportAll.finditer _ from
      skip_indent ⟨'r', _, rfl, by decide, by decide⟩ hi, List.append_assoc (w ++ _), finditer_hit (hd_reportAll (ciSpelling_of hw) hb hn ht hs) (by simp)]
    simp only [List.map_cons, Option.toList_some, List.cons_append, List.nil_append]
    rw [show reportAll.finditer (tail ++ s) = reportAll.finditer s from skip_noKeyword hk hnk hs]
  | other l hl hnk =>
    rw [show reportAll.finditer (l ++ s) = reportAll.finditer s from skip_noKeyword hk hnk hs]
    simp

/-- The statements of a query in which every statement has its own line. -/
theorem clauseAll_lines {kw : Str} (hst : KwStart kw) (hne : kw ≠ []) (hk : ∀ w, CISpelling kw w → '\n' ∉ w)
    {ls : List (Str × Option Str)} (h : ∀ l ∈ ls, QLine kw l.1 l.2) :
    ((clauseAll kw).finditer (joinLines (ls.map Prod.fst))).map Prod.fst = ls.filterMap Prod.snd :=
  finditer_lines (fails_lineEnd hne hk (.inl rfl)) (fun s => fails_lineEnd hne hk (.inr ⟨s, rfl⟩))
    fun l hl _ hs => line_clauseAll hst hk (h l hl) hs

theorem reportAll_lines {ls : List (Str × Option Str)} (h : ∀ l ∈ ls, RLine l.1 l.2) :
    (reportAll.finditer (joinLines (ls.map Prod.fst))).map Prod.fst = ls.filterMap Prod.snd := by
  have hk : ∀ w, CISpelling c!"report" w → '\n' ∉ w := fun w h => ciSpelling_noNL (by decide) (by decide) h
  exact finditer_lines (fails_lineEnd (by simp) hk (.inl rfl)) (fun s => fails_lineEnd (by simp) hk (.inr ⟨s, rfl⟩))
    fun l hl _ hs => line_reportAll (h l hl) hs

end WG
