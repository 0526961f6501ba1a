/-
The REPORTs of any text.
-/
import Verif.Proofs.Spelling
import Verif.Spec.Report

set_option linter.unusedSectionVars false

namespace WG
open Re
variable [PyRuntime]

theorem report_noNL {w : Str} (h : CISpelling c!"report" w) : '\n' ∉ w := ciSpelling_noNL (by decide) (by decide) h

/-- A text without line feed that is followed by the end of the line is inside the line. -/
theorem inside_line {t r l s : Str} (ht : '\n' ∉ t) (hs : LineEnd s) (e : l ++ s = t ++ r) : ∃ c, l = t ++ c ∧ r = c ++ s := by
  rw [List.append_eq_append_iff] at e
  rcases e with ⟨d, rfl, hd⟩ | ⟨d, rfl, hd⟩
  · cases d with
    | nil => exact ⟨[], by simp, by simpa using hd.symm⟩
    | cons x d =>
      rcases hs with rfl | ⟨s', rfl⟩
      · simp at hd
      · simp only [List.cons_append, List.cons.injEq] at hd
        exact absurd (by simp [← hd.1]) ht
  · exact ⟨d, rfl, hd⟩

theorem split_last {c : Str} (h : ';' ∈ c) : ∃ body b, c = body ++ ';' :: b ∧ ';' ∉ b := by
  induction c with
  | nil => simp at h
  | cons x c ih =>
    by_cases hc : ';' ∈ c
    · obtain ⟨body, b, e, hb⟩ := ih hc
      exact ⟨x :: body, b, by simp [e], hb⟩
    · have : x = ';' := by
        rcases List.mem_cons.1 h with h | h
        · exact h.symm
        · exact absurd h hc
      exact ⟨[], c, by simp [this], hc⟩

theorem first_report {l : Str} (h : ∃ a w b, l = a ++ w ++ b ∧ CISpelling c!"report" w) :
    ∃ a w b, l = a ++ w ++ b ∧ CISpelling c!"report" w ∧
      ∀ a' w' b', l = a' ++ w' ++ b' → CISpelling c!"report" w' → a.length ≤ a'.length := by
  induction l with
  | nil =>
    obtain ⟨a, w, b, e, hw⟩ := h
    have : w = [] := by simp at e; exact e.2.1
    subst this
    exact hw.elim
  | cons x l ih =>
    by_cases h0 : ∃ w b, x :: l = w ++ b ∧ CISpelling c!"report" w
    · obtain ⟨w, b, e, hw⟩ := h0
      exact ⟨[], w, b, by simpa using e, hw, by simp⟩
    · obtain ⟨a, w, b, e, hw⟩ := h
      cases a with
      | nil => exact absurd ⟨w, b, by simpa using e, hw⟩ h0
      | cons y a =>
        simp only [List.cons_append, List.cons.injEq] at e
        obtain ⟨a, w, b, e', hw', hmin⟩ := ih ⟨a, w, b, by simpa using e.2, hw⟩
        refine ⟨x :: a, w, b, by simp [e'], hw', fun a' w' b' ea hw'' => ?_⟩
        cases a' with
        | nil => exact absurd ⟨w', b', by simpa using ea, hw''⟩ h0
        | cons z a' =>
          simp only [List.cons_append, List.cons.injEq] at ea
          have := hmin a' w' b' (by simpa using ea.2) hw''
          simpa using this

theorem report_len {w : Str} (h : CISpelling c!"report" w) : w.length = 6 := by
  match w, h with
  | [_, _, _, _, _, _], _ => rfl

theorem reportIn_exists {l a w body b : Str} (e : l = a ++ (w ++ (body ++ c!";") ++ b)) (hw : CISpelling c!"report" w) (hb : body ≠ []) :
    ∃ s, ReportIn l s := by
  obtain ⟨a', w', c, e', hw', hmin⟩ := first_report (l := l) ⟨a, w, body ++ c!";" ++ b, by rw [e]; simp, hw⟩
  have hle := hmin a w (body ++ c!";" ++ b) (by rw [e]; simp) hw
  have hl : w'.length = w.length := by rw [report_len hw, report_len hw']
  have e2 : (a' ++ w') ++ c = (a ++ w) ++ (body ++ c!";" ++ b) := by rw [← e', e]; simp
  rw [List.append_eq_append_iff] at e2
  have hsuf : ∃ d, c = d ++ (body ++ c!";" ++ b) := by
    rcases e2 with ⟨d, _, hd⟩ | ⟨d, ha, hd⟩
    · exact ⟨d, hd⟩
    · have : d = [] := by
        have := congrArg List.length ha
        simp only [List.length_append] at this
        exact List.eq_nil_of_length_eq_zero (by omega)
      subst this
      exact ⟨[], by simpa using hd.symm⟩
  obtain ⟨d, rfl⟩ := hsuf
  cases hb' : d ++ (body ++ c!";" ++ b) with
  | nil => simp at hb'
  | cons x c =>
    have hmem : ';' ∈ c := by
      cases d with
      | nil =>
        cases body with
        | nil => exact absurd rfl hb
        | cons y body =>
          simp only [List.nil_append, List.cons_append, List.cons.injEq] at hb'
          rw [← hb'.2]; simp
      | cons y d =>
        simp only [List.cons_append, List.cons.injEq] at hb'
        rw [← hb'.2]; simp
    obtain ⟨bd, bt, ec, hbt⟩ := split_last hmem
    rw [hb'] at e'
    exact ⟨_, a', w', x :: bd, bt, by rw [e', ec]; simp, hw', by simp, hbt, hmin, rfl⟩

/-- What a line adds to the statements found. -/
theorem reportAll_line {l s : Str} {o : Option Str} (hl : '\n' ∉ l) (hs : LineEnd s)
    (ho : match o with | some r => ReportIn l r | none => ∀ r, ¬ ReportIn l r) :
    (reportAll.finditer (l ++ s)).map Prod.fst = o.toList ++ (reportAll.finditer s).map Prod.fst := by
  have inv : ∀ {a b : Str}, l = a ++ b → ¬ Fails reportAll (b ++ s) →
      ∃ w body c, b = w ++ (body ++ c!";") ++ c ∧ CISpelling c!"report" w ∧ body ≠ [] := by
    intro a b e hf
    refine Classical.byContradiction fun hno => hf (fails_of fun m hm => hno ?_)
    obtain ⟨w, body, e1, _, h1, h3, h4⟩ := reportAll_inv hm
    have hn : '\n' ∉ w ++ (body ++ c!";") := by simp [report_noNL h1, h4]
    obtain ⟨c, hc, _⟩ := inside_line hn hs e1
    exact ⟨w, body, c, hc, h1, h3⟩
  cases o with
  | none =>
    rw [finditer_skip fun a b e _ => Classical.byContradiction fun hf => ?_]
    · rfl
    · obtain ⟨w, body, c, rfl, h1, h3⟩ := inv e hf
      obtain ⟨r, hr⟩ := reportIn_exists e h1 h3
      exact ho r hr
  | some r =>
    obtain ⟨a, w, body, b, e, hw, hb, hbt, hmin, rfl⟩ := ho
    have h1 : reportAll.finditer (l ++ s) = reportAll.finditer (w ++ (body ++ c!";") ++ (b ++ s)) := by
      have e0 : l ++ s = a ++ (w ++ (body ++ c!";") ++ (b ++ s)) := by rw [e]; simp
      rw [e0]
      refine finditer_skip fun a1 a2 ea hne => Classical.byContradiction fun hf => ?_
      obtain ⟨w', body', c, e', h1, h3⟩ := inv (a := a1) (b := a2 ++ (w ++ (body ++ c!";") ++ b)) (by rw [e, ea]; simp)
        (by simpa using hf)
      have := hmin a1 w' (body' ++ c!";" ++ c) (by rw [e, ea, List.append_assoc, e']; simp) h1
      have hp : 0 < a2.length := List.length_pos_iff.2 hne
      rw [ea, List.length_append] at this
      omega
    have hn : '\n' ∉ body := fun h => hl (by rw [e]; simp [h])
    rw [h1, finditer_hit (hd_reportAll hw hb hn hbt hs) (by simp)]
    simp only [List.map_cons, Option.toList_some, List.cons_append, List.nil_append]
    rw [finditer_skip fun b1 b2 eb _ => Classical.byContradiction fun hf => ?_]
    obtain ⟨w', body', c, e', h1, h3⟩ := inv (a := a ++ (w ++ (body ++ c!";")) ++ b1) (b := b2) (by rw [e, eb]; simp) hf
    exact hbt (by rw [eb, e']; simp)

theorem reports_filterMap {ls rs : List Str} (h : Reports ls rs) : ∃ ps : List (Str × Option Str), ps.map Prod.fst = ls ∧
    ps.filterMap Prod.snd = rs ∧ ∀ p ∈ ps, match p.2 with | some r => ReportIn p.1 r | none => ∀ r, ¬ ReportIn p.1 r := by
  induction ls generalizing rs with
  | nil => exact ⟨[], rfl, by rw [show rs = [] from h]; rfl, by simp⟩
  | cons l ls ih =>
    rcases h with ⟨s, rs', h1, rfl, h2⟩ | ⟨h1, h2⟩
    · obtain ⟨ps, e1, e2, h3⟩ := ih h2
      exact ⟨(l, some s) :: ps, by simp [e1], by simp [e2], by
        intro p hp
        rcases List.mem_cons.1 hp with rfl | hp
        · exact h1
        · exact h3 p hp⟩
    · obtain ⟨ps, e1, e2, h3⟩ := ih h2
      exact ⟨(l, none) :: ps, by simp [e1], by simp [e2], by
        intro p hp
        rcases List.mem_cons.1 hp with rfl | hp
        · exact h1
        · exact h3 p hp⟩

/-- The REPORTs that are found. -/
theorem reports_found {ls rs : List Str} (hl : ∀ l ∈ ls, '\n' ∉ l) (h : Reports ls rs) :
    (reportAll.finditer (joinLines ls)).map Prod.fst = rs := by
  obtain ⟨ps, rfl, rfl, hp⟩ := reports_filterMap h
  have hk : ∀ w, CISpelling c!"report" w → '\n' ∉ w := fun w h => report_noNL h
  exact finditer_lines (fails_lineEnd (by simp) hk (.inl rfl)) (fun s => fails_lineEnd (by simp) hk (.inr ⟨s, rfl⟩))
    fun p hp' _ hs => reportAll_line (hl p.1 (List.mem_map.2 ⟨p, hp', rfl⟩)) hs (hp p hp')

theorem splitLines_ne (q : Str) : splitLines q ≠ [] := by
  cases q with
  | nil => simp [splitLines]
  | cons c cs =>
    rw [splitLines]
    split
    · simp
    · split <;> simp

theorem splitLines_join (q : Str) : joinLines (splitLines q) = q := by
  induction q with
  | nil => rfl
  | cons c cs ih =>
    rw [splitLines]
    cases h : splitLines cs with
    | nil => exact absurd h (splitLines_ne cs)
    | cons l ls =>
      rw [h] at ih
      split
      · next hc => rw [hc, joinLines, ih]; rfl; simp
      · cases ls with
        | nil => simpa [joinLines] using ih
        | cons m ls => simpa [joinLines] using ih

theorem splitLines_line (q : Str) : ∀ l ∈ splitLines q, '\n' ∉ l := by
  induction q with
  | nil => simp [splitLines]
  | cons c cs ih =>
    rw [splitLines]
    split
    · intro l hl
      rcases List.mem_cons.1 hl with rfl | hl
      · simp
      · exact ih l hl
    · next hc =>
      cases h : splitLines cs with
      | nil => exact absurd h (splitLines_ne cs)
      | cons m ls =>
        rw [h] at ih
        intro l hl
        rcases List.mem_cons.1 hl with rfl | hl
        · simp [ih m (by simp), Ne.symm hc]
        · exact ih l (by simp [hl])

theorem splitLines_joinLines {ls : List Str} (hl : ∀ l ∈ ls, '\n' ∉ l) (hne : ls ≠ []) : splitLines (joinLines ls) = ls := by
  have one : ∀ l : Str, '\n' ∉ l → splitLines l = [l] := by
    intro l hl
    induction l with
    | nil => rfl
    | cons c cs ih =>
      have hc : ¬ c = '\n' := fun e => hl (by simp [e])
      rw [splitLines, if_neg hc, ih fun h => hl (by simp [h])]
  have app : ∀ l s : Str, '\n' ∉ l → splitLines (l ++ '\n' :: s) = l :: splitLines s := by
    intro l s hl
    induction l with
    | nil => simp [splitLines]
    | cons c cs ih =>
      have hc : ¬ c = '\n' := fun e => hl (by simp [e])
      rw [List.cons_append, splitLines, if_neg hc, ih fun h => hl (by simp [h])]
  induction ls with
  | nil => exact absurd rfl hne
  | cons l ls ih =>
    cases ls with
    | nil => exact one l (hl l (by simp))
    | cons m ls =>
      rw [joinLines, app l _ (hl l (by simp)), ih (fun x hx => hl x (by simp [hx])) (by simp)]
      simp

theorem reports_exists (ls : List Str) : ∃ rs, Reports ls rs := by
  induction ls with
  | nil => exact ⟨[], rfl⟩
  | cons l ls ih =>
    obtain ⟨rs, h⟩ := ih
    by_cases hr : ∃ s, ReportIn l s
    · obtain ⟨s, hs⟩ := hr
      exact ⟨s :: rs, .inl ⟨s, rs, hs, rfl, h⟩⟩
    · exact ⟨rs, .inr ⟨fun s hs => hr ⟨s, hs⟩, h⟩⟩

theorem reports_unique {ls rs rs' : List Str} (hl : ∀ l ∈ ls, '\n' ∉ l) (h : Reports ls rs) (h' : Reports ls rs') : rs = rs' := by
  rw [← reports_found hl h, reports_found hl h']

end WG
