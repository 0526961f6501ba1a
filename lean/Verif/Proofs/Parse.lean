/-
What the parsing functions return.
-/
import Verif.Proofs.Spelling

set_option linter.unusedSectionVars false
set_option linter.unusedSimpArgs false

namespace WG
open Re
variable [PyRuntime]

theorem isSubstr_iff (t s : Str) : isSubstr t s = true ↔ t <:+: s := by
  induction s with
  | nil => simp [isSubstr]
  | cons c s ih => simp [isSubstr, ih, List.infix_cons_iff]

/-- A text without the first letter of the keyword does not contain the keyword. -/
theorem noKeyword_of {k : Char} {ks t : Str} (h : t.all (fun c => !matchCI k c) = true) : NoKeyword (k :: ks) t := by
  intro a w b e hs
  cases w with
  | nil => simp [CISpelling] at hs
  | cons c w =>
    have := List.all_eq_true.1 h c (by simp [e])
    simp [show matchCI k c = true from hs.1] at this

theorem noKeyword_of_search {kw t : Str} (h : (wordCI kw).finditer t = []) : NoKeyword kw t := by
  intro a w b e hs
  have := finditer_nil_iff.1 h a (w ++ b) (by simp [e])
  exact not_fails (hd_wordCI hs b).mem this

theorem noStatement_of {kw t : Str} (h : NoKeyword kw t) : NoStatement kw t := by
  intro a w sp body b e hw _ _ _
  exact h a w (sp ++ '(' :: (body ++ c!");") ++ b) (by rw [e]; simp [stmtText]) hw

theorem noReport_of {t : Str} (h : NoKeyword c!"report" t) : NoReport t := by
  intro a w body b e hw _ _
  exact h a w (body ++ c!";" ++ b) (by rw [e]; simp) hw

/-- The regex of a clause. -/
def clauseRe : Clause → Option Re
  | .make => some makeAll
  | .find => some findAll
  | .report => some reportAll
  | .criteria => none

theorem extract_def (q : Str) (clause : Clause) : extractAllStatements q clause =
    (match clauseRe clause with
    | none => .error .exception
    | some re =>
      match (re.finditer q).map Prod.fst with
      | s :: ss => .ok (some (s :: ss))
      | [] =>
        match checkClauseSpelling q clause with
        | .error e => .error e
        | .ok _ => .ok none) := by
  cases clause <;> rfl

theorem extract_of_finditer {q : Str} {clause : Clause} {re : Re} {l : List Str}
    (hc : clauseRe clause = some re)
    (h : (re.finditer q).map Prod.fst = l) (hne : l ≠ []) : extractAllStatements q clause = .ok (some l) := by
  rw [extract_def]
  simp only [hc, h]
  cases l with
  | nil => simp at hne
  | cons => rfl

theorem make_lines {ls : List (Str × Option Str)} (h : ∀ l ∈ ls, QLine c!"make" l.1 l.2) :
    (makeAll.finditer (joinLines (ls.map Prod.fst))).map Prod.fst = ls.filterMap Prod.snd :=
  clauseAll_lines ⟨'m', _, rfl, by decide, by decide⟩ (by simp) (fun _ h => ciSpelling_noNL (by decide) (by decide) h) h

theorem find_lines {ls : List (Str × Option Str)} (h : ∀ l ∈ ls, QLine c!"find" l.1 l.2) :
    (findAll.finditer (joinLines (ls.map Prod.fst))).map Prod.fst = ls.filterMap Prod.snd :=
  clauseAll_lines ⟨'f', _, rfl, by decide, by decide⟩ (by simp) (fun _ h => ciSpelling_noNL (by decide) (by decide) h) h

theorem buildParsedMake_ok {s : Str} {m : ParsedMake} (h : buildParsedMake s = .ok m) :
    m.rawStatement = s ∧ m.clause = .make ∧ m.patterns = statementPatterns s ∧
      (∀ p ∈ m.patterns, p.validate = .ok p) := by
  unfold buildParsedMake at h
  have hv : ∀ l l' : List ParsedPattern, validatePatterns l = .ok l' → l' = l ∧ ∀ p ∈ l, p.validate = .ok p := by
    intro l
    induction l with
    | nil => intro l' h; simp [validatePatterns] at h; simp [h]
    | cons p l ih =>
      intro l' h
      rw [validatePatterns] at h
      cases hp : p.validate with
      | error => rw [hp] at h; simp at h
      | ok p' =>
        have : p' = p := by
          unfold ParsedPattern.validate at hp
          split at hp
          · simpa using hp.symm
          · simp at hp
        subst this
        cases hl : validatePatterns l with
        | error => rw [hp, hl] at h; simp at h
        | ok l'' =>
          rw [hp, hl] at h
          simp at h
          obtain ⟨rfl, h2⟩ := ih _ hl
          subst h
          exact ⟨rfl, by simpa [hp] using h2⟩
  cases hp : validatePatterns (statementPatterns s) with
  | error => rw [hp] at h; simp at h
  | ok ps =>
    rw [hp] at h
    simp only at h
    split at h
    · obtain ⟨rfl, h2⟩ := hv _ _ hp
      simp at h
      subst h
      exact ⟨rfl, rfl, rfl, h2⟩
    · simp at h

theorem buildParsedMakes_ok {ss : List Str} {ms : List ParsedMake} (h : buildParsedMakes ss = .ok ms) :
    ms.map ParsedMake.rawStatement = ss ∧ ∀ m ∈ ms, buildParsedMake m.rawStatement = .ok m := by
  induction ss generalizing ms with
  | nil => simp [buildParsedMakes] at h; simp [h]
  | cons s ss ih =>
    rw [buildParsedMakes] at h
    cases h1 : buildParsedMake s with
    | error => rw [h1] at h; simp at h
    | ok m =>
      cases h2 : buildParsedMakes ss with
      | error => rw [h1, h2] at h; simp at h
      | ok ms' =>
        rw [h1, h2] at h
        simp at h
        subst h
        obtain ⟨e, hm⟩ := ih h2
        have e1 := (buildParsedMake_ok h1).1
        refine ⟨by simp [e, e1], ?_⟩
        intro m' hm'
        rcases List.mem_cons.1 hm' with rfl | hm'
        · rw [e1, h1]
        · exact hm _ hm'

/-- What an accepted MAKE part of a query consists of. -/
theorem parseMake_ok {q : Str} {ms : List ParsedMake} (h : parseMake q = .ok (some ms)) :
    extractAllStatements q .make = .ok (some (ms.map ParsedMake.rawStatement)) ∧
    validateStatement (ms.map ParsedMake.rawStatement) = .ok () ∧
    ∀ m ∈ ms, buildParsedMake m.rawStatement = .ok m := by
  unfold parseMake at h
  cases h1 : extractAllStatements q .make with
  | error => rw [h1] at h; simp at h
  | ok o =>
    cases o with
    | none => rw [h1] at h; simp at h
    | some ss =>
      cases h2 : validateStatement ss with
      | error => rw [h1] at h; simp [h2] at h
      | ok _ =>
        cases h3 : buildParsedMakes ss with
        | error => rw [h1] at h; simp [h2, h3] at h
        | ok ms' =>
          rw [h1] at h
          simp [h2, h3] at h
          subst h
          obtain ⟨e, hm⟩ := buildParsedMakes_ok h3
          rw [e]
          exact ⟨rfl, h2, hm⟩

/-- What an accepted FIND part of a query consists of. -/
theorem parseFind_ok {q : Str} {f : ParsedFind} (h : parseFind q = .ok (some f)) :
    extractAllStatements q .find = .ok (some [f.rawStatement]) ∧ validateStatement [f.rawStatement] = .ok () ∧
    buildParsedFind f.rawStatement = .ok f := by
  unfold parseFind at h
  cases h1 : extractAllStatements q .find with
  | error => rw [h1] at h; simp at h
  | ok o =>
    cases o with
    | none => rw [h1] at h; simp at h
    | some ss =>
      cases ss with
      | nil => rw [h1] at h; simp at h
      | cons s ss =>
        rw [h1] at h
        simp only at h
        split at h
        · simp at h
        · next hs =>
          simp at hs
          subst hs
          cases h2 : validateStatement [s] with
          | error => simp [h2] at h
          | ok _ =>
            cases h3 : buildParsedFind s with
            | error => simp [h2, h3] at h
            | ok f' =>
              simp [h2, h3] at h
              subst h
              have : f'.rawStatement = s := by
                unfold buildParsedFind at h3
                split at h3
                · simp at h3
                · next p ps _ =>
                  cases hp : p.validate with
                  | error => rw [hp] at h3; simp at h3
                  | ok p' =>
                    rw [hp] at h3
                    simp only at h3
                    split at h3
                    · simp at h3; subst h3; rfl
                    · simp at h3
              rw [this]
              exact ⟨rfl, h2, h3⟩

theorem buildParsedFind_ok {s : Str} {f : ParsedFind} (h : buildParsedFind s = .ok f) :
    f.rawStatement = s ∧ f.clause = .find ∧ (∃ ps, statementPatterns s = f.pattern :: ps) ∧
      f.pattern.validate = .ok f.pattern := by
  unfold buildParsedFind at h
  split at h
  · simp at h
  · next p ps e =>
    cases hp : p.validate with
    | error => rw [hp] at h; simp at h
    | ok p' =>
      have : p' = p := by
        have hp' := hp
        unfold ParsedPattern.validate at hp'
        split at hp'
        · simpa using hp'.symm
        · simp at hp'
      subst this
      rw [hp] at h
      simp only at h
      split at h
      · simp at h; subst h; exact ⟨rfl, rfl, ⟨ps, e⟩, hp⟩
      · simp at h


theorem isIllegal_iff {c : Char} : isIllegal c = true ↔ c ∈ illegalChars := by
  simp [isIllegal, illegalChars, or_assoc]

/-! ### Keywords in upper or lower case -/

theorem forEach_single {α : Type} (check : α → Except PyErr Unit) (x : α) : forEach check [x] = check x := by
  cases h : check x <;> simp [forEach, h]

theorem forEach_map_congr {α β : Type} {check : α → Except PyErr Unit} {f g : β → α} {l : List β}
    (h : ∀ x ∈ l, forEach check [f x] = forEach check [g x]) : forEach check (l.map f) = forEach check (l.map g) := by
  induction l with
  | nil => rfl
  | cons x l ih =>
    have := h x (by simp)
    rw [forEach_single, forEach_single] at this
    simp only [List.map_cons, forEach, this, ih fun y hy => h y (by simp [hy])]

theorem validate_plain_list {l : List (Str × Str)} (h : ∀ x ∈ l, ∀ c ∈ x.1, plainChar c = true) :
    validateStatement (l.map fun x => x.1 ++ x.2) = validateStatement (l.map Prod.snd) := by
  have h1 : checkStatementSyntax (l.map fun x => x.1 ++ x.2) = checkStatementSyntax (l.map Prod.snd) :=
    forEach_map_congr fun x hx => syntax_plain (h x hx)
  have h2 : checkIllegalCharacters (l.map fun x => x.1 ++ x.2) = checkIllegalCharacters (l.map Prod.snd) :=
    forEach_map_congr fun x hx => illegal_plain (h x hx)
  have h3 : checkNodeRelProperties (l.map fun x => x.1 ++ x.2) = checkNodeRelProperties (l.map Prod.snd) :=
    forEach_map_congr fun x hx => nodeRelProps_plain (h x hx)
  have h4 : checkRelationships (l.map fun x => x.1 ++ x.2) = checkRelationships (l.map Prod.snd) := by
    clear h1 h2 h3
    induction l with
    | nil => rfl
    | cons x l ih =>
      simp only [List.map_cons, checkRelationships, relDir_plain (h x (by simp)), ih fun y hy => h y (by simp [hy])]
  simp only [validateStatement, h1, h2, h3, h4]

theorem word_mem {kw s : Str} {m : MRes} (h : m ∈ (word kw).run s) : m.1 = kw := by
  induction kw generalizing s m with
  | nil => simp [word, run] at h; simp [h]
  | cons k ks ih =>
    cases ks with
    | nil =>
      obtain ⟨cs, _, rfl⟩ := mem_ch_inv h
      rfl
    | cons k' ks =>
      obtain ⟨x, hx, y, hy, rfl⟩ := mem_seq_inv h
      obtain ⟨cs, _, rfl⟩ := mem_ch_inv hx
      simp [ih hy]

theorem hd_word (kw s : Str) : Hd (word kw) (kw ++ s) (kw, s, []) := by
  induction kw with
  | nil => exact hd_eps s
  | cons k ks ih =>
    cases ks with
    | nil => exact hd_ch k s
    | cons k' ks => exact hd_seq (hd_ch k _) ih

theorem matchAt_isSome {r : Re} {s : Str} : (r.matchAt s).isSome = true ↔ ¬ Fails r s := by
  unfold Fails
  rw [Re.matchAt]
  cases r.run s <;> simp

theorem cs_match {up low w sp body : Str} (hw : w = up ∨ w = low) (hsp : sp.all isSpace = true) (hb : body ≠ [])
    (hn : '\n' ∉ body) : ((clauseAllCS up low).matchAt (stmtText w sp body)).isSome = true := by
  rw [matchAt_isSome]
  have hd : body.all isDot = true := by
    rw [List.all_eq_true]
    intro c hc
    simp only [isDot, bne_iff_ne, ne_eq]
    rintro rfl
    exact hn hc
  have h1 : (w, sp ++ '(' :: (body ++ c!");"), []) ∈ (Re.alt (word up) (word low)).run (stmtText w sp body) := by
    simp only [run, List.mem_append, stmtText]
    rcases hw with rfl | rfl
    · exact .inl (hd_word _ _).mem
    · exact .inr (hd_word _ _).mem
  exact not_fails (mem_grp (mem_seq (mem_grp h1) (mem_seq (mem_star hsp _) (mem_seq (hd_ch '(' _).mem
    (mem_seq (mem_plus hd hb _) (mem_seq (hd_ch ')' _).mem (hd_ch ';' _).mem))))))

theorem cs_no_match {up low w t : Str} (hl : up.length = w.length) (hl' : low.length = w.length) (h1 : w ≠ up)
    (h2 : w ≠ low) : (clauseAllCS up low).matchAt (w ++ t) = none := by
  have : Fails (clauseAllCS up low) (w ++ t) := by
    refine fails_grp (fails_seq_left (fails_grp (fails_alt ?_ ?_)))
    · refine fails_of fun m hm => ?_
      have e := run_append hm
      rw [word_mem hm] at e
      exact h1 (List.append_inj e hl).1.symm
    · refine fails_of fun m hm => ?_
      have e := run_append hm
      rw [word_mem hm] at e
      exact h2 (List.append_inj e hl').1.symm
  exact this.matchAt

/-- The patterns of several statements, up to the first invalid one. -/
def patternsLoop : List Str → Except PyErr (List (List ParsedPattern))
  | [] => .ok []
  | s :: ss =>
    match validatePatterns (statementPatterns s) with
    | .error e => .error e
    | .ok ps =>
      match patternsLoop ss with
      | .error e => .error e
      | .ok pss => .ok (ps :: pss)

theorem buildParsedMakes_patterns {l : List (Str × Str × Str)}
    (h : ∀ x ∈ l, (x.1 = c!"MAKE" ∨ x.1 = c!"make") ∧ x.2.1.all isSpace = true ∧ x.2.2 ≠ [] ∧ '\n' ∉ x.2.2) :
    (buildParsedMakes (l.map fun x => stmtText x.1 x.2.1 x.2.2)).map (List.map ParsedMake.patterns) =
      patternsLoop (l.map fun x => x.2.1 ++ '(' :: (x.2.2 ++ c!");")) := by
  induction l with
  | nil => rfl
  | cons x l ih =>
    have ih := ih fun y hy => h y (by simp [hy])
    obtain ⟨hw, hsp, hb, hn⟩ := h x (by simp)
    have hi : ∀ c ∈ x.1, idleChar c = true := by
      rcases hw with e | e <;> rw [e] <;> simp [idleChar, isSpace, isAscii]
    have hm : (makeAllCS.matchAt (stmtText x.1 x.2.1 x.2.2)).isSome = true := cs_match hw hsp hb hn
    simp only [List.map_cons, buildParsedMakes, patternsLoop, buildParsedMake, hm, if_true]
    rw [show statementPatterns (stmtText x.1 x.2.1 x.2.2) = statementPatterns (x.2.1 ++ '(' :: (x.2.2 ++ c!");"))
      from patterns_idle hi]
    cases validatePatterns (statementPatterns (x.2.1 ++ '(' :: (x.2.2 ++ c!");"))) with
    | error e => rfl
    | ok ps =>
      simp only
      rw [← ih]
      cases buildParsedMakes (l.map fun x => stmtText x.1 x.2.1 x.2.2) with
      | error => rfl
      | ok ms => rfl

end WG
