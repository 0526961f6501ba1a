/-
C31: exactly which spellings of the keywords are accepted, for all texts.
-/
import Verif.Props.Row
import Verif.Props.Durable

set_option linter.unusedSectionVars false
set_option linter.unusedSimpArgs false

namespace WG

open Re

section
variable [PyRuntime]

theorem word_starts {kw s : Str} {m : MRes} (h : m ∈ (word kw).run s) : kw <+: s := by
  have e := run_append h
  rw [word_mem h] at e
  exact ⟨_, e⟩

theorem cs_starts {up low s : Str} (h : ((clauseAllCS up low).matchAt s).isSome = true) : up <+: s ∨ low <+: s := by
  refine Classical.byContradiction fun hn => ?_
  rw [matchAt_isSome] at h
  exact h (fails_grp (fails_seq_left (fails_grp (fails_alt (fails_of fun m hm => hn (.inl (word_starts hm)))
    (fails_of fun m hm => hn (.inr (word_starts hm)))))))

theorem reportCS_starts {s : Str} (h : (reportAllCS.matchAt s).isSome = true) : c!"REPORT" <+: s ∨ c!"report" <+: s := by
  refine Classical.byContradiction fun hn => ?_
  rw [matchAt_isSome] at h
  exact h (fails_grp (fails_seq_left (fails_grp (fails_alt (fails_of fun m hm => hn (.inl (word_starts hm)))
    (fails_of fun m hm => hn (.inr (word_starts hm)))))))

theorem build_starts {ss : List Str} {ms : List ParsedMake} (h : buildParsedMakes ss = .ok ms) :
    ∀ s ∈ ss, c!"MAKE" <+: s ∨ c!"make" <+: s := by
  induction ss generalizing ms with
  | nil => simp
  | cons s ss ih =>
    rw [buildParsedMakes] at h
    cases hb : buildParsedMake s with
    | error e => rw [hb] at h; simp at h
    | ok m =>
      cases hr : buildParsedMakes ss with
      | error e => rw [hb, hr] at h; simp at h
      | ok ms' =>
        intro x hx
        rcases List.mem_cons.1 hx with rfl | hx
        · rw [buildParsedMake] at hb
          cases hv : validatePatterns (statementPatterns x) with
          | error e => rw [hv] at hb; simp at hb
          | ok ps =>
            rw [hv] at hb
            simp only at hb
            split at hb
            · next hc => exact cs_starts hc
            · simp at hb
        · exact ih hr x hx

/-- C31 for every text: in an accepted query every statement that was found begins with its keyword all in capitals or all in small
letters. -/
theorem C31_accepted_keywords {q : Str} {pq : ParsedQuery} (h : parseQueryString q = .ok pq) :
    (∀ ss, extractAllStatements q .make = .ok (some ss) → ∀ s ∈ ss, c!"MAKE" <+: s ∨ c!"make" <+: s) ∧
    (∀ ss, extractAllStatements q .find = .ok (some ss) → ∀ s ∈ ss, c!"FIND" <+: s ∨ c!"find" <+: s) ∧
    (∀ ss, extractAllStatements q .report = .ok (some ss) → ∀ s ∈ ss, c!"REPORT" <+: s ∨ c!"report" <+: s) := by
  obtain ⟨f, hf, hfind, hmake, hrep⟩ := parseQuery_ok h
  refine ⟨fun ss hs => ?_, fun ss hs => ?_, fun ss hs => ?_⟩
  · rw [parseMake, hs] at hmake
    simp only at hmake
    cases hv : validateStatement ss with
    | error e => rw [hv] at hmake; simp at hmake
    | ok u =>
      cases hb : buildParsedMakes ss with
      | error e => rw [hv, hb] at hmake; simp at hmake
      | ok ms => exact build_starts hb
  · rw [parseFind, hs] at hfind
    match ss, hfind with
    | [], _ => simp
    | [s], hfind =>
      simp only [ne_eq, not_true, if_false] at hfind
      cases hv : validateStatement [s] with
      | error e => rw [hv] at hfind; simp at hfind
      | ok u =>
        cases hb : buildParsedFind s with
        | error e => rw [hv, hb] at hfind; simp at hfind
        | ok m =>
          intro x hx
          obtain rfl : x = s := by simpa using hx
          rw [buildParsedFind] at hb
          split at hb
          · simp at hb
          · split at hb
            · simp at hb
            · split at hb
              · next hc => exact cs_starts hc
              · simp at hb
    | s :: t :: ss, hfind => simp at hfind
  · rw [parseReport, hs] at hrep
    match ss, hrep with
    | [], _ => simp
    | [s], hrep =>
      simp only [ne_eq, not_true, if_false] at hrep
      split at hrep
      · simp at hrep
      · split at hrep
        · next hc =>
          intro x hx
          obtain rfl : x = s := by simpa using hx
          exact reportCS_starts hc
        · simp at hrep
    | s :: t :: ss, hrep => simp at hrep

theorem some_mem {ls : List (Str × Option Str)} {l s : Str} (h : (l, some s) ∈ ls) : s ∈ ls.filterMap Prod.snd :=
  List.mem_filterMap.2 ⟨_, h, rfl⟩

theorem query_refused_of {q : Str} (h : ∀ pq, parseQueryString q ≠ .ok pq) (env : Env) (g : GPath) (fs : FS) :
    ∃ e, (query env q g).run fs = (.error e, fs) := by
  cases hq : parseQueryString q with
  | error e => exact query_parse_error hq env g fs
  | ok pq => exact absurd hq (h pq)

/-- C31, false for the code, for queries of any number of lines: if the keyword of one MAKE is neither all in capitals nor all in small
letters, the whole query is refused and nothing changes, whatever else it says. -/
theorem C31_mixed_make_refused {ls : List (Str × Option Str)} (h : ∀ l ∈ ls, QLine c!"make" l.1 l.2) {l s : Str} (hs : (l, some s) ∈ ls)
    (hup : ¬ c!"MAKE" <+: s) (hlow : ¬ c!"make" <+: s) (env : Env) (g : GPath) (fs : FS) :
    ∃ e, (query env (joinLines (ls.map Prod.fst)) g).run fs = (.error e, fs) := by
  refine query_refused_of (fun pq hpq => ?_) env g fs
  have hm := some_mem hs
  have := (C31_accepted_keywords hpq).1 _ (C29_make_statements_on_lines h (List.ne_nil_of_mem hm)) s hm
  exact this.elim hup hlow

/-- C31, the same for FIND. -/
theorem C31_mixed_find_refused {ls : List (Str × Option Str)} (h : ∀ l ∈ ls, QLine c!"find" l.1 l.2) {l s : Str} (hs : (l, some s) ∈ ls)
    (hup : ¬ c!"FIND" <+: s) (hlow : ¬ c!"find" <+: s) (env : Env) (g : GPath) (fs : FS) :
    ∃ e, (query env (joinLines (ls.map Prod.fst)) g).run fs = (.error e, fs) := by
  refine query_refused_of (fun pq hpq => ?_) env g fs
  have hm := some_mem hs
  have := (C31_accepted_keywords hpq).2.1 _ (C29_find_statements_on_lines h (List.ne_nil_of_mem hm)) s hm
  exact this.elim hup hlow

/-- C31, the same for REPORT. -/
theorem C31_mixed_report_refused {ls : List (Str × Option Str)} (h : ∀ l ∈ ls, RLine l.1 l.2) {l s : Str} (hs : (l, some s) ∈ ls)
    (hup : ¬ c!"REPORT" <+: s) (hlow : ¬ c!"report" <+: s) (env : Env) (g : GPath) (fs : FS) :
    ∃ e, (query env (joinLines (ls.map Prod.fst)) g).run fs = (.error e, fs) := by
  refine query_refused_of (fun pq hpq => ?_) env g fs
  have hm := some_mem hs
  have := (C31_accepted_keywords hpq).2.2 _ (C29_report_statements_on_lines h (List.ne_nil_of_mem hm)) s hm
  exact this.elim hup hlow

/-- C31, exactly: a MAKE part of any number of statements, spelt in any way, is accepted if and only if every keyword is spelt all in
capitals or all in small letters and the same statements are accepted in capitals; the patterns are the same. -/
theorem C31_spelling_exact {l : List (Str × Str × Str)} (hne : l ≠ [])
    (h : ∀ x ∈ l, IsSpelling c!"make" x.1 ∧ x.2.1.all isSpace = true ∧ x.2.2 ≠ [] ∧ '\n' ∉ x.2.2) (o : Option (List (List ParsedPattern))) :
    makePatterns (parseMake (joinLines (l.map fun x => stmtText x.1 x.2.1 x.2.2))) = .ok o ↔
      (∀ x ∈ l, x.1 = c!"MAKE" ∨ x.1 = c!"make") ∧
        makePatterns (parseMake (joinLines (l.map fun x => stmtText c!"MAKE" x.2.1 x.2.2))) = .ok o := by
  have key : (∀ x ∈ l, x.1 = c!"MAKE" ∨ x.1 = c!"make") →
      makePatterns (parseMake (joinLines (l.map fun x => stmtText x.1 x.2.1 x.2.2))) =
        makePatterns (parseMake (joinLines (l.map fun x => stmtText c!"MAKE" x.2.1 x.2.2))) := by
    intro hk
    have h2 := parseMake_lines (l := l.map fun x => (c!"MAKE", x.2)) (by simpa using hne) (by
      intro y hy
      obtain ⟨x, hx, rfl⟩ := List.mem_map.1 hy
      exact ⟨.inl rfl, (h x hx).2⟩)
    simp only [List.map_map, Function.comp_def] at h2
    rw [h2, parseMake_lines hne fun x hx => ⟨hk x hx, (h x hx).2⟩]
  constructor
  · intro ho
    have hk : ∀ x ∈ l, x.1 = c!"MAKE" ∨ x.1 = c!"make" := by
      have hx : extractAllStatements (joinLines (l.map fun x => stmtText x.1 x.2.1 x.2.2)) .make =
          .ok (some (l.map fun x => stmtText x.1 x.2.1 x.2.2)) := by
        have := C29_make_statements_on_lines (ls := l.map fun x => (stmtText x.1 x.2.1 x.2.2, some (stmtText x.1 x.2.1 x.2.2)))
          (by
            intro y hy
            obtain ⟨x, hx, rfl⟩ := List.mem_map.1 hy
            obtain ⟨hw, hsp, hb, hn⟩ := h x hx
            have := QLine.stmt (kw := c!"make") [] x.1 x.2.1 x.2.2 [] (by simp [Indent]) hw hsp hb hn (by simp) (by simp)
              (noKeyword_of (by simp))
            simpa using this)
          (by simpa [List.filterMap_map, Function.comp_def] using hne)
        simpa [List.filterMap_map, List.map_map, Function.comp_def] using this
      rw [parseMake, hx] at ho
      simp only at ho
      cases hv : validateStatement (l.map fun x => stmtText x.1 x.2.1 x.2.2) with
      | error e => rw [hv] at ho; simp [makePatterns, Except.map] at ho
      | ok u =>
        cases hb : buildParsedMakes (l.map fun x => stmtText x.1 x.2.1 x.2.2) with
        | error e => rw [hv, hb] at ho; simp [makePatterns, Except.map] at ho
        | ok ms =>
          intro x hx
          have hw : x.1.length = 4 := by
            have := congrArg List.length (h x hx).1
            simpa using this
          rcases build_starts hb _ (List.mem_map.2 ⟨x, hx, rfl⟩) with ⟨t, e⟩ | ⟨t, e⟩
          · exact .inl (List.append_inj e (by simp [hw])).1.symm
          · exact .inr (List.append_inj e (by simp [hw])).1.symm
    exact ⟨hk, by rw [← key hk, ho]⟩
  · rintro ⟨hk, ho⟩
    rw [key hk, ho]

end

section
attribute [local instance] demoRuntime

/-- C31: one keyword in mixed case among three statements. -/
example : ∃ e, (query demoEnv c!"MAKE (:A)-[:R]->(:B);\n  Make (:C);\nFIND (:A);" demoG).run demoFresh = (.error e, demoFresh) :=
  C31_mixed_make_refused (ls := [(c!"MAKE (:A)-[:R]->(:B);", some c!"MAKE (:A)-[:R]->(:B);"), (c!"  Make (:C);", some c!"Make (:C);"),
    (c!"FIND (:A);", none)]) (l := c!"  Make (:C);") (s := c!"Make (:C);") (by
      intro l hl
      simp only [List.mem_cons, List.not_mem_nil, or_false] at hl
      rcases hl with rfl | rfl | rfl
      · exact QLine.stmt [] c!"MAKE" c!" " c!":A)-[:R]->(:B" [] (by simp [Indent]) rfl (by decide) (by decide) (by decide) (by decide) (by decide)
          (noKeyword_of (by simp))
      · exact QLine.stmt c!"  " c!"Make" c!" " c!":C" [] (by simp [Indent]) rfl (by decide) (by decide) (by decide) (by decide) (by decide)
          (noKeyword_of (by simp))
      · exact QLine.other _ (by decide) (noKeyword_of (by decide)))
    (by simp) (by decide) (by decide) _ _ _

/-- C31: three statements, all spelt in one way each. -/
example (o : Option (List (List ParsedPattern))) : makePatterns (parseMake c!"make (a:A);\nMAKE(b:B);\nmake (c:C);") = .ok o ↔
    makePatterns (parseMake c!"MAKE (a:A);\nMAKE(b:B);\nMAKE (c:C);") = .ok o :=
  (C31_spelling_exact (l := [(c!"make", c!" ", c!"a:A"), (c!"MAKE", c!"", c!"b:B"), (c!"make", c!" ", c!"c:C")]) (by simp) (by
    intro x hx
    simp only [List.mem_cons, List.not_mem_nil, or_false] at hx
    rcases hx with rfl | rfl | rfl <;> exact ⟨rfl, by decide, by decide, by decide⟩) o).trans (and_iff_right (by simp))

end

end WG
