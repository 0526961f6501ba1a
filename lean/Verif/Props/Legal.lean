import Verif.Proofs.Legal
import Verif.Props.Parse
import Verif.Props.Query
/-! # C32: illegal characters never reach the store -/
set_option linter.unusedSectionVars false
set_option linter.unusedSimpArgs false
namespace WG

section
variable [PyRuntime]

theorem legalParts {q : Str} {ms : List ParsedMake} (h : parseMake q = .ok (some ms)) :
    ∀ p ∈ patsOf ms, ∀ t ∈ p.parts, LegalPart t := by
  intro p hp t ht
  simp only [patsOf, List.mem_flatMap] at hp
  obtain ⟨m, hm, hp⟩ := hp
  obtain ⟨a, rfl⟩ := mem_parts_slot ht
  have := (C32_make_texts_legal h m hm).2 p hp a
  exact ⟨fun s hs => this s (mem_texts.2 (by simp [hs])), fun s hs => this s (mem_texts.2 (by simp [hs]))⟩

/-- C32, stored part: when MAKE stores what an accepted query string says, the database keeps its old
records and every string of every new record - label, relationship names, property names and all strings
inside property values, nested in lists or not - is free of illegal characters; so are all new entries of
the label and name indexes.  For every query string and every healthy GDBMS. -/
theorem C32_stored_strings_legal (env : Env) {q : Str} {ms : List ParsedMake} {fs fs' : FS} {g : GPath} {d : Dict V}
    {labels names : List Str} {rels : Dict (List Int)} {n : Int} {r : Bool} (hq : parseMake q = .ok (some ms))
    (h : Healthy fs g d labels names rels n) (hr : (make env ms g).run fs = (.ok r, fs')) :
    ∃ new labels' names' rels' n', Healthy fs' g (d ++ new) labels' names' rels' n' ∧
      (∀ x ∈ new, ∀ t ∈ x.2.strings, ∀ c ∈ t, c ∉ illegalChars) ∧
      (∀ x ∈ labels', x ∈ labels ∨ ∀ c ∈ x, c ∉ illegalChars) ∧
      (∀ x ∈ names', x ∈ names ∨ ∀ c ∈ x, c ∉ illegalChars) := by
  obtain ⟨_, _, _, _, _, labels', names', rels', hh, hl, hn, _⟩ := make_success h hr
  have hp := legalParts hq
  exact ⟨_, labels', names', rels', _, hh, dbBatch_legal hp,
    fun x hx => ((hl x).1 hx).imp id (wantLabels_legal hp x), fun x hx => ((hn x).1 hx).imp id (wantNames_legal hp x)⟩

/-- The whole store is free of illegal characters: records and the two name indexes. -/
def LegalStore (d : Dict V) (labels names : List Str) : Prop :=
  (∀ x ∈ d, ∀ t ∈ x.2.strings, ∀ c ∈ t, c ∉ illegalChars) ∧
  (∀ x ∈ labels, ∀ c ∈ x, c ∉ illegalChars) ∧ ∀ x ∈ names, ∀ c ∈ x, c ∉ illegalChars

/-- C32 for whole queries: every query that succeeds on a healthy GDBMS without illegal characters leaves
one without illegal characters. -/
theorem C32_query_keeps_store_legal (env : Env) {q : Str} {fs fs' : FS} {g : GPath} {d : Dict V}
    {labels names : List Str} {rels : Dict (List Int)} {n : Int} {r : Bool}
    (h : Healthy fs g d labels names rels n) (hl : LegalStore d labels names)
    (hr : (query env q g).run fs = (.ok r, fs')) :
    ∃ d' labels' names' rels' n', Healthy fs' g d' labels' names' rels' n' ∧ LegalStore d' labels' names' := by
  cases hp : parseQueryString q with
  | error e => rw [query_run, hp] at hr; simp at hr
  | ok p =>
    have hpm : parseMake q = .ok p.make ∧ ∃ f, p.find = some f := by
      unfold parseQueryString at hp
      cases hm : parseMake q with
      | error e => simp [hm] at hp
      | ok mk =>
        simp only [hm] at hp
        repeat' (first | split at hp | simp at hp)
        subst hp
        exact ⟨rfl, _, rfl⟩
    obtain ⟨hpm, f, hf⟩ := hpm
    have hex : ∃ b, (executeMakes env g p.make).run fs = (.ok b, fs') := by
      rw [query_run, hp] at hr
      simp only at hr
      rw [execute_run hf] at hr
      cases h1 : (executeMakes env g p.make).run fs with
      | mk r1 fs1 =>
        rw [h1] at hr
        cases r1 with
        | error e => simp at hr
        | ok b =>
          simp only at hr
          have := run_readOnly (readOnly_find f g none) fs1
          cases h2 : (find f g none).run fs1 with
          | mk r2 fs2 =>
            rw [h2] at this hr
            simp only at this
            subst this
            cases r2 with
            | error e => simp at hr
            | ok b' => simp only [Prod.mk.injEq] at hr; exact ⟨b, by rw [hr.2]⟩
    obtain ⟨b, hex⟩ := hex
    have hnil : (pure true : Prog Bool).run fs = (.ok b, fs') → ∃ d' labels' names' rels' n',
        Healthy fs' g d' labels' names' rels' n' ∧ LegalStore d' labels' names' := by
      intro he
      have : fs = fs' := by
        change (Except.ok true, fs) = _ at he
        simp at he
        exact he.2
      subst this
      exact ⟨d, labels, names, rels, n, h, hl⟩
    cases hm : p.make with
    | none => rw [hm] at hex; exact hnil hex
    | some ms =>
      cases ms with
      | nil => rw [hm] at hex; exact hnil hex
      | cons m ms =>
        rw [hm] at hex hpm
        obtain ⟨new, labels', names', rels', n', h1, h2, h3, h4⟩ := C32_stored_strings_legal env hpm h hex
        refine ⟨_, labels', names', rels', n', h1, ?_, ?_, ?_⟩
        · intro x hx
          rcases List.mem_append.1 hx with hx | hx
          · exact hl.1 x hx
          · exact h2 x hx
        · intro x hx
          exact (h3 x hx).elim (hl.2.1 x) id
        · intro x hx
          exact (h4 x hx).elim (hl.2.2 x) id

end

section
attribute [local instance] demoRuntime

/-- C32: a query that stores two nodes, on the new GDBMS. -/
example : ∃ r fs', (query demoEnv qGood demoG).run demoFresh = (.ok r, fs') ∧
    ∃ d' labels' names' rels' n', Healthy fs' demoG d' labels' names' rels' n' ∧ LegalStore d' labels' names' := by
  have h : ((query demoEnv qGood demoG).run demoFresh).1 = .ok true := by decide +kernel
  exact ⟨true, _, run_of h, C32_query_keeps_store_legal demoEnv demoFresh_healthy (by simp [LegalStore]) (run_of h)⟩

end

end WG
