/-
The check of the keywords of a query, which is switched off (C75).
-/
import Verif.Proofs.Keywords
import Verif.Props.Query

set_option linter.unusedSectionVars false

namespace WG

section
variable [PyRuntime]

/-- C75: `valid_query` says yes exactly if a keyword, in any case, stands between blanks (or at an
end of the query). -/
theorem C75_check_exactly (q : Str) : validQuery q = true ↔ ∃ w ∈ clauseWords, HasWord w (lower q) :=
  validQuery_iff q

/-- C75: a query that starts with a keyword, in any case, and a blank would pass the check.
Missing from the full property: keywords followed by something else (`C75_violated_by_all`). -/
theorem C75_leading_keyword_passes_partial (kw rest : Str) (h : lower kw ∈ clauseWords) :
    validQuery (kw ++ ' ' :: rest) = true := by
  rw [validQuery_iff]
  refine ⟨_, h, [], ' ' :: lower rest, ?_, .inl rfl, .inr ⟨_, rfl⟩⟩
  rw [lower_append, show ' ' :: rest = [' '] ++ rest from rfl, lower_append]
  simp [lower, lowerChar, isAscii]

/-- C75, not as claimed: without a blank no query that the program executes would pass the check. -/
theorem C75_violated_by_all (env : Env) (q : Str) (g : GPath) (fs fs' : FS) (r : Bool) (hb : ' ' ∉ lower q)
    (h : (query env q g).run fs = (.ok r, fs')) : validQuery q = false := by
  cases hv : validQuery q with
  | false => rfl
  | true =>
    obtain ⟨w, hw, a, b, e, ha, hb'⟩ := (validQuery_iff q).1 hv
    cases hp : parseQueryString q with
    | error e => rw [query_run, hp] at h; simp at h
    | ok p =>
      have hm := paren_lower (paren_of_parsed hp)
      rcases ha with rfl | ⟨a', rfl⟩
      · rcases hb' with rfl | ⟨b', rfl⟩
        · rw [List.append_nil, List.nil_append] at e
          rw [e] at hm
          have : ∀ w ∈ clauseWords, '(' ∉ w := by decide
          exact absurd hm (this w hw)
        · rw [e] at hb; simp at hb
      · rw [e] at hb; simp at hb

end

/-! ### Examples and counterexamples -/

section
attribute [local instance] demoRuntime

/-- C75: `please find it` has a keyword, `refind;` has none. -/
example : (∃ w ∈ clauseWords, HasWord w (lower c!"please FIND it")) ∧
    ¬ ∃ w ∈ clauseWords, HasWord w (lower c!"refind;") := by
  rw [← C75_check_exactly, ← C75_check_exactly]; decide +kernel
example : validQuery c!"FiNd (a:A);" = true :=
  C75_leading_keyword_passes_partial c!"FiNd" c!"(a:A);" (by decide +kernel)

/-- C75 violated: `FIND(a:A);` is executed, but would not pass the check. -/
theorem C75_violated : ∃ (q : Str) (fs : FS), (query demoEnv q demoG).run fs = (.ok true, fs) ∧
    validQuery q = false := by
  have h : (query demoEnv c!"FIND(a:A);" demoG).run demoFresh = (.ok true, demoFresh) := by decide +kernel
  exact ⟨c!"FIND(a:A);", demoFresh, h, C75_violated_by_all demoEnv _ demoG _ _ true (by decide +kernel) h⟩

end

end WG
