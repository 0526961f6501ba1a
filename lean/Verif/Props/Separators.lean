/-
Property C72: one colon for every property, one comma between two properties.
-/
import Verif.Proofs.Separators
import Verif.Props.Parse
set_option linter.unusedSectionVars false
set_option linter.unusedSimpArgs false

namespace WG

section
variable [PyRuntime]

/-- C72, partial: every property block of an accepted MAKE statement has one colon more than commas outside its lists,
for every query string.  Missing: colons and commas are only counted (`C72_violated`, `C72_violated_in_text`). -/
theorem C72_make_balanced_partial {q : Str} {ms : List ParsedMake} (h : parseMake q = .ok (some ms)) :
    ∀ m ∈ ms, ∀ b : Block, b.OK → b.In m.rawStatement → b.Balanced :=
  fun m hm _ hb hin => validate_balanced (parseMake_ok h).2.1 (List.mem_map.2 ⟨m, hm, rfl⟩) hb hin

/-- C72 for FIND, partial in the same way. -/
theorem C72_find_balanced_partial {q : Str} {f : ParsedFind} (h : parseFind q = .ok (some f)) :
    ∀ b : Block, b.OK → b.In f.rawStatement → b.Balanced :=
  fun _ hb hin => validate_balanced (parseFind_ok h).2.1 (by simp) hb hin

/-- C72: a query with an unbalanced block in one of its MAKE statements raises and leaves the disk as it is. -/
theorem C72_unbalanced_make_refused {q : Str} {ss : List Str} (h : extractAllStatements q .make = .ok (some ss)) {s : Str}
    (hs : s ∈ ss) {b : Block} (hb : b.OK) (hin : b.In s) (hbal : ¬ b.Balanced) (env : Env) (g : GPath) (fs : FS) :
    ∃ e, (query env q g).run fs = (.error e, fs) := by
  have he : ∃ e, parseMake q = .error e := by
    cases hv : validateStatement ss with
    | ok _ => exact absurd (validate_balanced hv hs hb hin) hbal
    | error e => exact ⟨e, by simp [parseMake, h, hv]⟩
  obtain ⟨e, he⟩ := he
  exact ⟨e, by simp [query_run, parseQueryString, he]⟩

/-- C72: the same for a FIND statement. -/
theorem C72_unbalanced_find_refused {q : Str} {ss : List Str} (h : extractAllStatements q .find = .ok (some ss)) {s : Str}
    (hs : s ∈ ss) {b : Block} (hb : b.OK) (hin : b.In s) (hbal : ¬ b.Balanced) (env : Env) (g : GPath) (fs : FS) :
    ∃ e, (query env q g).run fs = (.error e, fs) := by
  have he : ∃ e, parseFind q = .error e := by
    cases hf : parseFind q with
    | error e => exact ⟨e, rfl⟩
    | ok o =>
      exfalso
      cases o with
      | some f =>
        have h1 := (parseFind_ok hf).1
        rw [h] at h1
        simp at h1
        subst h1
        simp at hs
        subst hs
        exact hbal (C72_find_balanced_partial hf b hb hin)
      | none =>
        unfold parseFind at hf
        simp only [h] at hf
        cases ss with
        | nil => simp at hs
        | cons s' ss =>
          simp only at hf
          split at hf
          · simp at hf
          · split at hf
            · simp at hf
            · split at hf <;> simp at hf
  obtain ⟨e, he⟩ := he
  cases hm : parseMake q with
  | error e' => exact ⟨e', by simp [query_run, parseQueryString, hm]⟩
  | ok o => exact ⟨e, by simp [query_run, parseQueryString, hm, he]⟩

end

section
attribute [local instance] demoRuntime

/-- `{a: [1, 2], b 'x'}`: the colon of `b` is missing. -/
def noColon : Block := ⟨[(c!"a: ", c!"1, 2")], c!", b 'x'"⟩

theorem noColon_ok : noColon.OK where
  text := by simp [noColon, BlockChar]; decide
  list := by simp [noColon, ListChar]; decide
  full := by simp [noColon]
  last := by simp [noColon, BlockChar]; decide
  some := by simp [noColon, Block.inside]

/-- C72 on a MAKE whose second property lacks its colon. -/
example : ∃ e, (query demoEnv c!"MAKE (:A{a: [1, 2], b 'x'});" demoG).run demoFresh = (.error e, demoFresh) := by
  have h : extractAllStatements c!"MAKE (:A{a: [1, 2], b 'x'});" .make = .ok (some [c!"MAKE (:A{a: [1, 2], b 'x'});"]) := by decide +kernel
  exact C72_unbalanced_make_refused h (List.mem_singleton_self _) noColon_ok ⟨c!"MAKE (:A", c!");", rfl⟩ (by decide) _ _ _

/-- C72 on a FIND. -/
example : ∃ e, (query demoEnv c!"FIND (:A{a: [1, 2], b 'x'});" demoG).run demoFresh = (.error e, demoFresh) := by
  have h : extractAllStatements c!"FIND (:A{a: [1, 2], b 'x'});" .find = .ok (some [c!"FIND (:A{a: [1, 2], b 'x'});"]) := by decide +kernel
  exact C72_unbalanced_find_refused h (List.mem_singleton_self _) noColon_ok ⟨c!"FIND (:A", c!");", rfl⟩ (by decide) _ _ _

/-- C72: a colon missing only in the second block of a statement, and only in the second statement, evaluated. -/
example : validateStatement [c!"MAKE (:A{a: 1})-[:R]->(:B{b 2});"] = .error .paramSyntax ∧
    validateStatement [c!"MAKE (:A{a: 1})-[:R]->(:B);", c!"MAKE (:A{a 1})-[:R]->(:B);"] = .error .paramSyntax :=
  ⟨by decide +kernel, by decide +kernel⟩

/-- `{a: [1, 2], b: 'x'}`. -/
def twoProps : Block := ⟨[(c!"a: ", c!"1, 2")], c!", b: 'x'"⟩

/-- C72: an accepted block. -/
example : twoProps.In c!"MAKE (:A{a: [1, 2], b: 'x'});" ∧ twoProps.Balanced ∧
    ∃ m, parseMake c!"MAKE (:A{a: [1, 2], b: 'x'});" = .ok (some [m]) := by
  refine ⟨⟨c!"MAKE (:A", c!");", rfl⟩, by decide, ?_⟩
  have h : (match parseMake c!"MAKE (:A{a: [1, 2], b: 'x'});" with | .ok (some [_]) => true | _ => false) = true := by decide +kernel
  revert h
  split
  · next m hm => exact fun _ => ⟨m, hm⟩
  · simp

/-- C72 violated: a colon and a comma are missing, which cancels out; the query is executed and stores exactly what a
query without the second property stores. -/
theorem C72_violated : ∃ fs', (query demoEnv c!"MAKE (:A{a: 1 b 2})-[:R]->(:B);\nFIND (:A);" demoG).run demoFresh = (.ok true, fs') ∧
    (query demoEnv c!"MAKE (:A{a: 1})-[:R]->(:B);\nFIND (:A);" demoG).run demoFresh = (.ok true, fs') ∧ fs' ≠ demoFresh := by
  refine ⟨((query demoEnv c!"MAKE (:A{a: 1})-[:R]->(:B);\nFIND (:A);" demoG).run demoFresh).2, ?_, ?_, ?_⟩
  · decide +kernel
  · decide +kernel
  · decide +kernel

/-- C72 violated: commas and colons inside quotes count.  The text `a, b` is refused, the text `a, b: c` is
accepted and becomes two properties. -/
theorem C72_violated_in_text : checkParams c!"{t: 'a, b'}" = .error .paramSyntax ∧ checkParams c!"{t: 'a, b: c'}" = .ok () ∧
    getPropertyDict (some c!"{t: 'a, b: c'}") = .ok (some [(c!"t", .str c!"a"), (c!"b", .str c!"c")]) := by
  refine ⟨?_, ?_, ?_⟩ <;> decide +kernel

end
end WG
