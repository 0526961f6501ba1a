/-
C108: a list is read exactly as the grammar of lists says.
-/
import Verif.Proofs.ListText
import Verif.Model.Props
import Verif.Model.Checks
import Verif.Spec.Demo
set_option linter.unusedSectionVars false

namespace WG

section
variable [PyRuntime]

/-- C108: a text in brackets that is a list of plain literals is that list, whatever stands for the rest of Python. -/
theorem C108_list (r : Str) (l : List V) (h : ListText l r) : literalEval ('[' :: r) = .ok (.list l) := by
  simp only [literalEval, litElems_iff.2 h]

/-- C108: only a text that is no list of plain literals is left to the rest of Python. -/
theorem C108_other (s : Str) (h : ∀ r l, s = '[' :: r → ¬ ListText l r) : literalEval s = PyRuntime.literalEvalOther s := by
  unfold literalEval
  split
  · next r =>
    have : litElems (r.length + 1) r = none := Option.eq_none_iff_forall_ne_some.2 fun l hl => h r l rfl (litElems_iff.1 hl)
    simp only [this]
  · rfl

/-- C108: no text is a list text for two lists. -/
theorem C108_one_list (r : Str) (l l' : List V) (h : ListText l r) (h' : ListText l' r) : l = l' := by
  rw [← litElems_iff] at h h'
  rw [h] at h'
  exact Option.some.inj h'

/-- C108: the value of a list property is the list its text stands for once the keywords are Python's. -/
theorem C108_list_property (s r : Str) (l : List V) (hs : pyKeywords s = '[' :: r) (h : ListText l r) : handleList s = .ok (.list l) := by
  simp only [handleList, hs, C108_list r l h]

/-- C108: the check of a list passes every list of plain literals. -/
theorem C108_check (r : Str) (l : List V) (h : ListText l r) : checkList ('[' :: r) = .ok () := by
  simp only [checkList, C108_list r l h]

/-- C108: what happens to any other text is what the rest of Python makes of it: its value, or that its errors are passed on - a syntax error as
an illegal value (by the check: as a syntax error of the properties). -/
theorem C108_other_property (s : Str) (h : ∀ r l, pyKeywords s = '[' :: r → ¬ ListText l r) :
    (∀ v, handleList s = .ok v ↔ PyRuntime.literalEvalOther (pyKeywords s) = .ok v) ∧
    (handleList s = .error .illegalPropertyValue ↔ PyRuntime.literalEvalOther (pyKeywords s) = .error .syntaxError) ∧
    (handleList s = .error .value ↔ PyRuntime.literalEvalOther (pyKeywords s) = .error .valueError) ∧
    (checkList (pyKeywords s) = .ok () ↔ ∃ v, PyRuntime.literalEvalOther (pyKeywords s) = .ok v) ∧
    (checkList (pyKeywords s) = .error .paramSyntax ↔ PyRuntime.literalEvalOther (pyKeywords s) = .error .syntaxError) := by
  simp only [handleList, checkList, C108_other _ h]
  cases PyRuntime.literalEvalOther (pyKeywords s) with
  | ok v => simp
  | error e => cases e <;> simp

/-- C108: a list that the check passes has a value. -/
theorem C108_checked (s : Str) (h : checkList (pyKeywords s) = .ok ()) : ∃ v, handleList s = .ok v := by
  simp only [checkList] at h
  simp only [handleList]
  cases hl : literalEval (pyKeywords s) with
  | ok v => exact ⟨v, rfl⟩
  | error e => rw [hl] at h; cases e <;> simp at h

/-! ### Examples -/

/-- All kinds of literals but floats, with white space and a comma behind the last one. -/
example : ListText [.int 10, .str c!"it's", .bool true, .none] c!" 10,\n\"it's\" ,True, None , ]" := by
  rw [← litElems_iff]
  rfl

/-- The grammar, by hand. -/
example : ListText [.str c!"a"] c!" 'a',]" := by
  refine .more (w := c!" ") (t := c!"'a'") (w' := []) (u := c!"]") ?_ (.str (q := '\'') (s := c!"a") (.inr rfl) ?_) ?_ (.close (w := []) ?_)
  · intro c hc; simp at hc; simp [hc]
  · intro c hc; simp at hc; subst hc; decide
  · intro c hc; cases hc
  · intro c hc; cases hc

/-- Not in the grammar: a comma alone, a leading zero, two literals without a comma, something behind the bracket, a list in the list, a quotation
mark of another kind at the end, an unknown word, a carriage return in a text and between two elements. -/
example : ∀ s ∈ [c!",]", c!"01]", c!"1 2]", c!"1] ", c!"[1]]", c!"'a\"]", c!"true]", c!"'a\rb']", c!"1,\r2]"], ∀ l, ¬ ListText l s := by
  intro s hs l hl
  rw [← litElems_iff] at hl
  simp only [List.mem_cons, List.not_mem_nil, or_false] at hs
  rcases hs with rfl | rfl | rfl | rfl | rfl | rfl | rfl | rfl | rfl <;> cases hl

end

section
attribute [local instance] demoRuntime

/-- A text that is left to the rest of Python: there it is a list of one complex number. -/
example : (∀ l, ¬ ListText l c!"1j]") ∧ handleList c!"[1j]" = .ok (.list [.opq 0]) ∧ handleList c!"[1j, 2]" = .error .illegalPropertyValue := by
  refine ⟨fun l hl => ?_, by rfl, by rfl⟩
  rw [← litElems_iff] at hl
  cases hl

/-- The check passes a list with several elements and keywords, and refuses a block with a bad one. -/
example : checkParams c!"{x: [1, true, null], y: 2}" = .ok () ∧ checkParams c!"{x: [1], y: [1 2]}" = .error .paramSyntax :=
  ⟨by rfl, by rfl⟩

/-- A list property with keywords. -/
example : handleList c!"[true, null, 3]" = .ok (.list [.bool true, .none, .int 3]) := by rfl

end

end WG
