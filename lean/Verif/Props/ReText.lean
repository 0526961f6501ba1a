/-
C107: texts are searched with regular expressions as Python documents it.
-/
import Verif.Proofs.ReText
import Verif.Proofs.PyText
import Verif.Model.Checks
import Verif.Spec.Demo
set_option linter.unusedSectionVars false

namespace WG

/-- C107: `re.match`: the match is the first of all ways, in the documented order; there is none exactly if there is no way. -/
theorem C107_match (r : Re) (s : Str) :
    (∀ w rest g, r.matchAt s = some (w, rest, g) ↔ FirstWay AnyText r s w rest g) ∧ (r.matchAt s = none ↔ ¬ MatchesHere AnyText r s) :=
  ⟨matchAt_iff r s, matchAt_none_iff r s⟩

/-- C107: a text that can be matched has exactly one first way. -/
theorem C107_first_way (P : Str → Prop) (r : Re) (s w rest w' rest' : Str) (g g' : Caps) (h : FirstWay P r s w rest g)
    (h' : FirstWay P r s w' rest' g') : w = w' ∧ rest = rest' ∧ g = g' := by
  cases firstWay_unique h h'
  exact ⟨rfl, rfl, rfl⟩

/-- C107: `pattern.search` gives the leftmost match. -/
theorem C107_search (r : Re) (s : Str) (m : MRes) : r.search s = some m ↔ Leftmost r s m := ⟨search_leftmost, leftmost_search⟩

/-- C107: `pattern.finditer` gives all matches from left to right, none overlapping another. -/
theorem C107_finditer (r : Re) (s : Str) (l : List (Str × Caps)) : r.finditer s = l ↔ FindsAll r s l :=
  ⟨fun h => h ▸ finditer_finds r _ s (Nat.lt_succ_self _), fun h => findsAll_unique (finditer_finds r _ s (Nat.lt_succ_self _)) h⟩

/-- C107: `pattern.sub("", s)` leaves what is between the matches. -/
theorem C107_erase (r : Re) (hr : ∀ x g, ¬ Fits r x [] g) (s t : Str) : r.erase s = t ↔ Erased r s t :=
  ⟨fun h => h ▸ erase_erased hr _ s (Nat.lt_succ_self _), fun h => erased_unique (erase_erased hr _ s (Nat.lt_succ_self _)) h⟩

/-- C107: `split("[…]+", s)` cuts at each run of separators. -/
theorem C107_split (p : Char → Bool) (s : Str) (l : List Str) : splitClass p s = l ↔ RunJoined (fun c => p c = true) l s :=
  ⟨fun h => h ▸ (splitClass_joined (fun _ => .rfl) s).1, fun h => splitClass_of (fun _ => .rfl) h⟩

/-- C107: the text of a group. -/
theorem C107_group (n : Nat) (w : Str) (g : Caps) : capGet n g = some w ↔ ∃ a b, g = a ++ (n, w) :: b ∧ ∀ x ∈ a, x.1 ≠ n := capGet_first n w g

/-- C107: a word matches itself, and nothing else. -/
theorem C107_word (t w : Str) (g : Caps) : (∃ x, Fits (Re.word t) x w g) ↔ w = t ∧ g = [] := by
  constructor
  · rintro ⟨x, h⟩
    exact fits_word h
  · rintro ⟨rfl, rfl⟩
    exact word_fits w

/-- C107: a word of small letters matches, if case is ignored, the words that have the same letter at each place. -/
theorem C107_ignore_case [PyRuntime] (t w : Str) (g : Caps) (ht : ∀ c ∈ t, ∃ x ∈ letterPairs, c = x.2) :
    (∃ x, Fits (Re.wordCI t) x w g) ↔ w.length = t.length ∧ (∀ y ∈ t.zip w, SameLetter y.1 y.2) ∧ g = [] := by
  have hl : ∀ y ∈ t.zip w, (matchCI y.1 y.2 = true ↔ SameLetter y.1 y.2) := fun y hy => matchCI_letter (ht y.1 (List.of_mem_zip hy).1)
  constructor
  · rintro ⟨x, h⟩
    obtain ⟨h1, h2, h3⟩ := fits_wordCI h
    exact ⟨h1, fun y hy => (hl y hy).1 (h2 y hy), h3⟩
  · rintro ⟨h1, h2, rfl⟩
    exact wordCI_fits t w h1 fun y hy => (hl y hy).2 (h2 y hy)

/-- C107: `[…]+` matches one or more of the characters. -/
theorem C107_plus (p : Char → Bool) (w : Str) (g : Caps) : (∃ x, Fits (Re.plus p) x w g) ↔ w ≠ [] ∧ (∀ c ∈ w, p c = true) ∧ g = [] := fits_plus

section
variable [PyRuntime]

/-- C107: what the check of the parameters sees is what is left between the list values. -/
theorem C107_list_values (s t : Str) : listValue.erase s = t ↔ Erased listValue s t := by
  refine C107_erase _ (fun x g h => ?_) s t
  generalize hw : ([] : Str) = w at h
  cases h with
  | group h =>
    cases h with
    | both h1 h2 =>
      cases h1 with
      | char h => simp at hw

/-- C107: the list values of the parameters are not empty. -/
theorem C107_no_empty_matches (s : Str) : ∀ m ∈ listValue.finditer s, m.1 ≠ [] := by
  have key : ∀ {s l}, FindsAll listValue s l → ∀ m ∈ l, m.1 ≠ [] := by
    have no : ∀ {P s rest g}, ¬ FirstWay P listValue s [] rest g := by
      intro P s rest g h
      obtain ⟨x, h, -⟩ := h
      generalize hw : ([] : Str) = w at h
      cases h with
      | group h =>
        cases h with
        | both h1 h2 =>
          cases h1 with
          | char h => simp at hw
    intro s l h
    induction h with
    | over => simp
    | on _ _ ih => exact ih
    | hit _ hw _ ih =>
      intro m hm
      rcases List.mem_cons.1 hm with rfl | hm
      · exact hw
      · exact ih m hm
    | emptyHit h => exact absurd h no
    | emptyOn h => exact absurd h no
    | emptyOver h => exact absurd h no
  exact key ((C107_finditer _ _ _).1 rfl)

end

/-! ### Examples -/

/-- `a*` at `aab`, then an empty match before `b` and one at the end. -/
example : FindsAll (.star (· == 'a')) c!"aab" [(c!"aa", []), ([], []), ([], [])] := by
  rw [← C107_finditer]
  decide

/-- The left alternative is tried first, although the right one is longer. -/
example : FirstWay AnyText (.alt (Re.word c!"a") (Re.word c!"ab")) c!"ab" c!"a" c!"b" [] := by
  rw [← (C107_match _ _).1]
  rfl

/-- Backtracking: `a*ab` on `aaab`. -/
example : FirstWay AnyText (.seq (.grp 0 (.star (· == 'a'))) (Re.word c!"ab")) c!"aaab" c!"aaab" [] [(0, c!"aa")] := by
  rw [← (C107_match _ _).1]
  rfl

/-- `?` takes the character if it can. -/
example : FirstWay AnyText (.opt (Re.ch '<')) c!"<-" c!"<" c!"-" [] := by
  rw [← (C107_match _ _).1]
  rfl

/-- The text of the second of two groups, and of one that took no part. -/
example : capGet 1 [(0, c!"a"), (1, c!"b")] = some c!"b" ∧ capGet 2 [(0, c!"a"), (1, c!"b")] = none := by decide

example : Leftmost (Re.plus Char.isDigit) c!"x12y3" (c!"12", c!"y3", []) := by
  rw [← C107_search]
  rfl

example : RunJoined (fun c => isAngle c = true) [[], c!"a", c!"b", []] c!"<>a<b>>" := by
  rw [← C107_split]
  decide

section
attribute [local instance] demoRuntime

example : Erased listValue c!"a: [1, 2], b: 3, c: ['x']" c!"a: , b: 3, c: " := by
  rw [← C107_list_values]
  decide +kernel

end

end WG
