/-
C106: strings and dicts are handled as Python documents it.
-/
import Verif.Proofs.PyText
import Verif.Model.Shell
import Verif.Spec.Demo
set_option linter.unusedSectionVars false

namespace WG

section
variable [PyRuntime]

/-- C106: white space, word characters and digits. -/
theorem C106_characters (c : Char) : (isSpace c = true ↔ SpaceChar c) ∧ (isWord c = true ↔ WordChar c) ∧ (isDecimal c = true ↔ DecimalChar c) :=
  ⟨isSpace_iff c, isWord_iff c, isDecimal_iff c⟩

/-- C106: which characters stand for a letter if case is ignored. -/
theorem C106_ignore_case (l c : Char) (hl : ∃ x ∈ letterPairs, l = x.2) : matchCI l c = true ↔ SameLetter l c := matchCI_letter hl

/-- C106: `s.strip(chars)`. -/
theorem C106_strip_chars (p : Char → Bool) (s t : Str) : stripP p s = t ↔ Stripped (fun c => p c = true) s t := stripP_iff (fun _ => .rfl) s t

/-- C106: `s.strip()`. -/
theorem C106_strip (s t : Str) : strip s = t ↔ Stripped SpaceChar s t := stripP_iff isSpace_iff s t

/-- C106: `t in s`. -/
theorem C106_in (t s : Str) : isSubstr t s = true ↔ Occurs t s := isSubstr_occurs t s

/-- C106: `s.split(c)`. -/
theorem C106_split (sep : Char) (s : Str) (l : List Str) : splitChar sep s = l ↔ Cut sep s l := splitChar_iff sep s l

/-- C106: `s.count(c)`. -/
theorem C106_count (ch : Char) (s : Str) (n : Nat) : countChar ch s = n ↔ ∃ l, Cut ch s l ∧ l.length = n + 1 := by
  have h := countChar_cut ch (splitChar_cut ch s)
  constructor
  · rintro rfl
    exact ⟨_, splitChar_cut ch s, h.symm⟩
  · rintro ⟨l, hl, hn⟩
    have := countChar_cut ch hl
    omega

/-- C106: `s.replace(old, new)`. -/
theorem C106_replace (old new s t : Str) (ho : old ≠ []) : replace old new s = t ↔ Replaced old new s t := replace_iff ho s t

/-- C106: `s.lower()`. -/
theorem C106_lower (s t : Str) : lower s = t ↔ Lowered s t :=
  ⟨fun h => h ▸ lower_lowered s, fun h => (lowered_lower h).symm⟩

/-- C106: `s.isupper()`. -/
theorem C106_isupper (s : Str) : isUpperStr s = true ↔ (∀ c ∈ s, ¬ SmallChar c) ∧ ∃ c ∈ s, CapitalChar c := by
  unfold isUpperStr
  rw [Bool.and_eq_true, List.all_eq_true, List.any_eq_true]
  simp only [capital_iff, Bool.not_eq_true']
  have : ∀ c, ((if isAscii c = true then c.isLower else PyRuntime.uLower c) = false ↔ ¬ SmallChar c) := fun c => by
    rw [← small_iff c]; simp
  simp only [this]

/-- C106: `d.get(k)`. -/
theorem C106_get {α : Type} (k : Str) (v : α) (d : Dict α) : dictGet k d = some v ↔ EntryOf d k v := dictGet_iff k v d

/-- C106: `k in d`. -/
theorem C106_has {α : Type} (k : Str) (d : Dict α) : dictHas k d = true ↔ ∃ v, EntryOf d k v := by
  simp only [← dictGet_iff, dictHas, Option.isSome_iff_exists]

/-- C106: `d[k] = v`. -/
theorem C106_set {α : Type} (k : Str) (v : α) (d d' : Dict α) : dictSet k v d = d' ↔ Assigned d k v d' := dictSet_iff k v d d'

/-- C106: `d.update(e)` and `dict(e)`. -/
theorem C106_update {α : Type} (d d' : Dict α) (l : List (Str × α)) :
    (dictUpdate d l = d' ↔ AssignedAll d l d') ∧ (dictOf l = d' ↔ AssignedAll [] l d') :=
  ⟨dictUpdate_iff d l d', dictUpdate_iff [] l d'⟩

/-! ### Where they are used -/

/-- C106: a text asks for help exactly if `help` occurs in its small-letter form; it then does nothing else. -/
theorem C106_help (env : Env) (g : GPath) (q : Str) (rest : List Str) (hq : q ≠ c!"q") (h : ∃ t, Lowered q t ∧ Occurs c!"help" t) :
    shellLoop env g (q :: rest) = (do let l ← shellLoop env g rest; pure (.help :: l)) := by
  obtain ⟨t, h1, h2⟩ := h
  rw [← C106_lower] at h1
  subst h1
  rw [shellLoop, if_neg hq, if_pos ((C106_in _ _).2 h2)]

/-- C106: every other text is run as a query. -/
theorem C106_no_help (env : Env) (g : GPath) (q : Str) (rest : List Str) (hq : q ≠ c!"q") (h : ¬ ∃ t, Lowered q t ∧ Occurs c!"help" t) :
    shellLoop env g (q :: rest) = (do
      let ev ← Prog.tryCatch (do let _ ← query env q g; pure Event.done) fun e => pure (.failed e)
      let l ← shellLoop env g rest
      pure (ev :: l)) := by
  have : ¬ isSubstr c!"help" (lower q) = true := fun hs => h ⟨lower q, lower_lowered q, (C106_in _ _).1 hs⟩
  rw [shellLoop, if_neg hq, if_neg this]

/-- C106: a value is empty exactly if it is white space throughout. -/
theorem C106_empty_value (s : Str) : (strip s).isEmpty = true ↔ ∀ c ∈ s, SpaceChar c := by
  rw [List.isEmpty_iff, C106_strip]
  constructor
  · rintro ⟨w, w', h1, h2, rfl, -⟩ c hc
    simp only [List.append_nil, List.mem_append] at hc
    exact hc.elim (h1 c) (h2 c)
  · intro h
    exact ⟨s, [], h, (by simp), (by simp), (by simp), (by simp)⟩

/-- C106: the value without its quotation marks. -/
theorem C106_value (s t : Str) : stripValue s = t ↔ ∃ a b, Stripped (· = '"') s a ∧ Stripped (· = '\'') a b ∧ Stripped SpaceChar b t := by
  have e : ∀ (x : Char) (s t : Str), stripP (· == x) s = t ↔ Stripped (· = x) s t := fun x s t => stripP_iff (fun c => by simp) s t
  simp only [← e, ← C106_strip, stripValue]
  constructor
  · intro h
    exact ⟨_, _, rfl, rfl, h⟩
  · rintro ⟨a, b, rfl, rfl, h⟩
    exact h

/-- C106: the parameters must have one colon for each piece between commas. -/
theorem C106_params (s : Str) : checkPropertySyntax s = .ok () ↔ ∃ l l', Cut ',' s l ∧ Cut ':' s l' ∧ l'.length = l.length + 1 := by
  have h1 := countChar_cut ',' (splitChar_cut ',' s)
  have h2 := countChar_cut ':' (splitChar_cut ':' s)
  unfold checkPropertySyntax
  split
  · next hne =>
    constructor
    · intro h; cases h
    · rintro ⟨l, l', hl, hl', e⟩
      have := countChar_cut ',' hl
      have := countChar_cut ':' hl'
      omega
  · next he =>
    refine ⟨fun _ => ⟨_, _, splitChar_cut ',' s, splitChar_cut ':' s, ?_⟩, fun _ => rfl⟩
    omega

/-- C106: the names `true`, `false` and `null` become those of Python, one after the other. -/
theorem C106_keywords (s t : Str) : pyKeywords s = t ↔
    ∃ a b, Replaced c!"true" c!"True" s a ∧ Replaced c!"false" c!"False" a b ∧ Replaced c!"null" c!"None" b t := by
  have e : ∀ old new : Str, old ≠ [] → ∀ s t, replace old new s = t ↔ Replaced old new s t := fun _ _ h => replace_iff h
  rw [pyKeywords]
  constructor
  · intro h
    exact ⟨_, _, (e _ _ (by simp) _ _).1 rfl, (e _ _ (by simp) _ _).1 rfl, (e _ _ (by simp) _ _).1 h⟩
  · rintro ⟨a, b, h1, h2, h3⟩
    rw [(e _ _ (by simp) _ _).2 h1, (e _ _ (by simp) _ _).2 h2, (e _ _ (by simp) _ _).2 h3]

/-- C106: REPORT must name every handle somewhere. -/
theorem C106_report_handles (handles : List Str) (text : Str) :
    checkFindReportHandles handles text = .ok () ↔ ∀ h ∈ handles, Occurs h text := by
  unfold checkFindReportHandles
  simp only [← isSubstr_occurs]
  split
  · next h => exact ⟨fun _ => List.all_eq_true.1 h, fun _ => rfl⟩
  · next h => exact ⟨(fun hc => by cases hc), fun hc => absurd (List.all_eq_true.2 hc) h⟩

/-- C106: a text is a valid query exactly if one of the six words stands between blanks. -/
theorem C106_valid_query (q : Str) : validQuery q = true ↔ ∃ t l, Lowered q t ∧ Cut ' ' t l ∧
    ∃ w ∈ [c!"make", c!"find", c!"adjust", c!"criteria", c!"report", c!"using"], w ∈ l := by
  unfold validQuery
  rw [List.any_eq_true]
  simp only [decide_eq_true_eq]
  constructor
  · rintro ⟨w, h1, h2⟩
    exact ⟨_, _, lower_lowered q, splitChar_cut ' ' _, w, h1, h2⟩
  · rintro ⟨t, l, h1, h2, w, h3, h4⟩
    rw [← C106_lower] at h1
    rw [← C106_split] at h2
    subst h1 h2
    exact ⟨w, h3, h4⟩

end

/-! ### Examples -/

section
attribute [local instance] demoRuntime

example : Stripped SpaceChar c!"\x1c\t a b \n" c!"a b" := by
  rw [← C106_strip]
  rfl

/-- Overlapping occurrences: the first one counts. -/
example : Replaced c!"aa" c!"b" c!"aaa" c!"ba" ∧ ¬ Replaced c!"aa" c!"b" c!"aaa" c!"ab" := by
  simp only [← C106_replace _ _ _ _ (show c!"aa" ≠ [] by simp)]
  decide

example : Cut ' ' c!" a  b" [[], c!"a", [], c!"b"] := by
  rw [← C106_split]
  rfl

example : ∃ t, Lowered c!"I need HELP" t ∧ Occurs c!"help" t :=
  ⟨_, lower_lowered _, (C106_in _ _).1 (by decide)⟩

example : Assigned [(c!"a", 1), (c!"b", 2)] c!"a" 3 [(c!"a", 3), (c!"b", 2)] ∧ Assigned [(c!"a", 1)] c!"c" 3 [(c!"a", 1), (c!"c", 3)] := by
  simp only [← C106_set]
  decide

example : (∀ c ∈ c!"A_B1", ¬ SmallChar c) ∧ ∃ c ∈ c!"A_B1", CapitalChar c := by
  rw [← C106_isupper]
  decide

example : matchCI 'k' 'K' = true ∧ ¬ SameLetter 'a' 'K' := by
  constructor
  · decide
  · rw [← C106_ignore_case 'a' _ ⟨('A', 'a'), by decide +kernel⟩]
    decide

end

end WG
