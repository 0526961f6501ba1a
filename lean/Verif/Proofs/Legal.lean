import Verif.Proofs.LiteralInv
import Verif.Proofs.Make
import Verif.Spec.Parse
/-! # Strings of stored records

Every string inside a record MAKE writes comes from the texts of the pattern, from the fixed field names,
or from the words and newlines the property parser itself inserts. -/
set_option linter.unusedSectionVars false
set_option linter.unusedSimpArgs false
namespace WG
variable [PyRuntime]

/-- A text without illegal characters. -/
def Legal (t : Str) : Prop := ∀ c ∈ t, c ∉ illegalChars

instance (t : Str) : Decidable (Legal t) := by unfold Legal; infer_instance

/-- A value all of whose strings, dict keys included, are legal. -/
def LegalVal (v : V) : Prop := ∀ t ∈ v.strings, Legal t

theorem stringsDict_iff {Q : Str → Prop} {d : Dict V} :
    (∀ t ∈ Val.stringsDict d, Q t) ↔ ∀ x ∈ d, Q x.1 ∧ ∀ t ∈ x.2.strings, Q t := by
  induction d with
  | nil => simp [Val.stringsDict]
  | cons x xs ih =>
    simp only [Val.stringsDict, List.cons_append, List.mem_cons, List.mem_append, forall_eq_or_imp, ← ih]
    constructor
    · rintro ⟨h1, h2⟩
      exact ⟨⟨h1, fun t ht => h2 t (.inl ht)⟩, fun t ht => h2 t (.inr ht)⟩
    · rintro ⟨⟨h1, h2⟩, h3⟩
      exact ⟨h1, fun t ht => ht.elim (h2 t) (h3 t)⟩

theorem stringsList_iff {Q : Str → Prop} {l : List V} :
    (∀ t ∈ Val.stringsList l, Q t) ↔ ∀ v ∈ l, ∀ t ∈ v.strings, Q t := by
  induction l with
  | nil => simp [Val.stringsList]
  | cons x xs ih =>
    simp only [Val.stringsList, List.mem_append, List.mem_cons, forall_eq_or_imp, ← ih]
    constructor
    · intro h
      exact ⟨fun t ht => h t (.inl ht), fun t ht => h t (.inr ht)⟩
    · rintro ⟨h1, h2⟩ t ht
      exact ht.elim (h1 t) (h2 t)

theorem legalVal_dict {d : Dict V} : LegalVal (.dict d) ↔ ∀ x ∈ d, Legal x.1 ∧ LegalVal x.2 := by
  unfold LegalVal
  simp only [Val.strings]
  exact stringsDict_iff

theorem legalVal_list {l : List V} : LegalVal (.list l) ↔ ∀ v ∈ l, LegalVal v := by
  unfold LegalVal
  simp only [Val.strings]
  exact stringsList_iff

theorem legal_inserted {c : Char} (h : c ∈ keywordChars ∨ c = '\n') : c ∉ illegalChars := by
  rcases h with h | rfl
  · have : ∀ c ∈ keywordChars, c ∉ illegalChars := by decide
    exact this c h
  · decide

/-- The dict parsed from a legal property text is legal. -/
theorem propsD_legal {t : Option Str} (h : ∀ s, t = some s → Legal s) : LegalVal (optDictVal (propsD t)) := by
  have hnone : LegalVal (optDictVal none) := by simp [LegalVal, optDictVal, Val.strings]
  unfold propsD
  cases t with
  | none => simpa [getPropertyDict] using hnone
  | some s =>
    simp only [getPropertyDict]
    by_cases he : s.isEmpty
    · simpa [he] using hnone
    · cases hp : parseProperties s with
      | error e => simpa [he] using hnone
      | ok d =>
        simp only [he, Bool.false_eq_true, if_false, optDictVal]
        rw [legalVal_dict]
        rintro ⟨k, v⟩ hx
        obtain ⟨val, g, hf, hq⟩ := parseProperties_mem hp hx
        refine ⟨fun c hc => h s rfl c (hf.name_in c hc), fun t ht c hc => ?_⟩
        rcases found_strings hf hq t ht c hc with h1 | h1
        · exact h s rfl c h1
        · exact legal_inserted h1

theorem metaVal_legal (env : Env) (wn : Int) : LegalVal (metaVal env wn) := by
  unfold metaVal
  rw [legalVal_dict]
  simp only [List.mem_cons, List.not_mem_nil, or_false, forall_eq_or_imp, forall_eq]
  refine ⟨⟨by decide, ?_⟩, ⟨by decide, ?_⟩, by decide, ?_⟩ <;> simp [LegalVal, Val.strings]

theorem relVal_legal {env : Env} {r : RelData} (hn : ∀ s, r.name = some s → Legal s)
    (hp : LegalVal (optDictVal r.props)) : LegalVal (relVal env r) := by
  unfold relVal
  rw [legalVal_dict]
  simp only [List.mem_cons, List.not_mem_nil, or_false, forall_eq_or_imp, forall_eq]
  refine ⟨⟨by decide, metaVal_legal _ _⟩, ⟨by decide, ?_⟩, ⟨by decide, by simp [LegalVal, Val.strings]⟩,
    ⟨by decide, by simp [LegalVal, Val.strings]⟩, by decide, hp⟩
  cases h : r.name with
  | none => simp [LegalVal, optStrVal, Val.strings]
  | some s => simpa [LegalVal, optStrVal, Val.strings] using hn s h

theorem nodeVal_legal {env : Env} {n : NodeData} (hl : Legal n.label) (hp : LegalVal (optDictVal n.props))
    (hr : ∀ rs, n.relations = some rs → ∀ r ∈ rs, LegalVal (relVal env r)) : LegalVal (nodeVal env n) := by
  unfold nodeVal
  rw [legalVal_dict]
  simp only [List.mem_cons, List.not_mem_nil, or_false, forall_eq_or_imp, forall_eq]
  refine ⟨⟨by decide, metaVal_legal _ _⟩, ⟨by decide, by simpa [LegalVal, Val.strings] using hl⟩,
    ⟨by decide, hp⟩, by decide, ?_⟩
  cases h : n.relations with
  | none => simp [LegalVal, Val.strings]
  | some rs =>
    simp only
    rw [legalVal_list]
    intro v hv
    obtain ⟨r, hr', rfl⟩ := List.mem_map.1 hv
    exact hr rs h r hr'

/-- The parts of a pattern whose label and property texts are legal. -/
def LegalPart (t : PartText) : Prop := (∀ s, t.label = some s → Legal s) ∧ ∀ s, t.props = some s → Legal s

theorem labelD_legal {t : PartText} (h : LegalPart t) : Legal (labelD t) := by
  unfold labelD
  cases hl : t.label with
  | none => simp [Legal]
  | some s => exact h.1 s hl

theorem nodeData_legal {env : Env} {wn : Int} {t : PartText} {rels : List RelPre} (h : LegalPart t)
    (hr : ∀ r ∈ rels, (∀ s, r.name = some s → Legal s) ∧ ∀ s, r.props = some s → Legal s) :
    LegalVal (nodeVal env (nodeData (nodePre wn t rels))) := by
  refine nodeVal_legal (labelD_legal h) (propsD_legal h.2) ?_
  intro rs hrs r hm
  simp only [nodeData, nodePre] at hrs
  by_cases he : rels.isEmpty
  · simp [he] at hrs
  · simp only [he, Bool.false_eq_true, if_false, Option.some.injEq] at hrs
    subst hrs
    obtain ⟨r', hr', rfl⟩ := List.mem_map.1 hm
    exact relVal_legal (hr r' hr').1 (propsD_legal (hr r' hr').2)

theorem storedNodes_legal {env : Env} {b : Int} {p : ParsedPattern} (h : ∀ t ∈ p.parts, LegalPart t) :
    ∀ n ∈ storedNodes b p, LegalVal (nodeVal env n) := by
  have h1 := h p.left (by simp [ParsedPattern.parts])
  have h2 := h p.leftMiddle (by simp [ParsedPattern.parts])
  have h3 := h p.middle (by simp [ParsedPattern.parts])
  have h4 := h p.middleRight (by simp [ParsedPattern.parts])
  intro n hn
  simp only [storedNodes, List.mem_cons] at hn
  rcases hn with rfl | hn
  · refine nodeData_legal h1 ?_
    intro r hr
    simp only [leftRels] at hr
    split at hr
    · simp at hr; subst hr; exact h2
    · simp at hr
  · split at hn
    · simp at hn
      subst hn
      refine nodeData_legal h3 ?_
      intro r hr
      simp only [middleRels, List.mem_append] at hr
      rcases hr with hr | hr
      · split at hr
        · simp at hr; subst hr; exact h2
        · simp at hr
      · split at hr
        · simp at hr; subst hr; exact h4
        · simp at hr
    · simp at hn

theorem dbBatch_legal {env : Env} {b : Int} {pats : List ParsedPattern}
    (h : ∀ p ∈ pats, ∀ t ∈ p.parts, LegalPart t) : ∀ x ∈ dbBatch env b pats, LegalVal x.2 := by
  intro x hx
  obtain ⟨q, hq, n, hn, rfl⟩ := dbBatch_mem.1 hx
  exact storedNodes_legal (h _ (place_mem hq)) n hn

theorem wantLabels_legal {pats : List ParsedPattern} (h : ∀ p ∈ pats, ∀ t ∈ p.parts, LegalPart t) :
    ∀ x ∈ wantLabels pats, Legal x := by
  intro x hx
  simp only [wantLabels, List.mem_flatMap, List.mem_map] at hx
  obtain ⟨p, hp, t, ht, rfl⟩ := hx
  refine labelD_legal (h p hp t ?_)
  simp only [writtenNodes, List.mem_append] at ht
  rcases ht with (ht | ht) | ht
  · simp at ht; simp [ht, ParsedPattern.parts]
  all_goals
    split at ht <;> simp at ht
    simp [ht, ParsedPattern.parts]

theorem wantNames_legal {pats : List ParsedPattern} (h : ∀ p ∈ pats, ∀ t ∈ p.parts, LegalPart t) :
    ∀ x ∈ wantNames pats, Legal x := by
  intro x hx
  simp only [wantNames, List.mem_flatMap] at hx
  obtain ⟨p, hp, t, ht, hx⟩ := hx
  have hpart : t ∈ p.parts := by
    simp only [writtenRels, List.mem_append] at ht
    rcases ht with ht | ht
    all_goals
      split at ht <;> simp at ht
      simp [ht, ParsedPattern.parts]
  have := (h p hp t hpart).1
  unfold relNameOf addRelName at hx
  split at hx
  · next s hs =>
    simp at hx
    subst hx
    exact this _ hs
  · simp at hx

end WG
