/-
C92: what the message of a refused property says.
-/
import Verif.Props.Messages
import Verif.Props.Quoted

set_option linter.unusedSectionVars false
set_option linter.unusedSimpArgs false

namespace WG
open Re
section
variable [PyRuntime]

theorem noText_handlers (s : Str) : noText (handleNullR s) = handleNull s ∧ noText (handleBoolR s) = handleBool s ∧
    noText (handleFloatR s) = handleFloat s ∧ noText (handleIntR s) = handleInt s ∧ noText (handleListR s) = handleList s ∧
    noText (handleStringR s) = handleString s := by
  refine ⟨?_, ?_, ?_, ?_, ?_, ?_⟩
  · unfold handleNullR handleNull; split <;> rfl
  · unfold handleBoolR handleBool; (repeat' split) <;> rfl
  · unfold handleFloatR handleFloat; (repeat' split) <;> simp_all
  · unfold handleIntR handleInt; (repeat' split) <;> simp_all
  · unfold handleListR handleList; split <;> simp_all [Raised.lib]
  · unfold handleStringR handleString; (repeat' split) <;> rfl

theorem noText_extracted (v : Str) (c : Caps) : noText (handleExtractedR v c) = handleExtracted v c := by
  unfold handleExtractedR handleExtracted extractedTypeR
  obtain ⟨h1, h2, h3, h4, h5, h6⟩ := noText_handlers (stripValue v)
  cases extractedType c with
  | error e => rfl
  | ok t => cases t <;> simp [h1, h2, h3, h4, h5, h6]

theorem noText_oneProp (s : Str) (c : Caps) : noText (parseOnePropR s c) = parseOneProp c := by
  unfold parseOnePropR parseOneProp
  cases capGet gName c with
  | none => rfl
  | some n =>
    cases capGet gValue c with
    | none => rfl
    | some v =>
      simp only
      rw [← noText_extracted]
      split
      · rfl
      · cases handleExtractedR v c <;> rfl

theorem noText_propsLoop (s : Str) (l : List (Str × Caps)) (d : Dict V) : noText (parsePropsLoopR s l d) = parsePropsLoop l d := by
  induction l generalizing d with
  | nil => rfl
  | cons m l ih =>
    rw [parsePropsLoopR, parsePropsLoop, ← noText_oneProp s]
    cases parseOnePropR s m.2 with
    | error e => rfl
    | ok x => exact ih _

/-- C92: the functions with messages raise the same exceptions, and return the same properties, as those without. -/
theorem C92_same_kind (t : Option Str) : (getPropertyDictR t).mapError Raised.kind = getPropertyDict t := by
  change noText _ = _
  unfold getPropertyDictR getPropertyDict parseProperties
  cases t with
  | none => rfl
  | some s =>
    simp only
    split
    · rfl
    · rw [← noText_propsLoop s]
      cases parsePropsLoopR s (propKV.finditer s) [] <;> rfl

theorem strips_infix {P : Char → Prop} {s t : Str} (h : Strips P s t) : t <:+: s := by
  obtain ⟨a, b, e, -⟩ := h
  exact ⟨a, b, by simp [e]⟩

theorem trimmed_infix {s t : Str} (h : Trimmed s t) : t <:+: s := by
  obtain ⟨x, y, h1, h2, h3⟩ := h
  exact ((strips_infix h3).trans (strips_infix h2)).trans (strips_infix h1)

theorem strips_keeps {P : Char → Prop} {s t : Str} (h : Strips P s t) {c : Char} (hc : c ∈ s) (hp : ¬ P c) : c ∈ t := by
  obtain ⟨a, b, e, ha, hb, -⟩ := h
  rw [e] at hc
  simp only [List.mem_append] at hc
  rcases hc with h | h | h
  · exact absurd (ha c h) hp
  · exact h
  · exact absurd (hb c h) hp

theorem trimmed_keeps {s t : Str} (h : Trimmed s t) {c : Char} (hc : c ∈ s) (h1 : c ≠ '"') (h2 : c ≠ '\'') (h3 : isSpace c = false) : c ∈ t := by
  obtain ⟨x, y, e1, e2, e3⟩ := h
  exact strips_keeps e3 (strips_keeps e2 (strips_keeps e1 hc h1) h2) (by simp [h3])

theorem strip_blank {v : Str} (h : (strip v).isEmpty = true) : v.all isSpace = true := by
  obtain ⟨a, b, e, ha, hb, -⟩ := strips_strip isSpace v
  have : stripP isSpace v = [] := by simpa [strip] using h
  rw [this] at e
  rw [e, List.all_eq_true]
  intro c hc
  simp at hc
  rcases hc with h | h
  · exact ha c h
  · exact hb c h

theorem dig_solid {c : Char} (h : isDig c = true) : c ≠ '"' ∧ c ≠ '\'' ∧ isSpace c = false ∧ c ≠ '.' := by
  refine ⟨?_, ?_, dig_space h, ?_⟩ <;> (rintro rfl; simp [isDig] at h)

/-- C92, all texts: the message of refused properties is not the project's, or it names a value that stands in the text and what is
wrong with it.  The remaining messages of parse_properties.py cannot be shown. -/
theorem C92_explains (s : Str) (r : Raised) (h : getPropertyDictR (some s) = .error r) :
    (r.text = none ∧ r.kind ∈ [PyErr.value, .other]) ∨ PropFault s r := by
  unfold getPropertyDictR at h
  simp only at h
  split at h
  · simp at h
  split at h
  · simp at h
  next e hl =>
  simp only [Except.error.injEq] at h
  subst h
  suffices ∀ (l : List (Str × Caps)) (d : Dict V), (∀ m ∈ l, m ∈ propKV.finditer s) → parsePropsLoopR s l d = .error e →
      ∃ m ∈ propKV.finditer s, parseOnePropR s m.2 = .error e by
    obtain ⟨m, hm, he⟩ := this _ _ (fun _ h => h) hl
    obtain ⟨pre, post, hs, hr⟩ := finditer_sound hm
    obtain ⟨name, v, g, hc, hn, hn', shape, h1, h2⟩ := propKV_mem hr
    have hi : m.1 <:+: s := ⟨pre, post, hs.symm⟩
    simp only at hc h1 h2
    have hname := h1.trans hi
    have hval := h2.trans hi
    rw [hc] at he
    have e1 : capGet gName [(gName, name), (gValue, v), (g, v)] = some name := rfl
    have e2 : capGet gValue [(gName, name), (gValue, v), (g, v)] = some v := rfl
    rw [parseOnePropR, e1, e2] at he
    simp only at he
    split at he
    · next hb =>
      simp only [Except.error.injEq] at he
      subst he
      refine .inr (.empty name v hname hval (strip_blank hb) ?_ ⟨rfl, rfl⟩)
      have : ∀ {g w}, ValShape g w → w ≠ [] := by
        intro g w hw
        cases hw with
        | null h => rintro rfl; simp [CISpelling] at h
        | bool h => rintro rfl; simp [CISpelling] at h
        | float => simp
        | int _ h => exact h
        | list => simp
        | str _ h => exact h
      exact this shape
    · next hb =>
      split at he
      · simp at he
      next e' hx =>
      simp only [Except.error.injEq] at he
      subst he
      have ht := trimmed_stripValue v
      revert hx
      rw [handleExtractedR, extractedTypeR]
      cases shape with
      | null hc =>
        intro hx
        simp [extractedType, capGet, gName, gValue, gNone, gBool, gFloat, gInt, gList, gString, handleNullR] at hx
        split at hx
        · simp at hx
        · next hn => simp at hx; subst hx; exact .inr (.null v _ hval ht hc hn ⟨rfl, rfl⟩)
      | bool hc =>
        intro hx
        simp [extractedType, capGet, gName, gValue, gNone, gBool, gFloat, gInt, gList, gString, handleBoolR] at hx
        split at hx
        · simp at hx
        · next n1 =>
          split at hx
          · simp at hx
          · next n2 =>
            split at hx
            · next n3 => simp at hx; subst hx; exact .inr (.capital v _ c!"true" hval ht (.inl ⟨n3, rfl⟩) ⟨rfl, rfl⟩)
            · next n3 =>
              split at hx
              · next n4 => simp at hx; subst hx; exact .inr (.capital v _ c!"false" hval ht (.inr ⟨n4, rfl⟩) ⟨rfl, rfl⟩)
              · next n4 => simp at hx; subst hx; exact .inr (.bool v _ hval ht hc ⟨n1, n2, n3, n4⟩ ⟨rfl, rfl⟩)
      | @float d f hd hd' hf hf' =>
        intro hx
        simp [extractedType, capGet, gName, gValue, gNone, gBool, gFloat, gInt, gList, gString, handleFloatR] at hx
        split at hx
        · split at hx
          · simp at hx
          · next n2 => simp at hx; subst hx; exact .inr (.float d f _ hval ⟨hd, hf⟩ ht n2 ⟨rfl, rfl⟩)
        · next n1 => exact absurd (trimmed_keeps ht (c := '.') (by simp) (by decide) (by decide) (by simp [isSpace, isAscii])) n1
      | int hd hd' =>
        intro hx
        have hall : (stripValue v).all isDig = true := by
          rw [List.all_eq_true] at hd ⊢
          exact fun c hc => hd c ((trimmed_infix ht).subset hc)
        have hne : stripValue v ≠ [] := by
          cases v with
          | nil => simp at hd'
          | cons c cs =>
            simp only [List.all_cons, Bool.and_eq_true] at hd
            obtain ⟨a, b, c', -⟩ := dig_solid hd.1
            exact List.ne_nil_of_mem (trimmed_keeps ht (c := c) (by simp) a b c')
        have hdot : '.' ∉ stripValue v := fun h => (dig_solid (List.all_eq_true.1 hall _ h)).2.2.2 rfl
        simp [extractedType, capGet, gName, gValue, gNone, gBool, gFloat, gInt, gList, gString, handleIntR, hdot, pyInt_digits _ hall hne] at hx
      | @list x hx' hne =>
        intro hx
        simp [extractedType, capGet, gName, gValue, gNone, gBool, gFloat, gInt, gList, gString, handleListR] at hx
        split at hx
        · simp at hx
        · next n2 => simp at hx; subst hx; exact .inr (.list x _ hval ht n2 ⟨rfl, rfl⟩)
        · simp at hx; subst hx; exact .inl ⟨rfl, by simp [Raised.lib]⟩
        · simp at hx; subst hx; exact .inl ⟨rfl, by simp [Raised.lib]⟩
      | str hc hne =>
        intro hx
        simp [extractedType, capGet, gName, gValue, gNone, gBool, gFloat, gInt, gList, gString, handleStringR] at hx
        split at hx
        · next n => simp at hx; subst hx; exact .inr (.noString v _ c!"null type for example {foo: null}" hval ht (.inl ⟨by simpa using n, rfl⟩) ⟨rfl, rfl⟩)
        · split at hx
          · next n => simp at hx; subst hx; exact .inr (.noString v _ c!"bool type for example {foo: true}" hval ht (.inr ⟨by simpa using n, rfl⟩) ⟨rfl, rfl⟩)
          · simp at hx
  intro l d hm
  induction l generalizing d with
  | nil => simp [parsePropsLoopR]
  | cons m l ih =>
    intro h
    rw [parsePropsLoopR] at h
    split at h
    · exact ih _ (fun m h => hm m (List.mem_cons_of_mem _ h)) h
    · next e' he =>
      simp at h
      subst h
      exact ⟨m, hm m (by simp), he⟩

theorem propFault_quotes {s : Str} {r : Raised} (h : PropFault s r) {m : List Piece} (hm : r.text = some m) :
    ∀ p ∈ m, ∀ t ∈ p.quotes, t <:+: s := by
  have key : ∀ {k m'}, r.Says k m' → m' = m := fun hs => by
    have := hs.2
    rw [hm] at this
    exact (Option.some.inj this).symm
  cases h with
  | empty name v hn hv _ _ h =>
    rw [← key h]
    intro p hp u hu
    simp only [List.mem_cons, List.not_mem_nil, or_false] at hp
    rcases hp with rfl | rfl | rfl | rfl | rfl <;> simp [Piece.quotes] at hu
    · subst hu; exact List.infix_refl _
    · subst hu; exact hn
  | null v t hv ht _ _ h =>
    rw [← key h]
    intro p hp u hu
    simp only [List.mem_cons, List.not_mem_nil, or_false] at hp
    rcases hp with rfl | rfl | rfl <;> simp [Piece.quotes] at hu
    subst hu; exact (trimmed_infix ht).trans hv
  | capital v t w hv ht _ h =>
    rw [← key h]
    intro p hp u hu
    simp only [List.mem_cons, List.not_mem_nil, or_false] at hp
    rcases hp with rfl | rfl <;> simp [Piece.quotes] at hu
    subst hu; exact (trimmed_infix ht).trans hv
  | bool v t hv ht _ _ h =>
    rw [← key h]
    intro p hp u hu
    simp only [List.mem_cons, List.not_mem_nil, or_false] at hp
    rcases hp with rfl | rfl <;> simp [Piece.quotes] at hu
    subst hu; exact (trimmed_infix ht).trans hv
  | float d f t hv _ ht _ h =>
    rw [← key h]
    intro p hp u hu
    simp only [List.mem_cons, List.not_mem_nil, or_false] at hp
    rcases hp with rfl | rfl <;> simp [Piece.quotes] at hu
    subst hu; exact (trimmed_infix ht).trans hv
  | list x t hv ht _ h =>
    rw [← key h]
    intro p hp u hu
    simp only [List.mem_cons, List.not_mem_nil, or_false] at hp
    rcases hp with rfl | rfl <;> simp [Piece.quotes] at hu
    subst hu; exact (trimmed_infix ht).trans hv
  | noString v t w hv ht _ h =>
    rw [← key h]
    intro p hp u hu
    simp only [List.mem_cons, List.not_mem_nil, or_false] at hp
    rcases hp with rfl | rfl | rfl <;> simp [Piece.quotes] at hu
    subst hu; exact (trimmed_infix ht).trans hv

/-- C92, all texts: whatever the message shows stands in the text of the properties. -/
theorem C92_quotes (s : Str) (r : Raised) (h : getPropertyDictR (some s) = .error r) (m : List Piece) (hm : r.text = some m) :
    ∀ p ∈ m, ∀ t ∈ p.quotes, t <:+: s := by
  rcases C92_explains s r h with h | h
  · rw [h.1] at hm
    cases hm
  exact propFault_quotes h hm

end

section
attribute [local instance] demoRuntime

/-- What is shown for properties. -/
def saidOf (s : Str) : Option (List Piece) :=
  match getPropertyDictR (some s) with
  | .error r => r.shown
  | .ok _ => none

example : saidOf c!"{x: }" = some [.words c!"WiggleGraphIllegalPropertyValue: ", .words c!"Error for setting property in ", .quote c!"{x: }", .words c!" ", .quote c!"x", .words c!" was empty a value must be supplied"] := by decide +kernel
example : saidOf c!"{y: 1, x: NULL}" = some [.words c!"WiggleGraphIllegalPropertyValue: ", .words c!"Value must be null: provided value was ", .quote c!"NULL", .words c!" "] := by decide +kernel
example : saidOf c!"{x: True}" = some [.words c!"WiggleGraphIllegalPropertyValue: ", .quote c!"True", .words c!" should be lowercase. Boolean property example {foo: true}"] := by decide +kernel
example : saidOf c!"{x: FALSE}" = some [.words c!"WiggleGraphIllegalPropertyValue: ", .quote c!"FALSE", .words c!" is not a boolean"] := by decide +kernel
example : saidOf c!"{x: [1 2]}" = some [.words c!"WiggleGraphIllegalPropertyValue: ", .quote c!"[1 2]", .words c!" contained an Error."] := by decide +kernel
example : saidOf c!"{x: None}" = some [.words c!"WiggleGraphIllegalPropertyValue: ", .words c!"Cannot use ", .quote c!"None", .words c!" as a string, please use the null type for example {foo: null}"] := by decide +kernel
example : saidOf c!"{x: ' true '}" = some [.words c!"WiggleGraphIllegalPropertyValue: ", .words c!"Cannot use ", .quote c!"true", .words c!" as a string, please use the bool type for example {foo: true}"] := by decide +kernel
end
end WG
