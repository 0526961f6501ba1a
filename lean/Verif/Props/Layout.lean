/-
C111: the text of a written file, character by character.
-/
import Verif.Proofs.Layout
import Verif.Proofs.Make
import Verif.Spec.DemoFS
import Verif.Spec.Durable
set_option linter.unusedSectionVars false

namespace WG

section
variable [PyRuntime]

/-- C111: a value that can be written is written as documented, and a value with a documented text can be written. -/
theorem C111_written (v : V) (t : Str) : jsonDump v = (t, true) ↔ Printed 0 v t := printed_iff.symm

/-- C111: the layout leaves no choice. -/
theorem C111_one_text (k : Nat) (v : V) (t t' : Str) (h : Printed k v t) (h' : Printed k v t') : t = t' := by
  rw [printed_iff] at h h'
  rw [h] at h'
  exact congrArg Prod.fst h'

/-- C111: what is written of a value that cannot be written completely is exactly what all texts have in common that one gets by putting
something else where there is no text. -/
theorem C111_cut (v : V) (t : Str) : t <+: (jsonDump v).1 ↔ ∀ w u, Filled v w → Printed 0 w u → t <+: u := by
  constructor
  · intro h w u hw hu
    have := (filled_begins 0 v w hw).1
    rw [printed_iff.1 hu] at this
    exact h.trans this
  · intro h
    obtain ⟨a1, a2, a3⟩ := fillBool_goesOn true 0 v
    obtain ⟨b1, b2, b3⟩ := fillBool_goesOn false 0 v
    have ha := h _ _ (fillBool_filled true v) (printed_iff.2 (Prod.ext rfl a1))
    have hb := h _ _ (fillBool_filled false v) (printed_iff.2 (Prod.ext rfl b1))
    cases hc : (jsonDump v).2 with
    | true =>
      rw [a2 hc] at ha
      exact ha
    | false =>
      obtain ⟨r, hr⟩ := a3 hc
      obtain ⟨r', hr'⟩ := b3 hc
      have ha := hr ▸ (show t <+: (emit 0 (fillBool true v)).1 from ha)
      have hb := hr' ▸ (show t <+: (emit 0 (fillBool false v)).1 from hb)
      have key : ∀ (a t x y : Str), t <+: a ++ 't' :: x → t <+: a ++ 'f' :: y → t <+: a := by
        intro a
        induction a with
        | nil =>
          intro t x y h1 h2
          cases t with
          | nil => exact List.prefix_refl _
          | cons c t =>
            simp only [List.nil_append, List.cons_prefix_cons] at h1 h2
            have := h1.1.symm.trans h2.1
            simp at this
        | cons c a ih =>
          intro t x y h1 h2
          cases t with
          | nil => exact List.nil_prefix
          | cons d t =>
            simp only [List.cons_append, List.cons_prefix_cons] at h1 h2 ⊢
            exact ⟨h1.1, ih t x y h1.2 h2.2⟩
      exact key _ _ _ _ ha hb

/-- C111: the database of a healthy GDBMS is written so. -/
theorem C111_database (fs : FS) (g : GPath) (d : Dict V) (labels names : List Str) (rels : Dict (List Int)) (n : Int)
    (h : Healthy fs g d labels names rels n) : ∃ t, fs.get g.db = some t ∧ Printed 0 (.dict d) t :=
  ⟨_, h.dbText, printed_iff.2 (Prod.ext rfl ((jsonDump_complete (Val.Ser.wf _ h.ser)).2 h.ser))⟩

/-- C111: the number that is written into the counter file has no leading zeros. -/
theorem C111_counter (i : Int) (t : Str) : t = intStr i ↔ DecimalText i t := decimalText_iff.symm

/-! ### Examples -/

example : Printed 0 (.dict [(c!"é", .list [.int (-10), .none]), (c!"b\"", .dict [])])
    c!"{\n    \"\\u00e9\": [\n        -10,\n        null\n    ],\n    \"b\\\"\": {}\n}" := by
  rw [← C111_written]
  rfl

/-- The same, by hand. -/
example : Printed 1 (.list [.none]) c!"[\n        null\n    ]" :=
  .list (l := [.none]) (ts := [c!"null"]) (by simp) (.cons .null .nil)

/-- A character above U+FFFF. -/
example : CharText (Char.ofNat 0x1F600) c!"\\ud83d\\ude00" := by
  refine .pair (m := 0x3d) (n := 0x200) (h := c!"d83d") (l := c!"de00") ?_ ?_ (by decide) (by decide) (by decide)
  · exact hex4_text (by decide)
  · exact hex4_text (by decide)

/-- The text up to a value that cannot be written. -/
example : jsonDump (.list [.int 1, .opq 0, .int 2] : V) = (c!"[\n    1,\n    ", false) := by rfl

end

end WG
