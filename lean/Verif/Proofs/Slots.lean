/-
The list of parts of a pattern holds what stands at its places.
-/
import Verif.Spec.Slots

namespace WG

/-- The number of a place. -/
def Slot.num : Slot → Nat
  | .left => 0
  | .leftMiddle => 1
  | .middle => 2
  | .middleRight => 3
  | .right => 4

theorem Slot.num_inj {a b : Slot} (h : a.num = b.num) : a = b := by
  cases a <;> cases b <;> simp_all [Slot.num]

theorem parts_num (p : ParsedPattern) (a : Slot) : p.parts[a.num]? = some (partAt p a) := by
  cases a <;> rfl

theorem partAt_mem (p : ParsedPattern) (a : Slot) : partAt p a ∈ p.parts :=
  List.mem_of_getElem? (parts_num p a)

theorem parts_slot {p : ParsedPattern} {i : Nat} {t : PartText} (h : p.parts[i]? = some t) :
    ∃ a : Slot, partAt p a = t ∧ a.num = i := by
  match i, h with
  | 0, h => exact ⟨.left, by simpa [ParsedPattern.parts, partAt] using h, rfl⟩
  | 1, h => exact ⟨.leftMiddle, by simpa [ParsedPattern.parts, partAt] using h, rfl⟩
  | 2, h => exact ⟨.middle, by simpa [ParsedPattern.parts, partAt] using h, rfl⟩
  | 3, h => exact ⟨.middleRight, by simpa [ParsedPattern.parts, partAt] using h, rfl⟩
  | 4, h => exact ⟨.right, by simpa [ParsedPattern.parts, partAt] using h, rfl⟩
  | _ + 5, h => simp [ParsedPattern.parts] at h

theorem mem_parts_slot {p : ParsedPattern} {t : PartText} (h : t ∈ p.parts) : ∃ a : Slot, partAt p a = t := by
  obtain ⟨i, hi⟩ := List.mem_iff_getElem?.1 h
  obtain ⟨a, ha, _⟩ := parts_slot hi
  exact ⟨a, ha⟩

/-- `DuplicateHandle` in terms of the list of parts. -/
theorem duplicateHandle_iff {p : ParsedPattern} : DuplicateHandle p ↔
    ∃ (i j : Nat) (t u : PartText) (h : Str), i < j ∧ p.parts[i]? = some t ∧ p.parts[j]? = some u ∧ t.handle = some h ∧
      u.handle = some h ∧ h ≠ [] := by
  constructor
  · rintro ⟨a, b, h, hab, ha, hb, hn⟩
    rcases Nat.lt_or_gt_of_ne (fun e => hab (Slot.num_inj e)) with hl | hl
    · exact ⟨_, _, _, _, h, hl, parts_num p a, parts_num p b, ha, hb, hn⟩
    · exact ⟨_, _, _, _, h, hl, parts_num p b, parts_num p a, hb, ha, hn⟩
  · rintro ⟨i, j, t, u, h, hij, h1, h2, h3, h4, h5⟩
    obtain ⟨a, rfl, ha⟩ := parts_slot h1
    obtain ⟨b, rfl, hb⟩ := parts_slot h2
    exact ⟨a, b, h, by rintro rfl; omega, h3, h4, h5⟩

end WG
