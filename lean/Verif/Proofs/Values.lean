/-
Lemmas for C110.
-/
import Verif.Spec.Values
import Verif.Proofs.Storage
import Verif.Proofs.PyText
set_option linter.unusedSectionVars false

namespace WG
variable [PyRuntime]

theorem dedup_snoc {α : Type} [DecidableEq α] (l : List α) (x : α) :
    dedup (l ++ [x]) = if x ∈ dedup l then dedup l else dedup l ++ [x] := by
  unfold dedup
  rw [List.foldl_append]
  rfl

theorem firsts_dedup {α : Type} [DecidableEq α] (l : List α) : Firsts l (dedup l) := by
  induction l using list_reverse_rec with
  | nil => exact .nil
  | snoc l x ih =>
    rw [dedup_snoc]
    by_cases h : x ∈ l
    · rw [if_pos (mem_dedup.2 h)]
      exact .seen ih h
    · rw [if_neg (mt mem_dedup.1 h)]
      exact .new ih h

theorem firsts_eq {α : Type} [DecidableEq α] {l u : List α} (h : Firsts l u) : u = dedup l := by
  induction h with
  | nil => rfl
  | @seen l u x _ hx ih => rw [dedup_snoc, if_pos (mem_dedup.2 hx), ih]
  | @new l u x _ hx ih => rw [dedup_snoc, if_neg (mt mem_dedup.1 hx), ih]

theorem dedup_of_nodup {α : Type} [DecidableEq α] {l : List α} (h : l.Nodup) : dedup l = l := by
  induction l using list_reverse_rec with
  | nil => rfl
  | snoc l x ih =>
    rw [List.nodup_append] at h
    rw [dedup_snoc, ih h.1, if_neg]
    intro hx
    exact h.2.2 x hx x (by simp) rfl

theorem hashable_changeable {v : V} : hashable v = true ↔ ¬ Changeable v := by
  cases v <;> simp [hashable, Changeable]

theorem keys_nodup {d : Dict V} (h : (d.map Prod.fst).Nodup) : (d.map fun x => (Val.str x.1 : V)).Nodup := by
  rw [List.Nodup, List.pairwise_map] at h ⊢
  exact h.imp fun h e => h (Val.str.inj e)

end WG
