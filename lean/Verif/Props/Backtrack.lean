/-
C73: matching the patterns takes at most quadratically many steps in the length of the text.  Violated (degree 5 at least);
what holds is a polynomial bound for every pattern and text.
-/
import Verif.Proofs.BacktrackLow
import Verif.Spec.DemoFS

set_option linter.unusedSectionVars false
set_option linter.unusedSimpArgs false

namespace WG
open Re

section
variable [PyRuntime]

/-- C73: the model of `re` (lists of ways to match) gives what a backtracking matcher that stops at the first success
gives, for every pattern and text, in `match`, `search`, `finditer` and `sub`. -/
theorem C73_engine (r : Re) (s : Str) :
    (btMatch r s).1 = r.matchAt s ∧ (btSearch r s).1 = r.search s ∧
      (btFinditer r (s.length + 1) s).1 = r.finditer s ∧ (btErase r (s.length + 1) s).1 = r.erase s :=
  ⟨btMatch_eq r s, btSearch_eq r s, btFinditer_eq r _ s, btErase_eq r _ s⟩

/-- C73: the number of steps is polynomial in the length of the text; the degree is the number of repetitions in the
pattern (one more to scan the whole text). -/
theorem C73_polynomial_partial (r : Re) (s : Str) :
    (btMatch r s).2 ≤ r.work * (s.length + 1) ^ r.stars ∧
    (btSearch r s).2 ≤ r.work * (s.length + 1) ^ (r.stars + 1) ∧
    (btFinditer r (s.length + 1) s).2 ≤ (2 * r.work + r.ways) * (s.length + 1) ^ (r.stars + 1) ∧
    (btErase r (s.length + 1) s).2 ≤ r.work * (s.length + 1) ^ (r.stars + 1) := by
  have e : ∀ a : Nat, (s.length + 1) * (a * (s.length + 1) ^ r.stars) = a * (s.length + 1) ^ (r.stars + 1) := by
    intro a; rw [Nat.pow_succ, Nat.mul_left_comm, Nat.mul_comm (s.length + 1)]
  refine ⟨btMatch_steps r s _ (Nat.le_refl _), ?_, ?_, ?_⟩
  · rw [← e]; exact btSearch_steps r s _ (Nat.le_refl _)
  · rw [← e]; exact btFinditer_steps r _ s _ (Nat.le_refl _)
  · rw [← e]; exact btErase_steps r _ s _ (Nat.le_refl _)

set_option maxRecDepth 100000 in
/-- C73: one polynomial bounds the scan of any text with any pattern of the project. -/
theorem C73_scan_partial (r : Re) (hr : r ∈ allPatterns) (s : Str) :
    (btFinditer r (s.length + 1) s).2 ≤ 147619 * (s.length + 1) ^ 55 := by
  refine Nat.le_trans (C73_polynomial_partial r s).2.2.1 ?_
  have h : 2 * r.work + r.ways ≤ 147619 ∧ r.stars + 1 ≤ 55 := by
    have h4 := fun kw hk => permsRe_size 4 kw 24 hk
    have hm := h4 c!"make" rfl
    have hf := h4 c!"find" rfl
    have h6 := permsRe_size 6 c!"report" 720 (by decide +kernel)
    simp only [allPatterns, List.mem_cons, List.not_mem_nil, or_false] at hr
    rcases hr with rfl | rfl | rfl | rfl | rfl | rfl | rfl | rfl | rfl | rfl | rfl | rfl | rfl | rfl | rfl <;>
      simp only [makeSpelling, findSpelling, spelling, reportSpelling, nodesRelsPattern, part, nodeGrp, relGrp, makeAll, findAll,
        reportAll, makeAllCS, findAllCS, reportAllCS, clauseAll, clauseAllCS, propKV, checkProps, listValue, relDirCheck, illegalRe,
        seqs, optC, plus, ch, word, wordCI, work, ways, stars] <;>
      first
        | omega
        | (simp only [List.length_cons, List.length_nil, Nat.zero_add, Nat.reduceAdd]; omega)
        | (simp only [alts, wordCI, work, ways, stars]; omega)
  exact Nat.mul_le_mul h.1 (Nat.pow_le_pow_right (by omega) h.2)

/-- C73: the parts of a node-relationship pattern are optional, so the matcher never returns to an earlier part: matching
at a position takes at most degree 12, not 54. -/
theorem C73_pattern_partial (s : Str) : (btMatch nodesRelsPattern s).2 ≤ 276 * (s.length + 1) ^ 12 := by
  have hp : ∀ (g : Re) (w d : Nat), (part g).work ≤ w → (part g).stars ≤ d → ∀ t : Str, t.length ≤ s.length →
      (btMatch (part g) t).2 ≤ w * (s.length + 1) ^ d := fun g w d hw hd t ht =>
    Nat.le_trans (btMatch_steps (part g) t s.length ht) (Nat.mul_le_mul hw (Nat.pow_le_pow_right (by omega) hd))
  have n0 := hp (nodeGrp 0) 20 12 (by simp [part, nodeGrp, relGrp, seqs, optC, plus, ch, work, ways]) (by simp [part, nodeGrp, relGrp, seqs, optC, plus, ch, stars])
  have n1 := hp (relGrp 1) 108 12 (by simp [part, nodeGrp, relGrp, seqs, optC, plus, ch, work, ways]) (by simp [part, nodeGrp, relGrp, seqs, optC, plus, ch, stars])
  have n2 := hp (nodeGrp 2) 20 12 (by simp [part, nodeGrp, relGrp, seqs, optC, plus, ch, work, ways]) (by simp [part, nodeGrp, relGrp, seqs, optC, plus, ch, stars])
  have n3 := hp (relGrp 3) 108 12 (by simp [part, nodeGrp, relGrp, seqs, optC, plus, ch, work, ways]) (by simp [part, nodeGrp, relGrp, seqs, optC, plus, ch, stars])
  have n4 := hp (nodeGrp 4) 20 12 (by simp [part, nodeGrp, relGrp, seqs, optC, plus, ch, work, ways]) (by simp [part, nodeGrp, relGrp, seqs, optC, plus, ch, stars])
  generalize (s.length + 1) ^ 12 = N at n0 n1 n2 n3 n4 ⊢
  have t4 := run_part_ne (nodeGrp 4)
  have t3 := run_seq_ne (run_part_ne (relGrp 3)) t4
  have t2 := run_seq_ne (run_part_ne (nodeGrp 2)) t3
  have t1 := run_seq_ne (run_part_ne (relGrp 1)) t2
  have b3 : ∀ t : Str, t.length ≤ s.length → (btMatch (.seq (part (relGrp 3)) (part (nodeGrp 4))) t).2 ≤ 128 * N := by
    intro t ht; have := btSeq_steps (part (relGrp 3)) _ t s.length _ ht t4 n4; have := n3 t ht; omega
  have b2 : ∀ t : Str, t.length ≤ s.length →
      (btMatch (.seq (part (nodeGrp 2)) (.seq (part (relGrp 3)) (part (nodeGrp 4)))) t).2 ≤ 148 * N := by
    intro t ht; have := btSeq_steps (part (nodeGrp 2)) _ t s.length _ ht t3 b3; have := n2 t ht; omega
  have b1 : ∀ t : Str, t.length ≤ s.length →
      (btMatch (.seq (part (relGrp 1)) (.seq (part (nodeGrp 2)) (.seq (part (relGrp 3)) (part (nodeGrp 4))))) t).2 ≤
        256 * N := by
    intro t ht; have := btSeq_steps (part (relGrp 1)) _ t s.length _ ht t2 b2; have := n1 t ht; omega
  have := btSeq_steps (part (nodeGrp 0)) _ s s.length _ (Nat.le_refl _) t1 b1
  have := n0 s (Nat.le_refl _)
  show (btMatch (.seq (part (nodeGrp 0)) (.seq (part (relGrp 1)) (.seq (part (nodeGrp 2)) (.seq (part (relGrp 3)) (part (nodeGrp 4)))))) s).2 ≤ _
  omega

/-- C73 is violated: a MAKE statement whose relationship lacks its `->`, with `n` blanks between the brackets, passes the first
three checks, and then the relationship check takes more than `n^5 / 120` steps (seconds for 100 blanks, days for 2000). -/
theorem C73_violated (n : Nat) : extractAllStatements (stallStmt n) .make = .ok (some [stallStmt n]) ∧
    checkStatementSyntax [stallStmt n] = .ok () ∧ checkIllegalCharacters [stallStmt n] = .ok () ∧
    checkNodeRelProperties [stallStmt n] = .ok () ∧
    (n + 1) ^ 5 ≤ 120 * (btFinditer relDirCheck ((stallStmt n).length + 1) (stallStmt n)).2 :=
  ⟨stall_extract n, (stall_checks n).1, (stall_checks n).2.1, (stall_checks n).2.2, stall_steps n⟩

/-- C73 is violated: the steps of the relationship check have no bound of degree four, let alone two. -/
theorem C73_violated_degree : ¬ ∃ c, ∀ s : Str, (btFinditer relDirCheck (s.length + 1) s).2 ≤ c * (s.length + 1) ^ 4 := by
  rintro ⟨c, hc⟩
  have h : ∀ n : Nat, n + 1 ≤ 120 * c * 20 ^ 4 := by
    intro n
    have h1 := stall_steps n
    have h2 := hc (stallStmt n)
    have h3 : ((stallStmt n).length + 1) ^ 4 ≤ (20 * (n + 1)) ^ 4 := by
      refine Nat.pow_le_pow_left ?_ 4
      simp [stallStmt]; omega
    rw [Nat.mul_pow] at h3
    have h4 : (n + 1) ^ 4 * (n + 1) ≤ (n + 1) ^ 4 * (120 * c * 20 ^ 4) := by
      calc (n + 1) ^ 4 * (n + 1) = (n + 1) ^ 5 := (Nat.pow_succ ..).symm
        _ ≤ 120 * (c * (20 ^ 4 * (n + 1) ^ 4)) := Nat.le_trans h1 (Nat.mul_le_mul_left _ (Nat.le_trans h2 (Nat.mul_le_mul_left _ h3)))
        _ = (n + 1) ^ 4 * (120 * c * 20 ^ 4) := by
          rw [← Nat.mul_assoc, ← Nat.mul_assoc, Nat.mul_comm ((n + 1) ^ 4)]
    exact Nat.le_of_mul_le_mul_left h4 (Nat.pow_pos (by omega))
  have := h (120 * c * 20 ^ 4)
  omega

end

section
attribute [local instance] demoRuntime

/-- The matcher takes 33 steps to find a node, and a property block that is never closed is given back bit by bit. -/
example : (btMatch nodesRelsPattern c!"(a:B)").2 = 33 ∧ (btMatch nodesRelsPattern c!"(a:B {int: 1").1.map (·.1) = some [] ∧
    (btMatch nodesRelsPattern c!"(a:B {int: 1").2 = 232 := by
  refine ⟨?_, ?_, ?_⟩ <;> decide +kernel

/-- A match that is only found after giving back: `.+` first takes everything. -/
example : (btMatch makeAll c!"make(a); b").1.map (·.1) = some c!"make(a);" ∧ (btMatch makeAll c!"make(a); b").2 = 19 := by
  refine ⟨?_, ?_⟩ <;> decide +kernel

/-- The steps of the relationship check on 0, 1, 2, 4 and 8 blanks. -/
example : [0, 1, 2, 4, 8].map (fun n => (btFinditer relDirCheck ((stallStmt n).length + 1) (stallStmt n)).2) =
    [73, 108, 184, 591, 4133] := by decide +kernel

end

end WG
