/- Lemmas for Props/Backtrack: a lower bound for the steps on a text that the matcher has to give up on. -/
import Verif.Proofs.Backtrack
import Verif.Proofs.Checks
import Verif.Proofs.Extract
import Verif.Proofs.Parse

set_option linter.unusedSimpArgs false
set_option linter.unusedSectionVars false

namespace WG
open Re

/-! ### Sums -/

/-- `f 0 + … + f n` -/
def sumTo (f : Nat → Nat) : Nat → Nat
  | 0 => f 0
  | n + 1 => sumTo f n + f (n + 1)

theorem pow_step (m j : Nat) : (m + 1) ^ (j + 1) ≤ m ^ (j + 1) + (j + 1) * (m + 1) ^ j := by
  induction j with
  | zero => simp
  | succ j ih =>
    have h1 : m ^ (j + 1) ≤ (m + 1) ^ (j + 1) := Nat.pow_le_pow_left (by omega) _
    calc (m + 1) ^ (j + 2) = (m + 1) ^ (j + 1) * (m + 1) := Nat.pow_succ ..
      _ ≤ (m ^ (j + 1) + (j + 1) * (m + 1) ^ j) * (m + 1) := Nat.mul_le_mul_right _ ih
      _ = m ^ (j + 2) + m ^ (j + 1) + (j + 1) * (m + 1) ^ (j + 1) := by
        rw [Nat.add_mul, Nat.mul_add, Nat.mul_one, ← Nat.pow_succ, Nat.mul_assoc, ← Nat.pow_succ]
      _ ≤ m ^ (j + 2) + (j + 1 + 1) * (m + 1) ^ (j + 1) := by
        rw [Nat.add_mul (j + 1) 1, Nat.one_mul]; omega

theorem sumTo_pow {f : Nat → Nat} {d j : Nat} (h : ∀ i, (i + 1) ^ j ≤ d * f i) (n : Nat) :
    (n + 1) ^ (j + 1) ≤ d * (j + 1) * sumTo f n := by
  induction n with
  | zero =>
    have := h 0
    simp only [Nat.zero_add, Nat.one_pow, sumTo] at this ⊢
    calc 1 ≤ d * f 0 := this
      _ ≤ d * f 0 * (j + 1) := Nat.le_mul_of_pos_right _ (by omega)
      _ = d * (j + 1) * f 0 := by rw [Nat.mul_assoc, Nat.mul_comm (f 0), ← Nat.mul_assoc]
  | succ n ih =>
    have h1 := pow_step (n + 1) j
    have h2 : (j + 1) * (n + 1 + 1) ^ j ≤ (j + 1) * (d * f (n + 1)) := Nat.mul_le_mul_left _ (h (n + 1))
    have e : d * (j + 1) * sumTo f (n + 1) = d * (j + 1) * sumTo f n + (j + 1) * (d * f (n + 1)) := by
      rw [sumTo, Nat.mul_add, ← Nat.mul_assoc (j + 1), Nat.mul_comm (j + 1) d]
    rw [e]; omega

/-! ### Attempts that fail -/

/-- The rest of the pattern fails on texts without `-`. -/
def FailsC {α : Type} (k : Cont α) : Prop := ∀ x t cs, '-' ∉ t → (k x t cs).1 = none

theorem orElseT_none {α : Type} {a : Timed α} (b : Timed α) (h : a.1 = none) : orElseT a b = (b.1, a.2 + b.2) := by
  simp [orElseT, h]

theorem btStar_fails {α : Type} (p : Char → Bool) {s : Str} (hs : '-' ∉ s) {k : Str → Str → Timed α}
    (hk : ∀ x t, '-' ∉ t → (k x t).1 = none) : (btStar p s k).1 = none := by
  induction s generalizing k with
  | nil => exact hk _ _ hs
  | cons c cs ih =>
    have hc : '-' ∉ cs := fun h => hs (by simp [h])
    simp only [btStar]
    split
    · rw [orElseT_none]
      · exact hk _ _ hs
      · exact ih hc fun x t ht => hk _ _ ht
    · exact hk _ _ hs

theorem bt_fails {α : Type} (r : Re) {s : Str} (hs : '-' ∉ s) {k : Cont α} (hk : FailsC k) : (bt r s k).1 = none := by
  induction r generalizing s k with
  | eps => exact hk _ _ _ hs
  | cls p =>
    cases s with
    | nil => rfl
    | cons c cs =>
      simp only [bt]
      split
      · exact hk _ _ _ fun h => hs (by simp [h])
      · rfl
  | star p => exact btStar_fails p hs fun x t ht => hk _ _ _ ht
  | seq a b iha ihb => exact iha hs fun x t cs ht => ihb ht fun x' t' cs' ht' => hk _ _ _ ht'
  | alt a b iha ihb => simp only [bt]; rw [orElseT_none]; · exact ihb hs hk
                       · exact iha hs hk
  | opt a iha => simp only [bt]; rw [orElseT_none]; · exact hk _ _ _ hs
                 · exact iha hs hk
  | grp n a iha => exact iha hs fun x t cs ht => hk _ _ _ ht

/-- A pattern that begins with `-`. -/
theorem failsC_dash {α : Type} (r : Re) (k : Str → Str → Caps → Cont α) :
    FailsC fun x t cs => bt (.seq (plus (· == '-')) r) t (k x t cs) := by
  intro x t cs ht
  cases t with
  | nil => rfl
  | cons c cs' =>
    have : c ≠ '-' := fun h => ht (by simp [h])
    simp [bt, plus, this]

theorem star_skip {α : Type} (p : Char → Bool) {s : Str} (hs : '-' ∉ s) {k : Cont α} (hk : FailsC k) :
    (k [] s []).2 ≤ (bt (.star p) s k).2 := by
  cases s with
  | nil => simp [bt, btStar, tickT]
  | cons c cs =>
    have hc : '-' ∉ cs := fun h => hs (by simp [h])
    simp only [bt, btStar]
    split
    · rw [orElseT_none]
      · exact Nat.le_add_left _ _
      · exact btStar_fails p hc fun x t ht => hk _ _ _ ht
    · exact Nat.le_add_right _ _

theorem opt_skip {α : Type} (a : Re) {s : Str} (hs : '-' ∉ s) {k : Cont α} (hk : FailsC k) : (k [] s []).2 ≤ (bt (.opt a) s k).2 := by
  simp only [bt]
  rw [orElseT_none]
  · exact Nat.le_add_left _ _
  · exact bt_fails a hs hk

theorem star_sum {α : Type} {p : Char → Bool} (hp : p ' ' = true) {tail : Str} (ht : '-' ∉ tail) {f : Nat → Nat} (n : Nat) {k : Cont α}
    (hk : FailsC k) (hf : ∀ i x cs, f i ≤ (k x (List.replicate i ' ' ++ tail) cs).2) :
    sumTo f n ≤ (bt (.star p) (List.replicate n ' ' ++ tail) k).2 := by
  induction n generalizing k with
  | zero => exact Nat.le_trans (hf 0 [] []) (star_skip p (by simpa using ht) hk)
  | succ n ih =>
    have hn : '-' ∉ List.replicate n ' ' ++ tail := by simp [List.mem_replicate, ht]
    have h1 := ih (k := fun x t cs => k (' ' :: x) t cs) (fun x t cs h => hk _ _ _ h) fun i x cs => hf i _ _
    have h2 := hf (n + 1) [] []
    simp only [bt, List.replicate_succ, List.cons_append, btStar, hp, if_true] at h1 h2 ⊢
    rw [orElseT_none]
    · simp only [tickT, sumTo]; omega
    · exact btStar_fails p hn fun x t ht => hk _ _ _ ht

/-! ### The relationship check on blanks -/

variable [PyRuntime]

/-- What follows the opening square bracket in RELATIONSHIP_DIR_CHECK_REGEX. -/
def dirTail : Re := .seq (.star isSpace) (.seq (.star isWord) (.seq (.star isSpace) (.seq (optC (· == ':')) (.seq (.star isSpace)
  (.seq (.grp 1 (.star isWord)) (.seq (.star isSpace) (.seq (plus isParamChar) (.seq (plus (· == '-')) (optC (· == '>'))))))))))

theorem relDirCheck_eq : relDirCheck = .grp 0 (.seq (optC (· == '<')) (.seq (plus (· == '-')) (.seq (ch '[') dirTail))) := rfl

/-- The tail of `stallStmt`. -/
def stallTail : Str := c!"](c:D);"

theorem stallTail_dash : '-' ∉ stallTail := by decide

theorem failsC_seq {α : Type} (a b : Re) (h : ∀ (k : Str → Str → Caps → Cont α), FailsC fun x t cs => bt b t (k x t cs))
    (k : Str → Str → Caps → Cont α) : FailsC fun x t cs => bt (.seq a b) t (k x t cs) := by
  intro x t cs ht
  simp only [bt]
  refine bt_fails a ht ?_
  intro x' t' cs' ht'
  exact h (fun x' t' cs' y r' cs'' => k x t cs (x' ++ y) r' (cs' ++ cs'')) x' t' cs' ht'

theorem params_low {α : Type} (r : Re) (i : Nat) (k : Cont α) :
    i + 1 ≤ (bt (.seq (plus isParamChar) (.seq (plus (· == '-')) r)) (List.replicate i ' ' ++ stallTail) k).2 := by
  have hsp : isParamChar ' ' = true := by simp [isParamChar, isSpace, isAscii]
  cases i with
  | zero =>
    have : isParamChar ']' = true := by simp [isParamChar]
    simp only [stallTail, List.replicate_zero, List.nil_append, plus, bt, String.toList, this, if_true, tickT]
    omega
  | succ i =>
    simp only [plus, bt, List.replicate_succ, List.cons_append, hsp, if_true, tickT]
    have := star_sum (f := fun _ => 1) (α := α) hsp stallTail_dash i
      (k := fun x t cs => bt (.seq (plus (· == '-')) r) t fun y r' cs' => k ((' ' :: x) ++ y) r' (cs ++ cs'))
      (failsC_dash r fun x t cs y r' cs' => k ((' ' :: x) ++ y) r' (cs ++ cs'))
      (by
        intro j x cs
        cases j with
        | zero => simp [stallTail, bt, plus]
        | succ j => simp [bt, plus, List.replicate_succ])
    have e : sumTo (fun _ => 1) i = i + 1 := by
      clear this
      induction i with
      | zero => rfl
      | succ i ih => rw [sumTo, ih]
    rw [e] at this
    simp only [bt, plus, List.cons_append, List.nil_append, List.append_assoc] at this ⊢
    omega

/-- At least `f i` steps on `i` blanks before the tail. -/
def Low (f : Nat → Nat) (r : Re) : Prop := ∀ (i : Nat) (k : Cont MRes), f i ≤ (bt r (List.replicate i ' ' ++ stallTail) k).2

/-- Fails on texts without `-`. -/
def FailsP (r : Re) : Prop := ∀ k : Str → Str → Caps → Cont MRes, FailsC fun x t cs => bt r t (k x t cs)

theorem FailsP.seq {b : Re} (h : FailsP b) (a : Re) : FailsP (.seq a b) := failsC_seq a b h

theorem stall_dash (i : Nat) : '-' ∉ List.replicate i ' ' ++ stallTail := by
  have := stallTail_dash; simp [List.mem_replicate, this]

theorem Low.space {f : Nat → Nat} {b : Re} (h : Low f b) (hb : FailsP b) : Low (sumTo f) (.seq (.star isSpace) b) := by
  intro i k
  have hsp : isSpace ' ' = true := by simp [isSpace, isAscii]
  exact star_sum hsp stallTail_dash i (hb fun x _ cs y r' cs' => k (x ++ y) r' (cs ++ cs')) fun i x cs => h i _

theorem Low.star {f : Nat → Nat} {b : Re} (h : Low f b) (hb : FailsP b) (p : Char → Bool) : Low f (.seq (.star p) b) := fun i k =>
  Nat.le_trans (h i _) (star_skip p (stall_dash i) (hb fun x _ cs y r' cs' => k (x ++ y) r' (cs ++ cs')))

theorem Low.grpStar {f : Nat → Nat} {b : Re} (h : Low f b) (hb : FailsP b) (n : Nat) (p : Char → Bool) : Low f (.seq (.grp n (.star p)) b) :=
  fun i k => Nat.le_trans (h i fun y r' cs' => k ([] ++ y) r' ([(n, [])] ++ cs'))
    (star_skip p (stall_dash i) (k := fun x t cs => bt b t fun y r' cs' => k (x ++ y) r' ((n, x) :: cs ++ cs'))
      (hb fun x _ cs y r' cs' => k (x ++ y) r' ((n, x) :: cs ++ cs')))

theorem Low.opt {f : Nat → Nat} {b : Re} (h : Low f b) (hb : FailsP b) (a : Re) : Low f (.seq (.opt a) b) := fun i k =>
  Nat.le_trans (h i _) (opt_skip a (stall_dash i) (hb fun x _ cs y r' cs' => k (x ++ y) r' (cs ++ cs')))

theorem dirTail_low : Low (sumTo (sumTo (sumTo (sumTo fun i => i + 1)))) dirTail := by
  have f0 : FailsP (.seq (plus (· == '-')) (optC (· == '>'))) := fun k => failsC_dash _ k
  have f1 := f0.seq (plus isParamChar)
  have l1 : Low (fun i => i + 1) (.seq (plus isParamChar) (.seq (plus (· == '-')) (optC (· == '>')))) := fun i k => params_low _ i k
  have f2 := f1.seq (.star isSpace)
  have f3 := f2.seq (.grp 1 (.star isWord))
  have f4 := f3.seq (.star isSpace)
  have f5 := f4.seq (optC (· == ':'))
  have f6 := f5.seq (.star isSpace)
  have f7 := f6.seq (.star isWord)
  exact (((((((l1.space f1).grpStar f2 1 isWord).space f3).opt f4 _).space f5).star f6 isWord).space f7)

theorem dirTail_pow (n : Nat) (k : Cont MRes) : (n + 1) ^ 5 ≤ 120 * (bt dirTail (List.replicate n ' ' ++ stallTail) k).2 := by
  have h1 : ∀ i : Nat, (i + 1) ^ 1 ≤ 1 * (fun i => i + 1) i := by intro i; simp
  have h5 := sumTo_pow (sumTo_pow (sumTo_pow (sumTo_pow h1))) n
  exact Nat.le_trans h5 (Nat.mul_le_mul_left _ (dirTail_low n k))

theorem relDirCheck_pow (n : Nat) : (n + 1) ^ 5 ≤ 120 * (btMatch relDirCheck ('-' :: '[' :: (List.replicate n ' ' ++ stallTail))).2 := by
  have h := dirTail_pow n
  rw [btMatch, relDirCheck_eq]
  simp only [bt, optC, plus, ch, btStar, show ('-' == '<') = false from by decide, show ('-' == '-') = true from by decide,
    show ('[' == '-') = false from by decide, show ('[' == '[') = true from by decide, if_true, Bool.false_eq_true, if_false, tickT, orElseT]
  exact Nat.le_trans (h _) (Nat.mul_le_mul_left 120 (Nat.le_add_left_of_le (Nat.le_succ_of_le (Nat.le_succ_of_le
    (Nat.le_succ_of_le (Nat.le_refl _))))))

/-! ### The statement -/

theorem finditer_next {r : Re} {f : Nat} {c : Char} {cs : Str} (h : Fails r (c :: cs)) :
    (btFinditer r f cs).2 ≤ (btFinditer r (f + 1) (c :: cs)).2 := by
  have e := btMatch_eq r (c :: cs)
  rw [h.matchAt] at e
  simp only [btFinditer]
  revert e
  rcases btMatch r (c :: cs) with ⟨_ | m, k⟩ <;> intro e
  · exact Nat.le_add_left _ _
  · simp at e

theorem finditer_first (r : Re) (f : Nat) (s : Str) : (btMatch r s).2 ≤ (btFinditer r (f + 1) s).2 := by
  simp only [btFinditer]
  rcases btMatch r s with ⟨_ | m, k⟩
  · exact Nat.le_add_right _ _
  · simp only
    split
    · rcases btNonempty r s with ⟨_ | m', k'⟩ <;> simp only <;> omega
    · exact Nat.le_add_right _ _

theorem stall_steps (n : Nat) : (n + 1) ^ 5 ≤ 120 * (btFinditer relDirCheck ((stallStmt n).length + 1) (stallStmt n)).2 := by
  have e : stallStmt n = c!"MAKE (a:B)" ++ ('-' :: '[' :: (List.replicate n ' ' ++ stallTail)) := rfl
  have hl : (stallStmt n).length + 1 = (n + 9) + 11 := by
    rw [e]; simp [stallTail]
  have key : ∀ (u : Str) (s : Str) (f : Nat), (∀ c ∈ u, (c == '<' || c == '-') = false) →
      (btFinditer relDirCheck f s).2 ≤ (btFinditer relDirCheck (f + u.length) (u ++ s)).2 := by
    intro u s f hu
    induction u with
    | nil => exact Nat.le_refl _
    | cons c u ih =>
      refine Nat.le_trans (ih fun c hc => hu c (by simp [hc])) ?_
      exact finditer_next (fails_relDirCheck fun c' cs' e => by
        simp only [List.cons_append, List.cons.injEq] at e; rw [← e.1]; exact hu c (by simp))
  rw [hl, e]
  have h := key c!"MAKE (a:B)" ('-' :: '[' :: (List.replicate n ' ' ++ stallTail)) (n + 9 + 1) (by decide)
  have h1 := finditer_first relDirCheck (n + 9) ('-' :: '[' :: (List.replicate n ' ' ++ stallTail))
  exact Nat.le_trans (relDirCheck_pow n) (Nat.mul_le_mul_left _ (Nat.le_trans h1 h))

theorem stall_extract (n : Nat) : extractAllStatements (stallStmt n) .make = .ok (some [stallStmt n]) := by
  have e : stallStmt n = stmtText c!"MAKE" c!" " (c!"a:B)-[" ++ (List.replicate n ' ' ++ c!"](c:D")) ++ ([] ++ []) := by
    simp [stallStmt, stmtText]
  refine extract_of_finditer (re := makeAll) rfl ?_ (by simp)
  have h := hd_clauseAll (kw := c!"make") (w := c!"MAKE") (sp := c!" ") (body := c!"a:B)-[" ++ (List.replicate n ' ' ++ c!"](c:D"))
    (tail := []) (s := []) (by simp [CISpelling, sameLetter]) (by simp [isSpace, isAscii]) (by simp) (by simp [List.mem_replicate]) (by simp)
    (Or.inl rfl)
  rw [← e] at h
  rw [makeAll, finditer_hit h (by simp [stmtText])]
  simp only [List.append_nil]
  rw [finditer_nil]
  · simp only [List.map_cons, List.map_nil]; rw [e]; simp
  · simp [Fails, run, clauseAll, seqs, wordCI]

theorem stall_checks (n : Nat) : checkStatementSyntax [stallStmt n] = .ok () ∧ checkIllegalCharacters [stallStmt n] = .ok () ∧
    checkNodeRelProperties [stallStmt n] = .ok () := by
  have hmem : ∀ c ∈ stallStmt n, c ∈ c!"MAKE (a:B)-[ ](c:D);" := by
    intro c hc
    simp only [stallStmt, List.mem_append, List.mem_replicate] at hc
    rcases hc with hc | hc | hc
    · exact List.mem_append_left (bs := c!" ](c:D);") hc
    · rw [hc.2]; decide
    · exact List.mem_append_right (as := c!"MAKE (a:B)-[ ") hc
  refine ⟨?_, ?_, ?_⟩
  · rw [syntax_ok]
    intro s hs piece hp
    obtain ⟨w, ws, h1, h2⟩ := splitClass_plain (p := isAngle) (u := stallStmt n) (s := []) (by
      intro c hc
      have h := hmem c hc
      clear hc; revert c; decide)
    simp only [List.mem_singleton] at hs; subst hs
    rw [List.append_nil] at h2
    simp only [splitClass, splitClassAux, List.cons.injEq] at h1
    obtain ⟨rfl, rfl⟩ := h1
    rw [h2] at hp
    simp only [List.append_nil, List.mem_singleton] at hp
    subst hp
    rw [checkPiece_ok]
    have hr : ∀ q : Char → Bool, q ' ' = false → (List.replicate n ' ').countP q = 0 := by
      intro q hq; rw [List.countP_eq_zero]; intro x hx; rw [(List.mem_replicate.1 hx).2, hq]; simp
    refine ⟨?_, ?_, ?_⟩ <;>
    · rw [stallStmt, List.countP_append, List.countP_append, hr _ (by decide)]; decide
  · rw [illegal_ok]
    intro s hs c hc
    simp only [List.mem_singleton] at hs; subst hs
    have h := hmem c hc
    clear hc; revert c; decide
  · have : checkProps.finditer (stallStmt n) = [] := by
      rw [finditer_nil_iff]
      intro pre post e
      refine fails_checkProps fun cs hcs => ?_
      have := hmem '{' (by rw [e, hcs]; simp)
      simp at this
    simp [checkNodeRelProperties, forEach, checkStmtProps, this]

end WG
