/- Lemmas for Props/Backtrack. -/
import Verif.Spec.Backtrack
import Verif.Proofs.Regex

set_option linter.unusedSimpArgs false

namespace WG
open Re

theorem orElseT_fst {α : Type} (a b : Timed α) : (orElseT a b).1 = a.1.or b.1 := by
  unfold orElseT; cases a.1 <;> simp

theorem orElseT_le {α : Type} (a b : Timed α) : (orElseT a b).2 ≤ a.2 + b.2 := by
  unfold orElseT; cases a.1 <;> simp

theorem findSome_append {α β : Type} (f : α → Option β) (l m : List α) :
    (l ++ m).findSome? f = (l.findSome? f).or (m.findSome? f) := by
  induction l with
  | nil => simp
  | cons a l ih => simp only [List.cons_append, List.findSome?_cons, ih]; cases f a <;> simp

theorem findSome_flatMap {α β γ : Type} (f : β → Option γ) (g : α → List β) (l : List α) :
    (l.flatMap g).findSome? f = l.findSome? fun a => (g a).findSome? f := by
  induction l with
  | nil => simp
  | cons a l ih =>
    simp only [List.flatMap_cons, findSome_append, ih, List.findSome?_cons]
    cases (g a).findSome? f <;> simp

theorem findSome_map {α β γ : Type} (f : β → Option γ) (g : α → β) (l : List α) :
    (l.map g).findSome? f = l.findSome? fun a => f (g a) := by
  induction l with
  | nil => simp
  | cons a l ih => simp only [List.map_cons, List.findSome?_cons, ih]

theorem btStar_fst {α : Type} (p : Char → Bool) (s : Str) (k : Str → Str → Timed α) :
    (btStar p s k).1 = (starRuns p s).findSome? fun x => (k x.1 x.2).1 := by
  induction s generalizing k with
  | nil => simp only [btStar, starRuns, tickT, List.findSome?_cons, List.findSome?_nil]; cases (k [] []).1 <;> rfl
  | cons c cs ih =>
    simp only [btStar, starRuns]
    split
    · rw [orElseT_fst, findSome_append, findSome_map]
      simp only [tickT, ih, List.findSome?_cons, List.findSome?_nil]
      cases (k [] (c :: cs)).1 <;> rfl
    · simp only [tickT, List.findSome?_cons, List.findSome?_nil]; cases (k [] (c :: cs)).1 <;> rfl

theorem bt_fst {α : Type} (r : Re) (s : Str) (k : Cont α) :
    (bt r s k).1 = (r.run s).findSome? fun m => (k m.1 m.2.1 m.2.2).1 := by
  induction r generalizing s k with
  | eps => simp only [bt, run, List.findSome?_cons, List.findSome?_nil]; cases (k [] s []).1 <;> rfl
  | cls p =>
    cases s with
    | nil => simp [bt, run]
    | cons c cs =>
      simp only [bt, run]
      split
      · simp only [tickT, List.findSome?_cons, List.findSome?_nil]; cases (k [c] cs []).1 <;> rfl
      · simp
  | star p => simp only [bt, run, btStar_fst, findSome_map]
  | seq a b iha ihb =>
    simp only [bt, run, iha, ihb, findSome_flatMap, findSome_map]
  | alt a b iha ihb => simp only [bt, run, orElseT_fst, tickT, iha, ihb, findSome_append]
  | opt a iha =>
    simp only [bt, run, orElseT_fst, tickT, iha, findSome_append, List.findSome?_cons, List.findSome?_nil]
    cases (k [] s []).1 <;> rfl
  | grp n a iha => simp only [bt, run, iha, findSome_map]

theorem head_eq_findSome {α : Type} (l : List α) : l.head? = l.findSome? some := by
  cases l <;> simp

theorem find_eq_findSome {α : Type} (p : α → Bool) (l : List α) :
    l.find? p = l.findSome? fun a => if p a then some a else none := by
  induction l with
  | nil => rfl
  | cons a l ih => simp only [List.find?_cons, List.findSome?_cons]; cases p a <;> simp [ih]

theorem btMatch_eq (r : Re) (s : Str) : (btMatch r s).1 = r.matchAt s := by
  rw [btMatch, bt_fst, matchAt, head_eq_findSome]

theorem btNonempty_eq (r : Re) (s : Str) : (btNonempty r s).1 = r.matchNonempty s := by
  rw [btNonempty, bt_fst, matchNonempty, find_eq_findSome]
  congr 1; funext m; cases h : m.1.isEmpty <;> simp [h]

/-! ### Steps -/

theorem one_le_powN (n d : Nat) : 1 ≤ (n + 1) ^ d := Nat.pow_pos (by omega)

theorem pow_leN (n : Nat) {d e : Nat} (h : d ≤ e) : (n + 1) ^ d ≤ (n + 1) ^ e := Nat.pow_le_pow_right (by omega) h

theorem btStar_steps {α : Type} (p : Char → Bool) (s : Str) (k : Str → Str → Timed α) (B n : Nat) (hn : s.length ≤ n)
    (hk : ∀ x r, r.length ≤ n → (k x r).2 ≤ B) : (btStar p s k).2 ≤ (s.length + 1) * (1 + B) := by
  induction s generalizing k with
  | nil => have := hk [] [] (by simp); simp only [btStar, tickT, List.length_nil]; omega
  | cons c cs ih =>
    have h0 := hk [] (c :: cs) hn
    have e : ((c :: cs).length + 1) * (1 + B) = (cs.length + 1) * (1 + B) + (1 + B) := by
      rw [List.length_cons, Nat.add_mul (cs.length + 1) 1]; omega
    rw [e]
    simp only [btStar]
    split
    · refine Nat.le_trans (orElseT_le _ _) ?_
      have := ih (fun x r => k (c :: x) r) (by simp only [List.length_cons] at hn; omega) (fun x r hr => hk _ _ hr)
      simp only [tickT]; omega
    · simp only [tickT]
      have : 0 ≤ (cs.length + 1) * (1 + B) := by omega
      omega

theorem bt_steps {α : Type} (r : Re) (s : Str) (k : Cont α) (B n : Nat) (hn : s.length ≤ n)
    (hk : ∀ x t cs, t.length ≤ n → (k x t cs).2 ≤ B) : (bt r s k).2 ≤ (r.work + r.ways * B) * (n + 1) ^ r.stars := by
  induction r generalizing s k B with
  | eps => have := hk [] s [] hn; simpa [bt, work, ways, stars] using this
  | cls p =>
    cases s with
    | nil => simp [bt, work, ways, stars]
    | cons c cs =>
      simp only [bt, work, ways, stars, Nat.one_mul, Nat.pow_zero, Nat.mul_one]
      split
      · have := hk [c] cs [] (by simp only [List.length_cons] at hn; omega); simp only [tickT]; omega
      · simp only []; omega
  | star p =>
    have := btStar_steps p s (fun x r => k x r []) B n hn (fun x r h => hk x r [] h)
    simp only [bt, work, ways, stars, Nat.one_mul, Nat.pow_one]
    refine Nat.le_trans this ?_
    rw [Nat.mul_comm]
    exact Nat.mul_le_mul_left _ (by omega)
  | seq a b iha ihb =>
    simp only [bt, work, ways, stars]
    have hb := iha s (fun x r cs => bt b r fun y r' cs' => k (x ++ y) r' (cs ++ cs')) ((b.work + b.ways * B) * (n + 1) ^ b.stars) hn
      (fun x t cs ht => ihb t _ B ht fun x' t' cs' ht' => hk _ _ _ ht')
    refine Nat.le_trans hb ?_
    rw [Nat.pow_add, Nat.mul_comm ((n + 1) ^ a.stars), ← Nat.mul_assoc (_ + _)]
    refine Nat.mul_le_mul_right _ ?_
    have h1 : a.work ≤ a.work * (n + 1) ^ b.stars := Nat.le_mul_of_pos_right _ (one_le_powN n _)
    have e : (a.work + a.ways * b.work + a.ways * b.ways * B) * (n + 1) ^ b.stars =
        a.work * (n + 1) ^ b.stars + a.ways * ((b.work + b.ways * B) * (n + 1) ^ b.stars) := by
      simp only [Nat.add_mul, Nat.mul_add, Nat.mul_assoc, Nat.add_assoc]
    rw [e]; omega
  | alt a b iha ihb =>
    simp only [bt, work, ways, stars]
    refine Nat.le_trans (orElseT_le _ _) ?_
    have ha := iha s k B hn hk
    have hb := ihb s k B hn hk
    have pa : (a.work + a.ways * B) * (n + 1) ^ a.stars ≤ (a.work + a.ways * B) * (n + 1) ^ max a.stars b.stars :=
      Nat.mul_le_mul_left _ (pow_leN n (Nat.le_max_left _ _))
    have pb : (b.work + b.ways * B) * (n + 1) ^ b.stars ≤ (b.work + b.ways * B) * (n + 1) ^ max a.stars b.stars :=
      Nat.mul_le_mul_left _ (pow_leN n (Nat.le_max_right _ _))
    have h1 := one_le_powN n (max a.stars b.stars)
    have e : (1 + a.work + b.work + (a.ways + b.ways) * B) * (n + 1) ^ max a.stars b.stars =
        (n + 1) ^ max a.stars b.stars + (a.work + a.ways * B) * (n + 1) ^ max a.stars b.stars +
          (b.work + b.ways * B) * (n + 1) ^ max a.stars b.stars := by
      simp only [Nat.add_mul, Nat.one_mul]; omega
    rw [e]; simp only [tickT]; omega
  | opt a iha =>
    simp only [bt, work, ways, stars]
    refine Nat.le_trans (orElseT_le _ _) ?_
    have ha := iha s k B hn hk
    have h0 := hk [] s [] hn
    have h1 := one_le_powN n a.stars
    have h2 : B ≤ B * (n + 1) ^ a.stars := Nat.le_mul_of_pos_right _ h1
    have e : (1 + a.work + (a.ways + 1) * B) * (n + 1) ^ a.stars =
        (n + 1) ^ a.stars + (a.work + a.ways * B) * (n + 1) ^ a.stars + B * (n + 1) ^ a.stars := by
      simp only [Nat.add_mul, Nat.one_mul]; omega
    rw [e]; simp only [tickT]; omega
  | grp m a iha =>
    simp only [bt, work, ways, stars]
    exact iha s _ B hn fun x t cs ht => hk _ _ _ ht

theorem btMatch_steps (r : Re) (s : Str) (n : Nat) (hn : s.length ≤ n) : (btMatch r s).2 ≤ r.work * (n + 1) ^ r.stars := by
  simpa [btMatch] using bt_steps r s (fun x t cs => (some (x, t, cs), 0)) 0 n hn (by simp)

theorem btNonempty_steps (r : Re) (s : Str) (n : Nat) (hn : s.length ≤ n) :
    (btNonempty r s).2 ≤ (r.work + r.ways) * (n + 1) ^ r.stars := by
  have := bt_steps r s (fun x t cs => if x.isEmpty then (none, 1) else (some (x, t, cs), 1)) 1 n hn
    (by intro x t cs _; split <;> simp)
  simpa [btNonempty] using this

theorem btSearch_eq (r : Re) (s : Str) : (btSearch r s).1 = r.search s := by
  induction s with
  | nil => simp only [btSearch, search, btMatch_eq]
  | cons c cs ih =>
    simp only [btSearch, search, orElseT_fst, btMatch_eq, ih]
    cases r.matchAt (c :: cs) <;> rfl

theorem btSearch_steps (r : Re) (s : Str) (n : Nat) (hn : s.length ≤ n) :
    (btSearch r s).2 ≤ (s.length + 1) * (r.work * (n + 1) ^ r.stars) := by
  induction s with
  | nil => have := btMatch_steps r [] n hn; simpa [btSearch] using this
  | cons c cs ih =>
    have h1 := btMatch_steps r (c :: cs) n hn
    have h2 := ih (by simp only [List.length_cons] at hn; omega)
    simp only [btSearch]
    refine Nat.le_trans (orElseT_le _ _) ?_
    rw [List.length_cons, Nat.add_mul (cs.length + 1)]; omega

theorem btFinditer_eq (r : Re) (n : Nat) (s : Str) : (btFinditer r n s).1 = r.finditerFuel n s := by
  induction n generalizing s with
  | zero => rfl
  | succ n ih =>
    have e1 := btMatch_eq r s
    have e2 := btNonempty_eq r s
    simp only [btFinditer, finditerFuel]
    revert e1 e2
    rcases btMatch r s with ⟨_ | m, k⟩ <;> intro e1 e2 <;> simp only [← e1]
    · cases s <;> simp [next, ih]
    · split
      · revert e2
        rcases btNonempty r s with ⟨_ | m', k'⟩ <;> intro e2 <;> simp only [← e2]
        · cases s <;> simp [next, ih]
        · simp [ih]
      · simp [ih]

theorem rest_length {r : Re} {s : Str} {m : MRes} (h : m ∈ r.run s) : m.2.1.length ≤ s.length := by
  have := congrArg List.length (run_append h); simp only [List.length_append] at this; omega

theorem matchAt_rest {r : Re} {s : Str} {m : MRes} (h : r.matchAt s = some m) : m.2.1.length ≤ s.length :=
  rest_length (List.mem_of_head? h)

theorem matchNonempty_rest {r : Re} {s : Str} {m : MRes} (h : r.matchNonempty s = some m) : m.2.1.length ≤ s.length :=
  rest_length (List.mem_of_find?_eq_some h)

theorem btFinditer_steps (r : Re) (f : Nat) (s : Str) (n : Nat) (hn : s.length ≤ n) :
    (btFinditer r f s).2 ≤ f * ((2 * r.work + r.ways) * (n + 1) ^ r.stars) := by
  induction f generalizing s with
  | zero => simp [btFinditer]
  | succ f ih =>
    have e1 := btMatch_eq r s
    have e2 := btNonempty_eq r s
    have b1 := btMatch_steps r s n hn
    have b2 := btNonempty_steps r s n hn
    have e : (f + 1) * ((2 * r.work + r.ways) * (n + 1) ^ r.stars) =
        f * ((2 * r.work + r.ways) * (n + 1) ^ r.stars) + (r.work * (n + 1) ^ r.stars + (r.work + r.ways) * (n + 1) ^ r.stars) := by
      rw [Nat.add_mul f 1, Nat.one_mul, ← Nat.add_mul]; congr 2; omega
    rw [e]
    simp only [btFinditer]
    revert e1 e2 b1 b2
    rcases btMatch r s with ⟨_ | m, k⟩ <;> intro e1 e2 b1 b2 <;> simp only at b1 ⊢
    · cases s with
      | nil => simp only; omega
      | cons c cs => have := ih cs (by simp only [List.length_cons] at hn; omega); simp only; omega
    · split
      · revert e2 b2
        rcases btNonempty r s with ⟨_ | m', k'⟩ <;> intro e2 b2 <;> simp only at b2 ⊢
        · cases s with
          | nil => simp only; omega
          | cons c cs => have := ih cs (by simp only [List.length_cons] at hn; omega); simp only; omega
        · have := ih m'.2.1 (Nat.le_trans (matchNonempty_rest e2.symm) hn); omega
      · have := ih m.2.1 (Nat.le_trans (matchAt_rest e1.symm) hn); simp only; omega

theorem btErase_eq (r : Re) (n : Nat) (s : Str) : (btErase r n s).1 = r.eraseFuel n s := by
  induction n generalizing s with
  | zero => rfl
  | succ n ih =>
    cases s with
    | nil => rfl
    | cons c cs =>
      have e1 := btMatch_eq r (c :: cs)
      simp only [btErase, eraseFuel]
      revert e1
      rcases btMatch r (c :: cs) with ⟨_ | m, k⟩ <;> intro e1 <;> simp only [← e1]
      · simp [ih]
      · split <;> simp [ih]

theorem btErase_steps (r : Re) (f : Nat) (s : Str) (n : Nat) (hn : s.length ≤ n) :
    (btErase r f s).2 ≤ f * (r.work * (n + 1) ^ r.stars) := by
  induction f generalizing s with
  | zero => simp [btErase]
  | succ f ih =>
    cases s with
    | nil => simp [btErase]
    | cons c cs =>
      have e1 := btMatch_eq r (c :: cs)
      have b1 := btMatch_steps r (c :: cs) n hn
      have hc : cs.length ≤ n := by simp only [List.length_cons] at hn; omega
      have h0 := ih cs hc
      rw [Nat.add_mul f 1, Nat.one_mul]
      simp only [btErase]
      revert e1 b1
      rcases btMatch r (c :: cs) with ⟨_ | m, k⟩ <;> intro e1 b1 <;> simp only at b1 ⊢
      · omega
      · split
        · simp only; omega
        · have := ih m.2.1 (Nat.le_trans (matchAt_rest e1.symm) hn); simp only; omega

/-! ### Parts that cannot fail are never entered again -/

/-- Same outcome, at most `C` steps more on success. -/
def SameUpTo {α β : Type} (C : Nat) (a : Timed α) (b : Timed β) : Prop :=
  a.1.isSome = b.1.isSome ∧ a.2 ≤ b.2 + if a.1.isSome then C else 0

theorem SameUpTo.orElse {α β : Type} {C : Nat} {a a' : Timed α} {b b' : Timed β} (h : SameUpTo C a b) (h' : SameUpTo C a' b') :
    SameUpTo C (orElseT a a') (orElseT b b') := by
  rcases a with ⟨_ | a, n⟩ <;> rcases b with ⟨_ | b, m⟩ <;> rcases a' with ⟨_ | a', n'⟩ <;> rcases b' with ⟨_ | b', m'⟩ <;>
    simp_all [SameUpTo, orElseT] <;> omega

theorem SameUpTo.tick {α β : Type} {C : Nat} {a : Timed α} {b : Timed β} (h : SameUpTo C a b) : SameUpTo C (tickT a) (tickT b) := by
  rcases a with ⟨_ | a, n⟩ <;> rcases b with ⟨_ | b, m⟩ <;> simp_all [SameUpTo, tickT] <;> omega

theorem btStar_same {α β : Type} {C n : Nat} (p : Char → Bool) (s : Str) (hn : s.length ≤ n) (k : Str → Str → Timed α)
    (k' : Str → Str → Timed β) (h : ∀ x t, t.length ≤ n → SameUpTo C (k x t) (k' x t)) : SameUpTo C (btStar p s k) (btStar p s k') := by
  induction s generalizing k k' with
  | nil => exact (h _ _ (by simp)).tick
  | cons c cs ih =>
    simp only [btStar]
    split
    · exact ((ih (by simp only [List.length_cons] at hn; omega) _ _ fun x t ht => h _ _ ht).tick).orElse (h _ _ hn)
    · exact (h _ _ hn).tick

theorem bt_same {α β : Type} {C n : Nat} (r : Re) (s : Str) (hn : s.length ≤ n) (k : Cont α) (k' : Cont β)
    (h : ∀ x t cs, t.length ≤ n → SameUpTo C (k x t cs) (k' x t cs)) : SameUpTo C (bt r s k) (bt r s k') := by
  induction r generalizing s k k' with
  | eps => exact h _ _ _ hn
  | cls p =>
    cases s with
    | nil => simp [bt, SameUpTo]
    | cons c cs =>
      simp only [bt]
      split
      · exact (h _ _ _ (by simp only [List.length_cons] at hn; omega)).tick
      · simp [SameUpTo]
  | star p => exact btStar_same p s hn _ _ fun x t ht => h _ _ _ ht
  | seq a b iha ihb => exact iha s hn _ _ fun x t cs ht => ihb t ht _ _ fun _ _ _ ht' => h _ _ _ ht'
  | alt a b iha ihb => exact (iha s hn _ _ h).tick.orElse (ihb s hn _ _ h)
  | opt a iha => exact (iha s hn _ _ h).tick.orElse (h _ _ _ hn)
  | grp m a iha => exact iha s hn _ _ fun x t cs ht => h _ _ _ ht

theorem btSeq_steps (a b : Re) (s : Str) (n C : Nat) (hn : s.length ≤ n) (hb : ∀ t, b.run t ≠ [])
    (hC : ∀ t : Str, t.length ≤ n → (btMatch b t).2 ≤ C) : (btMatch (.seq a b) s).2 ≤ (btMatch a s).2 + C := by
  have h := bt_same (C := C) a s hn (fun x r cs => bt b r fun y r' cs' => (some (x ++ y, r', cs ++ cs'), 0))
    (fun x t cs => (some (x, t, cs), 0)) (by
      intro x t cs ht
      have hs : SameUpTo 0 (bt b t fun y r' cs' => (some (x ++ y, r', cs ++ cs'), 0)) (btMatch b t) :=
        bt_same b t ht _ _ fun _ _ _ _ => by simp [SameUpTo]
      have h1 : (btMatch b t).1.isSome = true := by
        rw [btMatch_eq, matchAt]
        cases hr : b.run t with
        | nil => exact absurd hr (hb t)
        | cons m l => rfl
      refine ⟨by rw [hs.1, h1]; rfl, ?_⟩
      have h2 := hs.2
      have h3 := hC t ht
      rw [hs.1, h1] at h2 ⊢
      simp only [if_true] at h2 ⊢
      omega)
  have h2 := h.2
  have : (btMatch (.seq a b) s).2 = (bt a s fun x r cs => bt b r fun y r' cs' => ((some (x ++ y, r', cs ++ cs') : Option MRes), 0)).2 := rfl
  rw [this]
  refine Nat.le_trans h2 ?_
  unfold btMatch
  split <;> omega

theorem run_star_ne (p : Char → Bool) (s : Str) : starRuns p s ≠ [] := by
  cases s with
  | nil => simp [starRuns]
  | cons c cs => simp only [starRuns]; split <;> simp

theorem run_seq_ne {a b : Re} (ha : ∀ s, a.run s ≠ []) (hb : ∀ s, b.run s ≠ []) (s : Str) : (Re.seq a b).run s ≠ [] := by
  simp only [run]
  cases h : a.run s with
  | nil => exact absurd h (ha s)
  | cons m l =>
    cases h' : b.run m.2.1 with
    | nil => exact absurd h' (hb _)
    | cons m' l' => simp [h']

theorem run_part_ne [PyRuntime] (g : Re) (s : Str) : (part g).run s ≠ [] :=
  run_seq_ne (fun s => by simp only [run, ne_eq, List.map_eq_nil_iff]; exact run_star_ne _ _) (fun s => by simp [run]) s

theorem wordCI_size (w : Str) : (wordCI w).stars = 0 ∧ (wordCI w).ways = 1 ∧ (wordCI w).work ≤ w.length := by
  induction w with
  | nil => simp [wordCI, stars, ways, work]
  | cons c cs ih =>
    cases cs with
    | nil => simp [wordCI, stars, ways, work]
    | cons d ds =>
      have e : wordCI (c :: d :: ds) = .seq (.cls (matchCI c)) (wordCI (d :: ds)) := rfl
      rw [e]; simp only [stars, ways, work, ih.1, ih.2.1, List.length_cons] at ih ⊢
      simp only [true_and] at ih ⊢; omega

theorem alts_size (l : List Str) (m : Nat) (h : ∀ w ∈ l, w.length ≤ m) :
    (alts (l.map wordCI)).stars = 0 ∧ (alts (l.map wordCI)).ways ≤ l.length + 1 ∧ (alts (l.map wordCI)).work ≤ l.length * (m + 1) + 1 := by
  induction l with
  | nil => simp [alts, stars, ways, work]
  | cons w l ih =>
    have hw := wordCI_size w
    have hm := h w (by simp)
    have ih := ih fun w hw => h w (by simp [hw])
    cases l with
    | nil => simp only [List.map_cons, List.map_nil, alts, List.length_cons, List.length_nil, hw.1, hw.2.1]
             refine ⟨trivial, ?_, ?_⟩ <;> omega
    | cons v l =>
      have e : alts ((w :: v :: l).map wordCI) = .alt (wordCI w) (alts ((v :: l).map wordCI)) := rfl
      have e2 : (w :: v :: l).length * (m + 1) = (v :: l).length * (m + 1) + (m + 1) := by
        rw [List.length_cons (a := w), Nat.add_mul, Nat.one_mul]
      rw [e, e2]
      simp only [stars, ways, work, hw.1, hw.2.1, ih.1]
      refine ⟨by simp, ?_, ?_⟩
      · rw [List.length_cons (a := w)]; omega
      · omega

theorem perms_length {α : Type} (n : Nat) (l : List α) : ∀ w ∈ perms n l, w.length = n := by
  induction n generalizing l with
  | zero => simp [perms]
  | succ n ih =>
    intro w hw
    simp only [perms, List.mem_flatMap, List.mem_map] at hw
    obtain ⟨p, _, v, hv, rfl⟩ := hw
    simp [ih _ v hv]

theorem permsRe_size (n : Nat) (kw : Str) (k : Nat) (hk : (perms n kw).length = k) :
    (alts ((perms n kw).map wordCI)).stars = 0 ∧ (alts ((perms n kw).map wordCI)).ways ≤ k + 1 ∧
      (alts ((perms n kw).map wordCI)).work ≤ k * (n + 1) + 1 := by
  subst hk; exact alts_size _ n fun w hw => Nat.le_of_eq (perms_length n kw w hw)

end WG
