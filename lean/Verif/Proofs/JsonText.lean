/-
The reader of JSON texts reads exactly the texts of the grammar, and `int()` exactly the integers.
-/
import Verif.Spec.JsonText
import Verif.Proofs.JsonExt
import Verif.Proofs.JsonSer
import Verif.Proofs.Dict
import Verif.Proofs.LiteralInv

set_option linter.unusedSectionVars false

namespace WG

/-! ### Characters -/

theorem char_lt {P : Char → Prop} (n : Nat) (h : ∀ m < n, P (Char.ofNat m)) (c : Char) (hc : c.toNat < n) : P c := by
  have := h c.toNat hc
  rwa [Char.ofNat_toNat] at this

theorem blank_iff {w : Str} : Blank w ↔ w.all isJsonWs = true := by
  simp [Blank, isJsonWs, List.all_eq_true, or_assoc]

theorem digit_iff {c : Char} : isDig c = true ↔ (c, digVal c) ∈ tenDigits := by
  constructor
  · intro h
    have := isDig_toNat h
    revert h
    exact char_lt 58 (P := fun c => isDig c = true → (c, digVal c) ∈ tenDigits) (by decide +kernel) c (by omega)
  · intro h
    have : ∀ x ∈ tenDigits, isDig x.1 = true := by decide
    exact this _ h

theorem digit_val {x : Char × Nat} (h : x ∈ tenDigits) : isDig x.1 = true ∧ digVal x.1 = x.2 := by
  revert x
  decide

theorem hex_iff {c : Char} {n : Nat} : hexVal c = some n ↔ (c, n) ∈ sixteenDigits := by
  constructor
  · intro h
    have hc : c.toNat < 128 := by
      simp only [hexVal] at h
      split at h
      · next h' => have := h'.2; have : c.toNat ≤ 57 := this; omega
      split at h
      · next h' => have := h'.2; have : c.toNat ≤ 102 := this; omega
      split at h
      · next h' => have := h'.2; have : c.toNat ≤ 70 := this; omega
      · cases h
    have : ∀ c : Char, c.toNat < 128 → ∀ n ∈ hexVal c, (c, n) ∈ sixteenDigits :=
      char_lt 128 (P := fun c => ∀ n ∈ hexVal c, (c, n) ∈ sixteenDigits) (by decide +kernel)
    exact this c hc n h
  · intro h
    have : ∀ x ∈ sixteenDigits, hexVal x.1 = some x.2 := by decide +kernel
    exact this _ h

theorem esc_iff {c d : Char} : simpleEsc c = some d ↔ (c, d) ∈ escapes := by
  constructor
  · intro h
    unfold simpleEsc at h
    repeat (split at h; next e => subst e; cases h; decide)
    cases h
  · intro h
    have : ∀ x ∈ escapes, simpleEsc x.1 = some x.2 := by decide
    exact this _ h

/-! ### Strings -/

/-- Reading four hexadecimal digits. -/
theorem scan_hex {n : Nat} {t : Str} (h : HexText n t) (hi : Option Nat) (r : Str) : ∃ m, m < 16 ∧ ∃ k c, hexVal c = some m ∧ n = 16 * k + m ∧
    scanStr (.hex 0 0 hi) (t ++ r) = scanStr (.hex 3 k hi) (c :: r) := by
  obtain ⟨a, ha, b, hb, c, hc, d, hd, rfl, rfl⟩ := h
  have lt : ∀ x ∈ sixteenDigits, x.2 < 16 := by decide
  refine ⟨d.2, lt _ hd, 16 * (16 * a.2 + b.2) + c.2, d.1, hex_iff.2 hd, by omega, ?_⟩
  simp [scanStr, hex_iff.2 ha, hex_iff.2 hb, hex_iff.2 hc]

theorem scan_complete {s t : Str} (h : StrText s t) (r : Str) : scanStr .norm (t ++ '"' :: r) = some (s, r) := by
  induction h with
  | nil => simp [scanStr]
  | plain h1 h2 h3 _ ih => simp [scanStr, h1, h2, Nat.not_le.2 (Nat.lt_of_succ_le h3), ih]
  | @esc x s t h1 _ ih =>
    have : x.1 ≠ 'u' := by revert x; decide
    simp [scanStr, this, esc_iff.2 h1, ih]
  | @code n h s t h1 h2 _ ih =>
    obtain ⟨m, hm, k, c, hc, e, hs⟩ := scan_hex h1 none (t ++ '"' :: r)
    rw [List.cons_append, List.cons_append, List.append_assoc, scanStr_norm_u, hs]
    simp only [scanStr, hc, Nat.lt_irrefl, if_false, ← e, ih]
    rw [if_neg (by omega), if_neg (by omega)]
    rfl
  | @pair n m h l s t h1 h2 h3 h4 h5 h6 _ ih =>
    obtain ⟨m1, hm1, k1, c1, hc1, e1, hs1⟩ := scan_hex h1 none ('\\' :: 'u' :: (l ++ t) ++ '"' :: r)
    obtain ⟨m2, hm2, k2, c2, hc2, e2, hs2⟩ := scan_hex h2 (some n) (t ++ '"' :: r)
    rw [List.cons_append, List.cons_append, List.append_assoc, scanStr_norm_u, hs1]
    simp only [scanStr, hc1, Nat.lt_irrefl, if_false, ← e1]
    rw [if_pos (by omega)]
    simp only [List.cons_append, List.append_assoc, scanStr_hi_u]
    rw [hs2]
    simp only [scanStr, hc2, Nat.lt_irrefl, if_false, ← e2, ih]
    rw [if_pos (by omega)]
    rfl

/-- Four digits were read. -/
theorem scan_hex_inv {hi : Option Nat} {s a b : Str} (h : scanStr (.hex 0 0 hi) s = some (a, b)) :
    ∃ n t r k c m, s = t ++ r ∧ HexText n t ∧ hexVal c = some m ∧ n = 16 * k + m ∧ scanStr (.hex 3 k hi) (c :: r) = some (a, b) := by
  match s, h with
  | [], h => simp [scanStr] at h
  | [c1], h =>
    cases h1 : hexVal c1 <;> simp [scanStr, h1] at h
  | [c1, c2], h =>
    cases h1 : hexVal c1 <;> cases h2 : hexVal c2 <;> simp [scanStr, h1, h2] at h
  | [c1, c2, c3], h =>
    cases h1 : hexVal c1 <;> cases h2 : hexVal c2 <;> cases h3 : hexVal c3 <;> simp [scanStr, h1, h2, h3] at h
  | c1 :: c2 :: c3 :: c4 :: r, h =>
    cases h1 : hexVal c1 with
    | none => simp [scanStr, h1] at h
    | some n1 =>
    cases h2 : hexVal c2 with
    | none => simp [scanStr, h1, h2] at h
    | some n2 =>
    cases h3 : hexVal c3 with
    | none => simp [scanStr, h1, h2, h3] at h
    | some n3 =>
    cases h4 : hexVal c4 with
    | none => simp [scanStr, h1, h2, h3, h4] at h
    | some n4 =>
    have e : scanStr (.hex 0 0 hi) (c1 :: c2 :: c3 :: c4 :: r) = scanStr (.hex 3 (16 * (16 * n1 + n2) + n3) hi) (c4 :: r) := by
      simp only [scanStr, h1, h2, h3]
      simp
    rw [e] at h
    refine ⟨n1 * 4096 + n2 * 256 + n3 * 16 + n4, [c1, c2, c3, c4], r, _, c4, n4, rfl, ?_, h4, by omega, h⟩
    exact ⟨_, hex_iff.1 h1, _, hex_iff.1 h2, _, hex_iff.1 h3, _, hex_iff.1 h4, rfl, rfl⟩

theorem scan_sound (n : Nat) : ∀ (s a b : Str), s.length ≤ n → scanStr .norm s = some (a, b) → ∃ t, s = t ++ '"' :: b ∧ StrText a t := by
  induction n with
  | zero =>
    intro s a b hl h
    cases s with
    | nil => simp [scanStr] at h
    | cons c s => simp at hl
  | succ n ih =>
    intro s a b hl h
    cases s with
    | nil => simp [scanStr] at h
    | cons c s =>
    simp only [List.length_cons, Nat.add_le_add_iff_right] at hl
    simp only [scanStr] at h
    split at h
    · next e =>
      subst e
      cases h
      exact ⟨[], rfl, .nil⟩
    next h1 =>
    split at h
    · next e =>
      subst e
      cases s with
      | nil => simp [scanStr] at h
      | cons c s =>
      simp only [List.length_cons] at hl
      simp only [scanStr] at h
      split at h
      · next e =>
        subst e
        obtain ⟨n1, t, r, k, c, m, rfl, ht, hc, e, h⟩ := scan_hex_inv h
        have hlt : t.length = 4 := by
          obtain ⟨_, _, _, _, _, _, _, _, rfl, -⟩ := ht
          rfl
        rw [List.length_append, hlt] at hl
        simp only [scanStr, hc, Nat.lt_irrefl, if_false, ← e] at h
        split at h
        · next hs =>
          match r, h with
          | [], h => simp [scanStr] at h
          | [c], h =>
            simp only [scanStr] at h
            split at h <;> simp at h
          | c :: c' :: r, h =>
            simp only [scanStr] at h
            split at h
            · next e1 =>
              split at h
              · next e2 =>
                subst e1 e2
                obtain ⟨n2, t2, r2, k2, c2, m2, rfl, ht2, hc2, e2, h⟩ := scan_hex_inv h
                simp only [scanStr, hc2, Nat.lt_irrefl, if_false, ← e2] at h
                split at h
                · next hs2 =>
                  rw [Option.map_eq_some_iff] at h
                  obtain ⟨⟨a', b'⟩, h', e3⟩ := h
                  cases e3
                  simp only [List.length_cons, List.length_append] at hl
                  obtain ⟨t3, rfl, h3⟩ := ih r2 a' b' (by omega) h'
                  refine ⟨'\\' :: 'u' :: (t ++ '\\' :: 'u' :: (t2 ++ t3)), by simp, ?_⟩
                  exact .pair ht ht2 hs.1 (by omega) (by omega) (by omega) h3
                · cases h
              · cases h
            · cases h
        next hs =>
        split at h
        · cases h
        next hs2 =>
        rw [Option.map_eq_some_iff] at h
        obtain ⟨⟨a', b'⟩, h', e3⟩ := h
        cases e3
        obtain ⟨t3, rfl, h3⟩ := ih r a' b' (by omega) h'
        exact ⟨'\\' :: 'u' :: (t ++ t3), by simp, .code ht (by omega) h3⟩
      · split at h
        · next d hd =>
          rw [Option.map_eq_some_iff] at h
          obtain ⟨⟨a', b'⟩, h, e3⟩ := h
          cases e3
          obtain ⟨t3, rfl, h3⟩ := ih s a' b' (by omega) h
          exact ⟨'\\' :: c :: t3, rfl, .esc (esc_iff.1 hd) h3⟩
        · cases h
    next h2 =>
    split at h
    · cases h
    next h3 =>
    rw [Option.map_eq_some_iff] at h
    obtain ⟨⟨a', b'⟩, h, e3⟩ := h
    cases e3
    obtain ⟨t3, rfl, h4⟩ := ih s a' b' hl h
    exact ⟨c :: t3, rfl, .plain h1 h2 (by omega) h4⟩

/-! ### Numbers -/

theorem foldl_base10 (t : Str) (a : Nat) : t.foldl (fun a c => 10 * a + digVal c) a = a * 10 ^ t.length + base10 (t.map digVal) := by
  induction t generalizing a with
  | nil => simp [base10]
  | cons c t ih =>
    rw [List.foldl_cons, ih]
    simp only [List.map_cons, base10, List.length_cons, List.length_map, Nat.pow_succ, Nat.add_mul]
    rw [Nat.mul_comm 10 a, Nat.mul_assoc, Nat.mul_comm 10 (10 ^ t.length), Nat.add_assoc]

theorem digitsVal_base10 (t : Str) : digitsVal t = base10 (t.map digVal) := by
  rw [digitsVal, foldl_base10]
  simp

theorem digitsText_of {t : Str} (h : t.all isDig = true) (hn : t ≠ []) : DigitsText (digitsVal t) t := by
  refine ⟨t.map fun c => (c, digVal c), ?_, ?_, ?_, ?_⟩
  · intro x hx
    obtain ⟨c, hc, rfl⟩ := List.mem_map.1 hx
    exact digit_iff.1 (List.all_eq_true.1 h c hc)
  · rw [List.map_map]
    exact (List.map_id t).symm
  · rw [digitsVal_base10, List.map_map]
    rfl
  · simpa using hn

theorem DigitsText.inv {n : Nat} {t : Str} (h : DigitsText n t) : t.all isDig = true ∧ t ≠ [] ∧ digitsVal t = n := by
  obtain ⟨ds, h1, rfl, rfl, h2⟩ := h
  refine ⟨?_, by simpa using h2, ?_⟩
  · simp only [List.all_eq_true, List.mem_map]
    rintro c ⟨x, hx, rfl⟩
    exact (digit_val (h1 x hx)).1
  · rw [digitsVal_base10, List.map_map]
    congr 1
    exact List.map_congr_left fun x hx => (digit_val (h1 x hx)).2

/-- The text does not go on with a digit. -/
def NoDig (r : Str) : Prop := ∀ c, r.head? = some c → isDig c = false

theorem spanDigits_exact {d r : Str} (h : d.all isDig = true) (hr : NoDig r) : spanDigits (d ++ r) = (d, r) := by
  induction d with
  | nil =>
    cases r with
    | nil => rfl
    | cons c r =>
      have := hr c rfl
      simp [spanDigits, this]
  | cons c d ih =>
    simp only [List.all_cons, Bool.and_eq_true] at h
    simp [spanDigits, h.1, ih h.2]

theorem spanDigits_sound (s : Str) : (spanDigits s).1.all isDig = true := by
  induction s with
  | nil => rfl
  | cons c s ih =>
    simp only [spanDigits]
    split
    · next h => simp [h, ih]
    · rfl

theorem spanInt_exact {neg : Bool} {n : Nat} {d r : Str} (h : DigitsText n d) (hz : NoLeadingZero d) (hr : NoDig r) :
    spanInt (minus neg ++ d ++ r) = some (minus neg ++ d, r) := by
  obtain ⟨h1, h2, -⟩ := h.inv
  cases d with
  | nil => exact absurd rfl h2
  | cons c d =>
    simp only [List.all_cons, Bool.and_eq_true] at h1
    have hm := isDig_ne_minus h1.1
    have hd := spanDigits_exact h1.2 hr
    have h0 : c = '0' → d = [] := by
      rintro rfl
      rcases hz with hz | hz
      · cases hz
        rfl
      · exact absurd rfl hz
    cases neg with
    | true =>
      simp only [minus, if_true, List.cons_append, List.nil_append, spanInt]
      split
      · next e =>
        cases h0 e
        rw [e]
        rfl
      · rw [if_pos h1.1, hd]
    | false =>
      simp only [minus, Bool.false_eq_true, if_false, List.cons_append, List.nil_append]
      unfold spanInt
      split
      · next e => exact absurd (List.cons.inj e).1 hm
      · next c' cs _ e =>
        cases e
        split
        · next e =>
          cases h0 e
          rw [e]
          rfl
        · rw [if_pos h1.1, hd]
      · next e => cases e

theorem spanInt_sound {s i r : Str} (h : spanInt s = some (i, r)) : ∃ neg n d, i = minus neg ++ d ∧ DigitsText n d ∧ NoLeadingZero d := by
  have z : DigitsText (digitsVal c!"0") c!"0" := digitsText_of (by decide) (by simp)
  have nz : ∀ (c : Char) (cs : Str), ¬ c = '0' → isDig c = true → DigitsText (digitsVal (c :: (spanDigits cs).1)) (c :: (spanDigits cs).1) ∧
      NoLeadingZero (c :: (spanDigits cs).1) := by
    intro c cs h0 hc
    exact ⟨digitsText_of (by simp [hc, spanDigits_sound]) (by simp), .inr (by simpa using h0)⟩
  unfold spanInt at h
  split at h
  · next c cs =>
    split at h
    · next e =>
      cases h
      exact ⟨true, _, c!"0", rfl, z, .inl rfl⟩
    · next h0 =>
      split at h
      · next hc =>
        cases h
        exact ⟨true, _, _, rfl, nz c cs h0 hc⟩
      · cases h
  · next c cs _ =>
    split at h
    · cases h
      exact ⟨false, _, c!"0", rfl, z, .inl rfl⟩
    · next h0 =>
      split at h
      · next hc =>
        cases h
        exact ⟨false, _, _, rfl, nz c cs h0 hc⟩
      · cases h
  · cases h

theorem jsonInt_exact {neg : Bool} {n : Nat} {d : Str} (h : DigitsText n d) : jsonInt (minus neg ++ d) = if neg then -(n : Int) else n := by
  obtain ⟨h1, h2, h3⟩ := h.inv
  cases neg with
  | true => simp [minus, jsonInt, h3]
  | false =>
    simp only [minus, Bool.false_eq_true, if_false, List.nil_append]
    cases d with
    | nil => exact absurd rfl h2
    | cons c d =>
      simp only [List.all_cons, Bool.and_eq_true] at h1
      unfold jsonInt
      split
      · next e =>
        cases e
        exact absurd rfl (isDig_ne_minus h1.1)
      · rw [h3]

theorem spanFrac_exact {f r : Str} (h : FracText f) (hr : NoDig r) (hd : f = [] → r.head? ≠ some '.') : spanFrac (f ++ r) = (f, r) := by
  rcases h with rfl | ⟨n, d, h, rfl⟩
  · have := hd rfl
    unfold spanFrac
    split
    · next e =>
      rw [List.nil_append] at e
      rw [e] at this
      exact absurd rfl this
    · rfl
  · obtain ⟨h1, h2, -⟩ := h.inv
    have := spanDigits_exact h1 hr
    simp only [List.cons_append, spanFrac, this]

theorem spanFrac_sound (s : Str) : FracText (spanFrac s).1 := by
  unfold spanFrac
  split
  · next cs =>
    split
    · exact .inl rfl
    · next d r h1 h2 =>
      have := spanDigits_sound cs
      rw [h2] at this
      exact .inr ⟨_, d, digitsText_of this fun e => h1 e, rfl⟩
  · exact .inl rfl

theorem spanExp_exact {e r : Str} (h : ExpText e) (hr : NoDig r) (hd : e = [] → r.head? ≠ some 'e' ∧ r.head? ≠ some 'E') :
    spanExp (e ++ r) = (e, r) := by
  rcases h with rfl | ⟨n, x, s, d, hx, hs, h, rfl⟩
  · have := hd rfl
    cases r with
    | nil => rfl
    | cons c r =>
      simp only [List.head?_cons, ne_eq, Option.some.injEq] at this
      simp [spanExp, this]
  · obtain ⟨h1, h2, -⟩ := h.inv
    have hsp : spanSign (s ++ (d ++ r)) = (s, d ++ r) := by
      rcases hs with rfl | rfl | rfl
      · cases d with
        | nil => exact absurd rfl h2
        | cons c d =>
          simp only [List.all_cons, Bool.and_eq_true] at h1
          simp only [List.nil_append, List.cons_append]
          unfold spanSign
          split
          · next e =>
            cases e
            simp [isDig] at h1
          · next e =>
            cases e
            exact absurd rfl (isDig_ne_minus h1.1)
          · rfl
      · rfl
      · rfl
    simp only [List.cons_append, spanExp, if_pos hx, List.append_assoc, hsp, spanDigits_exact h1 hr]

theorem spanExp_sound (s : Str) : ExpText (spanExp s).1 := by
  unfold spanExp
  split
  · next c cs =>
    split
    · next hc =>
      split
      · exact .inl rfl
      · next d r h1 h2 =>
        have := spanDigits_sound (spanSign cs).2
        rw [h2] at this
        refine .inr ⟨_, c, (spanSign cs).1, d, hc, ?_, digitsText_of this fun e => h1 e, rfl⟩
        unfold spanSign
        split <;> simp
    · exact .inl rfl
  · exact .inl rfl

/-! ### Dicts -/

theorem mem_firstNames {k : Str} {ks : List Str} : k ∈ firstNames ks ↔ k ∈ ks := by
  induction ks with
  | nil => simp [firstNames]
  | cons a ks ih =>
    simp only [firstNames, List.mem_cons, List.mem_filter, ih, decide_eq_true_eq]
    by_cases h : k = a <;> simp [h]

theorem firstNames_snoc (ks : List Str) (k : Str) :
    firstNames (ks ++ [k]) = if k ∈ ks then firstNames ks else firstNames ks ++ [k] := by
  induction ks with
  | nil => simp [firstNames]
  | cons a ks ih =>
    simp only [List.cons_append, firstNames, ih, List.mem_cons]
    by_cases h1 : k = a
    · subst h1
      by_cases h2 : k ∈ ks <;> simp [h2]
    · by_cases h2 : k ∈ ks <;> simp [h1, h2]

section
variable [PyRuntime]

theorem dictOf_collects (l : List (Str × V)) : Collects l (dictOf l) := by
  refine ⟨?_, fun x hx => ?_⟩
  · induction l using list_reverse_rec with
    | nil => rfl
    | snoc l x ih =>
      have hk : (dictSet x.1 x.2 (dictOf l)).map Prod.fst = if x.1 ∈ keys (dictOf l) then keys (dictOf l) else keys (dictOf l) ++ [x.1] :=
        keys_dictSet
      rw [dictOf_snoc, hk, List.map_append, List.map_cons, List.map_nil, firstNames_snoc, ← ih]
      simp only [mem_keys_dictOf]
  · rw [← dictGet_dictOf]
    exact dictGet_of_mem (nodup_dictOf l) hx

theorem collects_unique {l : List (Str × V)} {d d' : Dict V} (h : Collects l d) (h' : Collects l d') : d = d' := by
  have key : ∀ {d : Dict V}, Collects l d →
      d.map (fun x => (x.1, some x.2)) = (firstNames (l.map Prod.fst)).map fun k => (k, lastValue k l) := by
    intro d h
    rw [← h.1, List.map_map]
    exact List.map_congr_left fun x hx => by simp [h.2 x hx]
  have := (key h).trans (key h').symm
  have inj : ∀ x y : Str × V, (x.1, some x.2) = (y.1, some y.2) → x = y := by
    rintro ⟨a, b⟩ ⟨a', b'⟩ e
    simpa using e
  exact (List.map_inj_right (fun x y => inj x y)).1 this

/-! ### Values -/

/-- The text does not go on with something that belongs to a number. -/
def Stop (r : Str) : Prop := ∀ c, r.head? = some c → isJsonWs c = true ∨ c = ',' ∨ c = ']' ∨ c = '}'

theorem Stop.not {r : Str} (h : Stop r) : NoDig r ∧ r.head? ≠ some '.' ∧ r.head? ≠ some 'e' ∧ r.head? ≠ some 'E' := by
  cases r with
  | nil => exact ⟨(fun c hc => by cases hc), by simp, by simp, by simp⟩
  | cons c r =>
    obtain ⟨h1, h2, h3, h4⟩ := EndsOK.not_dig ⟨c, r, rfl, h c rfl⟩
    exact ⟨fun c' hc => by cases hc; exact h1, by simpa using h2, by simpa using h3, by simpa using h4⟩

theorem Stop.blank {w r : Str} (h : Blank w) (hr : Stop r) : Stop (w ++ r) := by
  cases w with
  | nil => exact hr
  | cons c w =>
    intro c' hc
    cases hc
    rw [blank_iff] at h
    simp only [List.all_cons, Bool.and_eq_true] at h
    exact .inl h.1

theorem parseNum_exact {neg : Bool} {n : Nat} {d f e r : Str} (h : DigitsText n d) (hz : NoLeadingZero d) (hf : FracText f) (he : ExpText e)
    (hr : Stop r) : parseNum (minus neg ++ d ++ f ++ e ++ r) =
      if f.isEmpty && e.isEmpty then some (.int (if neg then -(n : Int) else n), r)
      else match PyRuntime.floatOfStr (minus neg ++ d ++ f ++ e) with
        | some x => some (.flt x, r)
        | none => none := by
  obtain ⟨r1, r2, r3, r4⟩ := hr.not
  have e1 : NoDig (e ++ r) ∧ (e ++ r).head? ≠ some '.' := by
    rcases he with rfl | ⟨_, x, _, _, rfl | rfl, -, -, rfl⟩
    · exact ⟨r1, r2⟩
    · exact ⟨fun c hc => by cases hc; rfl, by simp⟩
    · exact ⟨fun c hc => by cases hc; rfl, by simp⟩
  have f1 : NoDig (f ++ (e ++ r)) := by
    rcases hf with rfl | ⟨_, _, -, rfl⟩
    · exact e1.1
    · exact fun c hc => by cases hc; rfl
  have s1 := spanInt_exact (neg := neg) h hz f1
  have s2 := spanFrac_exact hf e1.1 fun _ => e1.2
  have s3 := spanExp_exact he r1 fun _ => ⟨r3, r4⟩
  simp only [List.append_assoc] at s1 s2 s3 ⊢
  simp only [parseNum, s1, s2, s3, List.append_assoc, jsonInt_exact h]
  rfl

theorem number_start {neg : Bool} {n : Nat} {d : Str} (h : DigitsText n d) (r : Str) : StartOK (minus neg ++ d ++ r) := by
  obtain ⟨h1, h2, -⟩ := h.inv
  cases neg with
  | true => exact ⟨'-', d ++ r, rfl, by decide, by decide, by decide⟩
  | false =>
    cases d with
    | nil => exact absurd rfl h2
    | cons c d =>
      simp only [List.all_cons, Bool.and_eq_true] at h1
      exact ⟨c, d ++ r, rfl, natStr_startOK_aux h1.1⟩

/-- The reader reads the thing from the text. -/
def Reads : JThing → Str → Prop
  | .val v, t => StartOK t ∧ ∀ r n, Stop r → t.length ≤ n → parseVal n (t ++ r) = some (v, r)
  | .elems l, t => (∀ x, StartOK (skipWs (t ++ x))) ∧ ∀ r n, t.length + 1 ≤ n → parseElems n (skipWs (t ++ ']' :: r)) = some (l, r)
  | .members l, t => (∀ x, ∃ y, skipWs (t ++ x) = '"' :: y) ∧
      ∀ r n, t.length + 1 ≤ n → parseMembers n (skipWs (t ++ '}' :: r)) = some (l, r)

theorem stop_cons {c : Char} {r : Str} (h : c = ',' ∨ c = ']' ∨ c = '}') : Stop (c :: r) := by
  intro c' hc
  cases hc
  exact .inr h

theorem parse_complete {x : JThing} {t : Str} (h : JsonText x t) : Reads x t := by
  have skip : ∀ {w t : Str}, Blank w → StartOK t → skipWs (w ++ t) = t := by
    intro w t hw ht
    rw [skipWs_append_ws _ _ (blank_iff.1 hw), ht.skip]
  have skip1 : ∀ {w r : Str} {c : Char}, Blank w → isJsonWs c = false → skipWs (w ++ c :: r) = c :: r := by
    intro w r c hw hc
    rw [skipWs_append_ws _ _ (blank_iff.1 hw)]
    simp [skipWs, hc]
  have fuel : ∀ {m n : Nat}, m + 1 ≤ n → ∃ k, n = k + 1 := fun {m n} h => ⟨n - 1, by omega⟩
  induction h with
  | null =>
    refine ⟨⟨_, _, rfl, by decide, by decide, by decide⟩, fun r n _ hn => ?_⟩
    obtain ⟨n, rfl⟩ := fuel hn
    simp [parseVal, stripPrefix?, List.isPrefixOf]
  | true =>
    refine ⟨⟨_, _, rfl, by decide, by decide, by decide⟩, fun r n _ hn => ?_⟩
    obtain ⟨n, rfl⟩ := fuel hn
    simp [parseVal, stripPrefix?, List.isPrefixOf]
  | false =>
    refine ⟨⟨_, _, rfl, by decide, by decide, by decide⟩, fun r n _ hn => ?_⟩
    obtain ⟨n, rfl⟩ := fuel hn
    simp [parseVal, stripPrefix?, List.isPrefixOf]
  | nan =>
    refine ⟨⟨_, _, rfl, by decide, by decide, by decide⟩, fun r n _ hn => ?_⟩
    obtain ⟨n, rfl⟩ := fuel hn
    simp [parseVal, stripPrefix?, List.isPrefixOf]
  | infinity =>
    refine ⟨⟨_, _, rfl, by decide, by decide, by decide⟩, fun r n _ hn => ?_⟩
    obtain ⟨n, rfl⟩ := fuel hn
    simp [parseVal, stripPrefix?, List.isPrefixOf]
  | minusInfinity =>
    refine ⟨⟨_, _, rfl, by decide, by decide, by decide⟩, fun r n _ hn => ?_⟩
    obtain ⟨n, rfl⟩ := fuel hn
    simp [parseVal, stripPrefix?, List.isPrefixOf]
  | @int n d neg h hz =>
    have hs := number_start (neg := neg) h []
    rw [List.append_nil] at hs
    refine ⟨hs, fun r m hr hm => ?_⟩
    obtain ⟨k, rfl⟩ := fuel (Nat.le_trans hs.length hm)
    rw [parseVal_num (spanInt_exact h hz hr.not.1)]
    have := parseNum_exact (neg := neg) h hz (.inl rfl) (.inl rfl) hr
    rw [List.append_nil, List.append_nil] at this
    rw [this]
    rfl
  | @float n d f e x neg h hz hf he hne hx =>
    have hs := number_start (neg := neg) h (f ++ e)
    rw [← List.append_assoc] at hs
    refine ⟨hs, fun r m hr hm => ?_⟩
    obtain ⟨k, rfl⟩ := fuel (Nat.le_trans hs.length hm)
    have hp := parseNum_exact (neg := neg) h hz hf he hr
    rw [hx, if_neg (by
      intro hh
      simp only [Bool.and_eq_true, List.isEmpty_iff] at hh
      exact hne (by rw [hh.1, hh.2]; rfl))] at hp
    cases hi : spanInt (minus neg ++ d ++ f ++ e ++ r) with
    | none =>
      rw [parseNum, hi] at hp
      cases hp
    | some p => rw [parseVal_num hi, hp]
  | @str s t h =>
    refine ⟨⟨_, _, rfl, by decide, by decide, by decide⟩, fun r n _ hn => ?_⟩
    obtain ⟨n, rfl⟩ := fuel hn
    have := scan_complete h r
    simp [parseVal, this]
  | @emptyList w h =>
    refine ⟨⟨_, _, rfl, by decide, by decide, by decide⟩, fun r n _ hn => ?_⟩
    obtain ⟨n, rfl⟩ := fuel hn
    have := skip1 (r := r) (c := ']') h (by decide)
    simp [parseVal, this]
  | @list l t h ih =>
    obtain ⟨h1, h2⟩ := ih
    refine ⟨⟨_, _, rfl, by decide, by decide, by decide⟩, fun r n _ hn => ?_⟩
    simp only [List.length_cons, List.length_append, List.length_nil] at hn
    obtain ⟨n, rfl⟩ := fuel hn
    have h3 := h2 r n (by omega)
    obtain ⟨c, y, hc, -, hc2, -⟩ := h1 (']' :: r)
    rw [hc] at h3
    simp [parseVal, hc, hc2, h3]
  | @emptyObject w h =>
    refine ⟨⟨_, _, rfl, by decide, by decide, by decide⟩, fun r n _ hn => ?_⟩
    obtain ⟨n, rfl⟩ := fuel hn
    have := skip1 (r := r) (c := '}') h (by decide)
    simp [parseVal, this]
  | @object l d t h hd ih =>
    obtain ⟨h1, h2⟩ := ih
    refine ⟨⟨_, _, rfl, by decide, by decide, by decide⟩, fun r n _ hn => ?_⟩
    simp only [List.length_cons, List.length_append, List.length_nil] at hn
    obtain ⟨n, rfl⟩ := fuel hn
    have h3 := h2 r n (by omega)
    obtain ⟨y, hc⟩ := h1 ('}' :: r)
    rw [hc] at h3
    simp [parseVal, hc, h3, collects_unique hd (dictOf_collects l)]
  | @lastElem v t w w' h hw hw' ih =>
    obtain ⟨h1, h2⟩ := ih
    have hsk : ∀ x, skipWs (w ++ t ++ w' ++ x) = t ++ (w' ++ x) := by
      intro x
      rw [List.append_assoc, List.append_assoc, skip hw (h1.append _)]
    refine ⟨fun x => by rw [hsk]; exact h1.append _, fun r n hn => ?_⟩
    simp only [List.length_append] at hn
    obtain ⟨n, rfl⟩ := fuel hn
    rw [hsk]
    simp only [parseElems, h2 (w' ++ ']' :: r) n (Stop.blank hw' (stop_cons (.inr (.inl rfl)))) (by omega)]
    rw [skip1 hw' (by decide)]
    simp
  | @elem v l t u w w' h hw hw' hl ih ih' =>
    obtain ⟨h1, h2⟩ := ih
    obtain ⟨h3, h4⟩ := ih'
    have hsk : ∀ x, skipWs (w ++ t ++ w' ++ ',' :: u ++ x) = t ++ (w' ++ ',' :: (u ++ x)) := by
      intro x
      simp only [List.append_assoc, List.cons_append]
      exact skip hw (h1.append _)
    refine ⟨fun x => by rw [hsk]; exact h1.append _, fun r n hn => ?_⟩
    have := h1.length
    simp only [List.length_append, List.length_cons] at hn
    obtain ⟨n, rfl⟩ := fuel hn
    rw [hsk]
    simp only [parseElems, h2 (w' ++ ',' :: (u ++ ']' :: r)) n (Stop.blank hw' (stop_cons (.inl rfl))) (by omega)]
    rw [skip1 hw' (by decide)]
    simp [h4 r n (by omega)]
  | @lastMember k k' v t w w1 w2 w' hk h hw hw1 hw2 hw' ih =>
    obtain ⟨h1, h2⟩ := ih
    have hsk : ∀ x, skipWs (w ++ '"' :: (k' ++ '"' :: (w1 ++ ':' :: (w2 ++ t ++ w'))) ++ x) =
        '"' :: (k' ++ '"' :: (w1 ++ ':' :: (w2 ++ (t ++ (w' ++ x))))) := by
      intro x
      simp only [List.append_assoc, List.cons_append]
      exact skip1 hw (by decide)
    refine ⟨fun x => ⟨_, hsk x⟩, fun r n hn => ?_⟩
    simp only [List.length_append, List.length_cons] at hn
    obtain ⟨n, rfl⟩ := fuel hn
    rw [hsk]
    simp only [parseMembers, if_true, scan_complete hk]
    rw [skip1 hw1 (by decide)]
    simp only [if_true]
    rw [skip hw2 (h1.append _), h2 (w' ++ '}' :: r) n (Stop.blank hw' (stop_cons (.inr (.inr rfl)))) (by omega)]
    simp only
    rw [skip1 hw' (by decide)]
    simp
  | @member k k' v l t u w w1 w2 w' hk h hw hw1 hw2 hw' hl ih ih' =>
    obtain ⟨h1, h2⟩ := ih
    obtain ⟨h3, h4⟩ := ih'
    have hsk : ∀ x, skipWs (w ++ '"' :: (k' ++ '"' :: (w1 ++ ':' :: (w2 ++ t ++ w' ++ ',' :: u))) ++ x) =
        '"' :: (k' ++ '"' :: (w1 ++ ':' :: (w2 ++ (t ++ (w' ++ ',' :: (u ++ x)))))) := by
      intro x
      simp only [List.append_assoc, List.cons_append]
      exact skip1 hw (by decide)
    refine ⟨fun x => ⟨_, hsk x⟩, fun r n hn => ?_⟩
    simp only [List.length_append, List.length_cons] at hn
    obtain ⟨n, rfl⟩ := fuel hn
    rw [hsk]
    simp only [parseMembers, if_true, scan_complete hk]
    rw [skip1 hw1 (by decide)]
    simp only [if_true]
    rw [skip hw2 (h1.append _), h2 (w' ++ ',' :: (u ++ '}' :: r)) n (Stop.blank hw' (stop_cons (.inl rfl))) (by omega)]
    simp only
    rw [skip1 hw' (by decide)]
    simp [h4 r n (by omega)]

theorem skip_split (s : Str) : ∃ w, Blank w ∧ s = w ++ skipWs s :=
  ⟨s.takeWhile isJsonWs, blank_iff.2 (List.all_takeWhile ..), (List.takeWhile_append_dropWhile).symm⟩

theorem blank_append {w w' : Str} (h : Blank w) (h' : Blank w') : Blank (w ++ w') := by
  intro c hc
  rcases List.mem_append.1 hc with hc | hc
  · exact h c hc
  · exact h' c hc

theorem elems_blank {l : List V} {t w : Str} (h : JsonText (.elems l) t) (hw : Blank w) : JsonText (.elems l) (w ++ t) := by
  cases h with
  | lastElem h h1 h2 =>
    rw [← List.append_assoc, ← List.append_assoc]
    exact .lastElem h (blank_append hw h1) h2
  | elem h h1 h2 h3 =>
    rw [← List.append_assoc, ← List.append_assoc, ← List.append_assoc]
    exact .elem h (blank_append hw h1) h2 h3

theorem members_blank {l : List (Str × V)} {t w : Str} (h : JsonText (.members l) t) (hw : Blank w) : JsonText (.members l) (w ++ t) := by
  cases h with
  | lastMember h h1 h2 h3 h4 h5 =>
    rw [← List.append_assoc]
    exact .lastMember h h1 (blank_append hw h2) h3 h4 h5
  | member h h1 h2 h3 h4 h5 h6 =>
    rw [← List.append_assoc]
    exact .member h h1 (blank_append hw h2) h3 h4 h5 h6

theorem parseNum_sound {s r : Str} {v : V} (h : parseNum s = some (v, r)) : ∃ t, s = t ++ r ∧ JsonText (.val v) t := by
  unfold parseNum at h
  split at h
  · cases h
  next i r1 hi =>
  obtain ⟨neg, n, d, rfl, hd, hz⟩ := spanInt_sound hi
  have hf := spanFrac_sound r1
  have he := spanExp_sound (spanFrac r1).2
  have e1 := spanInt_eq _ hi
  have e2 := spanFrac_eq r1
  have e3 := spanExp_eq (spanFrac r1).2
  simp only at h e1
  split at h
  · next hh =>
    cases h
    simp only [Bool.and_eq_true, List.isEmpty_iff] at hh
    refine ⟨minus neg ++ d, ?_, ?_⟩
    · rw [hh.2, List.nil_append] at e3
      rw [hh.1, List.nil_append] at e2
      rw [e3, e2, e1]
    · rw [jsonInt_exact hd]
      exact .int neg hd hz
  · next hh =>
    split at h
    · next x hx =>
      cases h
      refine ⟨_, ?_, .float neg hd hz hf he ?_ hx⟩
      · rw [List.append_assoc, e3, List.append_assoc, e2, e1]
      · simpa [List.isEmpty_iff] using hh
    · cases h

theorem stripPrefix_sound {p s r : Str} (h : stripPrefix? p s = some r) : s = p ++ r := by
  unfold stripPrefix? at h
  split at h
  · next hp =>
    cases h
    obtain ⟨t, rfl⟩ := List.isPrefixOf_iff_prefix.1 hp
    simp
  · cases h

theorem parse_sound (n : Nat) :
    (∀ s v r, parseVal n s = some (v, r) → ∃ t, s = t ++ r ∧ JsonText (.val v) t) ∧
    (∀ s l r, parseElems n s = some (l, r) → ∃ t, s = t ++ ']' :: r ∧ JsonText (.elems l) t) ∧
    (∀ s l r, parseMembers n s = some (l, r) → ∃ t, s = t ++ '}' :: r ∧ JsonText (.members l) t) := by
  induction n with
  | zero => exact ⟨(fun s v r h => by cases h), (fun s v r h => by cases h), fun s v r h => by cases h⟩
  | succ n ih =>
    obtain ⟨ih1, ih2, ih3⟩ := ih
    refine ⟨fun s v r h => ?_, fun s l r h => ?_, fun s l r h => ?_⟩
    · cases s with
      | nil => cases h
      | cons c s =>
      simp only [parseVal] at h
      split at h
      · next e =>
        subst e
        obtain ⟨⟨a, b⟩, h', e⟩ := Option.map_eq_some_iff.1 h
        cases e
        obtain ⟨t, rfl, ht⟩ := scan_sound _ _ _ _ (Nat.le_refl _) h'
        exact ⟨_, by simp, .str ht⟩
      split at h
      · next e =>
        subst e
        obtain ⟨w, hw, hs⟩ := skip_split s
        split at h
        · cases h
        next c' r' hc =>
        rw [hc] at hs
        split at h
        · next e =>
          subst e
          cases h
          exact ⟨_, by simp [hs], .emptyObject hw⟩
        · obtain ⟨⟨a, b⟩, h', e⟩ := Option.map_eq_some_iff.1 h
          cases e
          obtain ⟨t, ht, hj⟩ := ih3 _ _ _ h'
          rw [ht] at hs
          exact ⟨_, by simp [hs], .object (members_blank hj hw) (dictOf_collects a)⟩
      split at h
      · next e =>
        subst e
        obtain ⟨w, hw, hs⟩ := skip_split s
        split at h
        · cases h
        next c' r' hc =>
        rw [hc] at hs
        split at h
        · next e =>
          subst e
          cases h
          exact ⟨_, by simp [hs], .emptyList hw⟩
        · obtain ⟨⟨a, b⟩, h', e⟩ := Option.map_eq_some_iff.1 h
          cases e
          obtain ⟨t, ht, hj⟩ := ih2 _ _ _ h'
          rw [ht] at hs
          exact ⟨_, by simp [hs], .list (elems_blank hj hw)⟩
      split at h
      · next e =>
        subst e
        obtain ⟨b, h', e⟩ := Option.map_eq_some_iff.1 h
        cases e
        rw [stripPrefix_sound h']
        exact ⟨_, rfl, .null⟩
      split at h
      · next e =>
        subst e
        obtain ⟨b, h', e⟩ := Option.map_eq_some_iff.1 h
        cases e
        rw [stripPrefix_sound h']
        exact ⟨_, rfl, .true⟩
      split at h
      · next e =>
        subst e
        obtain ⟨b, h', e⟩ := Option.map_eq_some_iff.1 h
        cases e
        rw [stripPrefix_sound h']
        exact ⟨_, rfl, .false⟩
      split at h
      · next e =>
        subst e
        obtain ⟨b, h', e⟩ := Option.map_eq_some_iff.1 h
        cases e
        rw [stripPrefix_sound h']
        exact ⟨_, rfl, .nan⟩
      split at h
      · next e =>
        subst e
        obtain ⟨b, h', e⟩ := Option.map_eq_some_iff.1 h
        cases e
        rw [stripPrefix_sound h']
        exact ⟨_, rfl, .infinity⟩
      split at h
      · next b hb =>
        cases h
        split at hb
        · next e =>
          subst e
          rw [stripPrefix_sound hb]
          exact ⟨_, rfl, .minusInfinity⟩
        · cases hb
      · exact parseNum_sound h
    · simp only [parseElems] at h
      split at h
      · cases h
      next v r1 hv =>
      obtain ⟨t, rfl, ht⟩ := ih1 _ _ _ hv
      obtain ⟨w, hw, hs⟩ := skip_split r1
      split at h
      · cases h
      next c r2 hc =>
      rw [hc] at hs
      subst hs
      have b0 : Blank [] := fun c hc => by cases hc
      split at h
      · next e =>
        subst e
        cases h
        exact ⟨[] ++ t ++ w, by simp, .lastElem ht b0 hw⟩
      split at h
      · next e =>
        subst e
        obtain ⟨⟨a, b⟩, h', e⟩ := Option.map_eq_some_iff.1 h
        cases e
        obtain ⟨u, hu, hj⟩ := ih2 _ _ _ h'
        obtain ⟨w2, hw2, hs2⟩ := skip_split r2
        rw [hu] at hs2
        subst hs2
        exact ⟨_, by simp, .elem ht b0 hw (elems_blank hj hw2)⟩
      · cases h
    · cases s with
      | nil => cases h
      | cons c s =>
      simp only [parseMembers] at h
      split at h
      case isFalse => cases h
      next e =>
      subst e
      split at h
      · cases h
      next k r0 hk =>
      obtain ⟨k', rfl, hk'⟩ := scan_sound _ _ _ _ (Nat.le_refl _) hk
      obtain ⟨w1, hw1, hs1⟩ := skip_split r0
      split at h
      · cases h
      next c r1 hc =>
      rw [hc] at hs1
      subst hs1
      split at h
      case isFalse => cases h
      next e =>
      subst e
      obtain ⟨w2, hw2, hs2⟩ := skip_split r1
      split at h
      · cases h
      next v r2 hv =>
      obtain ⟨t, hv', ht⟩ := ih1 _ _ _ hv
      rw [hv'] at hs2
      subst hs2
      obtain ⟨w3, hw3, hs3⟩ := skip_split r2
      split at h
      · cases h
      next c r3 hc =>
      rw [hc] at hs3
      subst hs3
      have b0 : Blank [] := fun c hc => by cases hc
      split at h
      · next e =>
        subst e
        cases h
        exact ⟨_, by simp, .lastMember hk' ht b0 hw1 hw2 hw3⟩
      split at h
      · next e =>
        subst e
        obtain ⟨⟨a, b⟩, h', e⟩ := Option.map_eq_some_iff.1 h
        cases e
        obtain ⟨u, hu, hj⟩ := ih3 _ _ _ h'
        obtain ⟨w4, hw4, hs4⟩ := skip_split r3
        rw [hu] at hs4
        subst hs4
        exact ⟨_, by simp, .member hk' ht b0 hw1 hw2 hw3 (members_blank hj hw4)⟩
      · cases h

/-- The reader reads exactly the JSON texts. -/
theorem jsonLoad_iff {s : Str} {v : V} : jsonLoad s = some v ↔ JsonFile v s := by
  constructor
  · intro h
    unfold jsonLoad at h
    split at h
    · next v' r hv =>
      split at h
      · next hr =>
        cases h
        obtain ⟨w, hw, hs⟩ := skip_split s
        obtain ⟨t, ht, hj⟩ := (parse_sound _).1 _ _ _ hv
        rw [ht] at hs
        refine ⟨w, t, r, hw, ?_, hj, by rw [List.append_assoc]; exact hs⟩
        rw [List.isEmpty_iff] at hr
        exact blank_iff.2 ((skipWs_eq_nil_iff r).1 hr)
      · cases h
    · cases h
  · rintro ⟨w, t, w', hw, hw', hj, rfl⟩
    obtain ⟨h1, h2⟩ := parse_complete hj
    have hs : skipWs (w ++ t ++ w') = t ++ w' := by
      rw [List.append_assoc, skipWs_append_ws _ _ (blank_iff.1 hw), (h1.append w').skip]
    have hst : Stop w' := by
      have := Stop.blank (r := []) hw' (by intro c hc; cases hc)
      rwa [List.append_nil] at this
    unfold jsonLoad
    rw [hs, h2 w' _ hst (by simp only [List.length_append]; omega)]
    simp [(skipWs_eq_nil_iff w').2 (blank_iff.1 hw')]

/-! ### Integers -/

theorem decVal_iff {c : Char} {d : Nat} : decVal c = some d ↔ DigitIs c d := by
  unfold decVal DigitIs
  split
  · next ha =>
    simp only [isAscii, decide_eq_true_eq] at ha
    constructor
    · intro h
      split at h
      · next hd =>
        cases h
        exact .inl (digit_iff.1 hd)
      · cases h
    · rintro (h | h)
      · obtain ⟨h1, h2⟩ := digit_val h
        simp only at h1 h2
        rw [if_pos h1, h2]
      · omega
  · next ha =>
    simp only [isAscii, decide_eq_true_eq] at ha
    constructor
    · exact fun h => .inr ⟨by omega, h⟩
    · rintro (h | h)
      · have := (digit_val h).1
        have := isDig_toNat this
        simp only at this
        omega
      · exact h.2

theorem intBlank_iff {w : Str} : IntBlank w ↔ w.all isIntSpace = true := by
  have key : ∀ c : Char, isIntSpace c = true ↔ (c ∈ c!" \t\n\r\x0b\x0c" ∨ (128 ≤ c.toNat ∧ PyRuntime.uSpace c = true)) := by
    intro c
    unfold isIntSpace
    split
    · next ha =>
      simp only [isAscii, decide_eq_true_eq] at ha
      have : ∀ c : Char, c.toNat < 128 → (((9 ≤ c.toNat && c.toNat ≤ 13) || c.toNat == 32) = true ↔ c ∈ c!" \t\n\r\x0b\x0c") :=
        char_lt 128 (P := fun c => (((9 ≤ c.toNat && c.toNat ≤ 13) || c.toNat == 32) = true ↔ c ∈ c!" \t\n\r\x0b\x0c")) (by decide +kernel)
      rw [this c ha]
      exact ⟨.inl, fun h => h.resolve_right fun h => by omega⟩
    · next ha =>
      simp only [isAscii, decide_eq_true_eq] at ha
      constructor
      · exact fun h => .inr ⟨by omega, h⟩
      · rintro (h | h)
        · have : ∀ c ∈ c!" \t\n\r\x0b\x0c", c.toNat < 128 := by decide
          exact absurd (this c h) ha
        · exact h.2
  simp only [IntBlank, List.all_eq_true, key]

/-- What `intBody` reads after a digit. -/
def AfterDigit (acc n : Nat) (t : Str) : Prop := (t = [] ∧ n = acc) ∨ ∃ ds u, (t = u ∨ t = '_' :: u) ∧ IntDigits ds u ∧
  n = acc * 10 ^ ds.length + base10 ds

theorem intBody_iff (t : Str) : ∀ acc n : Nat,
    (intBody acc true t = some n ↔ ∃ ds, IntDigits ds t ∧ n = acc * 10 ^ ds.length + base10 ds) ∧
    (intBody acc false t = some n ↔ AfterDigit acc n t) := by
  have under : ∀ d, ¬ DigitIs '_' d := by
    rintro d (h | h)
    · exact absurd (show isDig '_' = true from (digit_val h).1) (by decide)
    · exact absurd h.1 (by decide)
  induction t with
  | nil =>
    intro acc n
    refine ⟨⟨fun h => by simp [intBody] at h, ?_⟩, ⟨fun h => ?_, ?_⟩⟩
    · rintro ⟨ds, h, -⟩
      cases h
    · simp only [intBody, Bool.false_eq_true, if_false, Option.some.injEq] at h
      exact .inl ⟨rfl, h.symm⟩
    · rintro (h | ⟨ds, u, h, hu, -⟩)
      · simp [intBody, h.2]
      · rcases h with rfl | h
        · cases hu
        · cases h
  | cons c t ih =>
    intro acc n
    have digit : ∀ {d : Nat}, DigitIs c d → ((∃ ds, IntDigits ds (c :: t) ∧ n = acc * 10 ^ ds.length + base10 ds) ↔
        AfterDigit (10 * acc + d) n t) := by
      intro d hd
      have un : ∀ {d'}, DigitIs c d' → d' = d := by
        intro d' hd'
        rw [← decVal_iff] at hd hd'
        rw [hd] at hd'
        exact (Option.some.inj hd').symm
      have eq : ∀ ds : List Nat, (10 * acc + d) * 10 ^ ds.length + base10 ds = acc * 10 ^ (d :: ds).length + base10 (d :: ds) := by
        intro ds
        simp only [base10, List.length_cons, Nat.pow_succ, Nat.add_mul]
        rw [Nat.mul_comm 10 acc, Nat.mul_assoc, Nat.mul_comm 10 (10 ^ ds.length), Nat.add_assoc]
      constructor
      · rintro ⟨ds, h, rfl⟩
        cases h with
        | one h =>
          cases un h
          refine .inl ⟨rfl, ?_⟩
          simp [base10]
          omega
        | next h h' =>
          cases un h
          exact .inr ⟨_, _, .inl rfl, h', (eq _).symm⟩
        | under h h' =>
          cases un h
          exact .inr ⟨_, _, .inr rfl, h', (eq _).symm⟩
      · rintro (⟨rfl, rfl⟩ | ⟨ds, u, rfl | rfl, hu, rfl⟩)
        · refine ⟨[d], .one hd, ?_⟩
          simp [base10]
          omega
        · exact ⟨d :: ds, .next hd hu, eq _⟩
        · exact ⟨d :: ds, .under hd hu, eq _⟩
    have head : ∀ {ds : List Nat}, IntDigits ds (c :: t) → ∃ d, DigitIs c d := by
      intro ds h
      cases h with
      | one h => exact ⟨_, h⟩
      | next h => exact ⟨_, h⟩
      | under h => exact ⟨_, h⟩
    cases hc : decVal c with
    | some d =>
      have hd := decVal_iff.1 hc
      refine ⟨?_, ?_⟩
      · simp only [intBody, hc]
        rw [(ih _ _).2, digit hd]
      · simp only [intBody, hc]
        rw [(ih _ _).2, ← digit hd]
        constructor
        · rintro ⟨ds, h, e⟩
          exact .inr ⟨ds, _, .inl rfl, h, e⟩
        · rintro (h | ⟨ds, u, rfl | h, hu, e⟩)
          · cases h.1
          · exact ⟨ds, hu, e⟩
          · cases h
            exact absurd hd (under d)
    | none =>
      have no : ∀ d, ¬ DigitIs c d := by
        intro d hd
        rw [← decVal_iff, hc] at hd
        cases hd
      refine ⟨⟨fun h => ?_, ?_⟩, ⟨fun h => ?_, ?_⟩⟩
      · simp [intBody, hc] at h
      · rintro ⟨ds, h, -⟩
        obtain ⟨d, hd⟩ := head h
        exact absurd hd (no d)
      · simp only [intBody, hc, Bool.not_false, Bool.and_true, beq_iff_eq] at h
        split at h
        · next e =>
          subst e
          obtain ⟨ds, h1, h2⟩ := (ih _ _).1.1 h
          exact .inr ⟨ds, t, .inr rfl, h1, h2⟩
        · cases h
      · rintro (h | ⟨ds, u, rfl | h, hu, e⟩)
        · cases h.1
        · obtain ⟨d, hd⟩ := head hu
          exact absurd hd (no d)
        · cases h
          simp only [intBody, hc, Bool.not_false, Bool.and_true, beq_self_eq_true, if_true]
          exact (ih _ _).1.2 ⟨ds, hu, e⟩

theorem strip_split (p : Char → Bool) (s : Str) : ∃ w w', w.all p = true ∧ w'.all p = true ∧ s = w ++ stripP p s ++ w' := by
  refine ⟨s.takeWhile p, ((lstripP p s).reverse.takeWhile p).reverse, List.all_takeWhile .., ?_, ?_⟩
  · rw [List.all_reverse]
    exact List.all_takeWhile ..
  · have h1 : s = s.takeWhile p ++ lstripP p s := (List.takeWhile_append_dropWhile).symm
    have h2 : lstripP p s = stripP p s ++ ((lstripP p s).reverse.takeWhile p).reverse := by
      have : (lstripP p s).reverse = (lstripP p s).reverse.takeWhile p ++ (lstripP p s).reverse.dropWhile p :=
        (List.takeWhile_append_dropWhile).symm
      have := congrArg List.reverse this
      rwa [List.reverse_reverse, List.reverse_append] at this
    rw [List.append_assoc, ← h2]
    exact h1

theorem strip_exact {p : Char → Bool} {w m w' : Str} (h : w.all p = true) (h' : w'.all p = true) (hm : m ≠ [])
    (h1 : ∀ c, m.head? = some c → p c = false) (h2 : ∀ c, m.getLast? = some c → p c = false) : stripP p (w ++ m ++ w') = m := by
  have drop : ∀ (w x : Str), w.all p = true → (∀ c, x.head? = some c → p c = false) → (w ++ x).dropWhile p = x := by
    intro w x hw hx
    induction w with
    | nil =>
      cases x with
      | nil => rfl
      | cons c x => simp [hx c rfl]
    | cons c w ih =>
      simp only [List.all_cons, Bool.and_eq_true] at hw
      simp [hw.1, ih hw.2]
  have e1 : lstripP p (w ++ m ++ w') = m ++ w' := by
    rw [List.append_assoc, lstripP, drop w _ h]
    intro c hc
    cases m with
    | nil => exact absurd rfl hm
    | cons a m => exact h1 c hc
  rw [stripP, e1, rstripP, List.reverse_append, drop w'.reverse _ (by rwa [List.all_reverse]), List.reverse_reverse]
  intro c hc
  rw [List.head?_reverse] at hc
  exact h2 c hc

theorem intDigits_ends {ds : List Nat} {t : Str} (h : IntDigits ds t) :
    (∃ c d t', t = c :: t' ∧ DigitIs c d) ∧ ∃ c d, t.getLast? = some c ∧ DigitIs c d := by
  induction h with
  | one h => exact ⟨⟨_, _, _, rfl, h⟩, ⟨_, _, rfl, h⟩⟩
  | next h h' ih =>
    obtain ⟨⟨c, d, t', rfl, -⟩, c', d', h2, h3⟩ := ih
    exact ⟨⟨_, _, _, rfl, h⟩, c', d', by rwa [List.getLast?_cons_cons], h3⟩
  | under h h' ih =>
    obtain ⟨⟨c, d, t', rfl, -⟩, c', d', h2, h3⟩ := ih
    exact ⟨⟨_, _, _, rfl, h⟩, c', d', by rwa [List.getLast?_cons_cons, List.getLast?_cons_cons], h3⟩

theorem digit_not_blank {c : Char} {d : Nat} (h : DigitIs c d) : isIntSpace c = false ∧ c ≠ '-' ∧ c ≠ '+' := by
  rcases h with h | ⟨h1, h2⟩
  · have := (digit_val h).1
    exact ⟨isIntSpace_of_isDig this, isDig_ne_minus this, by rintro rfl; simp [isDig] at this⟩
  · refine ⟨?_, ?_, ?_⟩
    · have hw := PyRuntime.uDigit_uWord c (by rw [h2]; rfl)
      have ha : isAscii c = false := by
        simp only [isAscii, decide_eq_false_iff_not]
        omega
      simp [isIntSpace, ha, PyRuntime.uWord_uSpace c hw]
    · rintro rfl
      exact absurd h1 (by decide)
    · rintro rfl
      exact absurd h1 (by decide)

/-- `int()` reads exactly the integers. -/
theorem pyInt_iff {s : Str} {n : Int} : pyInt s = some n ↔ IntText n s := by
  constructor
  · intro h
    obtain ⟨w, w', hw, hw', hs⟩ := strip_split isIntSpace s
    have hw := intBlank_iff.2 hw
    have hw' := intBlank_iff.2 hw'
    unfold pyInt at h
    split at h
    · next r hr =>
      cases hm : intBody 0 true r with
      | none =>
        rw [hm] at h
        cases h
      | some m =>
      have e := h
      rw [hm] at e
      replace e := Option.some.inj e
      obtain ⟨ds, h1, h2⟩ := (intBody_iff r 0 m).1.1 hm
      simp only [Nat.zero_mul, Nat.zero_add] at h2
      subst h2
      exact ⟨ds, w, c!"-", r, w', hw, hw', h1, by rw [hs, hr]; simp, .inr ⟨rfl, e.symm⟩⟩
    · next r hr =>
      cases hm : intBody 0 true r with
      | none =>
        rw [hm] at h
        cases h
      | some m =>
      have e := h
      rw [hm] at e
      replace e := Option.some.inj e
      obtain ⟨ds, h1, h2⟩ := (intBody_iff r 0 m).1.1 hm
      simp only [Nat.zero_mul, Nat.zero_add] at h2
      subst h2
      exact ⟨ds, w, c!"+", r, w', hw, hw', h1, by rw [hs, hr]; simp, .inl ⟨.inr rfl, e.symm⟩⟩
    · cases hm : intBody 0 true (stripP isIntSpace s) with
      | none =>
        rw [hm] at h
        cases h
      | some m =>
      have e := h
      rw [hm] at e
      replace e := Option.some.inj e
      obtain ⟨ds, h1, h2⟩ := (intBody_iff _ 0 m).1.1 hm
      simp only [Nat.zero_mul, Nat.zero_add] at h2
      subst h2
      exact ⟨ds, w, [], _, w', hw, hw', h1, by rw [List.append_nil]; exact hs, .inl ⟨.inl rfl, e.symm⟩⟩
  · rintro ⟨ds, w, sign, t, w', hw, hw', ht, rfl, hn⟩
    obtain ⟨⟨c, d, t', rfl, hc⟩, c', d', hl, hc'⟩ := intDigits_ends ht
    obtain ⟨hb, hm, hp⟩ := digit_not_blank hc
    have hlast : (sign ++ c :: t').getLast? = some c' := by
      rw [List.getLast?_append, hl]
      rfl
    have hst : stripP isIntSpace (w ++ (sign ++ c :: t') ++ w') = sign ++ c :: t' := by
      apply strip_exact (intBlank_iff.1 hw) (intBlank_iff.1 hw') (by simp)
      · intro x hx
        rcases hn with ⟨rfl | rfl, -⟩ | ⟨rfl, -⟩
        · cases hx
          exact hb
        · cases hx
          simp [isIntSpace, isAscii]
        · cases hx
          exact isIntSpace_minus
      · intro x hx
        rw [hlast] at hx
        cases hx
        exact (digit_not_blank hc').1
    have hbody : intBody 0 true (c :: t') = some (base10 ds) := by
      rw [(intBody_iff _ 0 _).1]
      exact ⟨ds, ht, by simp⟩
    unfold pyInt
    rw [← List.append_assoc] at hst
    rw [hst]
    rcases hn with ⟨rfl | rfl, rfl⟩ | ⟨rfl, rfl⟩
    · rw [List.nil_append]
      split
      · next e => exact absurd (List.cons.inj e).1 hm
      · next e => exact absurd (List.cons.inj e).1 hp
      · rw [hbody]
        rfl
    · simp [hbody]
    · simp [hbody]

theorem addLoop_not_decode (items : List (Str × V)) (v : V) : addLoop v items ≠ .error .jsonDecode := by
  induction items generalizing v with
  | nil => simp [addLoop]
  | cons x items ih =>
    obtain ⟨k, node⟩ := x
    unfold addLoop
    cases v <;> simp only [inVal, setItem] <;> (try (simp; done))
    · next l => generalize isSubstr k l = b; cases b <;> simp
    · next d => generalize (d.any fun x => decide (x = Val.str k)) = b; cases b <;> simp
    · next d =>
      cases dictHas k d
      · exact ih _
      · simp

theorem digitIs_dot {d : Nat} (h : DigitIs '.' d) : False := by
  rcases h with h | h
  · simp [tenDigits] at h
  · exact absurd h.1 (by decide)

theorem intDigits_no_dot {ds : List Nat} {t : Str} (h : IntDigits ds t) : '.' ∉ t := by
  induction h with
  | one hc => simp; rintro rfl; exact digitIs_dot hc
  | next hc _ ih => simp only [List.mem_cons, not_or]; exact ⟨by rintro rfl; exact digitIs_dot hc, ih⟩
  | under hc _ ih => simp only [List.mem_cons, not_or]; exact ⟨by rintro rfl; exact digitIs_dot hc, by decide, ih⟩

theorem intBlank_no_dot {w : Str} (h : IntBlank w) : '.' ∉ w := by
  intro hm
  rcases h _ hm with h | h
  · simp at h
  · exact absurd h.1 (by decide)

theorem intText_no_dot {n : Int} {s : Str} (h : IntText n s) : '.' ∉ s := by
  obtain ⟨ds, w, sign, t, w', h1, h2, h3, rfl, h4⟩ := h
  have hs : '.' ∉ sign := by rcases h4 with ⟨rfl | rfl, -⟩ | ⟨rfl, -⟩ <;> simp
  simp only [List.mem_append, not_or]
  exact ⟨⟨⟨intBlank_no_dot h1, hs⟩, intDigits_no_dot h3⟩, intBlank_no_dot h2⟩

theorem b0 : Blank [] := fun c hc => by cases hc

end

end WG
