/-
JSON strings and numbers: what is written is read back.
-/
import Verif.Py.Json

namespace WG

theorem hexVal_hexDigit {d : Nat} (h : d < 16) : hexVal (hexDigit d) = some d := by
  revert d; decide

theorem Char.valid_cases (c : Char) : c.toNat < 55296 ∨ (57343 < c.toNat ∧ c.toNat < 1114112) := by
  have := c.valid
  simp [UInt32.isValidChar, Nat.isValidChar] at this
  exact this

/-- Reading four hex digits. -/
theorem scanStr_hex4 (n : Nat) (hn : n < 65536) (h : Option Nat) (r : Str) :
    scanStr (.hex 0 0 h) (hex4 n ++ r) =
      match h with
        | none =>
          if 55296 ≤ n ∧ n < 56320 then scanStr (.hi n) r
          else if 56320 ≤ n ∧ n < 57344 then none
          else (scanStr .norm r).map fun p => (Char.ofNat n :: p.1, p.2)
        | some h =>
          if 56320 ≤ n ∧ n < 57344 then
            (scanStr .norm r).map fun p =>
              (Char.ofNat (65536 + (h - 55296) * 1024 + (n - 56320)) :: p.1, p.2)
          else none := by
  have e : 16 * (16 * (16 * (n / 4096 % 16) + n / 256 % 16) + n / 16 % 16) + n % 16 = n := by omega
  simp only [hex4, List.cons_append, List.nil_append, scanStr,
    hexVal_hexDigit (Nat.mod_lt _ (by omega : 16 > 0))]
  cases h <;> simp [e]

theorem scanStr_norm_u (s : Str) : scanStr .norm ('\\' :: 'u' :: s) = scanStr (.hex 0 0 none) s := by
  simp [scanStr]

theorem scanStr_hi_u (h : Nat) (s : Str) :
    scanStr (.hi h) ('\\' :: 'u' :: s) = scanStr (.hex 0 0 (some h)) s := by
  simp [scanStr]

theorem scanStr_escChar (c : Char) (r : Str) :
    scanStr .norm (escChar c ++ r) = (scanStr .norm r).map fun p => (c :: p.1, p.2) := by
  unfold escChar
  split
  · next h => subst h; simp [scanStr, simpleEsc]
  split
  · next h => subst h; simp [scanStr, simpleEsc]
  split
  · next h => subst h; simp [scanStr, simpleEsc]
  split
  · next h => subst h; simp [scanStr, simpleEsc]
  split
  · next h => subst h; simp [scanStr, simpleEsc]
  split
  · next h => subst h; simp [scanStr, simpleEsc]
  split
  · next h => subst h; simp [scanStr, simpleEsc]
  split
  · next h1 h2 _ _ _ _ _ h =>
    have : ¬ c.toNat ≤ 31 := by omega
    simp [scanStr, h1, h2, this]
  split
  · next h =>
    have hv := Char.valid_cases c
    simp only [List.cons_append]
    rw [scanStr_norm_u, scanStr_hex4 _ h]
    have h1 : ¬ (55296 ≤ c.toNat ∧ c.toNat < 56320) := by omega
    have h2 : ¬ (56320 ≤ c.toNat ∧ c.toNat < 57344) := by omega
    simp only [h1, h2, if_false, Char.ofNat_toNat]
  · next h =>
    have hv := Char.valid_cases c
    have hlt : c.toNat < 1114112 := by omega
    simp only [List.cons_append, List.append_assoc]
    have h1 : 55296 ≤ 55296 + (c.toNat - 65536) / 1024 ∧ 55296 + (c.toNat - 65536) / 1024 < 56320 := by
      omega
    have h2 : 56320 ≤ 56320 + (c.toNat - 65536) % 1024 ∧ 56320 + (c.toNat - 65536) % 1024 < 57344 := by
      omega
    have h3 : 65536 + (55296 + (c.toNat - 65536) / 1024 - 55296) * 1024
        + (56320 + (c.toNat - 65536) % 1024 - 56320) = c.toNat := by omega
    rw [scanStr_norm_u, scanStr_hex4 _ (by omega)]
    simp only [h1, and_self, if_true]
    rw [scanStr_hi_u, scanStr_hex4 _ (by omega)]
    simp only [h2, and_self, if_true, h3, Char.ofNat_toNat]

theorem scanStr_encStr (s rest : Str) :
    scanStr .norm (s.flatMap escChar ++ '"' :: rest) = some (s, rest) := by
  induction s with
  | nil => simp [scanStr]
  | cons c cs ih =>
    rw [List.flatMap_cons, List.append_assoc, scanStr_escChar, ih]; rfl

/-! ### Numbers -/

/-- What may follow a value inside serialised text. -/
def Delim (s : Str) : Prop := ∀ c, s.head? = some c → c = ',' ∨ c = '\n' ∨ c = ']' ∨ c = '}'

theorem Delim.nil : Delim [] := by intro c h; simp at h

theorem Delim.cons {c : Char} {r : Str} (h : c = ',' ∨ c = '\n' ∨ c = ']' ∨ c = '}') :
    Delim (c :: r) := by intro d hd; simp at hd; subst hd; exact h

theorem Delim.not_dig {c : Char} {r : Str} (h : Delim (c :: r)) : isDig c = false := by
  rcases h c rfl with h | h | h | h <;> subst h <;> decide

theorem spanDigits_delim {rest : Str} (h : Delim rest) : spanDigits rest = ([], rest) := by
  cases rest with
  | nil => rfl
  | cons c r => simp [spanDigits, h.not_dig]

theorem spanDigits_append (s rest : Str) (h : Delim rest) :
    spanDigits (s ++ rest) = ((spanDigits s).1, (spanDigits s).2 ++ rest) := by
  induction s with
  | nil => simp [spanDigits_delim h, spanDigits]
  | cons c cs ih =>
    simp only [List.cons_append, spanDigits, ih]
    split <;> simp

theorem spanFrac_append (s rest : Str) (h : Delim rest) :
    spanFrac (s ++ rest) = ((spanFrac s).1, (spanFrac s).2 ++ rest) := by
  cases s with
  | nil =>
    cases rest with
    | nil => rfl
    | cons c r =>
      have : c ≠ '.' := by
        rcases h c rfl with h | h | h | h <;> subst h <;> decide
      simp only [List.nil_append]
      unfold spanFrac
      split
      · next h' => simp at h'; exact absurd h'.1 this
      · simp
  | cons c cs =>
    by_cases hc : c = '.'
    · subst hc
      simp only [List.cons_append, spanFrac, spanDigits_append cs rest h]
      rcases h2 : spanDigits cs with ⟨a, b⟩
      cases a <;> simp
    · simp only [List.cons_append]
      unfold spanFrac
      split
      · next h' => simp at h'; exact absurd h'.1 hc
      · split
        · next h' => simp at h'; exact absurd h'.1 hc
        · simp

theorem spanSign_append (s rest : Str) (h : Delim rest) :
    spanSign (s ++ rest) = ((spanSign s).1, (spanSign s).2 ++ rest) := by
  cases s with
  | nil =>
    cases rest with
    | nil => rfl
    | cons c r =>
      rcases h c rfl with h | h | h | h <;> subst h <;> rfl
  | cons c cs =>
    simp only [List.cons_append]
    unfold spanSign
    split
    · next h' => simp at h'; obtain ⟨rfl, rfl⟩ := h'; simp
    · next h' => simp at h'; obtain ⟨rfl, rfl⟩ := h'; simp
    · next h1 h2 =>
      split
      · next h' => simp at h'; obtain ⟨rfl, rfl⟩ := h'; exact absurd rfl (h1 _)
      · next h' => simp at h'; obtain ⟨rfl, rfl⟩ := h'; exact absurd rfl (h2 _)
      · simp

theorem spanExp_append (s rest : Str) (h : Delim rest) :
    spanExp (s ++ rest) = ((spanExp s).1, (spanExp s).2 ++ rest) := by
  cases s with
  | nil =>
    cases rest with
    | nil => rfl
    | cons c r =>
      rcases h c rfl with h | h | h | h <;> subst h <;> rfl
  | cons c cs =>
    simp only [List.cons_append, spanExp]
    split
    · rw [spanSign_append cs rest h]
      simp only
      rw [spanDigits_append _ rest h]
      rcases h2 : spanDigits (spanSign cs).2 with ⟨a, b⟩
      cases a <;> simp
    · simp

theorem spanInt_append (s rest : Str) (h : Delim rest) {p : Str × Str} (hs : spanInt s = some p) :
    spanInt (s ++ rest) = some (p.1, p.2 ++ rest) := by
  unfold spanInt at hs
  split at hs
  · next c cs =>
    simp only [List.cons_append, spanInt]
    split at hs
    · next h0 => simp at hs; subst hs; simp [h0]
    · next h0 =>
      split at hs
      · next h1 => simp at hs; subst hs; simp [h0, h1, spanDigits_append _ _ h]
      · simp at hs
  · next c cs hne =>
    simp only [List.cons_append]
    unfold spanInt
    split at hs
    · next h0 => simp at hs; subst hs; subst h0; simp
    · next h0 =>
      split at hs
      · next h1 =>
        simp at hs; subst hs
        split
        · next h' => simp at h'; exact absurd h'.1 (isDig_ne_minus h1)
        · next h' =>
          simp at h'; obtain ⟨rfl, rfl⟩ := h'
          simp [h0, h1, spanDigits_append _ _ h]
        · next h' => simp at h'
      · simp at hs
  · simp at hs

theorem spanDigits_all (s : Str) (h : s.all isDig = true) : spanDigits s = (s, []) := by
  induction s with
  | nil => rfl
  | cons c cs ih =>
    simp at h
    simp [spanDigits, h.1, ih (by simpa using h.2)]

/-- Concatenating the parts of a number gives it back. -/
theorem spanDigits_eq (s : Str) : (spanDigits s).1 ++ (spanDigits s).2 = s := by
  induction s with
  | nil => rfl
  | cons c cs ih =>
    simp only [spanDigits]
    split
    · simp [ih]
    · simp

theorem spanFrac_eq (s : Str) : (spanFrac s).1 ++ (spanFrac s).2 = s := by
  unfold spanFrac
  split
  · next cs =>
    have := spanDigits_eq cs
    split
    · simp
    · next d r _ h => rw [h] at this; simpa using this
  · simp

theorem spanSign_eq (s : Str) : (spanSign s).1 ++ (spanSign s).2 = s := by
  unfold spanSign; split <;> simp

theorem spanExp_eq (s : Str) : (spanExp s).1 ++ (spanExp s).2 = s := by
  unfold spanExp
  split
  · next c cs =>
    split
    · have h1 := spanSign_eq cs
      have h2 := spanDigits_eq (spanSign cs).2
      split
      · simp
      · next d r _ h =>
        rw [h] at h2; simp only at h2
        simp only [List.cons_append, List.append_assoc, h2, h1]
    · simp
  · simp

theorem spanInt_eq (s : Str) {p : Str × Str} (h : spanInt s = some p) : p.1 ++ p.2 = s := by
  unfold spanInt at h
  split at h
  · next c cs =>
    split at h
    · next h0 => simp at h; subst h; simp [h0]
    · split at h
      · simp at h; subst h; simp [spanDigits_eq]
      · simp at h
  · split at h
    · next h0 => simp at h; subst h; simp [h0]
    · split at h
      · simp at h; subst h; simp [spanDigits_eq]
      · simp at h
  · simp at h

/-- The first digit of `str(n)` is 0 only for n = 0. -/
theorem natStr_head (n : Nat) : ∃ c r, natStr n = c :: r ∧ isDig c = true ∧ (c = '0' → r = []) := by
  induction n using natStr_induct with
  | case1 n h =>
    refine ⟨digitChar n, [], ?_, isDig_digitChar h, fun _ => rfl⟩
    rw [natStr_eq]; simp [h]
  | case2 n h ih =>
    obtain ⟨c, r, e, hd, h0⟩ := ih
    refine ⟨c, r ++ [digitChar (n % 10)], ?_, hd, ?_⟩
    · rw [natStr_eq, if_neg h, e]; rfl
    · intro hc
      have hr := h0 hc
      subst hc hr
      have : natStr (n / 10) = natStr 0 := by
        rw [e]; rw [natStr_eq]; simp [digitChar]
      have := natStr_inj this
      omega

theorem spanInt_natStr (n : Nat) : spanInt (natStr n) = some (natStr n, []) := by
  obtain ⟨c, r, e, hd, h0⟩ := natStr_head n
  have hall := natStr_all_isDig n
  rw [e] at hall ⊢
  simp at hall
  unfold spanInt
  split
  · next h => simp at h; exact absurd h.1 (isDig_ne_minus hd)
  · next h =>
    simp at h; obtain ⟨rfl, rfl⟩ := h
    split
    · next hc => simp [h0 hc, hc]
    · simp [spanDigits_all _ (by simpa using hall.2)]
  · next h => simp at h

theorem jsonInt_natStr (n : Nat) : jsonInt (natStr n) = n := by
  unfold jsonInt
  split
  · next h => exact absurd h (natStr_head_ne_minus n _)
  · rw [digitsVal_natStr]

theorem spanInt_intStr (i : Int) : spanInt (intStr i) = some (intStr i, []) := by
  cases i with
  | ofNat n => exact spanInt_natStr n
  | negSucc n =>
    obtain ⟨c, r, e, hd, h0⟩ := natStr_head (n + 1)
    have hall := natStr_all_isDig (n + 1)
    simp only [intStr]
    rw [e] at hall ⊢
    simp at hall
    simp only [spanInt]
    split
    · next hc => simp [h0 hc, hc]
    · simp [spanDigits_all _ (by simpa using hall.2)]

theorem jsonInt_intStr (i : Int) : jsonInt (intStr i) = i := by
  cases i with
  | ofNat n => exact jsonInt_natStr n
  | negSucc n => simp [intStr, jsonInt, digitsVal_natStr, Int.negSucc_eq]

theorem spanFrac_nil : spanFrac [] = ([], []) := rfl
theorem spanExp_nil : spanExp [] = ([], []) := rfl

theorem parseNum_intStr [PyRuntime] (i : Int) (rest : Str) (h : Delim rest) :
    parseNum (intStr i ++ rest) = some (.int i, rest) := by
  unfold parseNum
  rw [spanInt_append _ _ h (spanInt_intStr i)]
  have e1 : spanFrac rest = ([], rest) := by
    have := spanFrac_append [] rest h; simpa [spanFrac_nil] using this
  have e2 : spanExp rest = ([], rest) := by
    have := spanExp_append [] rest h; simpa [spanExp_nil] using this
  simp [e1, e2, jsonInt_intStr]

theorem parseNum_float [PyRuntime] (f : PyRuntime.F) (rest : Str) (h : Delim rest) :
    parseNum (PyRuntime.floatRepr f ++ rest) = some (.flt (.fin f), rest) := by
  have hj := PyRuntime.floatRepr_json f
  unfold isJsonFloat at hj
  unfold parseNum
  cases hi : spanInt (PyRuntime.floatRepr f) with
  | none => rw [hi] at hj; simp at hj
  | some p =>
    obtain ⟨i, r⟩ := p
    rw [hi] at hj
    simp only [Bool.and_eq_true] at hj
    rw [spanInt_append _ _ h hi]
    simp only
    rw [spanFrac_append _ _ h]
    simp only
    rw [spanExp_append _ _ h]
    simp only
    obtain ⟨h1, h2⟩ := hj
    have e1 := spanInt_eq _ hi
    have e2 := spanFrac_eq r
    have e3 := spanExp_eq (spanFrac r).2
    simp only at e1
    have h1' : (spanExp (spanFrac r).2).2 = [] := by simpa using h1
    rw [h1', List.append_nil] at e3
    have : i ++ (spanFrac r).1 ++ (spanExp (spanFrac r).2).1 = PyRuntime.floatRepr f := by
      rw [e3, List.append_assoc, e2, e1]
    have hne : ((spanFrac r).1.isEmpty && (spanExp (spanFrac r).2).1.isEmpty) = false := by
      simpa only [Bool.not_eq_true'] using h2
    rw [this, hne, PyRuntime.floatOfStr_repr, h1']
    simp

end WG
