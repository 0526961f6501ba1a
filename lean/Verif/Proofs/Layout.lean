/-
Lemmas for C111: the encoder writes exactly the text of the layout.
-/
import Verif.Spec.Layout
import Verif.Proofs.JsonText
import Verif.Proofs.Literal
set_option linter.unusedSectionVars false

namespace WG

/-! ### Strings -/

theorem smallHex_digit : ∀ x ∈ smallHex, hexDigit x.2 = x.1 ∧ x.2 < 16 := by decide

theorem hexDigit_mem : ∀ m < 16, (hexDigit m, m) ∈ smallHex := by decide

theorem hex4_text {n : Nat} (h : n < 65536) : SmallHexText n (hex4 n) :=
  ⟨_, hexDigit_mem (n / 4096 % 16) (by omega), _, hexDigit_mem (n / 256 % 16) (by omega), _, hexDigit_mem (n / 16 % 16) (by omega), _,
    hexDigit_mem (n % 16) (by omega), rfl, by simp only; omega⟩

theorem hex4_unique {n : Nat} {t : Str} (h : SmallHexText n t) : t = hex4 n ∧ n < 65536 := by
  obtain ⟨a, ha, b, hb, c, hc, d, hd, rfl, rfl⟩ := h
  obtain ⟨a1, a2⟩ := smallHex_digit a ha
  obtain ⟨b1, b2⟩ := smallHex_digit b hb
  obtain ⟨c1, c2⟩ := smallHex_digit c hc
  obtain ⟨d1, d2⟩ := smallHex_digit d hd
  refine ⟨?_, by omega⟩
  rw [hex4, ← a1, ← b1, ← c1, ← d1]
  congr 1
  · congr 1; omega
  · congr 1
    · congr 1; omega
    · congr 1
      · congr 1; omega
      · congr 2; omega

theorem escChar_text (c : Char) : CharText c (escChar c) := by
  unfold escChar
  split
  · next h => subst h; exact .own (x := ('"', '"')) (by decide)
  · next q1 =>
    split
    · next h => subst h; exact .own (x := ('\\', '\\')) (by decide)
    · next q2 =>
      split
      · next h => subst h; exact .own (x := ('\n', 'n')) (by decide)
      · next q3 =>
        split
        · next h => subst h; exact .own (x := ('\r', 'r')) (by decide)
        · next q4 =>
          split
          · next h => subst h; exact .own (x := ('\t', 't')) (by decide)
          · next q5 =>
            split
            · next h => subst h; exact .own (x := ('\u000c', 'f')) (by decide)
            · next q6 =>
              split
              · next h => subst h; exact .own (x := ('\u0008', 'b')) (by decide)
              · next q7 =>
                split
                · next h => exact .plain h.1 h.2 q1 q2
                · next h =>
                  split
                  · next hl =>
                    refine .code (by omega) ?_ (hex4_text hl)
                    intro x hx
                    simp only [ownEscape, List.mem_cons, List.not_mem_nil, or_false] at hx
                    rcases hx with rfl | rfl | rfl | rfl | rfl | rfl | rfl <;> simp only <;> intro e <;> simp [← e] at q1 q2 q3 q4 q5 q6 q7
                  · next hl =>
                    have hc : c.toNat < 0x110000 := by
                      have := c.valid
                      simp only [UInt32.isValidChar, Nat.isValidChar] at this
                      show c.val.toNat < _
                      omega
                    exact .pair (m := (c.toNat - 65536) / 1024) (n := (c.toNat - 65536) % 1024) (hex4_text (by omega)) (hex4_text (by omega))
                      (by omega) (by omega) (by omega)

theorem escChar_eq {c : Char} {t : Str} (h : CharText c t) : t = escChar c := by
  cases h with
  | own h =>
    rename_i x
    have : ∀ x ∈ ownEscape, ['\\', x.2] = escChar x.1 := by decide
    exact this x h
  | plain h1 h2 h3 h4 =>
    have ne : ∀ d : Char, d.toNat < 32 → c ≠ d := by
      rintro d hd rfl
      omega
    simp only [escChar, h3, h4, if_false, ne '\n' (by decide), ne '\r' (by decide), ne '\t' (by decide), ne '\x0c' (by decide), ne '\x08' (by decide), h1, h2,
      and_self, if_true]
  | code h1 h2 h3 =>
    obtain ⟨rfl, h4⟩ := hex4_unique h3
    have ne : ∀ d e : Char, (d, e) ∈ ownEscape → c ≠ d := fun d e hd hc => h2 _ hd hc.symm
    have hr : ¬ (32 ≤ c.toNat ∧ c.toNat ≤ 126) := by omega
    simp only [escChar, ne '"' '"' (by decide), ne '\\' '\\' (by decide), ne '\n' 'n' (by decide), ne '\r' 'r' (by decide), ne '\t' 't' (by decide),
      ne '\x0c' 'f' (by decide), ne '\x08' 'b' (by decide), if_false, hr, h4, if_true]
  | pair h1 h2 h3 h4 h5 =>
    obtain ⟨rfl, -⟩ := hex4_unique h1
    obtain ⟨rfl, -⟩ := hex4_unique h2
    have ne : ∀ d : Char, d.toNat < 65536 → c ≠ d := by
      rintro d hd rfl
      omega
    have hr : ¬ (32 ≤ c.toNat ∧ c.toNat ≤ 126) := by omega
    have hl : ¬ c.toNat < 65536 := by omega
    simp only [escChar, ne '"' (by decide), ne '\\' (by decide), ne '\n' (by decide), ne '\r' (by decide), ne '\t' (by decide), ne '\x0c' (by decide),
      ne '\x08' (by decide), if_false, hr, hl]
    rename_i m n
    have e1 : (c.toNat - 65536) / 1024 = m := by omega
    have e2 : (c.toNat - 65536) % 1024 = n := by omega
    rw [e1, e2]

theorem charsText_iff {s t : Str} : CharsText s t ↔ t = s.flatMap escChar := by
  constructor
  · intro h
    induction h with
    | nil => rfl
    | cons h _ ih => rw [escChar_eq h, ih]; rfl
  · rintro rfl
    induction s with
    | nil => exact .nil
    | cons c s ih => exact .cons (escChar_text c) ih

theorem quotedText_iff {s t : Str} : QuotedText s t ↔ t = encStr s := by
  simp only [QuotedText, charsText_iff, encStr]
  constructor
  · rintro ⟨u, rfl, rfl⟩; rfl
  · rintro rfl; exact ⟨_, rfl, rfl⟩

/-! ### Numbers -/

theorem digitsVal_snoc (t : Str) (c : Char) : digitsVal (t ++ [c]) = 10 * digitsVal t + digVal c := by
  simp [digitsVal]

theorem digitChar_digVal {c : Char} (h : isDig c = true) : digitChar (digVal c) = c ∧ digVal c < 10 := by
  have h' := digit_iff.1 h
  have : ∀ x ∈ tenDigits, digitChar x.2 = x.1 ∧ x.2 < 10 := by decide
  exact this _ h'

theorem natStr_digitsVal [PyRuntime] (d : Str) (hd : d.all isDig = true) (hne : d ≠ []) (hz : NoLeadingZero d) : natStr (digitsVal d) = d := by
  induction d using list_reverse_rec with
  | nil => exact absurd rfl hne
  | snoc t c ih =>
    simp only [List.all_append, List.all_cons, List.all_nil, Bool.and_true, Bool.and_eq_true] at hd
    obtain ⟨e1, e2⟩ := digitChar_digVal hd.2
    rw [digitsVal_snoc]
    cases t with
    | nil =>
      rw [natStr_eq, if_pos (by simpa [digitsVal] using e2)]
      simp [digitsVal, e1]
    | cons x t =>
      have hx : x ≠ '0' := by
        rcases hz with hz | hz
        · simp at hz
        · simpa using hz
      have hz' : NoLeadingZero (x :: t) := .inr (by simpa using hx)
      have ih' := ih hd.1 (by simp) hz'
      have hpos : digitsVal (x :: t) ≠ 0 := by
        intro h0
        rw [h0] at ih'
        have : natStr 0 = c!"0" := rfl
        rw [this] at ih'
        simp at ih'
        exact hx ih'.1.symm
      rw [natStr_eq, if_neg (by omega)]
      have d1 : (10 * digitsVal (x :: t) + digVal c) / 10 = digitsVal (x :: t) := by omega
      have d2 : (10 * digitsVal (x :: t) + digVal c) % 10 = digVal c := by omega
      rw [d1, d2, ih', e1]

theorem natStr_digitsText [PyRuntime] (n : Nat) : DigitsText n (natStr n) ∧ NoLeadingZero (natStr n) := by
  constructor
  · have := digitsText_of (natStr_all_isDig n) (natStr_ne_nil n)
    rwa [digitsVal_natStr] at this
  · by_cases h : n = 0
    · subst h; exact .inl rfl
    · exact .inr fun h' => h (natStr_head_zero n h')

theorem decimalText_iff [PyRuntime] {i : Int} {t : Str} : DecimalText i t ↔ t = intStr i := by
  constructor
  · rintro ⟨n, d, h1, h2, ⟨rfl, rfl⟩ | ⟨h3, rfl, rfl⟩⟩
    · obtain ⟨a, b, rfl⟩ := h1.inv
      exact (natStr_digitsVal t a b h2).symm
    · obtain ⟨a, b, rfl⟩ := h1.inv
      obtain ⟨m, hm⟩ := Nat.exists_eq_succ_of_ne_zero h3
      have : (-(digitsVal d : Int)) = .negSucc m := by rw [hm]; rfl
      rw [this, intStr, ← Nat.succ_eq_add_one, ← hm, natStr_digitsVal d a b h2]
  · rintro rfl
    cases i with
    | ofNat n => exact ⟨n, _, (natStr_digitsText n).1, (natStr_digitsText n).2, .inl ⟨rfl, rfl⟩⟩
    | negSucc n => exact ⟨n + 1, _, (natStr_digitsText (n + 1)).1, (natStr_digitsText (n + 1)).2, .inr ⟨by simp, rfl, rfl⟩⟩

/-! ### Values -/

theorem newLine_eq (k : Nat) : newLine k = nl k := rfl

theorem intercalate_cons (sep t : Str) (ts : List Str) : sep.intercalate (t :: ts) = t ++ ts.flatMap (sep ++ ·) := by
  induction ts generalizing t with
  | nil => simp [List.intercalate]
  | cons u ts ih =>
    have := ih u
    simp only [List.intercalate] at this
    simp [List.intercalate, this]

variable [PyRuntime]

mutual
theorem printed_emit (k : Nat) : (v : V) → (t : Str) → Printed k v t → emit k v = (t, true)
  | .none, _, h => by cases h; rfl
  | .bool b, _, h => by cases h <;> rfl
  | .int i, _, h => by cases h with | int h => rw [decimalText_iff.1 h]; rfl
  | .flt f, _, h => by cases h <;> rfl
  | .str s, _, h => by cases h with | str h => rw [quotedText_iff.1 h]; rfl
  | .opq _, _, h => by cases h
  | .list l, _, h => by
    cases h with
    | emptyList => rfl
    | list hl h =>
      cases h with
      | nil => exact absurd rfl hl
      | cons h1 h2 =>
        rw [emit, printed_emit (k + 1) _ _ h1, printedList_emit (k + 1) _ _ h2, intercalate_cons]
        simp [Emitted.andThen, emitText, newLine_eq]
  | .dict d, _, h => by
    cases h with
    | emptyDict => rfl
    | dict hl h =>
      cases h with
      | nil => exact absurd rfl hl
      | cons hq h1 h2 =>
        rw [emit, printed_emit (k + 1) _ _ h1, printedDict_emit (k + 1) _ _ h2, intercalate_cons, quotedText_iff.1 hq]
        simp [Emitted.andThen, emitText, newLine_eq]
theorem printedList_emit (k : Nat) : (l : List V) → (ts : List Str) → PrintedList k l ts →
    emitElems k l = (ts.flatMap ((',' :: newLine k) ++ ·), true)
  | [], _, h => by cases h; rfl
  | x :: l, _, h => by
    cases h with
    | cons h1 h2 =>
      rw [emitElems, printed_emit k _ _ h1, printedList_emit k _ _ h2]
      simp [Emitted.andThen, emitText, newLine_eq]
theorem printedDict_emit (k : Nat) : (d : List (Str × V)) → (ts : List Str) → PrintedDict k d ts →
    emitMembers k d = (ts.flatMap ((',' :: newLine k) ++ ·), true)
  | [], _, h => by cases h; rfl
  | (key, x) :: l, _, h => by
    cases h with
    | cons hq h1 h2 =>
      rw [emitMembers, printed_emit k _ _ h1, printedDict_emit k _ _ h2, quotedText_iff.1 hq]
      simp [Emitted.andThen, emitText, newLine_eq]
end

theorem andThen_done {a b : Emitted} : (a.andThen b).2 = true ↔ a.2 = true ∧ b.2 = true := by
  unfold Emitted.andThen
  split
  · next h => simp [h]
  · next h => simp [h]

mutual
theorem emit_printed (k : Nat) : (v : V) → (emit k v).2 = true → ∃ t, Printed k v t
  | .none, _ => ⟨_, .null⟩
  | .bool true, _ => ⟨_, .yes⟩
  | .bool false, _ => ⟨_, .no⟩
  | .int i, _ => ⟨_, .int (decimalText_iff.2 rfl)⟩
  | .flt (.fin f), _ => ⟨_, .fin⟩
  | .flt (.inf false), _ => ⟨_, .infinity⟩
  | .flt (.inf true), _ => ⟨_, .minusInfinity⟩
  | .flt .nan, _ => ⟨_, .nan⟩
  | .str s, _ => ⟨_, .str (quotedText_iff.2 rfl)⟩
  | .opq _, h => by cases h
  | .list [], _ => ⟨_, .emptyList⟩
  | .list (x :: xs), h => by
    rw [emit] at h
    simp only [andThen_done] at h
    obtain ⟨t, ht⟩ := emit_printed (k + 1) x h.2.1
    obtain ⟨ts, hts⟩ := emitElems_printed (k + 1) xs h.2.2.1
    exact ⟨_, .list (by simp) (.cons ht hts)⟩
  | .dict [], _ => ⟨_, .emptyDict⟩
  | .dict ((key, x) :: xs), h => by
    rw [emit] at h
    simp only [andThen_done] at h
    obtain ⟨t, ht⟩ := emit_printed (k + 1) x h.2.1
    obtain ⟨ts, hts⟩ := emitMembers_printed (k + 1) xs h.2.2.1
    exact ⟨_, .dict (by simp) (.cons (quotedText_iff.2 rfl) ht hts)⟩
theorem emitElems_printed (k : Nat) : (l : List V) → (emitElems k l).2 = true → ∃ ts, PrintedList k l ts
  | [], _ => ⟨_, .nil⟩
  | x :: xs, h => by
    rw [emitElems] at h
    simp only [andThen_done] at h
    obtain ⟨t, ht⟩ := emit_printed k x h.2.1
    obtain ⟨ts, hts⟩ := emitElems_printed k xs h.2.2
    exact ⟨_, .cons ht hts⟩
theorem emitMembers_printed (k : Nat) : (d : List (Str × V)) → (emitMembers k d).2 = true → ∃ ts, PrintedDict k d ts
  | [], _ => ⟨_, .nil⟩
  | (key, x) :: xs, h => by
    rw [emitMembers] at h
    simp only [andThen_done] at h
    obtain ⟨t, ht⟩ := emit_printed k x h.2.1
    obtain ⟨ts, hts⟩ := emitMembers_printed k xs h.2.2
    exact ⟨_, .cons (quotedText_iff.2 rfl) ht hts⟩
end

theorem printed_iff {k : Nat} {v : V} {t : Str} : Printed k v t ↔ emit k v = (t, true) := by
  refine ⟨printed_emit k v t, fun h => ?_⟩
  obtain ⟨t', ht'⟩ := emit_printed k v (by rw [h])
  have := printed_emit k v t' ht'
  rw [h] at this
  cases this
  exact ht'

/-! ### Cut short -/

/-- The output `a` is the beginning of the output `b`, all of it if it is complete. -/
def BeginsOut (a b : Emitted) : Prop := a.1 <+: b.1 ∧ (a.2 = true → b = a)

theorem BeginsOut.text (t : Str) : BeginsOut (emitText t) (emitText t) := ⟨List.prefix_refl _, fun _ => rfl⟩

theorem BeginsOut.andThen {a b a' b' : Emitted} (h : BeginsOut a b) (h' : BeginsOut a' b') : BeginsOut (a.andThen a') (b.andThen b') := by
  obtain ⟨a, x⟩ := a
  obtain ⟨b, y⟩ := b
  cases x with
  | true =>
    have := h.2 rfl
    cases this
    obtain ⟨a', x'⟩ := a'
    obtain ⟨h1, h2⟩ := h'
    refine ⟨?_, ?_⟩
    · simpa [Emitted.andThen] using h1
    · intro hx
      have := h2 hx
      rw [this]
  | false =>
    refine ⟨?_, fun h => by cases h⟩
    have h1 : a <+: b := h.1
    unfold Emitted.andThen
    simp only [Bool.false_eq_true, if_false]
    split
    · exact h1.trans (List.prefix_append ..)
    · exact h1

mutual
theorem filled_begins (k : Nat) : (v w : V) → Filled v w → BeginsOut (emit k v) (emit k w)
  | .opq _, _, _ => ⟨List.nil_prefix, fun h => by cases h⟩
  | .none, _, h => by cases h; exact .text _
  | .bool b, _, h => by cases h; exact ⟨List.prefix_refl _, fun _ => rfl⟩
  | .int i, _, h => by cases h; exact .text _
  | .flt f, _, h => by cases h; exact .text _
  | .str s, _, h => by cases h; exact .text _
  | .list [], _, h => by cases h with | list h => cases h; exact .text _
  | .list (x :: xs), _, h => by
    cases h with
    | list h =>
      cases h with
      | cons h1 h2 =>
        rw [emit, emit]
        exact (BeginsOut.text _).andThen ((filled_begins (k + 1) _ _ h1).andThen ((filledList_begins (k + 1) _ _ h2).andThen (.text _)))
  | .dict [], _, h => by cases h with | dict h => cases h; exact .text _
  | .dict ((key, x) :: xs), _, h => by
    cases h with
    | dict h =>
      cases h with
      | cons h1 h2 =>
        rw [emit, emit]
        exact (BeginsOut.text _).andThen ((filled_begins (k + 1) _ _ h1).andThen ((filledDict_begins (k + 1) _ _ h2).andThen (.text _)))
theorem filledList_begins (k : Nat) : (l m : List V) → FilledList l m → BeginsOut (emitElems k l) (emitElems k m)
  | [], _, h => by cases h; exact .text _
  | x :: xs, _, h => by
    cases h with
    | cons h1 h2 =>
      rw [emitElems, emitElems]
      exact (BeginsOut.text _).andThen ((filled_begins k _ _ h1).andThen (filledList_begins k _ _ h2))
theorem filledDict_begins (k : Nat) : (d e : List (Str × V)) → FilledDict d e → BeginsOut (emitMembers k d) (emitMembers k e)
  | [], _, h => by cases h; exact .text _
  | (key, x) :: xs, _, h => by
    cases h with
    | cons h1 h2 =>
      rw [emitMembers, emitMembers]
      exact (BeginsOut.text _).andThen ((filled_begins k _ _ h1).andThen (filledDict_begins k _ _ h2))
end

mutual
/-- All values without a text replaced by one truth value. -/
def fillBool (b : Bool) : V → V
  | .opq _ => .bool b
  | .list l => .list (fillBoolList b l)
  | .dict d => .dict (fillBoolDict b d)
  | v => v
/-- The same for the elements. -/
def fillBoolList (b : Bool) : List V → List V
  | [] => []
  | x :: xs => fillBool b x :: fillBoolList b xs
/-- The same for the members. -/
def fillBoolDict (b : Bool) : List (Str × V) → List (Str × V)
  | [] => []
  | (k, x) :: xs => (k, fillBool b x) :: fillBoolDict b xs
end

mutual
theorem fillBool_filled (b : Bool) : (v : V) → Filled v (fillBool b v)
  | .opq _ => .opq
  | .none => .null
  | .bool _ => .bool
  | .int _ => .int
  | .flt _ => .flt
  | .str _ => .str
  | .list l => by rw [fillBool]; exact .list (fillBoolList_filled b l)
  | .dict d => by rw [fillBool]; exact .dict (fillBoolDict_filled b d)
theorem fillBoolList_filled (b : Bool) : (l : List V) → FilledList l (fillBoolList b l)
  | [] => .nil
  | x :: xs => .cons (fillBool_filled b x) (fillBoolList_filled b xs)
theorem fillBoolDict_filled (b : Bool) : (d : List (Str × V)) → FilledDict d (fillBoolDict b d)
  | [] => .nil
  | (_, x) :: xs => .cons (fillBool_filled b x) (fillBoolDict_filled b xs)
end

/-- The complete output `b` goes on behind the output `a` with this character, if `a` is not complete. -/
def GoesOn (c : Char) (a b : Emitted) : Prop := b.2 = true ∧ (a.2 = true → b = a) ∧ (a.2 = false → ∃ r, b.1 = a.1 ++ c :: r)

theorem GoesOn.text (c : Char) (t : Str) : GoesOn c (emitText t) (emitText t) := ⟨rfl, fun _ => rfl, fun h => by cases h⟩

theorem GoesOn.andThen {c : Char} {a b a' b' : Emitted} (h : GoesOn c a b) (h' : GoesOn c a' b') : GoesOn c (a.andThen a') (b.andThen b') := by
  obtain ⟨a, x⟩ := a
  obtain ⟨b, y⟩ := b
  obtain ⟨a', x'⟩ := a'
  obtain ⟨b', y'⟩ := b'
  obtain ⟨h1, h2, h3⟩ := h
  obtain ⟨h1', h2', h3'⟩ := h'
  simp only at h1 h1' h2 h2' h3 h3'
  subst h1 h1'
  cases x with
  | true =>
    cases h2 rfl
    refine ⟨rfl, ?_, ?_⟩
    · intro hx
      have hx : x' = true := hx
      rw [h2' hx]
    · intro hx
      have hx : x' = false := hx
      obtain ⟨r, rfl⟩ := h3' hx
      exact ⟨r, by simp [Emitted.andThen]⟩
  | false =>
    refine ⟨rfl, (fun h => by cases h), fun _ => ?_⟩
    obtain ⟨r, rfl⟩ := h3 rfl
    exact ⟨r ++ b', by simp [Emitted.andThen]⟩

/-- The first character of a truth value. -/
def boolChar (b : Bool) : Char := if b then 't' else 'f'

mutual
theorem fillBool_goesOn (b : Bool) (k : Nat) : (v : V) → GoesOn (boolChar b) (emit k v) (emit k (fillBool b v))
  | .opq _ => by
    refine ⟨by cases b <;> rfl, (fun h => by cases h), fun _ => ?_⟩
    cases b
    · exact ⟨c!"alse", rfl⟩
    · exact ⟨c!"rue", rfl⟩
  | .none => .text _ _
  | .bool true => .text _ _
  | .bool false => .text _ _
  | .int _ => .text _ _
  | .flt _ => .text _ _
  | .str _ => .text _ _
  | .list [] => .text _ _
  | .list (x :: xs) => by
    rw [fillBool, fillBoolList, emit, emit]
    exact (GoesOn.text _ _).andThen ((fillBool_goesOn b (k + 1) x).andThen ((fillBoolList_goesOn b (k + 1) xs).andThen (.text _ _)))
  | .dict [] => .text _ _
  | .dict ((key, x) :: xs) => by
    rw [fillBool, fillBoolDict, emit, emit]
    exact (GoesOn.text _ _).andThen ((fillBool_goesOn b (k + 1) x).andThen ((fillBoolDict_goesOn b (k + 1) xs).andThen (.text _ _)))
theorem fillBoolList_goesOn (b : Bool) (k : Nat) : (l : List V) → GoesOn (boolChar b) (emitElems k l) (emitElems k (fillBoolList b l))
  | [] => .text _ _
  | x :: xs => by
    rw [fillBoolList, emitElems, emitElems]
    exact (GoesOn.text _ _).andThen ((fillBool_goesOn b k x).andThen (fillBoolList_goesOn b k xs))
theorem fillBoolDict_goesOn (b : Bool) (k : Nat) : (d : List (Str × V)) → GoesOn (boolChar b) (emitMembers k d) (emitMembers k (fillBoolDict b d))
  | [] => .text _ _
  | (key, x) :: xs => by
    rw [fillBoolDict, emitMembers, emitMembers]
    exact (GoesOn.text _ _).andThen ((fillBool_goesOn b k x).andThen (fillBoolDict_goesOn b k xs))
end

end WG
