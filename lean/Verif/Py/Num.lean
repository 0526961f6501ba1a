/-
`str(int)` and `int(str)`.

Simplification: CPython's 4300-digit limit on int/str conversions (added in 3.10.7) is not
modelled; the repo's CI asks for "3.10" without a patch level.
-/
import Verif.Py.Basic

namespace WG

/-- The digit character of `d < 10`. -/
def digitChar (d : Nat) : Char := Char.ofNat (48 + d)

/-- `str(n)` for a natural number, with fuel (`n` divisions by ten are always enough). -/
def natStrAux : Nat → Nat → Str
  | 0, n => [digitChar n]
  | f + 1, n => if n < 10 then [digitChar n] else natStrAux f (n / 10) ++ [digitChar (n % 10)]

/-- `str(n)` for a natural number. -/
def natStr (n : Nat) : Str := natStrAux n n

/-- `str(i)`. -/
def intStr : Int → Str
  | .ofNat n => natStr n
  | .negSucc n => '-' :: natStr (n + 1)

/-- Value of an ASCII digit. -/
def digVal (c : Char) : Nat := c.toNat - 48

/-- Value of a string of ASCII digits. -/
def digitsVal (s : Str) : Nat := s.foldl (fun a c => 10 * a + digVal c) 0

/-- Value of a decimal digit character (ASCII or Unicode). -/
def decVal [PyRuntime] (c : Char) : Option Nat :=
  if isAscii c then (if isDig c then some (digVal c) else none) else PyRuntime.uDigit c

/-- White space skipped by `int()`: `\t\n\v\f\r` and space, and Unicode spaces. -/
def isIntSpace [PyRuntime] (c : Char) : Bool :=
  if isAscii c then (9 ≤ c.toNat && c.toNat ≤ 13) || c.toNat == 32 else PyRuntime.uSpace c

/-- Digits with single underscores between them; `under` says that the last character was an
underscore (or nothing has been read), so a digit must follow. -/
def intBody [PyRuntime] (acc : Nat) (under : Bool) : Str → Option Nat
  | [] => if under then none else some acc
  | c :: cs =>
    match decVal c with
    | some d => intBody (10 * acc + d) false cs
    | none => if c == '_' && !under then intBody acc true cs else none

/-- `int(s)`; `none` is ValueError. -/
def pyInt [PyRuntime] (s : Str) : Option Int :=
  match stripP isIntSpace s with
  | '-' :: r => (intBody 0 true r).map fun n => - (n : Int)
  | '+' :: r => (intBody 0 true r).map fun n => (n : Int)
  | r => (intBody 0 true r).map fun n => (n : Int)

/-! ### Basic facts -/

theorem natStrAux_fuel (f g n : Nat) (hf : n ≤ f) (hg : n ≤ g) : natStrAux f n = natStrAux g n := by
  induction f generalizing g n with
  | zero =>
    have : n = 0 := by omega
    subst this
    cases g <;> simp [natStrAux]
  | succ f ih =>
    cases g with
    | zero =>
      have : n = 0 := by omega
      subst this
      simp [natStrAux]
    | succ g =>
      simp only [natStrAux]
      split
      · rfl
      · rw [ih g (n / 10) (by omega) (by omega)]

theorem natStr_eq (n : Nat) :
    natStr n = if n < 10 then [digitChar n] else natStr (n / 10) ++ [digitChar (n % 10)] := by
  unfold natStr
  cases n with
  | zero => simp [natStrAux]
  | succ n =>
    simp only [natStrAux]
    split
    · rfl
    · rw [natStrAux_fuel n ((n + 1) / 10) _ (by omega) (by omega)]

theorem natStr_induct {motive : Nat → Prop} (case1 : ∀ n, n < 10 → motive n)
    (case2 : ∀ n, ¬ n < 10 → motive (n / 10) → motive n) (n : Nat) : motive n := by
  induction n using Nat.strongRecOn with
  | _ n ih =>
    by_cases h : n < 10
    · exact case1 n h
    · exact case2 n h (ih _ (by omega))

theorem natStr_ne_nil (n : Nat) : natStr n ≠ [] := by
  rw [natStr_eq]; split <;> simp

theorem digitChar_toNat {d : Nat} (h : d < 10) : (digitChar d).toNat = 48 + d := by
  revert d; decide

theorem isDig_digitChar {d : Nat} (h : d < 10) : isDig (digitChar d) = true := by
  revert d; decide

theorem digVal_digitChar {d : Nat} (h : d < 10) : digVal (digitChar d) = d := by
  revert d; decide

theorem natStr_all_isDig (n : Nat) : (natStr n).all isDig = true := by
  induction n using natStr_induct with
  | case1 n h => rw [natStr_eq]; simp [h, isDig_digitChar]
  | case2 n h ih =>
    rw [natStr_eq]
    simp only [if_neg h, List.all_append, ih, List.all_cons, List.all_nil, Bool.true_and, Bool.and_true]
    exact isDig_digitChar (Nat.mod_lt _ (by omega))

theorem digitsVal_append (a : Str) (c : Char) : digitsVal (a ++ [c]) = 10 * digitsVal a + digVal c := by
  simp [digitsVal]

theorem digitsVal_natStr (n : Nat) : digitsVal (natStr n) = n := by
  induction n using natStr_induct with
  | case1 n h => rw [natStr_eq]; simp [h, digitsVal, digVal_digitChar h]
  | case2 n h ih =>
    rw [natStr_eq]
    rw [if_neg h, digitsVal_append, ih, digVal_digitChar (Nat.mod_lt _ (by omega))]
    omega

theorem natStr_inj {a b : Nat} (h : natStr a = natStr b) : a = b := by
  rw [← digitsVal_natStr a, ← digitsVal_natStr b, h]

theorem isDig_ne_minus {c : Char} (h : isDig c = true) : c ≠ '-' := by
  intro e; subst e; simp [isDig] at h

theorem natStr_head_ne_minus (n : Nat) (s : Str) : natStr n ≠ '-' :: s := by
  intro h
  have := natStr_all_isDig n
  rw [h] at this
  simp [isDig] at this

theorem intStr_inj {a b : Int} (h : intStr a = intStr b) : a = b := by
  cases a <;> cases b <;> simp only [intStr] at h
  · exact congrArg _ (natStr_inj h)
  · exact absurd h (natStr_head_ne_minus _ _)
  · exact absurd h.symm (natStr_head_ne_minus _ _)
  · simp only [List.cons.injEq, true_and] at h
    have := natStr_inj h
    congr 1; omega

theorem intStr_ne_nil (i : Int) : intStr i ≠ [] := by
  cases i <;> simp [intStr, natStr_ne_nil]

/-! ### `int(str(i)) = i` -/

theorem isDig_isAscii {c : Char} (h : isDig c = true) : isAscii c = true := by
  simp only [isDig, Bool.and_eq_true, decide_eq_true_eq] at h
  simp only [isAscii, decide_eq_true_eq]
  have h2 : c.toNat ≤ '9'.toNat := h.2
  have : '9'.toNat = 57 := rfl
  omega

theorem isDig_toNat {c : Char} (h : isDig c = true) : 48 ≤ c.toNat ∧ c.toNat ≤ 57 := by
  simp only [isDig, Bool.and_eq_true, decide_eq_true_eq] at h
  exact ⟨h.1, h.2⟩

theorem isIntSpace_of_isDig [PyRuntime] {c : Char} (h : isDig c = true) : isIntSpace c = false := by
  have h1 := isDig_toNat h
  have h2 := isDig_isAscii h
  simp only [isIntSpace, h2, if_true]
  simp; omega

theorem decVal_of_isDig [PyRuntime] {c : Char} (h : isDig c = true) : decVal c = some (digVal c) := by
  simp [decVal, isDig_isAscii h, h]

theorem intBody_digits [PyRuntime] (s : Str) (hs : s.all isDig = true) (acc : Nat) (u : Bool)
    (hne : u = true → s ≠ []) :
    intBody acc u s = some (s.foldl (fun a c => 10 * a + digVal c) acc) := by
  induction s generalizing acc u with
  | nil =>
    cases u
    · simp [intBody]
    · exact absurd rfl (hne rfl)
  | cons c cs ih =>
    simp only [List.all_cons, Bool.and_eq_true] at hs
    simp only [intBody, decVal_of_isDig hs.1, List.foldl_cons]
    exact ih hs.2 _ _ (by simp)

theorem dropWhile_head {α} (p : α → Bool) (a : α) (l : List α) (h : p a = false) :
    (a :: l).dropWhile p = a :: l := by simp [h]

/-- Stripping does nothing if first and last characters are not stripped. -/
theorem stripP_id (p : Char → Bool) (s : Str) (h1 : ∀ c, s.head? = some c → p c = false)
    (h2 : ∀ c, s.getLast? = some c → p c = false) : stripP p s = s := by
  have e1 : lstripP p s = s := by
    cases s with
    | nil => rfl
    | cons a l => exact dropWhile_head p a l (h1 a rfl)
  rw [stripP, e1, rstripP]
  cases hr : s.reverse with
  | nil => simp at hr; simp [hr]
  | cons a l =>
    have : s = (a :: l).reverse := by rw [← hr, List.reverse_reverse]
    have ha : p a = false := h2 a (by rw [this]; simp)
    rw [dropWhile_head p a l ha, ← this]

theorem head_all {p : Char → Bool} {s : Str} (h : s.all p = true) (c : Char)
    (hc : s.head? = some c) : p c = true := by
  cases s with
  | nil => simp at hc
  | cons a l => simp at hc; subst hc; simp at h; exact h.1

theorem getLast_all {p : Char → Bool} {s : Str} (h : s.all p = true) (c : Char)
    (hc : s.getLast? = some c) : p c = true := by
  have : c ∈ s := List.mem_of_getLast? hc
  exact List.all_eq_true.mp h c this

theorem pyInt_digits [PyRuntime] (s : Str) (hs : s.all isDig = true) (hne : s ≠ []) :
    pyInt s = some (digitsVal s : Int) := by
  have e : stripP isIntSpace s = s :=
    stripP_id _ _ (fun c hc => isIntSpace_of_isDig (head_all hs c hc))
      (fun c hc => isIntSpace_of_isDig (getLast_all hs c hc))
  have hb := intBody_digits s hs 0 true (fun _ => hne)
  cases s with
  | nil => exact absurd rfl hne
  | cons a l =>
    have ha : isDig a = true := by simp at hs; exact hs.1
    have h1 : a ≠ '-' := isDig_ne_minus ha
    have h2 : a ≠ '+' := by intro h; subst h; simp [isDig] at ha
    unfold pyInt
    rw [e]
    split
    · rename_i h; simp at h; exact absurd h.1 h1
    · rename_i h; simp at h; exact absurd h.1 h2
    · rw [hb]; rfl

theorem isIntSpace_minus [PyRuntime] : isIntSpace '-' = false := by
  simp [isIntSpace, isAscii]

theorem pyInt_intStr [PyRuntime] (i : Int) : pyInt (intStr i) = some i := by
  cases i with
  | ofNat n =>
    simp only [intStr]
    rw [pyInt_digits _ (natStr_all_isDig n) (natStr_ne_nil n), digitsVal_natStr]; rfl
  | negSucc n =>
    have hd := natStr_all_isDig (n+1)
    have e : stripP isIntSpace ('-' :: natStr (n+1)) = '-' :: natStr (n+1) := by
      apply stripP_id
      · intro c hc; simp at hc; subst hc; exact isIntSpace_minus
      · intro c hc
        have : (natStr (n+1)).getLast? = some c := by
          rw [List.getLast?_cons_of_ne_nil (natStr_ne_nil _)] at hc; exact hc
        exact isIntSpace_of_isDig (getLast_all hd c this)
    simp only [intStr, pyInt, e]
    rw [intBody_digits _ hd 0 true (fun _ => natStr_ne_nil _)]
    have := digitsVal_natStr (n+1)
    simp only [digitsVal] at this
    simp [this, Int.negSucc_eq]

end WG
