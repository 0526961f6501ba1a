/-
A concrete Python runtime.  It shows that the assumptions of `PyRuntime` are satisfiable, and
concrete examples and counterexamples are evaluated in it.

Floats are represented by their literals; no character above ASCII is a letter, digit or space;
`literal_eval` knows one text outside the list subset: `[1j]`, a list holding a complex number.
-/
import Verif.Py.Basic

namespace WG

/-- A float literal without superfluous leading zeros. -/
def dropZeros : Str → Str
  | '0' :: c :: s => if isDig c then dropZeros (c :: s) else '0' :: c :: s
  | s => s

/-- Floats of the demo runtime: JSON float literals. -/
def DemoF : Type := { s : Str // isJsonFloat s = true }

instance : DecidableEq DemoF := fun a b => decidable_of_iff (a.1 = b.1) Subtype.ext_iff.symm

instance : Repr DemoF := ⟨fun a _ => repr (String.ofList a.1)⟩

/-- `float(s)` of the demo runtime. -/
def demoFloat (s : Str) : Option (PyFloat DemoF) :=
  if h : isJsonFloat s = true then some (.fin ⟨s, h⟩)
  else if h : isJsonFloat (dropZeros s) = true then some (.fin ⟨dropZeros s, h⟩)
  else if h : s.getLast? = some '.' ∧ isJsonFloat (dropZeros (s ++ ['0'])) = true then some (.fin ⟨dropZeros (s ++ ['0']), h.2⟩)
  else none

theorem dropZeros_decimal (a b : Str) (ha : a ≠ []) (hb : b ≠ []) (da : a.all isDig = true)
    (db : b.all isDig = true) : isJsonFloat (dropZeros (a ++ '.' :: b)) = true := by
  have spanAll : ∀ (x : Str), x.all isDig = true → spanDigits x = (x, []) := by
    intro x hx
    induction x with
    | nil => rfl
    | cons c x ih =>
      simp at hx
      simp [spanDigits, hx.1, ih (by simpa using hx.2)]
  have spanDot : ∀ (x y : Str), x.all isDig = true → spanDigits (x ++ '.' :: y) = (x, '.' :: y) := by
    intro x y hx
    induction x with
    | nil => simp [spanDigits, isDig]
    | cons c x ih =>
      simp at hx
      simp [spanDigits, hx.1, ih (by simpa using hx.2)]
  have frac : spanFrac ('.' :: b) = ('.' :: b, []) := by
    simp only [spanFrac]
    rw [spanAll b db]
    cases b with
    | nil => simp at hb
    | cons => rfl
  induction a with
  | nil => simp at ha
  | cons c a ih =>
    simp at da
    have da' : a.all isDig = true := by simpa using da.2
    have hm : c ≠ '-' := by intro e; subst e; simp [isDig] at da
    cases a with
    | nil =>
      by_cases hc : c = '0'
      · subst hc
        simp [dropZeros, isDig, isJsonFloat, spanInt, frac, spanExp]
      · have e : dropZeros ([c] ++ '.' :: b) = c :: '.' :: b := by
          simp [dropZeros, hc]
        rw [e]
        have : spanInt (c :: '.' :: b) = some ([c], '.' :: b) := by
          unfold spanInt
          split
          · next h => simp at h; exact absurd h.1 hm
          · next h =>
            simp only [List.cons.injEq] at h
            obtain ⟨rfl, rfl⟩ := h
            have := spanDot [] b rfl
            rw [List.nil_append] at this
            rw [if_neg hc, if_pos da.1, this]
          · next h => simp at h
        simp [isJsonFloat, this, frac, spanExp]
    | cons d a =>
      by_cases hc : c = '0'
      · subst hc
        have hd : isDig d = true := by
          rw [List.all_cons, Bool.and_eq_true] at da'
          exact da'.1
        simp only [List.cons_append, dropZeros, hd, if_true]
        exact ih (by simp) da'
      · have e : dropZeros (c :: d :: a ++ '.' :: b) = c :: (d :: a ++ '.' :: b) := by
          simp [dropZeros, hc]
        rw [e]
        have : spanInt (c :: (d :: a ++ '.' :: b)) = some (c :: d :: a, '.' :: b) := by
          unfold spanInt
          split
          · next h => simp at h; exact absurd h.1 hm
          · next h => 
            simp only [List.cons.injEq] at h
            obtain ⟨rfl, rfl⟩ := h
            rw [if_neg hc, if_pos da.1, spanDot (d :: a) b da']
          · next h => simp at h
        unfold isJsonFloat
        rw [this]
        simp [frac, spanExp]

/-- The demo runtime. -/
@[instance_reducible] def demoRuntime : PyRuntime where
  uWord _ := false
  uSpace _ := false
  uWord_uSpace _ h := by simp at h
  uSpace_kelvin := rfl
  uDigit _ := none
  uDigit_uWord _ h := by simp at h
  uUpper _ := false
  uLower _ := false
  uLowerMap c := [c]
  F := DemoF
  decF := inferInstance
  floatOfStr := demoFloat
  floatRepr f := f.1
  floatRepr_json f := f.2
  floatOfStr_repr f := by
    unfold demoFloat
    rw [dif_pos f.2]
    rfl
  floatOfStr_decimal a b ha hb da db := by
    unfold demoFloat
    split
    · rfl
    · rw [dif_pos (dropZeros_decimal a b ha hb da db)]; rfl
  literalEvalOther s := if s = c!"[1j]" then .ok (.list [.opq 0]) else .error .syntaxError
  literalEvalOther_wf s v h := by
    split at h
    · simp at h; subst h; simp [Val.WF, Val.WFList]
    · simp at h
  literalEvalOther_chars s v h := by
    split at h
    · simp at h; subst h; simp [Val.strings, Val.stringsList]
    · simp at h
  literalEvalOther_list s v _ _ h := by
    split at h
    · simp at h; exact ⟨_, h.symm⟩
    · simp at h
  fnmatchOther _ _ := false

/-- A timestamp for the examples. -/
def demoTime : DemoF := ⟨c!"1700000000.5", by decide⟩

/-- A later time. -/
def demoLater : DemoF := ⟨c!"1700009999.5", by decide⟩

end WG
