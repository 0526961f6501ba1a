/-
Specification for C106: what Python documents about its strings and dicts, as far as /repo uses them.  Characters below 128 are listed.
-/
import Verif.Py.Basic

namespace WG

/-! ### Characters -/

/-- The upper-case letters of ASCII and the lower-case letters that belong to them. -/
def letterPairs : List (Char × Char) := c!"ABCDEFGHIJKLMNOPQRSTUVWXYZ".zip c!"abcdefghijklmnopqrstuvwxyz"

/-- A character that is white space: for `str.strip` and for `\s`. -/
def SpaceChar [PyRuntime] (c : Char) : Prop := c ∈ c!" \t\n\r\x0b\x0c\x1c\x1d\x1e\x1f" ∨ (128 ≤ c.toNat ∧ PyRuntime.uSpace c = true)

/-- A character for `\w`. -/
def WordChar [PyRuntime] (c : Char) : Prop :=
  (∃ x ∈ letterPairs, c = x.1 ∨ c = x.2) ∨ c ∈ c!"0123456789_" ∨ (128 ≤ c.toNat ∧ PyRuntime.uWord c = true)

/-- A character for `\d`. -/
def DecimalChar [PyRuntime] (c : Char) : Prop := c ∈ c!"0123456789" ∨ (128 ≤ c.toNat ∧ (PyRuntime.uDigit c).isSome = true)

/-- Characters beyond ASCII that a regular expression takes for an ASCII letter if case is ignored. -/
def strangeLetters : List (Char × Char) := [('i', '\u0130'), ('i', '\u0131'), ('k', '\u212a'), ('s', '\u017f')]

/-- The small letter, the capital letter, or one of the strange ones. -/
def SameLetter (l c : Char) : Prop := c = l ∨ (c, l) ∈ letterPairs ∨ (l, c) ∈ strangeLetters

/-- A capital letter. -/
def CapitalChar [PyRuntime] (c : Char) : Prop := (∃ x ∈ letterPairs, c = x.1) ∨ (128 ≤ c.toNat ∧ PyRuntime.uUpper c = true)

/-- A small letter. -/
def SmallChar [PyRuntime] (c : Char) : Prop := (∃ x ∈ letterPairs, c = x.2) ∨ (128 ≤ c.toNat ∧ PyRuntime.uLower c = true)

/-! ### Texts -/

/-- `t` is `s` without the characters of a kind at both ends. -/
def Stripped (P : Char → Prop) (s t : Str) : Prop := ∃ w w', (∀ c ∈ w, P c) ∧ (∀ c ∈ w', P c) ∧ s = w ++ t ++ w' ∧
  (∀ c, t.head? = some c → ¬ P c) ∧ (∀ c, t.getLast? = some c → ¬ P c)

/-- `t` occurs in `s`. -/
def Occurs (t s : Str) : Prop := ∃ a b, s = a ++ t ++ b

/-- `s` is the list of pieces with the separator between them. -/
inductive Joined (sep : Char) : List Str → Str → Prop
  | one {w : Str} : Joined sep [w] w
  | more {w s : Str} {l : List Str} : Joined sep l s → Joined sep (w :: l) (w ++ sep :: s)

/-- `l` is `s` cut at each separator. -/
def Cut (sep : Char) (s : Str) (l : List Str) : Prop := Joined sep l s ∧ ∀ w ∈ l, sep ∉ w

/-- `t` is `s` with `new` in the place of each `old`: the first one is replaced and what is behind it goes on in the same way. -/
inductive Replaced (old new : Str) : Str → Str → Prop
  | none {s : Str} : ¬ Occurs old s → Replaced old new s s
  | first {a r t : Str} : (∀ a' b', a ++ old ++ r = a' ++ old ++ b' → a.length ≤ a'.length) → Replaced old new r t →
      Replaced old new (a ++ old ++ r) (a ++ new ++ t)

/-- `t` is the small-letter form of `s`: letter by letter. -/
inductive Lowered [PyRuntime] : Str → Str → Prop
  | nil : Lowered [] []
  | capital {x : Char × Char} {s t : Str} : x ∈ letterPairs → Lowered s t → Lowered (x.1 :: s) (x.2 :: t)
  | ascii {c : Char} {s t : Str} : c.toNat < 128 → (∀ x ∈ letterPairs, c ≠ x.1) → Lowered s t → Lowered (c :: s) (c :: t)
  | other {c : Char} {s t : Str} : 128 ≤ c.toNat → Lowered s t → Lowered (c :: s) (PyRuntime.uLowerMap c ++ t)

/-! ### Dicts -/

/-- The dict has this value under the key. -/
def EntryOf {α : Type} (d : Dict α) (k : Str) (v : α) : Prop := ∃ a b, d = a ++ (k, v) :: b ∧ ∀ x ∈ a, x.1 ≠ k

/-- `d'` is `d` after `d[k] = v`: a new entry is last, an old one keeps its place. -/
def Assigned {α : Type} (d : Dict α) (k : Str) (v : α) (d' : Dict α) : Prop :=
  (∃ a b old, d = a ++ (k, old) :: b ∧ (∀ x ∈ a, x.1 ≠ k) ∧ d' = a ++ (k, v) :: b) ∨ ((∀ x ∈ d, x.1 ≠ k) ∧ d' = d ++ [(k, v)])

/-- `d'` is `d` after these assignments, one after the other. -/
inductive AssignedAll {α : Type} : Dict α → List (Str × α) → Dict α → Prop
  | nil {d : Dict α} : AssignedAll d [] d
  | cons {d d' d'' : Dict α} {k : Str} {v : α} {l : List (Str × α)} : Assigned d k v d' → AssignedAll d' l d'' → AssignedAll d ((k, v) :: l) d''

end WG
