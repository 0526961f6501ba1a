/-
Specification for C111: the text that `json.dump(v, file, indent=4)` writes, as Python documents it, and what is left of it if a value cannot be
written.
-/
import Verif.Spec.JsonText

namespace WG

/-- The digits of hexadecimal numbers as Python writes them. -/
def smallHex : List (Char × Nat) := c!"0123456789abcdef".zip [0, 1, 2, 3, 4, 5, 6, 7, 8, 9, 10, 11, 12, 13, 14, 15]

/-- Four digits with their value. -/
def SmallHexText (n : Nat) (t : Str) : Prop := ∃ a ∈ smallHex, ∃ b ∈ smallHex, ∃ c ∈ smallHex, ∃ d ∈ smallHex,
  t = [a.1, b.1, c.1, d.1] ∧ n = a.2 * 4096 + b.2 * 256 + c.2 * 16 + d.2

/-- The characters with an escape of their own. -/
def ownEscape : List (Char × Char) := [('"', '"'), ('\\', '\\'), ('\n', 'n'), ('\r', 'r'), ('\t', 't'), ('\u000c', 'f'), ('\u0008', 'b')]

/-- How a character is written: as itself from blank to tilde, otherwise with an escape; above U+FFFF as a pair of surrogates. -/
inductive CharText : Char → Str → Prop
  | own {x : Char × Char} : x ∈ ownEscape → CharText x.1 ['\\', x.2]
  | plain {c : Char} : 32 ≤ c.toNat → c.toNat ≤ 126 → c ≠ '"' → c ≠ '\\' → CharText c [c]
  | code {c : Char} {h : Str} : c.toNat < 32 ∨ 126 < c.toNat → (∀ x ∈ ownEscape, x.1 ≠ c) → SmallHexText c.toNat h → CharText c ('\\' :: 'u' :: h)
  | pair {c : Char} {m n : Nat} {h l : Str} : SmallHexText (0xD800 + m) h → SmallHexText (0xDC00 + n) l → m < 0x400 → n < 0x400 →
      c.toNat = 0x10000 + m * 0x400 + n → CharText c ('\\' :: 'u' :: (h ++ '\\' :: 'u' :: l))

/-- The characters one after the other. -/
inductive CharsText : Str → Str → Prop
  | nil : CharsText [] []
  | cons {c : Char} {s t u : Str} : CharText c t → CharsText s u → CharsText (c :: s) (t ++ u)

/-- A string in quotation marks. -/
def QuotedText (s t : Str) : Prop := ∃ u, CharsText s u ∧ t = '"' :: (u ++ ['"'])

/-- An integer without leading zeros; there is no negative zero. -/
def DecimalText (i : Int) (t : Str) : Prop := ∃ n d, DigitsText n d ∧ NoLeadingZero d ∧ ((i = n ∧ t = d) ∨ (n ≠ 0 ∧ i = -n ∧ t = '-' :: d))

/-- A new line with four blanks for each level. -/
def newLine (k : Nat) : Str := '\n' :: List.replicate (4 * k) ' '

variable [PyRuntime]

mutual
/-- The text of a value that starts on a line of level `k`.  Elements and members each have a line of their own, one level deeper, with commas
between them; nothing is between the brackets of an empty list or dict. -/
inductive Printed : Nat → V → Str → Prop
  | null {k} : Printed k .none c!"null"
  | yes {k} : Printed k (.bool true) c!"true"
  | no {k} : Printed k (.bool false) c!"false"
  | int {k i t} : DecimalText i t → Printed k (.int i) t
  | fin {k f} : Printed k (.flt (.fin f)) (PyRuntime.floatRepr f)
  | infinity {k} : Printed k (.flt (.inf false)) c!"Infinity"
  | minusInfinity {k} : Printed k (.flt (.inf true)) c!"-Infinity"
  | nan {k} : Printed k (.flt .nan) c!"NaN"
  | str {k s t} : QuotedText s t → Printed k (.str s) t
  | emptyList {k} : Printed k (.list []) c!"[]"
  | list {k l ts} : l ≠ [] → PrintedList (k + 1) l ts →
      Printed k (.list l) (c!"[" ++ newLine (k + 1) ++ (',' :: newLine (k + 1)).intercalate ts ++ newLine k ++ c!"]")
  | emptyDict {k} : Printed k (.dict []) c!"{}"
  | dict {k d ts} : d ≠ [] → PrintedDict (k + 1) d ts →
      Printed k (.dict d) (c!"{" ++ newLine (k + 1) ++ (',' :: newLine (k + 1)).intercalate ts ++ newLine k ++ c!"}")
/-- The texts of the elements. -/
inductive PrintedList : Nat → List V → List Str → Prop
  | nil {k} : PrintedList k [] []
  | cons {k x l t ts} : Printed k x t → PrintedList k l ts → PrintedList k (x :: l) (t :: ts)
/-- The texts of the members. -/
inductive PrintedDict : Nat → List (Str × V) → List Str → Prop
  | nil {k} : PrintedDict k [] []
  | cons {k key x d q t ts} : QuotedText key q → Printed k x t → PrintedDict k d ts → PrintedDict k ((key, x) :: d) ((q ++ c!": " ++ t) :: ts)
end

mutual
/-- `w` is `v` with any values instead of those that JSON has no text for. -/
inductive Filled : V → V → Prop
  | opq {n x} : Filled (.opq n) x
  | null : Filled .none .none
  | bool {b} : Filled (.bool b) (.bool b)
  | int {i} : Filled (.int i) (.int i)
  | flt {f} : Filled (.flt f) (.flt f)
  | str {s} : Filled (.str s) (.str s)
  | list {l m} : FilledList l m → Filled (.list l) (.list m)
  | dict {d e} : FilledDict d e → Filled (.dict d) (.dict e)
/-- The same for the elements. -/
inductive FilledList : List V → List V → Prop
  | nil : FilledList [] []
  | cons {x y l m} : Filled x y → FilledList l m → FilledList (x :: l) (y :: m)
/-- The same for the members. -/
inductive FilledDict : List (Str × V) → List (Str × V) → Prop
  | nil : FilledDict [] []
  | cons {k x y d e} : Filled x y → FilledDict d e → FilledDict ((k, x) :: d) ((k, y) :: e)
end

end WG
