/-
Specification for C105: the texts that are JSON (RFC 8259, with Python's NaN and Infinity) and what they stand for, and the texts that are
integers for `int()`.  The grammars are written down as such; they do not mention the readers.
-/
import Verif.Spec.Literal

namespace WG
variable [PyRuntime]

/-! ### Numbers -/

/-- The ten digits, with their values. -/
def tenDigits : List (Char × Nat) := c!"0123456789".zip [0, 1, 2, 3, 4, 5, 6, 7, 8, 9]

/-- The number with these decimal places. -/
def base10 : List Nat → Nat
  | [] => 0
  | d :: ds => d * 10 ^ ds.length + base10 ds

/-- One or more digits, with the number they stand for. -/
def DigitsText (n : Nat) (t : Str) : Prop := ∃ ds : List (Char × Nat), (∀ x ∈ ds, x ∈ tenDigits) ∧ t = ds.map Prod.fst ∧
  n = base10 (ds.map Prod.snd) ∧ ds ≠ []

/-- No zero in front of other digits. -/
def NoLeadingZero (t : Str) : Prop := t = c!"0" ∨ t.head? ≠ some '0'

/-- A minus or nothing. -/
def minus (neg : Bool) : Str := if neg then c!"-" else []

/-- The fraction of a number, or nothing. -/
def FracText (t : Str) : Prop := t = [] ∨ ∃ n d, DigitsText n d ∧ t = '.' :: d

/-- The exponent of a number, or nothing. -/
def ExpText (t : Str) : Prop := t = [] ∨ ∃ (n : Nat) (e : Char) (s d : Str), (e = 'e' ∨ e = 'E') ∧ (s = [] ∨ s = c!"+" ∨ s = c!"-") ∧
  DigitsText n d ∧ t = e :: (s ++ d)

/-! ### Strings -/

/-- The hexadecimal digits with their values. -/
def sixteenDigits : List (Char × Nat) :=
  c!"0123456789abcdefABCDEF".zip [0, 1, 2, 3, 4, 5, 6, 7, 8, 9, 10, 11, 12, 13, 14, 15, 10, 11, 12, 13, 14, 15]

/-- Four hexadecimal digits with their value. -/
def HexText (n : Nat) (t : Str) : Prop := ∃ a ∈ sixteenDigits, ∃ b ∈ sixteenDigits, ∃ c ∈ sixteenDigits, ∃ d ∈ sixteenDigits,
  t = [a.1, b.1, c.1, d.1] ∧ n = a.2 * 4096 + b.2 * 256 + c.2 * 16 + d.2

/-- What may stand behind a backslash, and what it means. -/
def escapes : List (Char × Char) := [('"', '"'), ('\\', '\\'), ('/', '/'), ('b', '\x08'), ('f', '\x0c'), ('n', '\n'), ('r', '\r'), ('t', '\t')]

/-- A string and a text for it (without the quotation marks).  A character above U+FFFF can be written as a pair of surrogates; halves of
pairs are outside the model. -/
inductive StrText : Str → Str → Prop
  | nil : StrText [] []
  | plain {c : Char} {s t : Str} : c ≠ '"' → c ≠ '\\' → 32 ≤ c.toNat → StrText s t → StrText (c :: s) (c :: t)
  | esc {x : Char × Char} {s t : Str} : x ∈ escapes → StrText s t → StrText (x.2 :: s) ('\\' :: x.1 :: t)
  | code {n : Nat} {h s t : Str} : HexText n h → ¬ (0xD800 ≤ n ∧ n < 0xE000) → StrText s t →
      StrText (Char.ofNat n :: s) ('\\' :: 'u' :: (h ++ t))
  | pair {n m : Nat} {h l s t : Str} : HexText n h → HexText m l → 0xD800 ≤ n → n < 0xDC00 → 0xDC00 ≤ m → m < 0xE000 → StrText s t →
      StrText (Char.ofNat (0x10000 + (n - 0xD800) * 1024 + (m - 0xDC00)) :: s) ('\\' :: 'u' :: (h ++ '\\' :: 'u' :: (l ++ t)))

/-! ### Values -/

/-- White space. -/
def Blank (w : Str) : Prop := ∀ c ∈ w, c ∈ c!" \t\n\r"

/-- The different names, in the order in which they first occur. -/
def firstNames : List Str → List Str
  | [] => []
  | k :: ks => k :: (firstNames ks).filter (· ≠ k)

/-- The dict that comes of these members: every name once, with its last value. -/
def Collects (l : List (Str × V)) (d : Dict V) : Prop := d.map Prod.fst = firstNames (l.map Prod.fst) ∧ ∀ x ∈ d, lastValue x.1 l = some x.2

/-- A value, the elements of a list, the members of an object. -/
inductive JThing where
  | val (v : V)
  | elems (l : List V)
  | members (l : List (Str × V))

/-- The text stands for the thing. -/
inductive JsonText : JThing → Str → Prop
  | null : JsonText (.val .none) c!"null"
  | true : JsonText (.val (.bool true)) c!"true"
  | false : JsonText (.val (.bool false)) c!"false"
  | nan : JsonText (.val (.flt .nan)) c!"NaN"
  | infinity : JsonText (.val (.flt (.inf Bool.false))) c!"Infinity"
  | minusInfinity : JsonText (.val (.flt (.inf Bool.true))) c!"-Infinity"
  | int {n : Nat} {d : Str} (neg : Bool) : DigitsText n d → NoLeadingZero d → JsonText (.val (.int (if neg then -(n : Int) else n))) (minus neg ++ d)
  | float {n : Nat} {d f e : Str} {x : PyFloat PyRuntime.F} (neg : Bool) : DigitsText n d → NoLeadingZero d → FracText f → ExpText e →
      f ++ e ≠ [] → PyRuntime.floatOfStr (minus neg ++ d ++ f ++ e) = some x → JsonText (.val (.flt x)) (minus neg ++ d ++ f ++ e)
  | str {s t : Str} : StrText s t → JsonText (.val (.str s)) ('"' :: (t ++ c!"\""))
  | emptyList {w : Str} : Blank w → JsonText (.val (.list [])) ('[' :: (w ++ c!"]"))
  | list {l : List V} {t : Str} : JsonText (.elems l) t → JsonText (.val (.list l)) ('[' :: (t ++ c!"]"))
  | emptyObject {w : Str} : Blank w → JsonText (.val (.dict [])) ('{' :: (w ++ c!"}"))
  | object {l : List (Str × V)} {d : Dict V} {t : Str} : JsonText (.members l) t → Collects l d →
      JsonText (.val (.dict d)) ('{' :: (t ++ c!"}"))
  | lastElem {v : V} {t w w' : Str} : JsonText (.val v) t → Blank w → Blank w' → JsonText (.elems [v]) (w ++ t ++ w')
  | elem {v : V} {l : List V} {t u w w' : Str} : JsonText (.val v) t → Blank w → Blank w' → JsonText (.elems l) u →
      JsonText (.elems (v :: l)) (w ++ t ++ w' ++ ',' :: u)
  | lastMember {k k' : Str} {v : V} {t w w1 w2 w' : Str} : StrText k k' → JsonText (.val v) t → Blank w → Blank w1 → Blank w2 → Blank w' →
      JsonText (.members [(k, v)]) (w ++ '"' :: (k' ++ '"' :: (w1 ++ ':' :: (w2 ++ t ++ w'))))
  | member {k k' : Str} {v : V} {l : List (Str × V)} {t u w w1 w2 w' : Str} : StrText k k' → JsonText (.val v) t → Blank w → Blank w1 →
      Blank w2 → Blank w' → JsonText (.members l) u →
      JsonText (.members ((k, v) :: l)) (w ++ '"' :: (k' ++ '"' :: (w1 ++ ':' :: (w2 ++ t ++ w' ++ ',' :: u))))

/-- The contents of a file that is JSON: one value, white space around it. -/
def JsonFile (v : V) (s : Str) : Prop := ∃ w t w', Blank w ∧ Blank w' ∧ JsonText (.val v) t ∧ s = w ++ t ++ w'

/-! ### Integers -/

/-- The character is a digit with this value, an ASCII one or another one of Unicode. -/
def DigitIs (c : Char) (d : Nat) : Prop := (c, d) ∈ tenDigits ∨ (128 ≤ c.toNat ∧ PyRuntime.uDigit c = some d)

/-- Digits, between two of them perhaps an underscore. -/
inductive IntDigits : List Nat → Str → Prop
  | one {c : Char} {d : Nat} : DigitIs c d → IntDigits [d] [c]
  | next {c : Char} {d : Nat} {ds : List Nat} {t : Str} : DigitIs c d → IntDigits ds t → IntDigits (d :: ds) (c :: t)
  | under {c : Char} {d : Nat} {ds : List Nat} {t : Str} : DigitIs c d → IntDigits ds t → IntDigits (d :: ds) (c :: '_' :: t)

/-- White space for `int()`. -/
def IntBlank (w : Str) : Prop := ∀ c ∈ w, c ∈ c!" \t\n\r\x0b\x0c" ∨ (128 ≤ c.toNat ∧ PyRuntime.uSpace c = true)

/-- The text is an integer for `int()`. -/
def IntText (n : Int) (s : Str) : Prop := ∃ ds w sign t w', IntBlank w ∧ IntBlank w' ∧ IntDigits ds t ∧ s = w ++ sign ++ t ++ w' ∧
  ((sign = [] ∨ sign = c!"+") ∧ n = base10 ds ∨ sign = c!"-" ∧ n = -(base10 ds : Int))

end WG
