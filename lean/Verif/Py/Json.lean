/-
`json.dump(obj, fh, indent=4)` and `json.load(fh)` on text.

Encoder: Lib/json/encoder.py `_make_iterencode` (the pure Python encoder is used whenever
`indent` is given), `ensure_ascii=True`.  Values `json` cannot serialise (`Val.opq`) stop the
output with a TypeError after everything before them has been written.
Decoder: Lib/json/decoder.py and scanner.py (`strict=True`).  Simplifications: escapes of lone
surrogates, which the encoder never produces for model strings, are decode errors; Python's
recursion limit is not modelled.
-/
import Verif.Py.Num

namespace WG

/-! ### Encoder -/

/-- Lower-case hexadecimal digit. -/
def hexDigit (d : Nat) : Char := if d < 10 then Char.ofNat (48 + d) else Char.ofNat (87 + d)

/-- `'{0:04x}'.format(n)`. -/
def hex4 (n : Nat) : Str :=
  [hexDigit (n / 4096 % 16), hexDigit (n / 256 % 16), hexDigit (n / 16 % 16), hexDigit (n % 16)]

/-- One character of `py_encode_basestring_ascii`. -/
def escChar (c : Char) : Str :=
  if c = '"' then ['\\', '"']
  else if c = '\\' then ['\\', '\\']
  else if c = '\n' then ['\\', 'n']
  else if c = '\r' then ['\\', 'r']
  else if c = '\t' then ['\\', 't']
  else if c = '\x0c' then ['\\', 'f']
  else if c = '\x08' then ['\\', 'b']
  else if 32 ≤ c.toNat ∧ c.toNat ≤ 126 then [c]
  else if c.toNat < 65536 then '\\' :: 'u' :: hex4 c.toNat
  else '\\' :: 'u' :: (hex4 (55296 + (c.toNat - 65536) / 1024)
    ++ '\\' :: 'u' :: hex4 (56320 + (c.toNat - 65536) % 1024))

/-- A JSON string literal. -/
def encStr (s : Str) : Str := '"' :: (s.flatMap escChar ++ ['"'])

/-- Newline and indentation of level `k`. -/
def nl (k : Nat) : Str := '\n' :: List.replicate (4 * k) ' '

/-- Output produced so far, and whether the encoder got to the end (`false`: TypeError). -/
abbrev Emitted := Str × Bool

/-- Continue with `b` only if `a` completed. -/
def Emitted.andThen (a b : Emitted) : Emitted := if a.2 then (a.1 ++ b.1, b.2) else a

/-- Text that is always written completely. -/
def emitText (s : Str) : Emitted := (s, true)

/-- JSON text of a float. -/
def floatText [PyRuntime] : PyFloat PyRuntime.F → Str
  | .fin f => PyRuntime.floatRepr f
  | .inf false => c!"Infinity"
  | .inf true => c!"-Infinity"
  | .nan => c!"NaN"

mutual
/-- `_iterencode(o, level)`. -/
def emit [PyRuntime] (k : Nat) : V → Emitted
  | .none => emitText c!"null"
  | .bool true => emitText c!"true"
  | .bool false => emitText c!"false"
  | .int i => emitText (intStr i)
  | .flt f => emitText (floatText f)
  | .str s => emitText (encStr s)
  | .list [] => emitText c!"[]"
  | .list (x :: xs) =>
    (emitText ('[' :: nl (k + 1))).andThen
      ((emit (k + 1) x).andThen ((emitElems (k + 1) xs).andThen (emitText (nl k ++ [']']))))
  | .dict [] => emitText c!"{}"
  | .dict ((key, x) :: xs) =>
    (emitText ('{' :: (nl (k + 1) ++ encStr key ++ [':', ' ']))).andThen
      ((emit (k + 1) x).andThen ((emitMembers (k + 1) xs).andThen (emitText (nl k ++ ['}']))))
  | .opq _ => ([], false)
/-- The remaining list elements, each preceded by the separator. -/
def emitElems [PyRuntime] (k : Nat) : List V → Emitted
  | [] => emitText []
  | x :: xs => (emitText (',' :: nl k)).andThen ((emit k x).andThen (emitElems k xs))
/-- The remaining dict members, each preceded by the separator. -/
def emitMembers [PyRuntime] (k : Nat) : List (Str × V) → Emitted
  | [] => emitText []
  | (key, x) :: xs =>
    (emitText (',' :: (nl k ++ encStr key ++ [':', ' ']))).andThen
      ((emit k x).andThen (emitMembers k xs))
end

/-- `json.dump(v, fh, indent=4)`: the text written and whether it completed. -/
def jsonDump [PyRuntime] (v : V) : Emitted := emit 0 v

/-! ### Decoder -/

/-- JSON white space. -/
def isJsonWs (c : Char) : Bool := c == ' ' || c == '\t' || c == '\n' || c == '\r'

/-- Skip white space. -/
def skipWs (s : Str) : Str := s.dropWhile isJsonWs

/-- Value of a hexadecimal digit. -/
def hexVal (c : Char) : Option Nat :=
  if '0' ≤ c ∧ c ≤ '9' then some (c.toNat - 48)
  else if 'a' ≤ c ∧ c ≤ 'f' then some (c.toNat - 87)
  else if 'A' ≤ c ∧ c ≤ 'F' then some (c.toNat - 55)
  else none

/-- The character of a backslash escape other than `\u`. -/
def simpleEsc (c : Char) : Option Char :=
  if c = '"' then some '"' else if c = '\\' then some '\\' else if c = '/' then some '/'
  else if c = 'b' then some '\x08' else if c = 'f' then some '\x0c' else if c = 'n' then some '\n'
  else if c = 'r' then some '\r' else if c = 't' then some '\t' else none

/-- States of the string scanner. -/
inductive ScanSt where
  | norm
  | esc
  /-- reading hex digit number `k`, value so far, pending high surrogate -/
  | hex (k : Nat) (acc : Nat) (hi : Option Nat)
  /-- high surrogate read, `\` must follow -/
  | hi (h : Nat)
  /-- high surrogate and `\` read, `u` must follow -/
  | hi2 (h : Nat)

/-- `scanstring`: the contents up to the closing quote and the rest after it. -/
def scanStr : ScanSt → Str → Option (Str × Str)
  | _, [] => none
  | .norm, c :: r =>
    if c = '"' then some ([], r)
    else if c = '\\' then scanStr .esc r
    else if c.toNat ≤ 31 then none
    else (scanStr .norm r).map fun p => (c :: p.1, p.2)
  | .esc, c :: r =>
    if c = 'u' then scanStr (.hex 0 0 none) r
    else match simpleEsc c with
      | some d => (scanStr .norm r).map fun p => (d :: p.1, p.2)
      | none => none
  | .hex k acc h, c :: r =>
    match hexVal c with
    | none => none
    | some d =>
      if k < 3 then scanStr (.hex (k + 1) (16 * acc + d) h) r
      else match h with
        | none =>
          if 55296 ≤ 16 * acc + d ∧ 16 * acc + d < 56320 then scanStr (.hi (16 * acc + d)) r
          else if 56320 ≤ 16 * acc + d ∧ 16 * acc + d < 57344 then none
          else (scanStr .norm r).map fun p => (Char.ofNat (16 * acc + d) :: p.1, p.2)
        | some h =>
          if 56320 ≤ 16 * acc + d ∧ 16 * acc + d < 57344 then
            (scanStr .norm r).map fun p =>
              (Char.ofNat (65536 + (h - 55296) * 1024 + (16 * acc + d - 56320)) :: p.1, p.2)
          else none
  | .hi h, c :: r => if c = '\\' then scanStr (.hi2 h) r else none
  | .hi2 h, c :: r => if c = 'u' then scanStr (.hex 0 0 (some h)) r else none

/-- Value of an integer literal. -/
def jsonInt : Str → Int
  | '-' :: d => - (digitsVal d : Int)
  | d => (digitsVal d : Int)

/-- A number literal at the start of the text. -/
def parseNum [PyRuntime] (s : Str) : Option (V × Str) :=
  match spanInt s with
  | none => none
  | some (i, r) =>
    let f := spanFrac r
    let e := spanExp f.2
    if f.1.isEmpty && e.1.isEmpty then some (.int (jsonInt i), e.2)
    else match PyRuntime.floatOfStr (i ++ f.1 ++ e.1) with
      | some x => some (.flt x, e.2)
      | none => none

/-- `s` starts with `t`: the rest after it. -/
def stripPrefix? (t s : Str) : Option Str := if t.isPrefixOf s then some (s.drop t.length) else none

mutual
/-- `scan_once`; the first argument bounds the recursion (any number ≥ the length of the text
is enough). -/
def parseVal [PyRuntime] : Nat → Str → Option (V × Str)
  | 0, _ => none
  | _ + 1, [] => none
  | n + 1, c :: r =>
    if c = '"' then (scanStr .norm r).map fun p => (.str p.1, p.2)
    else if c = '{' then
      match skipWs r with
      | [] => none
      | c' :: r' =>
        if c' = '}' then some (.dict [], r')
        else (parseMembers n (c' :: r')).map fun p => (.dict (dictOf p.1), p.2)
    else if c = '[' then
      match skipWs r with
      | [] => none
      | c' :: r' =>
        if c' = ']' then some (.list [], r')
        else (parseElems n (c' :: r')).map fun p => (.list p.1, p.2)
    else if c = 'n' then (stripPrefix? c!"ull" r).map fun r => (.none, r)
    else if c = 't' then (stripPrefix? c!"rue" r).map fun r => (.bool true, r)
    else if c = 'f' then (stripPrefix? c!"alse" r).map fun r => (.bool false, r)
    else if c = 'N' then (stripPrefix? c!"aN" r).map fun r => (.flt .nan, r)
    else if c = 'I' then (stripPrefix? c!"nfinity" r).map fun r => (.flt (.inf false), r)
    else match (if c = '-' then stripPrefix? c!"Infinity" r else none) with
      | some r => some (.flt (.inf true), r)
      | none => parseNum (c :: r)
/-- `JSONArray` after the opening bracket (non-empty). -/
def parseElems [PyRuntime] : Nat → Str → Option (List V × Str)
  | 0, _ => none
  | n + 1, s =>
    match parseVal n s with
    | none => none
    | some (v, r) =>
      match skipWs r with
      | [] => none
      | c :: r =>
        if c = ']' then some ([v], r)
        else if c = ',' then (parseElems n (skipWs r)).map fun p => (v :: p.1, p.2)
        else none
/-- `JSONObject` after the opening brace (non-empty). -/
def parseMembers [PyRuntime] : Nat → Str → Option (List (Str × V) × Str)
  | 0, _ => none
  | _ + 1, [] => none
  | n + 1, c :: r =>
    if c = '"' then
      match scanStr .norm r with
      | none => none
      | some (key, r) =>
        match skipWs r with
        | [] => none
        | c :: r =>
          if c = ':' then
            match parseVal n (skipWs r) with
            | none => none
            | some (v, r) =>
              match skipWs r with
              | [] => none
              | c :: r =>
                if c = '}' then some ([(key, v)], r)
                else if c = ',' then (parseMembers n (skipWs r)).map fun p => ((key, v) :: p.1, p.2)
                else none
          else none
    else none
end

/-- `json.loads`: the whole text must be one value, with white space around it. -/
def jsonLoad [PyRuntime] (s : Str) : Option V :=
  match parseVal (s.length + 1) (skipWs s) with
  | some (v, r) => if (skipWs r).isEmpty then some v else none
  | none => none

end WG
