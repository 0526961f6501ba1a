/-
Python strings, characters, values and exceptions, as far as /repo uses them.

`Str` is a Python `str`: a list of Unicode code points (lone surrogates, which Lean's `Char`
excludes, are outside the model).
-/
import Lean.Elab.Term

namespace WG

/-- A Python `str`. -/
abbrev Str := List Char

/-- `c!"abc"` is the list literal `['a', 'b', 'c']` (a `str` literal of the source). -/
macro:max "c!" s:str : term => do
  let cs := s.getString.toList.map fun c => Lean.Syntax.mkCharLit c
  `([$(cs.toArray),*])

/-- A Python `float`: a finite double (the type `F` is a runtime parameter), an infinity, or nan. -/
inductive PyFloat (F : Type) where
  | fin (f : F)
  | inf (neg : Bool)
  | nan
deriving DecidableEq, Repr

/-- The Python values that occur as properties, database records and index contents.
`opq` stands for a value `json` cannot serialise (complex, bytes, Ellipsis), which
`ast.literal_eval` can return from a list literal.  Dicts keep insertion order and are only
ever built with `str` keys in /repo. -/
inductive Val (F : Type) where
  | none
  | bool (b : Bool)
  | int (i : Int)
  | flt (f : PyFloat F)
  | str (s : Str)
  | list (l : List (Val F))
  | dict (d : List (Str × Val F))
  | opq (n : Nat)
deriving Repr

mutual
/-- Structural equality of values (decidable). -/
def Val.beq {F : Type} [DecidableEq F] : Val F → Val F → Bool
  | .none, .none => true
  | .bool a, .bool b => a == b
  | .int a, .int b => a == b
  | .flt a, .flt b => decide (a = b)
  | .str a, .str b => a == b
  | .list a, .list b => Val.beqList a b
  | .dict a, .dict b => Val.beqDict a b
  | .opq a, .opq b => a == b
  | _, _ => false
/-- Elementwise equality of lists of values. -/
def Val.beqList {F : Type} [DecidableEq F] : List (Val F) → List (Val F) → Bool
  | [], [] => true
  | a :: as, b :: bs => Val.beq a b && Val.beqList as bs
  | _, _ => false
/-- Entrywise equality of association lists of values. -/
def Val.beqDict {F : Type} [DecidableEq F] : List (Str × Val F) → List (Str × Val F) → Bool
  | [], [] => true
  | a :: as, b :: bs => a.1 == b.1 && Val.beq a.2 b.2 && Val.beqDict as bs
  | _, _ => false
end

mutual
theorem Val.beq_iff {F : Type} [DecidableEq F] : (a b : Val F) → (Val.beq a b = true ↔ a = b)
  | .none, b => by cases b <;> simp [Val.beq]
  | .bool _, b => by cases b <;> simp [Val.beq]
  | .int _, b => by cases b <;> simp [Val.beq]
  | .flt _, b => by cases b <;> simp [Val.beq]
  | .str _, b => by cases b <;> simp [Val.beq]
  | .list l, b => by cases b <;> simp [Val.beq, Val.beqList_iff l]
  | .dict d, b => by cases b <;> simp [Val.beq, Val.beqDict_iff d]
  | .opq _, b => by cases b <;> simp [Val.beq]
theorem Val.beqList_iff {F : Type} [DecidableEq F] :
    (a b : List (Val F)) → (Val.beqList a b = true ↔ a = b)
  | [], b => by cases b <;> simp [Val.beqList]
  | x :: xs, b => by
    cases b with
    | nil => simp [Val.beqList]
    | cons y ys => simp [Val.beqList, Val.beq_iff x y, Val.beqList_iff xs ys]
theorem Val.beqDict_iff {F : Type} [DecidableEq F] :
    (a b : List (Str × Val F)) → (Val.beqDict a b = true ↔ a = b)
  | [], b => by cases b <;> simp [Val.beqDict]
  | (k, x) :: xs, b => by
    cases b with
    | nil => simp [Val.beqDict]
    | cons y ys =>
      obtain ⟨k', y⟩ := y
      simp [Val.beqDict, Val.beq_iff x y, Val.beqDict_iff xs ys]
end

instance {F : Type} [DecidableEq F] : DecidableEq (Val F) := fun a b =>
  decidable_of_iff _ (Val.beq_iff a b)

mutual
/-- Well-formed values: the keys of every dict are distinct (true of all Python dicts). -/
def Val.WF {F : Type} : Val F → Prop
  | .list l => Val.WFList l
  | .dict d => (d.map Prod.fst).Nodup ∧ Val.WFDict d
  | _ => True
/-- All list elements well formed. -/
def Val.WFList {F : Type} : List (Val F) → Prop
  | [] => True
  | x :: xs => Val.WF x ∧ Val.WFList xs
/-- All dict values well formed. -/
def Val.WFDict {F : Type} : List (Str × Val F) → Prop
  | [] => True
  | x :: xs => Val.WF x.2 ∧ Val.WFDict xs
end

mutual
/-- All strings in a value, dict keys included. -/
def Val.strings {F : Type} : Val F → List Str
  | .str s => [s]
  | .list l => Val.stringsList l
  | .dict d => Val.stringsDict d
  | _ => []
/-- All strings in the elements of a list. -/
def Val.stringsList {F : Type} : List (Val F) → List Str
  | [] => []
  | x :: xs => Val.strings x ++ Val.stringsList xs
/-- All strings in a dict. -/
def Val.stringsDict {F : Type} : List (Str × Val F) → List Str
  | [] => []
  | x :: xs => x.1 :: Val.strings x.2 ++ Val.stringsDict xs
end

/-- Exceptions.  Messages are not modelled; classes are.  `jsonDecode` is
`json.JSONDecodeError`, `validation` is pydantic's `ValidationError` (both are `ValueError`s);
`exception` is a bare `Exception`. -/
inductive PyErr where
  | clauseSyntax | illegalCharacter | nonDirected | paramSyntax | relationshipName
  | illegalPropertyValue | propertyTypeAssignment
  | multipleClause | findReportHandle | makeDuplicateHandles
  | nodeExists | nodeUnrelated | relToFrom
  | validation | attribute | index | key | value | type | jsonDecode
  | fileNotFound | osError | notAValidQuery | exception
  /-- an exception class outside the ones above, raised by `literal_eval` (RecursionError, …) -/
  | other
deriving DecidableEq, Repr

/-- `except ValueError` (classes deriving from `ValueError`: `jsonDecode`, `validation`). -/
def PyErr.isValueError : PyErr → Bool
  | .value | .jsonDecode | .validation => true
  | _ => false

/-- What `ast.literal_eval` may do with a text. -/
inductive LitErr where
  | syntaxError
  | valueError
  | other
deriving DecidableEq, Repr

/-- JSON number grammar with a fraction or an exponent: the texts that `json.load` reads as a
float.  `-?(0|[1-9]\d*)(\.\d+)?([eE][-+]?\d+)?` with at least one optional part. -/
def isDig (c : Char) : Bool := '0' ≤ c && c ≤ '9'

/-- Splits the maximal prefix of ASCII digits. -/
def spanDigits : Str → Str × Str
  | [] => ([], [])
  | c :: cs => if isDig c then let (a, b) := spanDigits cs; (c :: a, b) else ([], c :: cs)

/-- The fraction part `(\.\d+)?` : consumed text and rest. -/
def spanFrac : Str → Str × Str
  | '.' :: cs =>
    match spanDigits cs with
    | ([], _) => ([], '.' :: cs)
    | (d, r) => ('.' :: d, r)
  | s => ([], s)

/-- Optional sign of an exponent. -/
def spanSign : Str → Str × Str
  | '+' :: cs => (['+'], cs)
  | '-' :: cs => (['-'], cs)
  | s => ([], s)

/-- The exponent part `([eE][-+]?\d+)?` : consumed text and rest. -/
def spanExp : Str → Str × Str
  | c :: cs =>
    if c = 'e' ∨ c = 'E' then
      match spanDigits (spanSign cs).2 with
      | ([], _) => ([], c :: cs)
      | (d, r) => (c :: (spanSign cs).1 ++ d, r)
    else ([], c :: cs)
  | [] => ([], [])

/-- The integer part `-?(0|[1-9]\d*)`, if present. -/
def spanInt : Str → Option (Str × Str)
  | '-' :: c :: cs =>
    if c = '0' then some (['-', '0'], cs)
    else if isDig c then some ('-' :: c :: (spanDigits cs).1, (spanDigits cs).2)
    else none
  | c :: cs =>
    if c = '0' then some (['0'], cs)
    else if isDig c then some (c :: (spanDigits cs).1, (spanDigits cs).2)
    else none
  | [] => none

/-- `s` is completely matched by the JSON number grammar and has a fraction or exponent. -/
def isJsonFloat (s : Str) : Bool :=
  match spanInt s with
  | none => false
  | some (_, r) =>
    let (f, r') := spanFrac r
    let (e, r'') := spanExp r'
    r''.isEmpty && !(f.isEmpty && e.isEmpty)

/-- The parts of the Python runtime that are left open.  All theorems hold for every instance.

* the Unicode tables are consulted only for code points ≥ 128 (ASCII is fixed below);
* `F`, `floatOfStr` (= `float(s)`, `none` = ValueError) and `floatRepr` (= `float.__repr__`)
  describe doubles: `repr` of a finite double is a JSON float literal and reads back as the
  same double; every text `digits.digits` is a float literal;
* no character is both alphanumeric and white space;
* `literalEvalOther` is `ast.literal_eval` on texts outside the list subset that the model
  evaluates itself (`Verif/Py/Literal.lean`); the values it returns are Python values, so dict
  keys are distinct; without a backslash in the text there are no escapes, so the characters of the
  strings it returns are characters of the text, or line feeds (line ends inside a triple-quoted string
  become line feeds). -/
class PyRuntime where
  /-- `\w` (`isalnum`) above ASCII -/
  uWord : Char → Bool
  /-- `\s` / `str.isspace` above ASCII -/
  uSpace : Char → Bool
  uWord_uSpace : ∀ c, uWord c = true → uSpace c = false
  /-- the Kelvin sign, which IGNORECASE folds to `k`, is not white space -/
  uSpace_kelvin : uSpace 'K' = false
  /-- decimal digit value above ASCII (`\d`, `int()`) -/
  uDigit : Char → Option Nat
  uDigit_uWord : ∀ c, (uDigit c).isSome = true → uWord c = true
  /-- cased upper-case characters above ASCII -/
  uUpper : Char → Bool
  /-- cased lower/title-case characters above ASCII -/
  uLower : Char → Bool
  /-- `str.lower` above ASCII (context-free part) -/
  uLowerMap : Char → Str
  /-- finite doubles -/
  F : Type
  /-- equality of finite doubles -/
  decF : DecidableEq F
  floatOfStr : Str → Option (PyFloat F)
  floatRepr : F → Str
  floatRepr_json : ∀ f, isJsonFloat (floatRepr f) = true
  floatOfStr_repr : ∀ f, floatOfStr (floatRepr f) = some (.fin f)
  floatOfStr_decimal : ∀ a b : Str, a ≠ [] → b ≠ [] → a.all isDig = true → b.all isDig = true →
    (floatOfStr (a ++ '.' :: b)).isSome = true
  literalEvalOther : Str → Except LitErr (Val F)
  literalEvalOther_wf : ∀ s v, literalEvalOther s = .ok v → v.WF
  literalEvalOther_chars : ∀ s v, literalEvalOther s = .ok v → '\\' ∉ s →
    ∀ t ∈ v.strings, ∀ c ∈ t, c ∈ s ∨ c = '\n'
  literalEvalOther_list : ∀ s v, '[' ∉ s → ']' ∉ s → literalEvalOther ('[' :: (s ++ [']'])) = .ok v →
    ∃ l, v = .list l
  /-- `fnmatch` of a name (second argument) with a pattern outside the subset that the model
  evaluates itself (`Verif/Py/Glob.lean`) -/
  fnmatchOther : Str → Str → Bool

attribute [instance_reducible, instance] PyRuntime.decF

/-- Values over the floats of the runtime. -/
abbrev V [PyRuntime] := Val PyRuntime.F

/-! ### Characters -/

/-- Code points below 128. -/
def isAscii (c : Char) : Bool := c.toNat < 128

/-- `re`'s `\w` (no IGNORECASE effect): alphanumeric or underscore. -/
def isWord [PyRuntime] (c : Char) : Bool :=
  if isAscii c then c.isAlphanum || c == '_' else PyRuntime.uWord c

/-- `re`'s `\s` and `str.isspace`: tab, LF, VT, FF, CR, FS, GS, RS, US, space, and Unicode spaces. -/
def isSpace [PyRuntime] (c : Char) : Bool :=
  if isAscii c then (9 ≤ c.toNat && c.toNat ≤ 13) || (28 ≤ c.toNat && c.toNat ≤ 32)
  else PyRuntime.uSpace c

/-- `re`'s `\d`: decimal digits. -/
def isDecimal [PyRuntime] (c : Char) : Bool :=
  if isAscii c then isDig c else (PyRuntime.uDigit c).isSome

/-- `re` matching of the ASCII letter `l` (given in lower case) under IGNORECASE: both cases,
plus the non-ASCII characters CPython folds to it: U+0130/U+0131 for `i`, U+212A for `k`,
U+017F for `s`. -/
def matchCI (l : Char) (c : Char) : Bool :=
  c == l || c == l.toUpper
    || (l == 'i' && (c == 'İ' || c == 'ı'))
    || (l == 'k' && c == 'K')
    || (l == 's' && c == 'ſ')

/-! ### `str` methods -/

/-- `s.lstrip(chars)` with a character predicate. -/
def lstripP (p : Char → Bool) (s : Str) : Str := s.dropWhile p

/-- `s.rstrip(chars)`. -/
def rstripP (p : Char → Bool) (s : Str) : Str := (s.reverse.dropWhile p).reverse

/-- `s.strip(chars)`. -/
def stripP (p : Char → Bool) (s : Str) : Str := rstripP p (lstripP p s)

/-- `s.strip()`. -/
def strip [PyRuntime] (s : Str) : Str := stripP isSpace s

/-- `t in s` (substring test). -/
def isSubstr (t : Str) : Str → Bool
  | [] => t.isEmpty
  | c :: cs => t.isPrefixOf (c :: cs) || isSubstr t cs

/-- `s.count(ch)` for a single character. -/
def countChar (ch : Char) (s : Str) : Nat := s.countP (· == ch)

/-- Auxiliary for `str.replace`: `k` counts the characters of a match still to be skipped. -/
def replaceAux (old new : Str) : Nat → Str → Str
  | _, [] => []
  | k + 1, _ :: cs => replaceAux old new k cs
  | 0, c :: cs =>
    if old.isPrefixOf (c :: cs) then new ++ replaceAux old new (old.length - 1) cs
    else c :: replaceAux old new 0 cs

/-- `s.replace(old, new)` for non-empty `old`. -/
def replace (old new s : Str) : Str := replaceAux old new 0 s

/-- `str.lower` of one character. -/
def lowerChar [PyRuntime] (c : Char) : Str :=
  if isAscii c then [c.toLower] else PyRuntime.uLowerMap c

/-- `s.lower()`. -/
def lower [PyRuntime] (s : Str) : Str := s.flatMap lowerChar

/-- `s.isupper()`: at least one cased character and no lower-case one. -/
def isUpperStr [PyRuntime] (s : Str) : Bool :=
  s.all (fun c => !(if isAscii c then c.isLower else PyRuntime.uLower c))
    && s.any (fun c => if isAscii c then c.isUpper else PyRuntime.uUpper c)

/-- `s.split(sep)` for a one-character separator. -/
def splitChar (sep : Char) : Str → List Str
  | [] => [[]]
  | c :: cs =>
    if c = sep then [] :: splitChar sep cs
    else match splitChar sep cs with
      | [] => [[c]]
      | w :: ws => (c :: w) :: ws

/-! ### Dicts -/

/-- A Python dict with `str` keys, in insertion order. -/
abbrev Dict (α : Type) := List (Str × α)

/-- `d.get(k)`. -/
def dictGet {α : Type} (k : Str) : Dict α → Option α
  | [] => none
  | (k', v) :: d => if k' = k then some v else dictGet k d

/-- `k in d`. -/
def dictHas {α : Type} (k : Str) (d : Dict α) : Bool := (dictGet k d).isSome

/-- `d[k] = v`: in place for an existing key, at the end for a new one. -/
def dictSet {α : Type} (k : Str) (v : α) : Dict α → Dict α
  | [] => [(k, v)]
  | (k', v') :: d => if k' = k then (k', v) :: d else (k', v') :: dictSet k v d

/-- `dict(pairs)` / dict comprehension. -/
def dictOf {α : Type} (l : List (Str × α)) : Dict α :=
  l.foldl (fun d p => dictSet p.1 p.2 d) []

/-- `d.update(e)`. -/
def dictUpdate {α : Type} (d e : Dict α) : Dict α :=
  e.foldl (fun d p => dictSet p.1 p.2 d) d

end WG
