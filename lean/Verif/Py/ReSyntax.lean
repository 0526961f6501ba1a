/-
The syntax of Python's `re` (Lib/re/_parser.py of CPython), as far as /repo uses it: from the text
of a pattern to a tree of its parts, and from there to the regular expressions of `Py/Regex`.

What /repo does not use is refused (`none`) although Python may accept it: lazy, possessive and
counted repetition, `^`, `$`, `[^…]`, lookaround, back references, inline flags, escapes of letters
and digits other than `\w`, `\s`, `\d`, repetition by `*` or `+` of anything but one character.
-/
import Verif.Py.Regex

namespace WG

/-- `\w`, `\s`, `\d`. -/
inductive Cat where
  | word | space | digit
deriving DecidableEq

/-- One entry of a set `[…]`. -/
inductive SetItem where
  | one (c : Char)
  | range (a b : Char)
  | cat (k : Cat)
deriving DecidableEq

/-- `?`, `*`, `+`. -/
inductive Quant where
  | opt | star | plus
deriving DecidableEq

/-- A parsed pattern.  Groups carry their number (Python's minus one) and their name, `[]` for a
group without a name. -/
inductive Pat where
  | eps
  | lit (c : Char)
  | dot
  | cat (k : Cat)
  | set (items : List SetItem)
  | rep (q : Quant) (p : Pat)
  | group (n : Nat) (name : Str) (p : Pat)
  | seq (a b : Pat)
  | alt (a b : Pat)
deriving DecidableEq

namespace Pat

/-- Parts one after the other. -/
def seqL : List Pat → Pat
  | [] => .eps
  | [a] => a
  | a :: as => .seq a (seqL as)

/-- Alternatives. -/
def altL : List Pat → Pat
  | [] => .eps
  | [a] => a
  | a :: as => .alt a (altL as)

/-- A word. -/
def wordP (w : Str) : Pat := seqL (w.map .lit)

end Pat

/-- A parenthesis that is still open (or the whole pattern): number, name, the finished
alternatives and the parts of the current one, both latest first. -/
structure Frame where
  num : Nat
  name : Str
  alts : List Pat
  atoms : List Pat

/-- What has been read of an unfinished construct. -/
inductive RMode where
  | normal
  /-- after a backslash -/
  | esc
  /-- after `(` -/
  | opened
  /-- after `(?` -/
  | ext
  /-- after `(?P` -/
  | extP
  /-- inside `(?P<…>`, the name latest first -/
  | name (acc : Str)
  /-- after `[` -/
  | setStart
  /-- inside `[…]`, the entries latest first -/
  | set (items : List SetItem)
  /-- after a backslash inside `[…]` -/
  | setEsc (items : List SetItem)
  /-- after `a-` inside `[…]` -/
  | setRange (items : List SetItem) (a : Char)
  /-- after `{` -/
  | brace

/-- The state of the reader: the innermost open parenthesis, those around it, the number of the
next group, the names given so far. -/
structure RState where
  mode : RMode
  top : Frame
  below : List Frame
  next : Nat
  names : List Str

namespace RState

/-- One more part. -/
def push (st : RState) (p : Pat) : RState :=
  { st with mode := .normal, top := { st.top with atoms := p :: st.top.atoms } }

/-- A parenthesis opens. -/
def enter (st : RState) (name : Str) : RState :=
  { mode := .normal, top := ⟨st.next, name, [], []⟩, below := st.top :: st.below, next := st.next + 1,
    names := if name.isEmpty then st.names else name :: st.names }

end RState

/-- The content of a parenthesis. -/
def Frame.content (f : Frame) : Pat := Pat.altL ((Pat.seqL f.atoms.reverse :: f.alts).reverse)

/-- Only parts that are not repetitions can be repeated ("multiple repeat"). -/
def Pat.isRep : Pat → Bool
  | .rep _ _ => true
  | _ => false

/-- A repetition of the last part ("nothing to repeat" if there is none). -/
def RState.quant (st : RState) (q : Quant) : Option RState :=
  match st.top.atoms with
  | [] => none
  | a :: as => if a.isRep then none else some { st with top := { st.top with atoms := .rep q a :: as } }

/-- `\w`, `\s`, `\d`. -/
def catOf (c : Char) : Option Cat :=
  if c == 'w' then some .word else if c == 's' then some .space else if c == 'd' then some .digit else none

/-- Letters and digits of ASCII: a backslash before them has a meaning of its own. -/
def isAlnumAscii (c : Char) : Bool := c.isAlphanum

/-- A character outside of every construct. -/
def RState.plain (st : RState) (c : Char) : Option RState :=
  if c == '\\' then some { st with mode := .esc }
  else if c == '(' then some { st with mode := .opened }
  else if c == '[' then some { st with mode := .setStart }
  else if c == '{' then some { st with mode := .brace }
  else if c == ')' then
    match st.below with
    | [] => none
    | f :: fs =>
      some { st with top := { f with atoms := .group st.top.num st.top.name st.top.content :: f.atoms }, below := fs }
  else if c == '|' then
    some { st with top := { st.top with alts := Pat.seqL st.top.atoms.reverse :: st.top.alts, atoms := [] } }
  else if c == '?' then st.quant .opt
  else if c == '*' then st.quant .star
  else if c == '+' then st.quant .plus
  else if c == '.' then some (st.push .dot)
  else if c == '^' || c == '$' then none
  else some (st.push (.lit c))

/-- Names are identifiers. -/
def isNameStart (c : Char) : Bool := c.isAlpha || c == '_'

/-- One character more. -/
def RState.step (st : RState) (c : Char) : Option RState :=
  match st.mode with
  | .normal => st.plain c
  | .esc =>
    match catOf c with
    | some k => some (st.push (.cat k))
    | none => if isAlnumAscii c then none else some (st.push (.lit c))
  | .opened => if c == '?' then some { st with mode := .ext } else (st.enter []).plain c
  | .ext => if c == 'P' then some { st with mode := .extP } else none
  | .extP => if c == '<' then some { st with mode := .name [] } else none
  | .name acc =>
    if c == '>' then
      if acc.isEmpty || st.names.elem acc.reverse then none else some (st.enter acc.reverse)
    else if isNameStart c || (c.isDigit && !acc.isEmpty) then some { st with mode := .name (c :: acc) }
    else none
  | .setStart =>
    if c == '^' || c == ']' || c == '-' then none
    else if c == '\\' then some { st with mode := .setEsc [] }
    else some { st with mode := .set [.one c] }
  | .set items =>
    if c == ']' then some (st.push (.set items.reverse))
    else if c == '\\' then some { st with mode := .setEsc items }
    else if c == '-' then
      match items with
      | .one a :: rest => some { st with mode := .setRange rest a }
      | _ => none
    else some { st with mode := .set (.one c :: items) }
  | .setEsc items =>
    match catOf c with
    | some k => some { st with mode := .set (.cat k :: items) }
    | none => if isAlnumAscii c then none else some { st with mode := .set (.one c :: items) }
  | .setRange items a =>
    if c == ']' || c == '\\' || c.toNat < a.toNat then none
    else some { st with mode := .set (.range a c :: items) }
  | .brace => if c.isDigit || c == ',' then none else (st.push (.lit '{')).plain c

/-- The text from the given state on. -/
def RState.readFrom (st : RState) : Str → Option RState
  | [] => some st
  | c :: cs => match st.step c with
    | some st' => st'.readFrom cs
    | none => none

/-- The state at the beginning. -/
def RState.init : RState := ⟨.normal, ⟨0, [], [], []⟩, [], 0, []⟩

/-- The end of the text: nothing may be open.  (A final `{` would be a literal.) -/
def RState.finish (st : RState) : Option Pat :=
  match st.mode, st.below with
  | .normal, [] => some st.top.content
  | .brace, [] => some (st.push (.lit '{')).top.content
  | _, _ => none

/-- The parts of a pattern, `none` if Python refuses it or it needs more than what is modelled. -/
def parsePattern (s : Str) : Option Pat := (RState.init.readFrom s).bind RState.finish

namespace Pat

/-- The named groups with their numbers, in the order of the text (`pattern.groupindex`). -/
def groupNames : Pat → List (Str × Nat)
  | .group n name p => if name.isEmpty then p.groupNames else (name, n) :: p.groupNames
  | .seq a b => a.groupNames ++ b.groupNames
  | .alt a b => a.groupNames ++ b.groupNames
  | .rep _ p => p.groupNames
  | _ => []

end Pat

section
variable [PyRuntime]

/-- The characters of a category. -/
def Cat.has : Cat → Char → Bool
  | .word => isWord
  | .space => isSpace
  | .digit => isDecimal

/-- The characters of an entry of a set. -/
def SetItem.has : SetItem → Char → Bool
  | .one a, c => c == a
  | .range a b, c => a ≤ c && c ≤ b
  | .cat k, c => k.has c

/-- Entries that IGNORECASE leaves as they are: categories and what is not a letter. -/
def SetItem.caseless : SetItem → Bool
  | .one a => isAscii a && !a.isAlpha
  | .range a b => isAscii b && (b.toNat < 65 || (90 < a.toNat && b.toNat < 97) || 122 < a.toNat)
  | .cat _ => true

/-- The characters of a part that matches one character, with (`ci`) or without IGNORECASE. -/
def Pat.one (ci : Bool) : Pat → Option (Char → Bool)
  | .lit c =>
    if ci then (if isAscii c then some (if c.isAlpha then matchCI c.toLower else (· == c)) else none)
    else some (· == c)
  | .dot => some (· != '\n')
  | .cat k => some k.has
  | .set items => if ci && !items.all SetItem.caseless then none else some fun c => items.any (SetItem.has · c)
  | _ => none

/-- The regular expression of a pattern. -/
def Pat.toRe (ci : Bool) : Pat → Option Re
  | .eps => some .eps
  | .rep .opt p => (p.toRe ci).map .opt
  | .rep .star p => (p.one ci).map .star
  | .rep .plus p => (p.one ci).map Re.plus
  | .group n _ p => (p.toRe ci).map (.grp n)
  | .seq a b => (a.toRe ci).bind fun x => (b.toRe ci).map fun y => .seq x y
  | .alt a b => (a.toRe ci).bind fun x => (b.toRe ci).map fun y => .alt x y
  | .lit c => ((Pat.lit c).one ci).map .cls
  | .dot => (Pat.dot.one ci).map .cls
  | .cat k => ((Pat.cat k).one ci).map .cls
  | .set items => ((Pat.set items).one ci).map .cls

/-- `re.compile(s, IGNORECASE)` for `ci`, else `re.compile(s)`. -/
def reCompile (ci : Bool) (s : Str) : Option Re := (parsePattern s).bind (Pat.toRe ci)

end

end WG
