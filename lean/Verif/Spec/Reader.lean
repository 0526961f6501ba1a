/-
A reader for the query language without regular expressions: it goes through a text once from left to right, takes what it
can take at the place where it stands, and never returns to an earlier place.
-/
import Verif.Spec.Report
import Verif.Spec.Pattern
import Verif.Model.Query

namespace WG
variable [PyRuntime]

/-- The text after the character `c`, if it starts with it. -/
def afterChar (c : Char) : Str → Option Str
  | [] => none
  | d :: s => if d = c then some s else none

/-- The text after the character `c` if it starts with it, else the text. -/
def skipChar (c : Char) (s : Str) : Str := (afterChar c s).getD s

/-- The beginning of `s` that ends where `rest` begins. -/
def upTo (s rest : Str) : Str := s.take (s.length - rest.length)

/-- Go through a text: where `f` takes something, go on after it; else go on with the next character. -/
def scanN {α : Type} (f : Str → Option (α × Str)) : Nat → Str → List α
  | 0, _ => []
  | _, [] => []
  | n + 1, c :: cs =>
    match f (c :: cs) with
    | some (a, rest) => a :: scanN f n rest
    | none => scanN f n cs

/-- What is taken from a text. -/
def scan {α : Type} (f : Str → Option (α × Str)) (s : Str) : List α := scanN f s.length s

/-- What is left of a text when what `f` takes is taken out. -/
def leaveN {α : Type} (f : Str → Option (α × Str)) : Nat → Str → Str
  | 0, _ => []
  | _, [] => []
  | n + 1, c :: cs =>
    match f (c :: cs) with
    | some (_, rest) => leaveN f n rest
    | none => c :: leaveN f n cs

/-- What is left of a text. -/
def leave {α : Type} (f : Str → Option (α × Str)) (s : Str) : Str := leaveN f s.length s

/-! ### Statements -/

/-- The text after the keyword, if the text starts with it in what the regex engine takes for the same letters. -/
def afterWord : Str → Str → Option Str
  | [], s => some s
  | _ :: _, [] => none
  | k :: ks, c :: cs => if sameLetter k c then afterWord ks cs else none

/-- What stands after the last `x` of a text. -/
def afterLast (x : Str) : Str → Option Str
  | [] => none
  | c :: cs => (afterLast x cs).or (if x.isPrefixOf (c :: cs) then some ((c :: cs).drop x.length) else none)

/-- A MAKE or FIND at the beginning of the text, and the text behind it: keyword, white space, `(`, at least one character,
and all up to the last `);` of the line. -/
def readStatement (kw s : Str) : Option (Str × Str) := do
  let s1 ← afterWord kw s
  let s2 ← afterChar '(' (s1.dropWhile isSpace)
  let rest ← afterLast c!");" ((s2.takeWhile (· ≠ '\n')).drop 1)
  let rest := rest ++ s2.dropWhile (· ≠ '\n')
  some (upTo s rest, rest)

/-- A REPORT at the beginning of the text: keyword, at least one character, and all up to the last `;` of the line. -/
def readReport (s : Str) : Option (Str × Str) := do
  let s1 ← afterWord c!"report" s
  let rest ← afterLast c!";" ((s1.takeWhile (· ≠ '\n')).drop 1)
  let rest := rest ++ s1.dropWhile (· ≠ '\n')
  some (upTo s rest, rest)

/-! ### Patterns -/

/-- A text, or nothing if it is empty. -/
def orNone (s : Str) : Option Str := if s.isEmpty then none else some s

/-- A node at the beginning of the text: `(handle:label props)` and the white space behind it. -/
def readNode (s : Str) : Option (PartText × Str) := do
  let s1 ← afterChar '(' s
  let s2 := s1.dropWhile isSpace
  let s3 ← afterChar ':' ((s2.dropWhile isWord).dropWhile isSpace)
  let s4 := s3.dropWhile isSpace
  let s5 := (s4.dropWhile isWord).dropWhile isSpace
  let s6 ← afterChar ')' (s5.dropWhile isPropsChar)
  let rest := s6.dropWhile isSpace
  if (s4.takeWhile isWord).isEmpty then none
  else some (⟨some (upTo s rest), some (s2.takeWhile isWord), some (s4.takeWhile isWord),
    orNone (s5.takeWhile isPropsChar)⟩, rest)

/-- A relationship at the beginning of the text: an arrow `<-[...]->` with any number of dashes, whose brackets close before
the first dash behind the opening one; and the white space behind it.  In the brackets stand handle, colon, name and properties, each of
which may be missing. -/
def readRel (s : Str) : Option (PartText × Str) := do
  let s1 ← afterChar '-' (skipChar '<' s)
  let s2 ← afterChar '[' (s1.dropWhile (· == '-'))
  let inside := s2.takeWhile isPropsChar
  let s3 ← afterChar '-' (s2.dropWhile isPropsChar)
  let rest := (skipChar '>' (s3.dropWhile (· == '-'))).dropWhile isSpace
  let c1 := inside.dropLast.dropWhile isSpace
  let c2 := (skipChar ':' ((c1.dropWhile isWord).dropWhile isSpace)).dropWhile isSpace
  let c3 := (c2.dropWhile isWord).dropWhile isSpace
  if inside.getLast? = some ']' then
    some (⟨some (upTo s rest), some (c1.takeWhile isWord), some (c2.takeWhile isWord), orNone c3⟩, rest)
  else none

/-- White space, and what `f` takes behind it, if anything. -/
def readPart (f : Str → Option (PartText × Str)) (s : Str) : PartText × Str :=
  (f (s.dropWhile isSpace)).getD (⟨none, none, none, none⟩, s.dropWhile isSpace)

/-- Up to three nodes with relationships between them, at the beginning of the text; every part may be missing. -/
def readPattern (s : Str) : Option (ParsedPattern × Str) :=
  let (p0, s0) := readPart readNode s
  let (p1, s1) := readPart readRel s0
  let (p2, s2) := readPart readNode s1
  let (p3, s3) := readPart readRel s2
  let (p4, s4) := readPart readNode s3
  if s4.length = s.length then none else some (⟨p0, p1, p2, p3, p4⟩, s4)

/-! ### Properties -/

/-- Something between two brackets of a kind. -/
def readBetween (l r : Char) (p : Char → Bool) (s : Str) : Option (Str × Str) := do
  let s1 ← afterChar l s
  let rest ← afterChar r (s1.dropWhile p)
  if (s1.takeWhile p).isEmpty then none else some (upTo s rest, rest)

/-- Characters of a text between braces that is checked. -/
def isBraceChar (c : Char) : Bool := isWord c || isSpace c || c!":,'\".[]@".contains c

/-- Characters of a list in a text that is checked. -/
def isItemChar (c : Char) : Bool := isWord c || isSpace c || c!",'\".@".contains c

/-- Characters of a property that is a list. -/
def isListText (c : Char) : Bool := isItemChar c || c == '+'

/-- Characters of a property that is a string. -/
def isStringText (c : Char) : Bool := isWord c || isSpace c || c!"+'\"@.".contains c

/-- A text of characters `p` at the beginning, not empty, and the text behind it. -/
def readRun (p : Char → Bool) (s : Str) : Option (Str × Str) :=
  if (s.takeWhile p).isEmpty then none else some (s.takeWhile p, s.dropWhile p)

/-- A word at the beginning. -/
def readWord (kw s : Str) : Option (Str × Str) := (afterWord kw s).map fun rest => (upTo s rest, rest)

/-- Digits, a dot, and digits at the beginning. -/
def readFloat (s : Str) : Option (Str × Str) := do
  let a ← readRun isDecimal s
  let s1 ← afterChar '.' a.2
  let b ← readRun isDecimal s1
  some (upTo s b.2, b.2)

/-- The value at the beginning of a text: the first kind that fits. -/
def readValue (s : Str) : Option (PropType × Str × Str) :=
  ((readWord c!"null" s).map fun x => (.noneT, x)) <|>
  ((readWord c!"true" s).map fun x => (.boolT, x)) <|>
  ((readWord c!"false" s).map fun x => (.boolT, x)) <|>
  ((readFloat s).map fun x => (.floatT, x)) <|>
  ((readRun isDig s).map fun x => (.intT, x)) <|>
  ((readBetween '[' ']' isListText s).map fun x => (.listT, x)) <|>
  ((readRun isStringText s).map fun x => (.stringT, x))

/-- A property at the beginning of a text: name, `:` and value, with white space around the colon.  Where no value stands behind the white
space, the last character of the white space is the value. -/
def readProp (s : Str) : Option ((Str × PropType × Str) × Str) := do
  let a ← readRun isWord s
  let s1 ← afterChar ':' (a.2.dropWhile isSpace)
  let rest := s1.dropWhile isSpace
  match readValue rest, (s1.takeWhile isSpace).getLast? with
  | some (t, v, rest), _ => some ((a.1, t, v), rest)
  | none, some c => some ((a.1, .stringT, [c]), rest)
  | none, none => none

/-- The value of a property as it is written. -/
def propValue (t : PropType) (text : Str) : Except PyErr V :=
  let v := strip (stripP (· == '\'') (stripP (· == '"') text))
  if text.all isSpace then .error .illegalPropertyValue
  else match t with
    | .noneT => if v = c!"null" then .ok .none else .error .illegalPropertyValue
    | .boolT =>
      if v = c!"true" then .ok (.bool true) else if v = c!"false" then .ok (.bool false) else .error .illegalPropertyValue
    | .floatT =>
      match PyRuntime.floatOfStr v with
      | some f => .ok (.flt f)
      | none => .error .illegalPropertyValue
    | .intT =>
      match pyInt v with
      | some i => .ok (.int i)
      | none => .error .illegalPropertyValue
    | .listT =>
      match literalEval (replace c!"null" c!"None" (replace c!"false" c!"False" (replace c!"true" c!"True" v))) with
      | .ok v => .ok v
      | .error .syntaxError => .error .illegalPropertyValue
      | .error .valueError => .error .value
      | .error .other => .error .other
    | .stringT =>
      if v ∈ [c!"Null", c!"None", c!"none", c!"true", c!"True", c!"false", c!"False"] then .error .illegalPropertyValue
      else .ok (.str v)

/-- The properties of a text. -/
def readProps (s : Str) : Except PyErr (Dict V) :=
  (scan readProp s).foldlM (fun d p => do
    let v ← propValue p.2.1 p.2.2
    pure (dictSet p.1 v d)) []

/-! ### The checks -/

/-- Skip characters `p`, but not the last character of the text. -/
def skipButLast (p : Char → Bool) : Str → Str
  | c :: d :: cs => if p c then skipButLast p (d :: cs) else c :: d :: cs
  | s => s

/-- Skip one character `x`, but not the last character of the text. -/
def skipOneButLast (x : Char) : Str → Str
  | c :: d :: cs => if c = x then d :: cs else c :: d :: cs
  | s => s

/-- An arrow at the beginning of the text, as the check sees it, and its name: everything from the opening bracket to the next dash. -/
def readArrow (s : Str) : Option ((Str × Str) × Str) := do
  let s1 ← afterChar '-' (skipChar '<' s)
  let s2 ← afterChar '[' (s1.dropWhile (· == '-'))
  let inside := s2.takeWhile isPropsChar
  let s3 ← afterChar '-' (s2.dropWhile isPropsChar)
  let rest := skipChar '>' (s3.dropWhile (· == '-'))
  let c1 := skipButLast isSpace (skipButLast isWord (skipButLast isSpace inside))
  let c2 := skipButLast isSpace (skipOneButLast ':' c1)
  if inside.isEmpty then none
  else some ((upTo s rest, upTo c2 (skipButLast isWord c2)), rest)

/-- The pieces of a text between `<` and `>`. -/
def pieces : Str → List Str
  | [] => [[]]
  | c :: cs => if c = '<' ∨ c = '>' then [] :: pieces cs else match pieces cs with
    | [] => [[c]]
    | w :: ws => (c :: w) :: ws

/-- A fault, if the condition does not hold. -/
def unless' (b : Prop) [Decidable b] (e : PyErr) : Except PyErr Unit := if b then .ok () else .error e

/-- How often a character of a kind stands in a text. -/
def howOften (l s : Str) : Nat := s.countP fun c => l.contains c

/-- The checks of the statements of a clause, in their order.  The arrows are only looked at up to the first statement without one. -/
def readChecks (stmts : List Str) : Except PyErr Unit := do
  stmts.forM fun s => (pieces s).forM fun w => do
    unless' (howOften c!"()" w % 2 = 0) .clauseSyntax
    unless' (howOften c!"{}" w % 2 = 0) .clauseSyntax
    unless' (howOften c!"[]" w % 2 = 0) .clauseSyntax
  stmts.forM fun s => unless' (howOften c!"#%&*$" s = 0) .illegalCharacter
  stmts.forM fun s => (scan (readBetween '{' '}' isBraceChar) s).forM fun w => do
    let w := replace c!"null" c!"None" (replace c!"false" c!"False" (replace c!"true" c!"True" w))
    let out := leave (readBetween '[' ']' isItemChar) w
    unless' (howOften c!"," out + 1 = howOften c!":" out) .paramSyntax
    (scan (readBetween '[' ']' isItemChar) w).forM fun l =>
      match literalEval l with
      | .ok _ => .ok ()
      | .error .syntaxError => .error .paramSyntax
      | .error .valueError => .error .value
      | .error .other => .error .other
  (stmts.takeWhile fun s => !(scan readArrow s).isEmpty).forM fun s => (scan readArrow s).forM fun a => do
    unless' ('<' ∈ a.1 ↔ '>' ∉ a.1) .nonDirected
    unless' (a.2 = [] ∨ isUpperStr a.2 = true) .relationshipName

/-! ### Queries -/

/-- The handles of a pattern, where there are some. -/
def handlesIn (p : ParsedPattern) : List Str :=
  [p.left, p.leftMiddle, p.middle, p.middleRight, p.right].filterMap fun t => t.handle.bind orNone

/-- What the parser makes of a MAKE statement that has passed the checks. -/
def readOneMake (s : Str) : Except PyErr ParsedMake := do
  unless' (∀ p ∈ scan readPattern s, (handlesIn p).Nodup) .makeDuplicateHandles
  unless' (c!"MAKE" <+: s ∨ c!"make" <+: s) .validation
  return ⟨s, .make, scan readPattern s⟩

open Classical in
/-- What the parser makes of the MAKE statements of a text. -/
noncomputable def readMake (q : Str) : Except PyErr (Option (List ParsedMake)) := do
  let stmts := scan (readStatement c!"make") q
  if stmts = [] then
    unless' (¬ LooksMisspelt c!"make" q) .clauseSyntax
    return none
  else
    readChecks stmts
    return some (← stmts.mapM readOneMake)

open Classical in
/-- What the parser makes of the FIND of a text. -/
noncomputable def readFind (q : Str) : Except PyErr (Option ParsedFind) := do
  match scan (readStatement c!"find") q with
  | [] =>
    unless' (¬ LooksMisspelt c!"find" q) .clauseSyntax
    return none
  | [s] =>
    readChecks [s]
    match scan readPattern s with
    | [] => .error .index
    | p :: _ =>
      unless' (handlesIn p).Nodup .makeDuplicateHandles
      unless' (c!"FIND" <+: s ∨ c!"find" <+: s) .validation
      return some ⟨s, .find, p⟩
  | _ => .error .multipleClause

open Classical in
/-- What the parser makes of the REPORT of a text, after a FIND with these handles. -/
noncomputable def readReports (q : Str) (handles : List Str) : Except PyErr (Option ParsedReport) := do
  match scan readReport q with
  | [] =>
    unless' (¬ LooksMisspeltReport q) .clauseSyntax
    return none
  | [s] =>
    unless' (∀ h ∈ handles, h <:+: s) .findReportHandle
    unless' (c!"REPORT" <+: s ∨ c!"report" <+: s) .validation
    return some ⟨s, .report, s⟩
  | _ => .error .multipleClause

/-- What the parser makes of a text. -/
noncomputable def readQuery (q : Str) : Except PyErr ParsedQuery := do
  let mk ← readMake q
  match ← readFind q with
  | none => .error .attribute
  | some f => do
    let r ← readReports q (handlesIn f.pattern)
    return ⟨mk, some f, r⟩

end WG
