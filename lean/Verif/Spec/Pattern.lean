/-
Pattern texts as they are written in a statement, and the parts they stand for.
-/
import Verif.Model.Parsed

namespace WG
variable [PyRuntime]

/-- Characters of a property text. -/
def isPropsChar (c : Char) : Bool := isWord c || isSpace c || c!"{}:,'\".[]@".contains c

/-- A property text: starts with a brace. -/
def PropsText (p : Str) : Prop := ∃ r, p = '{' :: r ∧ r.all isPropsChar = true

/-- A node as written: `(` white space, handle, white space, `:`, white space, label, white space,
properties, `)`, white space. -/
structure NodeText where
  sp1 : Str
  handle : Str
  sp2 : Str
  sp3 : Str
  label : Str
  sp4 : Str
  props : Option Str
  sp5 : Str

/-- Its text. -/
def NodeText.render (n : NodeText) : Str :=
  '(' :: (n.sp1 ++ (n.handle ++ (n.sp2 ++ ':' :: (n.sp3 ++ (n.label ++ (n.sp4 ++ (n.props.getD [] ++ ')' :: n.sp5)))))))

/-- Handle and label are words, the label is not empty, properties are a property text.  (White space before an
empty handle belongs to `sp1`.) -/
structure NodeText.OK (n : NodeText) : Prop where
  sp1 : n.sp1.all isSpace = true
  handle : n.handle.all isWord = true
  sp2 : n.sp2.all isSpace = true
  noHandle : n.handle = [] → n.sp2 = []
  sp3 : n.sp3.all isSpace = true
  label : n.label.all isWord = true
  label_ne : n.label ≠ []
  sp4 : n.sp4.all isSpace = true
  props : ∀ p, n.props = some p → PropsText p
  sp5 : n.sp5.all isSpace = true

/-- What it stands for. -/
def NodeText.part (n : NodeText) : PartText := ⟨some n.render, some n.handle, some n.label, n.props⟩

/-- A relationship as written: `<`, dashes, `[`, white space, handle, white space, then, if it is named, `:`,
white space, name, white space, then properties, `]`, dashes, `>`, white space. -/
structure RelText where
  toLeft : Bool
  dashes1 : Nat
  sp1 : Str
  handle : Str
  sp2 : Str
  name : Option (Str × Str × Str)
  props : Option Str
  dashes2 : Nat
  toRight : Bool
  sp3 : Str

/-- The text between the brackets. -/
def RelText.content (r : RelText) : Str :=
  r.sp1 ++ (r.handle ++ (r.sp2 ++ ((match r.name with
    | none => []
    | some (a, l, b) => ':' :: (a ++ (l ++ b))) ++ r.props.getD [])))

/-- Its text. -/
def RelText.render (r : RelText) : Str :=
  (if r.toLeft then c!"<" else []) ++ (List.replicate (r.dashes1 + 1) '-' ++ '[' :: (r.content ++ ']' ::
    (List.replicate (r.dashes2 + 1) '-' ++ ((if r.toRight then c!">" else []) ++ r.sp3))))

/-- Handle and name are words, properties are a property text. -/
structure RelText.OK (r : RelText) : Prop where
  sp1 : r.sp1.all isSpace = true
  handle : r.handle.all isWord = true
  sp2 : r.sp2.all isSpace = true
  noHandle : r.handle = [] → r.sp2 = []
  name : ∀ a l b, r.name = some (a, l, b) → a.all isSpace = true ∧ l.all isWord = true ∧ b.all isSpace = true ∧
    (l = [] → b = [])
  props : ∀ p, r.props = some p → PropsText p
  sp3 : r.sp3.all isSpace = true

/-- What it stands for: without a name the name is empty. -/
def RelText.part (r : RelText) : PartText :=
  ⟨some r.render, some r.handle, some (match r.name with
    | none => []
    | some (_, l, _) => l), r.props⟩

/-- A pattern as written: one, two or three nodes. -/
inductive ChainText where
  | one (n : NodeText)
  | two (n : NodeText) (r : RelText) (m : NodeText)
  | three (n : NodeText) (r : RelText) (m : NodeText) (r' : RelText) (m' : NodeText)

/-- Its text. -/
def ChainText.render : ChainText → Str
  | .one n => n.render
  | .two n r m => n.render ++ (r.render ++ m.render)
  | .three n r m r' m' => n.render ++ (r.render ++ (m.render ++ (r'.render ++ m'.render)))

/-- All its parts are well formed. -/
def ChainText.OK : ChainText → Prop
  | .one n => n.OK
  | .two n r m => n.OK ∧ r.OK ∧ m.OK
  | .three n r m r' m' => n.OK ∧ r.OK ∧ m.OK ∧ r'.OK ∧ m'.OK

/-- What it stands for. -/
def ChainText.pattern : ChainText → ParsedPattern
  | .one n => ⟨n.part, .absent, .absent, .absent, .absent⟩
  | .two n r m => ⟨n.part, r.part, m.part, .absent, .absent⟩
  | .three n r m r' m' => ⟨n.part, r.part, m.part, r'.part, m'.part⟩

/-- Text in which no part of a pattern starts: no white space, no `(`, `<` or `-`. -/
def Idle (t : Str) : Prop := ∀ c ∈ t, isSpace c = false ∧ c ≠ '(' ∧ c ≠ '<' ∧ c ≠ '-'

/-- Several patterns: each is preceded by an idle text (the keyword, commas) and white space.  The idle texts
between patterns are not empty. -/
def renderPatterns : List (Str × Str × ChainText) → Str
  | [] => []
  | (t, sp, c) :: l => t ++ (sp ++ (c.render ++ renderPatterns l))

/-- The texts between the patterns are as they should be. -/
def PatternsOK (l : List (Str × Str × ChainText)) : Prop :=
  (∀ x ∈ l, Idle x.1 ∧ x.2.1.all isSpace = true ∧ x.2.2.OK) ∧ ∀ x ∈ l.tail, x.1 ≠ []

/-- A chain of any length: a node, then relationships and nodes. -/
def renderLong (n : NodeText) : List (RelText × NodeText) → Str
  | [] => n.render
  | (r, m) :: l => n.render ++ (r.render ++ renderLong m l)

/-- All parts of a chain are well formed. -/
def LongOK (n : NodeText) (l : List (RelText × NodeText)) : Prop := n.OK ∧ ∀ x ∈ l, x.1.OK ∧ x.2.OK

end WG
