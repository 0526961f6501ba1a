/-
What the message of a refused query should say.
-/
import Verif.Spec.Report
import Verif.Spec.Quoted
import Verif.Model.Messages

namespace WG
variable [PyRuntime]

/-- The letters of `kw` in some order, in any case. -/
def Arranges (kw w : Str) : Prop := ∃ kw', kw'.Perm kw ∧ CISpelling kw' w

/-- The text of a message. -/
def Raised.Says (r : Raised) (kind : PyErr) (text : List Piece) : Prop := r.kind = kind ∧ r.text = some text

/-- The message of a misspelt word. -/
def Raised.notRecognised (w KW : Str) : Raised :=
  ⟨.clauseSyntax, some [.words c!"SyntaxError: ", .quote w, .words c!" was not recognised did you mean ", .words KW, .words c!"?"]⟩

/-- How the refusal of the query `q` is explained. -/
inductive Explains (q : Str) (r : Raised) : Prop where
  /-- A word, followed by a parenthesis, has the letters of MAKE or FIND. -/
  | misspelt (kw KW w sp a b : Str) (hk : kw = c!"make" ∧ KW = c!"MAKE" ∨ kw = c!"find" ∧ KW = c!"FIND") (ha : Arranges kw w)
      (hq : q = a ++ (w ++ (sp ++ '(' :: b))) (hsp : sp.length ≤ 1 ∧ sp.all isSpace = true)
      (h : r.Says .clauseSyntax [.words c!"SyntaxError: ", .quote w, .words c!" was not recognised did you mean ", .words KW, .words c!"?"])
  /-- A text up to a semicolon starts with the letters of REPORT. -/
  | misspeltReport (w body a b : Str) (ha : Arranges c!"report" w) (hq : q = a ++ ((w ++ (body ++ c!";")) ++ b)) (hb : body ≠ [])
      (h : r.Says .clauseSyntax [.words c!"SyntaxError: ", .tuple [w ++ (body ++ c!";"), w], .words c!" was not recognised did you mean ",
        .words c!"REPORT", .words c!"?"])
  /-- The word FIND or REPORT stands there twice. -/
  | twice (kw KW a w b w' c : Str) (hk : kw = c!"find" ∧ KW = c!"FIND" ∨ kw = c!"report" ∧ KW = c!"REPORT")
      (hq : q = a ++ (w ++ (b ++ (w' ++ c)))) (h1 : CISpelling kw w) (h2 : CISpelling kw w')
      (h : r.Says .multipleClause [.words (c!"Only one Clause." ++ KW ++ c!" clause is allowed per query")])
  /-- A piece has an odd number of parentheses, curly braces or square brackets. -/
  | parentheses (x : Str) (hq : x <:+: q) (hx : ∀ c ∈ x, c ≠ '<' ∧ c ≠ '>') (ho : (x.count '(' + x.count ')') % 2 = 1)
      (h : r.Says .clauseSyntax [.words c!"Node is missing a parentheses: ---> ", .quote x, .words c!" <---"])
  | braces (x : Str) (hq : x <:+: q) (hx : ∀ c ∈ x, c ≠ '<' ∧ c ≠ '>') (ho : (x.count '{' + x.count '}') % 2 = 1)
      (h : r.Says .clauseSyntax [.words c!"Properties is missing a curly brace: ---> ", .quote x, .words c!" <---"])
  | brackets (x : Str) (hq : x <:+: q) (hx : ∀ c ∈ x, c ≠ '<' ∧ c ≠ '>') (ho : (x.count '[' + x.count ']') % 2 = 1)
      (h : r.Says .clauseSyntax [.words c!"A Relationship or property list is missing a square bracket: ---> ", .quote x, .words c!" <---"])
  /-- A character is not allowed. -/
  | illegal (c : Char) (hq : c ∈ q) (hc : c ∈ c!"#%&*$") (h : r.Says .illegalCharacter [.quote [c], .words c!" is not allowed"])
  /-- Commas and colons do not fit; the text shown is that of properties in curly braces in the query, changed. -/
  | colons (x y : Str) (hq : '{' :: (x ++ c!"}") <:+: q) (ho : y.count ',' + 1 ≠ y.count ':')
      (hy : y = listValue.erase (pyKeywords ('{' :: (x ++ c!"}"))))
      (h : r.Says .paramSyntax [.words c!"SyntaxError: ", .quote y, .words c!" missing : or ,"])
  /-- One of the lists of such properties, changed in the same way, is none. -/
  | list (x y : Str) (l : List Str) (hq : '{' :: (x ++ c!"}") <:+: q) (hl : ∀ z ∈ l, z <:+: pyKeywords ('{' :: (x ++ c!"}"))) (hy : y ∈ l)
      (he : literalEval y = .error .syntaxError)
      (h : r.Says .paramSyntax [.words c!"SyntaxError: ", .list l, .words c!" missing a comma?"])
  /-- A relationship has two arrow heads, or none. -/
  | twoHeads (x : Str) (hq : x <:+: q) (ho : '<' ∈ x ∧ '>' ∈ x)
      (h : r.Says .nonDirected [.words c!"Relationships must be unidirectional: ", .quote x])
  | noHead (x : Str) (hq : x <:+: q) (ho : '<' ∉ x ∧ '>' ∉ x)
      (h : r.Says .nonDirected [.words c!"Relationships must be singly directed: ", .quote x])
  /-- A relationship has a name that is not in upper case. -/
  | name (x : Str) (hq : x <:+: q) (ho : isUpperStr x = false) (hn : x ≠ [])
      (h : r.Says .relationshipName [.words c!"Relationship names must be upper case: ", .quote x, .words c!" -> ", .upper x])
  /-- Two handles of a pattern are the same. -/
  | handles (l : List Str) (hq : ∀ x ∈ l, x <:+: q) (ho : ¬ l.Nodup)
      (h : r.Says .makeDuplicateHandles (.words c!"Handles must be unique per MAKE statement Handles:" :: joined l))
  /-- Handles of FIND do not occur in REPORT. -/
  | report (l : List Str) (s : Str) (hs : s <:+: q) (hq : ∀ x ∈ l, x <:+: q ∧ ¬ x <:+: s) (hl : l ≠ [])
      (h : r.Says .findReportHandle [.words c!"FIND handle ", .oneOf l, .words c!" was not found not in the ---> ", .quote s, .words c!" <---"])

/-- The texts of the query that a message shows. -/
def Piece.quotes : Piece → List Str
  | .words _ => []
  | .quote s => [s]
  | .tuple l => l
  | .list l => l
  | .upper _ => []
  | .oneOf l => l

/-- How the refusal of the properties `s` is explained.  The value is shown without quotation marks and white space at its ends. -/
inductive PropFault (s : Str) (r : Raised) : Prop where
  /-- There is nothing but white space. -/
  | empty (name v : Str) (hn : name <:+: s) (hv : v <:+: s) (hw : v.all isSpace = true) (hne : v ≠ [])
      (h : r.Says .illegalPropertyValue [.words c!"Error for setting property in ", .quote s, .words c!" ", .quote name,
        .words c!" was empty a value must be supplied"])
  /-- `null` in other letters. -/
  | null (v t : Str) (hv : v <:+: s) (ht : Trimmed v t) (hc : CISpelling c!"null" v) (hn : t ≠ c!"null")
      (h : r.Says .illegalPropertyValue [.words c!"Value must be null: provided value was ", .quote t, .words c!" "])
  /-- `true` or `false` in other letters. -/
  | capital (v t w : Str) (hv : v <:+: s) (ht : Trimmed v t) (hw : t = c!"True" ∧ w = c!"true" ∨ t = c!"False" ∧ w = c!"false")
      (h : r.Says .illegalPropertyValue [.quote t, .words (c!" should be lowercase. Boolean property example {foo: " ++ w ++ c!"}")])
  | bool (v t : Str) (hv : v <:+: s) (ht : Trimmed v t) (hc : CISpelling c!"true" v ∨ CISpelling c!"false" v)
      (hn : t ≠ c!"true" ∧ t ≠ c!"false" ∧ t ≠ c!"True" ∧ t ≠ c!"False")
      (h : r.Says .illegalPropertyValue [.quote t, .words c!" is not a boolean"])
  /-- Digits, a period and digits that `float` does not take. -/
  | float (d f t : Str) (hv : d ++ '.' :: f <:+: s) (hd : d.all isDecimal = true ∧ f.all isDecimal = true) (ht : Trimmed (d ++ '.' :: f) t)
      (hf : PyRuntime.floatOfStr t = none)
      (h : r.Says .illegalPropertyValue [.quote t, .words c!" was mot a decimal. Float property example: {foo: 3.14}"])
  /-- A list that Python does not read. -/
  | list (x t : Str) (hv : '[' :: (x ++ c!"]") <:+: s) (ht : Trimmed ('[' :: (x ++ c!"]")) t) (he : literalEval (pyKeywords t) = .error .syntaxError)
      (h : r.Says .illegalPropertyValue [.quote t, .words c!" contained an Error."])
  /-- A reserved word as a string. -/
  | noString (v t w : Str) (hv : v <:+: s) (ht : Trimmed v t)
      (hw : t ∈ [c!"Null", c!"None", c!"none"] ∧ w = c!"null type for example {foo: null}" ∨
        t ∈ [c!"true", c!"True", c!"false", c!"False"] ∧ w = c!"bool type for example {foo: true}")
      (h : r.Says .illegalPropertyValue [.words c!"Cannot use ", .quote t, .words (c!" as a string, please use the " ++ w)])

end WG
