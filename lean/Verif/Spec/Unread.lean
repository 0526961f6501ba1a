/-
Property lists with entries whose value the parser does not read: negative numbers and empty lists.
-/
import Verif.Spec.Literal

namespace WG
variable [PyRuntime]

/-- An entry as written, with white space around its parts. -/
structure Unread where
  sp1 : Str
  name : Str
  sp2 : Str
  sp3 : Str
  value : Str
  sp4 : Str

/-- Its text. -/
def Unread.render (u : Unread) : Str := u.sp1 ++ (u.name ++ (u.sp2 ++ ':' :: (u.sp3 ++ (u.value ++ u.sp4))))

/-- The name is a word; the value is a minus sign with digits and points, or `[]`. -/
structure Unread.OK (u : Unread) : Prop where
  sp1 : u.sp1.all isSpace = true
  name : u.name.all isWord = true
  name_ne : u.name ≠ []
  sp2 : u.sp2.all isSpace = true
  sp3 : u.sp3.all isSpace = true
  value : (∃ n : Str, u.value = '-' :: n ∧ n.all (fun c => isWord c || c == '.') = true) ∨ u.value = c!"[]"
  sp4 : u.sp4.all isSpace = true

/-- An entry of a mixed list: one that can be read, with the value it stands for, or one that cannot. -/
inductive LitEntry where
  | read (p : PropText) (v : V)
  | unread (u : Unread)

def LitEntry.render : LitEntry → Str
  | .read p _ => p.render
  | .unread u => u.render

def LitEntry.OK : LitEntry → Prop
  | .read p v => p.OK ∧ p.lit.Means v
  | .unread u => u.OK

/-- The text of the list. -/
def renderEntries (l : List LitEntry) : Str := '{' :: (commaSep (l.map LitEntry.render) ++ ['}'])

/-- Names and values of the entries that can be read. -/
def readEntries (l : List LitEntry) : List (Str × V) := l.filterMap fun
  | .read p v => some (p.name, v)
  | .unread _ => none

/-- White space between the colon and a value that cannot be read. -/
def Spaced (l : List LitEntry) : Prop := ∃ u : Unread, LitEntry.unread u ∈ l ∧ u.sp3 ≠ []

end WG
