/-
`glob(f"{path}/*")`, as far as /repo uses it: `path` is `folder/name`, and `name` may contain the
magic characters of `glob`.  The folder is assumed to have none.
-/
import Verif.Py.Files

namespace WG

/-- `glob.has_magic`: one of `*?[`. -/
def hasMagic (s : Str) : Bool := s.any fun c => c == '*' || c == '?' || c == '['

/-- Tokens of an `fnmatch` pattern. -/
inductive GlobTok where
  | lit (c : Char)
  | any
  | star
  | set (neg : Bool) (cs : Str)
deriving DecidableEq, Repr

/-- Characters of a set that the model reads as themselves: not `-` (ranges), `\`, `[`, `^`, `!` or
the set-operation characters `&~|`. -/
def isPlainSetChar (c : Char) : Bool :=
  c != '-' && c != '\\' && c != '[' && c != '^' && c != '!' && c != '&' && c != '~' && c != '|'

/-- The text up to the next `]`. -/
def splitSet : Str → Option (Str × Str)
  | [] => none
  | c :: cs => if c = ']' then some ([], cs) else (splitSet cs).map fun x => (c :: x.1, x.2)

/-- Tokens of a pattern: `*`, `?`, sets `[abc]` and `[!abc]` of plain characters, an unclosed `[`
stands for itself.  `none`: a set outside the subset (ranges, an initial `]`, …). -/
def globToks : Nat → Str → Option (List GlobTok)
  | 0, _ => none
  | _ + 1, [] => some []
  | n + 1, c :: cs =>
    if c = '*' then (globToks n cs).map (.star :: ·)
    else if c = '?' then (globToks n cs).map (.any :: ·)
    else if c = '[' then
      match splitSet cs with
      | none => (globToks n cs).map (.lit '[' :: ·)
      | some (set, rest) =>
        match set with
        | [] => none
        | ['!'] => none
        | '!' :: set => if set.all isPlainSetChar then (globToks n rest).map (.set true set :: ·) else none
        | set => if set.all isPlainSetChar then (globToks n rest).map (.set false set :: ·) else none
    else (globToks n cs).map (.lit c :: ·)

/-- Does some suffix of the text satisfy `f`? -/
def anySuffix (f : Str → Bool) : Str → Bool
  | [] => f []
  | c :: cs => f (c :: cs) || anySuffix f cs

/-- Does a name match a list of tokens? -/
def globMatch : List GlobTok → Str → Bool
  | [], s => s.isEmpty
  | .star :: ts, s => anySuffix (globMatch ts) s
  | .lit a :: ts, s =>
    match s with
    | [] => false
    | c :: cs => a == c && globMatch ts cs
  | .any :: ts, s =>
    match s with
    | [] => false
    | _ :: cs => globMatch ts cs
  | .set neg set :: ts, s =>
    match s with
    | [] => false
    | c :: cs => (set.contains c != neg) && globMatch ts cs

/-- `fnmatch.fnmatch(name, pattern)` on POSIX (`fnmatch.translate`). -/
def fnmatch [PyRuntime] (pattern name : Str) : Bool :=
  match globToks (pattern.length + 1) pattern with
  | some ts => globMatch ts name
  | none => PyRuntime.fnmatchOther pattern name

/-- The sub-directories of the folder that `glob(f"{folder}/{name}/*")` looks into: the directory
`name` itself, or, if `name` has magic characters, all directories matching it (hidden ones only if
the pattern starts with a dot). -/
def globDirs [PyRuntime] (name d : Str) : Bool :=
  if hasMagic name then fnmatch name d && (isHidden name || !isHidden d) else d == name

end WG
