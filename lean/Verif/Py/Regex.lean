/-
Python's `re`, as far as /repo uses it: a backtracking matcher over a small AST.

`run` returns all ways to match at the current position, in the order in which the backtracking
engine tries them; the match `re` reports is the first one.  Repetition is only needed for single
character classes; groups are numbered and every group occurs once in its pattern.
-/
import Verif.Py.Basic

namespace WG

/-- Regular expressions.  `star p` is the greedy `[p]*`. -/
inductive Re where
  | eps
  | cls (p : Char → Bool)
  | star (p : Char → Bool)
  | seq (a b : Re)
  | alt (a b : Re)
  | opt (a : Re)
  | grp (n : Nat) (a : Re)

/-- Captured groups. -/
abbrev Caps := List (Nat × Str)

/-- A way to match: consumed text, remaining text, captures. -/
abbrev MRes := Str × Str × Caps

/-- Ways to match `[p]*`, longest first. -/
def starRuns (p : Char → Bool) : Str → List (Str × Str)
  | [] => [([], [])]
  | c :: cs =>
    if p c then (starRuns p cs).map (fun x => (c :: x.1, x.2)) ++ [([], c :: cs)]
    else [([], c :: cs)]

namespace Re

/-- All ways to match a prefix, in backtracking order. -/
def run : Re → Str → List MRes
  | .eps, s => [([], s, [])]
  | .cls _, [] => []
  | .cls p, c :: cs => if p c then [([c], cs, [])] else []
  | .star p, s => (starRuns p s).map fun x => (x.1, x.2, [])
  | .seq a b, s =>
    (run a s).flatMap fun m => (run b m.2.1).map fun m' => (m.1 ++ m'.1, m'.2.1, m.2.2 ++ m'.2.2)
  | .alt a b, s => run a s ++ run b s
  | .opt a, s => run a s ++ [([], s, [])]
  | .grp n a, s => (run a s).map fun m => (m.1, m.2.1, (n, m.1) :: m.2.2)

/-- `[p]+`. -/
def plus (p : Char → Bool) : Re := .seq (.cls p) (.star p)

/-- `[p]?`. -/
def optC (p : Char → Bool) : Re := .opt (.cls p)

/-- A literal character. -/
def ch (c : Char) : Re := .cls (· == c)

/-- A literal word matched exactly. -/
def word : Str → Re
  | [] => .eps
  | [c] => ch c
  | c :: cs => .seq (ch c) (word cs)

/-- A literal word of (lower-case) letters under IGNORECASE. -/
def wordCI : Str → Re
  | [] => .eps
  | [c] => .cls (matchCI c)
  | c :: cs => .seq (.cls (matchCI c)) (wordCI cs)

/-- `a|b|…`. -/
def alts : List Re → Re
  | [] => .cls fun _ => false
  | [a] => a
  | a :: as => .alt a (alts as)

/-- Concatenation. -/
def seqs : List Re → Re
  | [] => .eps
  | [a] => a
  | a :: as => .seq a (seqs as)

/-- `re.match` at the start: the first way. -/
def matchAt (r : Re) (s : Str) : Option MRes := (run r s).head?

/-- The first way that consumes something. -/
def matchNonempty (r : Re) (s : Str) : Option MRes := (run r s).find? fun m => !m.1.isEmpty

/-- `pattern.search`: leftmost match. -/
def search (r : Re) : Str → Option MRes
  | [] => r.matchAt []
  | c :: cs =>
    match r.matchAt (c :: cs) with
    | some m => some m
    | none => search r cs

/-- Next text position (end of text: stop). -/
def next {α : Type} (s : Str) (k : Str → List α) : List α :=
  match s with
  | [] => []
  | _ :: cs => k cs

/-- `finditer` with fuel (one unit per position).  After an empty match the scan tries again at
the same position for a non-empty match (`must_advance`), then moves on. -/
def finditerFuel (r : Re) : Nat → Str → List (Str × Caps)
  | 0, _ => []
  | n + 1, s =>
    match r.matchAt s with
    | none => next s (finditerFuel r n)
    | some m =>
      if m.1.isEmpty then
        (m.1, m.2.2) ::
          (match r.matchNonempty s with
           | some m' => (m'.1, m'.2.2) :: finditerFuel r n m'.2.1
           | none => next s (finditerFuel r n))
      else (m.1, m.2.2) :: finditerFuel r n m.2.1

/-- `pattern.finditer(s)`: matched texts with their captures. -/
def finditer (r : Re) (s : Str) : List (Str × Caps) := finditerFuel r (s.length + 1) s

/-- `pattern.sub("", s)` for a pattern without empty matches, with fuel. -/
def eraseFuel (r : Re) : Nat → Str → Str
  | 0, _ => []
  | _ + 1, [] => []
  | n + 1, c :: cs =>
    match r.matchAt (c :: cs) with
    | some m => if m.1.isEmpty then c :: eraseFuel r n cs else eraseFuel r n m.2.1
    | none => c :: eraseFuel r n cs

/-- `pattern.sub("", s)`. -/
def erase (r : Re) (s : Str) : Str := eraseFuel r (s.length + 1) s

end Re

/-- Text of a group, `None` if the group did not take part. -/
def capGet (n : Nat) : Caps → Option Str
  | [] => none
  | (k, s) :: cs => if k = n then some s else capGet n cs

/-- `re.split("[p]+", s)`. `sep` says that the previous character was a separator. -/
def splitClassAux (p : Char → Bool) : Bool → Str → List Str
  | _, [] => [[]]
  | sep, c :: cs =>
    if p c then (if sep then splitClassAux p true cs else [] :: splitClassAux p true cs)
    else match splitClassAux p false cs with
      | [] => [[c]]
      | w :: ws => (c :: w) :: ws

/-- `re.split("[p]+", s)`. -/
def splitClass (p : Char → Bool) (s : Str) : List Str := splitClassAux p false s

end WG
