/-
A backtracking matcher that counts its steps, independent of `Re.run`.

It works like Python's `sre`: a position in the text, a continuation that says whether the rest of the pattern
matches, greedy repetition that gives back one character at a time, alternatives tried from left to right, and it stops
at the first success.  One step is one test of a character, one attempt at a repetition count, or one choice.
-/
import Verif.Model.Regexes

namespace WG

/-- Outcome and number of steps. -/
abbrev Timed (α : Type) := Option α × Nat

/-- The rest of the pattern: consumed text, remaining text, captured groups. -/
abbrev Cont (α : Type) := Str → Str → Caps → Timed α

/-- If the first attempt fails, make the second. -/
def orElseT {α : Type} (a b : Timed α) : Timed α :=
  match a.1 with
  | some x => (some x, a.2)
  | none => (b.1, a.2 + b.2)

/-- One step. -/
def tickT {α : Type} (a : Timed α) : Timed α := (a.1, a.2 + 1)

/-- Greedy `[p]*`: take a character if possible; if what follows fails, give it back. -/
def btStar {α : Type} (p : Char → Bool) : Str → (Str → Str → Timed α) → Timed α
  | [], k => tickT (k [] [])
  | c :: cs, k =>
    if p c then orElseT (tickT (btStar p cs fun x r => k (c :: x) r)) (k [] (c :: cs))
    else tickT (k [] (c :: cs))

/-- The matcher. -/
def bt {α : Type} : Re → Str → Cont α → Timed α
  | .eps, s, k => k [] s []
  | .cls _, [], _ => (none, 1)
  | .cls p, c :: cs, k => if p c then tickT (k [c] cs []) else (none, 1)
  | .star p, s, k => btStar p s fun x r => k x r []
  | .seq a b, s, k => bt a s fun x r cs => bt b r fun y r' cs' => k (x ++ y) r' (cs ++ cs')
  | .alt a b, s, k => orElseT (tickT (bt a s k)) (bt b s k)
  | .opt a, s, k => orElseT (tickT (bt a s k)) (k [] s [])
  | .grp n a, s, k => bt a s fun x r cs => k x r ((n, x) :: cs)

/-- `pattern.match`: the rest of the pattern is empty. -/
def btMatch (r : Re) (s : Str) : Timed MRes := bt r s fun x t cs => (some (x, t, cs), 0)

/-- A match that must not be empty (`must_advance`). -/
def btNonempty (r : Re) (s : Str) : Timed MRes :=
  bt r s fun x t cs => if x.isEmpty then (none, 1) else (some (x, t, cs), 1)

/-- `pattern.search`, counting. -/
def btSearch (r : Re) : Str → Timed MRes
  | [] => btMatch r []
  | c :: cs => orElseT (btMatch r (c :: cs)) (btSearch r cs)

/-- `pattern.finditer`, counting: the loop of `Re.finditerFuel` over the counting matcher. -/
def btFinditer (r : Re) : Nat → Str → List (Str × Caps) × Nat
  | 0, _ => ([], 0)
  | n + 1, s =>
    let go (t : Str) : List (Str × Caps) × Nat :=
      match t with
      | [] => ([], 0)
      | _ :: cs => btFinditer r n cs
    match btMatch r s with
    | (none, k) => ((go s).1, k + (go s).2)
    | (some m, k) =>
      if m.1.isEmpty then
        match btNonempty r s with
        | (some m', k') =>
          ((m.1, m.2.2) :: (m'.1, m'.2.2) :: (btFinditer r n m'.2.1).1, k + k' + (btFinditer r n m'.2.1).2)
        | (none, k') => ((m.1, m.2.2) :: (go s).1, k + k' + (go s).2)
      else ((m.1, m.2.2) :: (btFinditer r n m.2.1).1, k + (btFinditer r n m.2.1).2)

/-- `pattern.sub("", s)`, counting: the loop of `Re.eraseFuel` over the counting matcher. -/
def btErase (r : Re) : Nat → Str → Str × Nat
  | 0, _ => ([], 0)
  | _ + 1, [] => ([], 0)
  | n + 1, c :: cs =>
    match btMatch r (c :: cs) with
    | (some m, k) =>
      if m.1.isEmpty then (c :: (btErase r n cs).1, k + (btErase r n cs).2) else ((btErase r n m.2.1).1, k + (btErase r n m.2.1).2)
    | (none, k) => (c :: (btErase r n cs).1, k + (btErase r n cs).2)

/-- Number of repetitions in a pattern: the degree of the bound. -/
def Re.stars : Re → Nat
  | .eps => 0
  | .cls _ => 0
  | .star _ => 1
  | .seq a b => a.stars + b.stars
  | .alt a b => max a.stars b.stars
  | .opt a => a.stars
  | .grp _ a => a.stars

/-- Number of ways through a pattern, not counting repetitions. -/
def Re.ways : Re → Nat
  | .eps => 1
  | .cls _ => 1
  | .star _ => 1
  | .seq a b => a.ways * b.ways
  | .alt a b => a.ways + b.ways
  | .opt a => a.ways + 1
  | .grp _ a => a.ways

/-- Factor of the bound: steps through a pattern, not counting repetitions. -/
def Re.work : Re → Nat
  | .eps => 0
  | .cls _ => 1
  | .star _ => 1
  | .seq a b => a.work + a.ways * b.work
  | .alt a b => 1 + a.work + b.work
  | .opt a => 1 + a.work
  | .grp _ a => a.work

/-- The regular expressions of /repo/wiggle_query_language/clauses/regexes, compiled with or without IGNORECASE. -/
def allPatterns [PyRuntime] : List Re :=
  [nodesRelsPattern, makeAll, findAll, reportAll, makeAllCS, findAllCS, reportAllCS, makeSpelling, findSpelling, reportSpelling,
    propKV, checkProps, listValue, relDirCheck, illegalRe]

/-- A MAKE statement whose relationship lacks its `->`, with `n` blanks between the square brackets. -/
def stallStmt (n : Nat) : Str := c!"MAKE (a:B)-[" ++ (List.replicate n ' ' ++ c!"](c:D);")

end WG
