/-
Specification for C107: what Python documents about `re`, as far as /repo uses it.  A way to match is a tree that says how every part of the
expression was used; the ways are ordered as documented (repetition and `?` are greedy, the left alternative is tried first, what comes first
in the expression decides first), and the match is the first of them.
-/
import Verif.Py.Regex

namespace WG

/-- How an expression was used. -/
inductive Way where
  | eps
  | char (c : Char)
  | many (w : Str)
  | both (a b : Way)
  | left (a : Way)
  | right (b : Way)
  | used (a : Way)
  | unused
  | group (a : Way)

/-- In this way the expression matches the text `w` with these groups. -/
inductive Fits : Re → Way → Str → Caps → Prop
  | eps : Fits .eps .eps [] []
  | char {p : Char → Bool} {c : Char} : p c = true → Fits (.cls p) (.char c) [c] []
  | many {p : Char → Bool} {w : Str} : (∀ c ∈ w, p c = true) → Fits (.star p) (.many w) w []
  | both {a b : Re} {x y : Way} {w w' : Str} {g g' : Caps} : Fits a x w g → Fits b y w' g' → Fits (.seq a b) (.both x y) (w ++ w') (g ++ g')
  | left {a b : Re} {x : Way} {w : Str} {g : Caps} : Fits a x w g → Fits (.alt a b) (.left x) w g
  | right {a b : Re} {x : Way} {w : Str} {g : Caps} : Fits b x w g → Fits (.alt a b) (.right x) w g
  | used {a : Re} {x : Way} {w : Str} {g : Caps} : Fits a x w g → Fits (.opt a) (.used x) w g
  | unused {a : Re} : Fits (.opt a) .unused [] []
  | group {n : Nat} {a : Re} {x : Way} {w : Str} {g : Caps} : Fits a x w g → Fits (.grp n a) (.group x) w ((n, w) :: g)

/-- The first way is tried before the second. -/
inductive Before : Way → Way → Prop
  | longer {w w' : Str} : w'.length < w.length → Before (.many w) (.many w')
  | fst {x x' y y' : Way} : Before x x' → Before (.both x y) (.both x' y')
  | snd {x y y' : Way} : Before y y' → Before (.both x y) (.both x y')
  | sides {x y : Way} : Before (.left x) (.right y)
  | left {x x' : Way} : Before x x' → Before (.left x) (.left x')
  | right {x x' : Way} : Before x x' → Before (.right x) (.right x')
  | greedy {x : Way} : Before (.used x) .unused
  | used {x x' : Way} : Before x x' → Before (.used x) (.used x')
  | group {x x' : Way} : Before x x' → Before (.group x) (.group x')

/-- `s` begins with a text of this kind that the expression matches. -/
def MatchesHere (P : Str → Prop) (r : Re) (s : Str) : Prop := ∃ x w g rest, Fits r x w g ∧ P w ∧ s = w ++ rest

/-- The first way to match at the beginning of `s` a text of this kind takes `w`, leaves `rest` and has the groups `g`. -/
def FirstWay (P : Str → Prop) (r : Re) (s w rest : Str) (g : Caps) : Prop := ∃ x, Fits r x w g ∧ P w ∧ s = w ++ rest ∧
  ∀ x' w' g' rest', Fits r x' w' g' → P w' → s = w' ++ rest' → x' = x ∨ Before x x'

/-- Any text. -/
def AnyText (_ : Str) : Prop := True

/-- The leftmost match in `s`. -/
inductive Leftmost (r : Re) : Str → MRes → Prop
  | here {s w rest : Str} {g : Caps} : FirstWay AnyText r s w rest g → Leftmost r s (w, rest, g)
  | later {c : Char} {s : Str} {m : MRes} : ¬ MatchesHere AnyText r (c :: s) → Leftmost r s m → Leftmost r (c :: s) m

/-- All matches, from left to right, as `finditer` finds them: after an empty match it looks for one that is not empty at the same place. -/
inductive FindsAll (r : Re) : Str → List (Str × Caps) → Prop
  | over : ¬ MatchesHere AnyText r [] → FindsAll r [] []
  | on {c : Char} {s : Str} {l : List (Str × Caps)} : ¬ MatchesHere AnyText r (c :: s) → FindsAll r s l → FindsAll r (c :: s) l
  | hit {s w rest : Str} {g : Caps} {l : List (Str × Caps)} : FirstWay AnyText r s w rest g → w ≠ [] → FindsAll r rest l →
      FindsAll r s ((w, g) :: l)
  | emptyHit {s w rest rest' : Str} {g g' : Caps} {l : List (Str × Caps)} : FirstWay AnyText r s [] rest' g →
      FirstWay (· ≠ []) r s w rest g' → FindsAll r rest l → FindsAll r s (([], g) :: (w, g') :: l)
  | emptyOn {c : Char} {s rest : Str} {g : Caps} {l : List (Str × Caps)} : FirstWay AnyText r (c :: s) [] rest g →
      ¬ MatchesHere (· ≠ []) r (c :: s) → FindsAll r s l → FindsAll r (c :: s) (([], g) :: l)
  | emptyOver {rest : Str} {g : Caps} : FirstWay AnyText r [] [] rest g → FindsAll r [] [([], g)]

/-- `t` is `s` without the matches; for expressions that do not match the empty text. -/
inductive Erased (r : Re) : Str → Str → Prop
  | over : Erased r [] []
  | on {c : Char} {s t : Str} : ¬ MatchesHere AnyText r (c :: s) → Erased r s t → Erased r (c :: s) (c :: t)
  | hit {s w rest t : Str} {g : Caps} : FirstWay AnyText r s w rest g → w ≠ [] → Erased r rest t → Erased r s t

/-- `s` is the list of pieces with runs of separators between them. -/
inductive RunJoined (P : Char → Prop) : List Str → Str → Prop
  | one {w : Str} : (∀ c ∈ w, ¬ P c) → RunJoined P [w] w
  | more {w u s : Str} {l : List Str} : (∀ c ∈ w, ¬ P c) → (∀ c ∈ u, P c) → u ≠ [] → (∀ c, s.head? = some c → ¬ P c) → RunJoined P l s →
      RunJoined P (w :: l) (w ++ u ++ s)

end WG
