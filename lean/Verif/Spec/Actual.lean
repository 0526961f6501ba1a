/-
What the program really stores for a written query, including the patterns that it does not store as written.
-/
import Verif.Spec.EndToEnd

namespace WG
variable [PyRuntime]

/-- The direction that MAKE sees: it looks at the last character in front of the next node, so that white space
behind the arrow hides the arrow head. -/
def RelText.seenRight (r : RelText) : Bool := r.toRight && r.sp3.isEmpty

/-- As `RelKept`, with the direction that MAKE sees. -/
def RelSeen (rs rs' : List V) (wn : Int) (r : RelText) (a b : Int) : Prop :=
  ∃ x, if r.seenRight then rs = [x] ∧ rs' = [] ∧ RelRecord x wn r a b else rs = [] ∧ rs' = [x] ∧ RelRecord x wn r b a

/-- The records that a pattern leaves in the database.  Of three nodes the last one is never stored; the
relationship to it is kept under the middle node if it points to the right (to a number that no node has), and is
lost otherwise. -/
def ActualRecords (b : Int) : ChainText → Dict V → Prop
  | .one n, new => ∃ v, new = [(intStr b, v)] ∧ NodeRecord v b n ∧ relationsOf v = []
  | .two n r m, new => ∃ v w, new = [(intStr b, v), (intStr (b + 1), w)] ∧ NodeRecord v b n ∧ NodeRecord w (b + 1) m ∧
      RelSeen (relationsOf v) (relationsOf w) (b + 2) r b (b + 1)
  | .three n r m r' _, new => ∃ v w w1 w2, new = [(intStr b, v), (intStr (b + 1), w)] ∧
      NodeRecord v b n ∧ NodeRecord w (b + 1) m ∧ relationsOf w = w1 ++ w2 ∧
      RelSeen (relationsOf v) w1 (b + 3) r b (b + 1) ∧
      if r'.seenRight then ∃ x, w2 = [x] ∧ RelRecord x (b + 4) r' (b + 1) (b + 2) else w2 = []

/-- The records that several patterns leave in the database. -/
def ActualAll (b : Int) (cs : List ChainText) (new : Dict V) : Prop := Records ActualRecords b cs new

/-- What FIND does with a pattern: two nodes raise a pydantic ValidationError. -/
def ChainText.findResult : ChainText → Except PyErr Bool
  | .two _ _ _ => .error .validation
  | _ => .ok true

/-- The query ends in `res`, and the patterns `cs` have been stored, as far as MAKE does that, in database, index
and counter; no other file has changed. -/
def Leaves (env : Env) (q : Str) (g : GPath) (fs : FS) (d : Dict V) (labels names : List Str) (rels : Dict (List Int)) (n : Int)
    (cs : List ChainText) (res : Except PyErr Bool) : Prop :=
  ∃ fs' new labels' names' rels', (query env q g).run fs = (res, fs') ∧
    Healthy fs' g (d ++ new) labels' names' rels' (n + sizeOfAll cs) ∧ BelowCounter (d ++ new) (n + sizeOfAll cs) ∧
    ActualAll n cs new ∧ Indexed cs new labels names rels labels' names' rels' ∧
    ∀ p, p ≠ g.db → p ≠ g.idx → p ≠ g.wn → fs'.get p = fs.get p

/-- The query raises a JSONDecodeError halfway: the nodes of `cs` are in the database, the index file is no longer
JSON, the counter still says `n`; no other file has changed. -/
def Ruins (env : Env) (q : Str) (g : GPath) (fs : FS) (d : Dict V) (n : Int) (cs : List ChainText) : Prop :=
  ∃ fs' new, (query env q g).run fs = (.error .jsonDecode, fs') ∧ Holds fs' g.db (d ++ new) ∧ ActualAll n cs new ∧
    Unreadable fs' g.idx ∧ ∀ p, p ≠ g.db → p ≠ g.idx → fs'.get p = fs.get p

end WG
