/-
What CRITERIA add to the properties of a FIND, written independently of the model.
-/
import Verif.Model.Find

namespace WG
section
variable [PyRuntime]

/-- Every property is named at most once in an entry of the criteria (they are Python dicts). -/
def Criteria.Dicts (c : Criteria) : Prop :=
  ∀ h yn, dictGet h c = some yn → (yn.yes.map Prod.fst).Nodup ∧ (yn.no.map Prod.fst).Nodup

/-- `Refined c handle own yes no`: with the criteria `c`, a part with this handle and the properties `own` asks for
the properties `yes` and against the properties `no`.  Without entry for the handle it asks for its own properties;
with an entry it asks for the properties of the entry as well, which win over its own ones, and against those of the
entry. -/
def Refined (c : Criteria) (handle : Option Str) (own yes : Option (Dict V)) (no : Dict V) : Prop :=
  ((∀ h, handle = some h → dictGet h c = none) ∧ yes = own ∧ no = []) ∨
  ∃ h yn, handle = some h ∧ dictGet h c = some yn ∧ (∀ k, dictGet k no = dictGet k yn.no) ∧
    ((yn.yes = [] ∧ yes = own) ∨
      ∃ d y, own = some d ∧ yes = some y ∧ ∀ k, dictGet k y = (dictGet k yn.yes).or (dictGet k d))

/-- The relationship `x` of the processed FIND is what is written as `t`, refined by the criteria. -/
def RelRefined (c : Criteria) (t : PartText) (x : FindRelPre) : Prop :=
  x.name = t.label ∧ x.handle = t.handle ∧
    ∃ own, getPropertyDict t.props = .ok own ∧ Refined c t.handle own x.yes x.no

/-- The same for a node. -/
def NodeRefined (c : Criteria) (t : PartText) (x : FindNodePre) : Prop :=
  t.label = some x.label ∧ x.handle = t.handle ∧
    ∃ own, getPropertyDict t.props = .ok own ∧ Refined c t.handle own x.yes x.no

/-- The relationships of a node, none if there is no node. -/
def heldRels (o : Option FindNodePre) : List FindRelPre :=
  match o with
  | some n => n.rels
  | none => []

end
end WG
