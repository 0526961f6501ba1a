/-
What the files of a GDBMS may hold instead of what they should, and what is wrong with it.
-/
import Verif.Spec.Storage

namespace WG
variable [PyRuntime]

/-- The file is JSON. -/
def IsJson (fs : FS) (p : Path) (v : V) : Prop := ∃ text, fs.get p = some text ∧ jsonLoad text = some v

/-- A value that can be made a set: a list of things other than lists and dicts, a dict (its keys) or a text (its characters). -/
def Settable : V → Prop
  | .list l => ∀ x ∈ l, (∀ m, x ≠ .list m) ∧ ∀ d, x ≠ .dict d
  | .dict _ => True
  | .str _ => True
  | _ => False

/-- What is in the set. -/
def Member (x : V) : V → Prop
  | .list l => x ∈ l
  | .dict d => ∃ k ∈ d.map Prod.fst, x = .str k
  | .str s => ∃ c ∈ s, x = .str [c]
  | _ => False

/-- The file is no JSON dict, and the exception that says so. -/
inductive NoDict (fs : FS) (p : Path) : PyErr → Prop
  | missing : fs.get p = none → NoDict fs p .fileNotFound
  | broken : Unreadable fs p → NoDict fs p .jsonDecode
  | other (v : V) : IsJson fs p v → (∀ d, v ≠ .dict d) → NoDict fs p .type

/-- The file has no such entry, and the exception that says so. -/
inductive NoEntry (fs : FS) (p : Path) (name : Str) : PyErr → Prop
  | file (e : PyErr) : NoDict fs p e → NoEntry fs p name e
  | key (d : Dict V) : Holds fs p d → name ∉ d.map Prod.fst → NoEntry fs p name .key

/-- The file has the entry `v`. -/
def HasEntry (fs : FS) (p : Path) (name : Str) (v : V) : Prop := ∃ d, Holds fs p d ∧ dictGet name d = some v

/-- What is wrong with an index that should be a set. -/
inductive SetFault (fs : FS) (p : Path) (name : Str) : PyErr → Prop
  | entry (e : PyErr) : NoEntry fs p name e → SetFault fs p name e
  | notSet (v : V) : HasEntry fs p name v → ¬ Settable v → SetFault fs p name .type

/-- What is wrong with the index of relationships when numbers are added for the nodes `ks`. -/
inductive RelFault (fs : FS) (p : Path) (ks : List Str) : PyErr → Prop
  | entry (e : PyErr) : NoEntry fs p c!"node_relationships" e → RelFault fs p ks e
  | notDict (v : V) : HasEntry fs p c!"node_relationships" v → (∀ d, v ≠ .dict d) → ks ≠ [] → RelFault fs p ks .type
  | notSet (R : Dict V) (k : Str) (v : V) : HasEntry fs p c!"node_relationships" (.dict R) → k ∈ ks → dictGet k R = some v → ¬ Settable v →
      RelFault fs p ks .type

/-- `R'` is `R` with the numbers added for the nodes. -/
def RelAdded (R : Dict V) (items : List (Str × List Int)) (R' : Dict V) : Prop :=
  ∀ k, (k ∈ items.map Prod.fst → ∃ v, dictGet k R' = some v ∧
      ∀ x, Member x v ↔ (∃ old, dictGet k R = some old ∧ Member x old) ∨ ∃ it ∈ items, it.1 = k ∧ ∃ n ∈ it.2, x = .int n) ∧
    (k ∉ items.map Prod.fst → dictGet k R' = dictGet k R)

/-- What is wrong with the index of relationships when it is loaded. -/
inductive RelLoadFault (fs : FS) (p : Path) : PyErr → Prop
  | entry (e : PyErr) : NoEntry fs p c!"node_relationships" e → RelLoadFault fs p e
  | notDict (v : V) : HasEntry fs p c!"node_relationships" v → (∀ d, v ≠ .dict d) → RelLoadFault fs p .attribute
  | notSet (R : Dict V) (x : Str × V) : HasEntry fs p c!"node_relationships" (.dict R) → x ∈ R → ¬ Settable x.2 → RelLoadFault fs p .type

/-- What is wrong with a database to which records with the keys `ks` (in this order) are added: it is not JSON; it is not a dict, and
the first key is found in it if it is a list or a text (`nodeExists`) or not (`type`); or one of the keys is used. -/
inductive DbFault (fs : FS) (p : Path) : List Str → PyErr → Prop
  | missing (ks : List Str) : fs.get p = none → DbFault fs p ks .fileNotFound
  | broken (ks : List Str) : Unreadable fs p → DbFault fs p ks .jsonDecode
  | used (ks : List Str) (d : Dict V) (k : Str) : Holds fs p d → k ∈ ks → k ∈ d.map Prod.fst → DbFault fs p ks .nodeExists
  | inList (l : List V) (k : Str) (ks : List Str) : IsJson fs p (.list l) → .str k ∈ l → DbFault fs p (k :: ks) .nodeExists
  | inText (t : Str) (k : Str) (ks : List Str) : IsJson fs p (.str t) → k <:+: t → DbFault fs p (k :: ks) .nodeExists
  | noList (l : List V) (k : Str) (ks : List Str) : IsJson fs p (.list l) → .str k ∉ l → DbFault fs p (k :: ks) .type
  | noText (t : Str) (k : Str) (ks : List Str) : IsJson fs p (.str t) → ¬ k <:+: t → DbFault fs p (k :: ks) .type
  | other (v : V) (k : Str) (ks : List Str) : IsJson fs p v → (∀ d, v ≠ .dict d) → (∀ l, v ≠ .list l) → (∀ t, v ≠ .str t) →
      DbFault fs p (k :: ks) .type

/-- What is wrong with a counter: it is missing, empty, or no integer. -/
inductive CounterFault (fs : FS) (p : Path) : PyErr → Prop
  | missing : fs.get p = none → CounterFault fs p .fileNotFound
  | empty : fs.get p = some [] → CounterFault fs p .exception
  | noNumber (s : Str) : fs.get p = some s → s ≠ [] → pyInt s = none → CounterFault fs p .value

end WG
