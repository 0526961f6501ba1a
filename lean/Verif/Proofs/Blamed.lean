/-
Helper lemmas: whom a failing query blames.
-/
import Verif.Proofs.Answers
import Verif.Proofs.MakeBatch

set_option linter.unusedSectionVars false
set_option linter.unusedSimpArgs false

namespace WG
variable [PyRuntime]

/-! ### Exceptions of the libraries -/

/-- None of the project's classes. -/
def PyErr.Lib (e : PyErr) : Prop := e.className = none ∧ e ≠ .exception

/-- All exceptions a program can raise. -/
def Prog.Raises {α : Type} (P : PyErr → Prop) : Prog α → Prop
  | .ret _ => True
  | .raise e => P e
  | .act _ k => ∀ r, (k r).Raises P

theorem raises_run {α : Type} {P : PyErr → Prop} {p : Prog α} (h : p.Raises P) {fs fs' : FS} {e : PyErr} (hr : p.run fs = (.error e, fs')) : P e := by
  induction p generalizing fs with
  | ret a => simp at hr
  | raise e' => simp at hr; rw [← hr.1]; exact h
  | act op k ih => exact ih _ (h _) hr

theorem raises_bind {α β : Type} {P : PyErr → Prop} {p : Prog α} {f : α → Prog β} (h : p.Raises P) (h' : ∀ a, (f a).Raises P) : (p >>= f).Raises P := by
  change (p.bind f).Raises P
  induction p with
  | ret a => exact h' a
  | raise e => exact h
  | act op k ih => exact fun r => ih r (h r)

theorem raises_tryCatch {α : Type} {P : PyErr → Prop} {p : Prog α} {f : PyErr → Prog α} (h : p.Raises P) (h' : ∀ e, P e → (f e).Raises P) : (p.tryCatch f).Raises P := by
  induction p with
  | ret a => trivial
  | raise e => exact h' e h
  | act op k ih => exact fun r => ih r (h r)

theorem raises_liftE {α : Type} {P : PyErr → Prop} {x : Except PyErr α} (h : ∀ e, x = .error e → P e) : (liftE x).Raises P := by
  cases x with
  | ok a => trivial
  | error e => exact h e rfl

theorem raises_pure {α : Type} {P : PyErr → Prop} (a : α) : (pure a : Prog α).Raises P := trivial

theorem raises_read (p : Path) : (readFile p).Raises PyErr.Lib := by
  intro r
  cases r <;> simp [Prog.Raises, PyErr.Lib, PyErr.className]

theorem raises_unit (op : Op) {e : PyErr} (h : e.Lib) : (unitOp op e).Raises PyErr.Lib := by
  intro r
  cases r <;> first | trivial | exact h

theorem lib_type : PyErr.Lib .type := by simp [PyErr.Lib, PyErr.className]
theorem lib_key : PyErr.Lib .key := by simp [PyErr.Lib, PyErr.className]
theorem lib_json : PyErr.Lib .jsonDecode := by simp [PyErr.Lib, PyErr.className]
theorem lib_os : PyErr.Lib .osError := by simp [PyErr.Lib, PyErr.className]
theorem lib_file : PyErr.Lib .fileNotFound := by simp [PyErr.Lib, PyErr.className]

theorem lib_loads {s : Str} : ∀ e, loads s = .error e → e.Lib := by
  intro e h
  unfold loads at h
  split at h <;> simp at h
  rw [← h]; exact lib_json

theorem lib_getItem {v : V} {k : Str} : ∀ e, getItem v k = .error e → e.Lib := by
  intro e h
  unfold getItem at h
  split at h
  · split at h <;> simp at h
    rw [← h]; exact lib_key
  · simp at h; rw [← h]; exact lib_type

theorem lib_setItem {v x : V} {k : Str} : ∀ e, setItem v k x = .error e → e.Lib := by
  intro e h
  unfold setItem at h
  split at h <;> simp at h
  rw [← h]; exact lib_type

theorem lib_pySet {v : V} : ∀ e, pySet v = .error e → e.Lib := by
  intro e h
  unfold pySet at h
  split at h
  · split at h <;> simp at h
    rw [← h]; exact lib_type
  · simp at h
  · simp at h
  · simp at h; rw [← h]; exact lib_type

theorem lib_inVal {v : V} {k : Str} : ∀ e, inVal k v = .error e → e.Lib := by
  intro e h
  unfold inVal at h
  split at h <;> simp at h
  rw [← h]; exact lib_type

theorem lib_relLoop {o : SetOrd} {l : List (Str × List V)} : ∀ {v : V} e, relIndexLoop o v l = .error e → e.Lib := by
  induction l with
  | nil => intro v e h; simp [relIndexLoop] at h
  | cons x l ih =>
    obtain ⟨k, new⟩ := x
    intro v e h
    rw [relIndexLoop] at h
    split at h
    · exact ih _ h
    · next e' h' =>
      simp at h
      subst h
      unfold relIndexStep at h'
      split at h'
      · split at h'
        · split at h'
          · simp at h'
          · next h'' => simp at h'; subst h'; exact lib_pySet _ h''
        · simp at h'
      · simp at h'; rw [← h']; exact lib_type

theorem raises_dump (p : Path) (n : Nat) (v : V) : (dumpTo p n v).Raises PyErr.Lib := by
  refine raises_bind (raises_unit _ lib_os) fun _ => ?_
  split
  · trivial
  · exact lib_type

theorem raises_addSet (o : SetOrd) (p : Path) (l : List Str) (n : Str) : (addItemsSetToIndex o p l n).Raises PyErr.Lib :=
  raises_bind (raises_read _) fun _ => raises_bind (raises_liftE lib_loads) fun _ => raises_bind (raises_liftE lib_getItem) fun _ =>
    raises_bind (raises_liftE lib_pySet) fun _ => raises_bind (raises_liftE lib_setItem) fun _ => raises_bind (raises_dump _ _ _) fun _ =>
      raises_bind (raises_unit _ lib_os) fun _ => trivial

theorem raises_addRels (o : SetOrd) (p : Path) (l : List (Str × List V)) : (addItemsToNodeRelationshipsIndex o p l).Raises PyErr.Lib :=
  raises_bind (raises_read _) fun _ => raises_bind (raises_liftE lib_loads) fun _ => raises_bind (raises_liftE lib_getItem) fun _ =>
    raises_bind (raises_liftE lib_relLoop) fun _ => raises_bind (raises_liftE lib_setItem) fun _ => raises_bind (raises_dump _ _ _) fun _ =>
      raises_bind (raises_unit _ lib_os) fun _ => trivial

theorem raises_indexes (env : Env) (ns : List NodeData) (mps : List MakePre) (g : GPath) : (addIndexes env ns mps g).Raises PyErr.Lib :=
  raises_bind (raises_addRels _ _ _) fun _ => raises_bind (raises_addSet _ _ _ _) fun _ => raises_bind (raises_addSet _ _ _ _) fun _ => trivial

theorem raises_update (p : Path) (n : Int) : (updateWiggleNumber p n).Raises PyErr.Lib :=
  raises_bind (raises_unit _ lib_file) fun _ => raises_bind (raises_unit _ lib_os) fun _ => trivial

theorem raises_loadSet (p : Path) (n : Str) : (loadIndexSet p n).Raises PyErr.Lib := by
  refine raises_tryCatch (raises_bind (raises_read _) fun _ => raises_bind (raises_liftE lib_loads) fun _ => raises_bind (raises_liftE lib_getItem) fun _ =>
    raises_liftE lib_pySet) fun e he => ?_
  split
  · trivial
  · exact he

theorem raises_short (f : FindPre) (g : GPath) : (findShortCircuit f g).Raises PyErr.Lib := by
  refine raises_bind (raises_loadSet _ _) fun _ => raises_bind (raises_loadSet _ _) fun _ => ?_
  split
  · trivial
  · split <;> trivial

/-! ### Pure parts -/

/-- What can be wrong with a query that the parser accepts. -/
def Fault (q : Str) (r : Raised) : Prop :=
  (∃ s, s <:+: q ∧ PropFault s r) ∨
  ∃ s, s <:+: q ∧ ('<' ∈ s ∧ '>' ∈ s) ∧ r.Says .nonDirected [.words c!"Non directed relationship found: ", .quote s]

/-- The exceptions of a computation are those of libraries or blame the query. -/
def Blamed {α : Type} (q : Str) (x : Except Raised α) : Prop := ∀ r, x = .error r → r.OfLibrary ∨ Fault q r

theorem blamed_ok {α : Type} {q : Str} (a : α) : Blamed q (.ok a) := fun _ h => by simp at h

theorem blamed_lib {α : Type} {q : Str} {e : PyErr} (h : e.Lib) : Blamed q (.error (.lib e) : Except Raised α) := by
  intro r hr
  simp at hr
  subst hr
  exact .inl ⟨rfl, h⟩

theorem blamed_of {α β : Type} {q : Str} {x : Except Raised α} {r : Raised} (h : Blamed q x) (e : x = .error r) : Blamed q (.error r : Except Raised β) := by
  intro r' hr
  simp at hr
  subst hr
  exact h _ e

theorem lib_validation : PyErr.Lib .validation := by simp [PyErr.Lib, PyErr.className]
theorem lib_attribute : PyErr.Lib .attribute := by simp [PyErr.Lib, PyErr.className]
theorem lib_index : PyErr.Lib .index := by simp [PyErr.Lib, PyErr.className]
theorem lib_value : PyErr.Lib .value := by simp [PyErr.Lib, PyErr.className]

/-- The properties text, if any, stands in the query. -/
def Inside (q : Str) (t : Option Str) : Prop := ∀ s, t = some s → s <:+: q

theorem blamed_props {q : Str} {t : Option Str} (h : Inside q t) : Blamed q (getPropertyDictR t) := by
  cases t with
  | none => exact blamed_ok _
  | some s =>
    intro r hr
    rcases C92_explains s r hr with ⟨h1, h2⟩ | h1
    · refine .inl ⟨h1, ?_⟩
      simp only [List.mem_cons, List.not_mem_nil, or_false] at h2
      rcases h2 with h2 | h2 <;> rw [h2] <;> simp [PyErr.className]
    · exact .inr (.inl ⟨s, h s rfl, h1⟩)

theorem blamed_ltr {q s : Str} (h : s <:+: q) : Blamed q (isLeftToRightR s) := by
  unfold isLeftToRightR
  split
  · next hb =>
    intro r hr
    simp at hr
    subst hr
    exact .inr (.inr ⟨s, h, hb, rfl, rfl⟩)
  · split
    · exact blamed_lib lib_index
    · exact blamed_ok _

/-- All texts of a pattern stand in the query. -/
structure Within (q : Str) (p : ParsedPattern) : Prop where
  text : ∀ t ∈ p.parts, Inside q t.text
  props : ∀ t ∈ p.parts, Inside q t.props

theorem blamed_nodePre {q : Str} (n : Int) (t : PartText) : Blamed q (mkNodePreR n t) := by
  unfold mkNodePreR
  split
  · exact blamed_lib lib_validation
  · exact blamed_ok _

theorem blamed_LM {q : Str} {p : ParsedPattern} (hp : Within q p) (n : Int) (mp : MakePre) : Blamed q (processLMR n p mp) := by
  unfold processLMR
  split
  · next c cs h =>
    split
    · next e => exact blamed_of (blamed_ltr (hp.text _ (by simp [ParsedPattern.parts]) _ h)) e
    · split
      · exact blamed_lib lib_attribute
      · exact blamed_ok _
  · exact blamed_ok _

theorem blamed_MR {q : Str} {p : ParsedPattern} (hp : Within q p) (n : Int) (mp : MakePre) : Blamed q (processMRR n p mp) := by
  unfold processMRR
  split
  · next c cs h =>
    split
    · next e => exact blamed_of (blamed_ltr (hp.text p.middleRight (by simp [ParsedPattern.parts]) _ h)) e
    · split
      · exact blamed_ok _
      · exact blamed_lib lib_attribute
  · exact blamed_ok _

theorem blamed_middle {q : Str} (p : ParsedPattern) (n : Int) (mp : MakePre) : Blamed q (processMiddleR n p mp) := by
  unfold processMiddleR
  split
  · split
    · next e => exact blamed_of (blamed_nodePre _ _) e
    · exact blamed_ok _
  · exact blamed_ok _

theorem blamed_right {q : Str} (p : ParsedPattern) (n : Int) (mp : MakePre) : Blamed q (processRightR n p mp) := by
  unfold processRightR
  split
  · split
    · next e => exact blamed_of (blamed_nodePre _ _) e
    · exact blamed_ok _
  · exact blamed_ok _

theorem blamed_pattern {q : Str} {p : ParsedPattern} (hp : Within q p) (n : Int) : Blamed q (processPatternR n p) := by
  unfold processPatternR
  split
  · next e => exact blamed_of (blamed_nodePre _ _) e
  · split
    · next e => exact blamed_of (blamed_middle _ _ _) e
    · split
      · next e => exact blamed_of (blamed_right _ _ _) e
      · split
        · next e => exact blamed_of (blamed_LM hp _ _) e
        · exact blamed_MR hp _ _

theorem blamed_patterns {q : Str} {l : List ParsedPattern} (hp : ∀ p ∈ l, Within q p) (n : Int) : Blamed q (processPatternsR n l) := by
  induction l generalizing n with
  | nil => exact blamed_ok _
  | cons p l ih =>
    rw [processPatternsR]
    split
    · next e => exact blamed_of (blamed_pattern (hp p (by simp)) _) e
    · split
      · next e => exact blamed_of (ih (fun p h => hp p (List.mem_cons_of_mem _ h)) _) e
      · exact blamed_ok _

theorem blamed_makeList {q : Str} {l : List ParsedMake} (hc : ∀ m ∈ l, m.clause = .make) (hp : ∀ p ∈ patsOf l, Within q p) (n : Int) :
    Blamed q (processParsedMakeListR n l) := by
  induction l generalizing n with
  | nil => exact blamed_ok _
  | cons m l ih =>
    rw [processParsedMakeListR, if_neg (by simp [hc m (by simp)])]
    have e' : patsOf (m :: l) = m.patterns ++ patsOf l := by simp [patsOf]
    rw [e'] at hp
    split
    · next e => exact blamed_of (blamed_patterns (fun p h => hp p (List.mem_append_left _ h)) _) e
    · split
      · next e => exact blamed_of (ih (fun m h => hc m (List.mem_cons_of_mem _ h)) (fun p h => hp p (List.mem_append_right _ h)) _) e
      · exact blamed_ok _

theorem blamed_makeRels {q : Str} {l : List RelPre} (h : ∀ r ∈ l, r.fromWn ≠ r.toWn ∧ Inside q r.props) : Blamed q (makeRelationshipsR l) := by
  induction l with
  | nil => exact blamed_ok _
  | cons r l ih =>
    rw [makeRelationshipsR]
    split
    · next e =>
      refine blamed_of ?_ e
      unfold makeRelationshipR
      split
      · next e => exact blamed_of (blamed_props (h r (by simp)).2) e
      · rw [if_neg (h r (by simp)).1]
        exact blamed_ok _
    · split
      · next e => exact blamed_of (ih fun r hr => h r (List.mem_cons_of_mem _ hr)) e
      · exact blamed_ok _

theorem mkNodeR_related {wn : Int} {label : Str} {props : Option (Dict V)} {rels : Option (List RelData)}
    (h : ∀ r ∈ rels.getD [], wn = r.fromWn ∨ wn = r.toWn) : mkNodeR wn label props rels = .ok { wn := wn, label := label, props := props, relations := rels } := by
  unfold mkNodeR
  rw [List.find?_eq_none.2 (fun r hr => by have := h r hr; simp; omega)]

theorem blamed_node {q : Str} {n : NodePre} (hp : Inside q n.props)
    (h : ∀ r ∈ n.rels, r.fromWn ≠ r.toWn ∧ (n.wn = r.fromWn ∨ n.wn = r.toWn) ∧ Inside q r.props) : Blamed q (makeNodeR n) := by
  unfold makeNodeR
  split
  · next e => exact blamed_of (blamed_props hp) e
  · split
    · rw [mkNodeR_related (by simp)]
      exact blamed_ok _
    · split
      · next e => exact blamed_of (blamed_makeRels fun r hr => ⟨(h r hr).1, (h r hr).2.2⟩) e
      · next rs e =>
        have e2 : makeRelationships n.rels = .ok rs := by rw [← noText_makeRels, e]; rfl
        obtain ⟨-, rfl⟩ := (makeRelationships_iff fun r hr => (h r hr).1).1 e2
        rw [mkNodeR_related]
        · exact blamed_ok _
        · intro r hr
          simp only [Option.getD_some, List.mem_map] at hr
          obtain ⟨r', hr', rfl⟩ := hr
          exact (h r' hr').2.1

theorem blamed_nodes {q : Str} {p : ParsedPattern} (hp : Within q p) (b : Int) : Blamed q (makeNodesR (prePattern b p)) := by
  have hlm : Inside q (relLM b p).props := hp.props p.leftMiddle (by simp [ParsedPattern.parts])
  have hmr : Inside q (relMR b p).props := hp.props p.middleRight (by simp [ParsedPattern.parts])
  have hl : Blamed q (makeNodeR (nodePre b p.left (leftRels b p))) := by
    refine blamed_node (hp.props p.left (by simp [ParsedPattern.parts])) fun r hr => ?_
    obtain ⟨rfl, h2, h3⟩ := leftRels_wn r hr
    exact ⟨leftRels_ne _ hr, .inl h2.symm, hlm⟩
  have hm : Blamed q (makeNodeR (nodePre (b + 1) p.middle (middleRels b p))) := by
    refine blamed_node (hp.props p.middle (by simp [ParsedPattern.parts])) fun r hr => ?_
    rcases middleRels_wn r hr with ⟨h1, h2, h3⟩ | ⟨h1, h2, h3⟩
    · exact ⟨middleRels_ne _ hr, .inl h2.symm, by rw [h1]; exact hlm⟩
    · exact ⟨middleRels_ne _ hr, .inl h2.symm, by rw [h1]; exact hmr⟩
  unfold makeNodesR
  split
  · next e => exact blamed_of hl e
  · split
    · next e =>
      split at e
      · simp at e
      · next m em =>
        split at e
        · next e2 =>
          simp at e
          subst e
          simp only [prePattern] at em
          split at em
          · simp at em; subst em; exact blamed_of hm e2
          · simp at em
        · simp at e
    · split
      · exact blamed_ok _
      · split
        · next e => simp at e
        · exact blamed_ok _

theorem blamed_allNodes {q : Str} {l : List (Int × ParsedPattern)} (h : ∀ x ∈ l, Within q x.2) :
    Blamed q (makeAllNodesR (l.map fun x => prePattern x.1 x.2)) := by
  induction l with
  | nil => exact blamed_ok _
  | cons x l ih =>
    rw [List.map_cons, makeAllNodesR]
    split
    · next e => exact blamed_of (blamed_nodes (h x (by simp)) _) e
    · split
      · next e => exact blamed_of (ih fun x hx => h x (List.mem_cons_of_mem _ hx)) e
      · exact blamed_ok _

theorem blamed_mkFind {q : Str} {h l : Option Str} {p : Option (Dict V)} {e : PyErr} (he : mkFindNode h l p = .error e) {α : Type} :
    Blamed q (.error (.lib e) : Except Raised α) := by
  unfold mkFindNode at he
  split at he <;> simp at he
  subst he
  exact blamed_lib lib_validation

theorem blamed_findNode {q : Str} {t : PartText} (h : Inside q t.props) : Blamed q (findNodeR t none) := by
  unfold findNodeR
  split
  · next e => exact blamed_of (blamed_props h) e
  · split
    · next e => exact blamed_mkFind e
    · exact blamed_ok _

theorem blamed_findRel {q : Str} {t : PartText} (h : Inside q t.props) : Blamed q (findRelR t none) := by
  unfold findRelR
  split
  · next e => exact blamed_of (blamed_props h) e
  · exact blamed_ok _

theorem blamed_find {q : Str} {pf : ParsedFind} (hc : pf.clause = .find) (hp : Within q pf.pattern) : Blamed q (processParsedFindR pf none) := by
  unfold processParsedFindR
  rw [if_neg (by simp [hc])]
  split
  · next e => exact blamed_of (blamed_findNode (hp.props _ (by simp [ParsedPattern.parts]))) e
  · split
    · next e =>
      refine blamed_of ?_ e
      unfold findMiddleR
      split
      · split
        · next e => exact blamed_of (blamed_findNode (hp.props pf.pattern.middle (by simp [ParsedPattern.parts]))) e
        · exact blamed_ok _
      · exact blamed_ok _
    · split
      · next e =>
        refine blamed_of ?_ e
        unfold findRightR
        split
        · split
          · next e => exact blamed_of (blamed_props (hp.props _ (by simp [ParsedPattern.parts]))) e
          · split
            · next e => simp [updateWithModel] at e
            · split
              · next e => exact blamed_mkFind e
              · split
                · next e => simp [addCriteriaNode] at e
                · exact blamed_ok _
        · exact blamed_ok _
      · split
        · next e =>
          refine blamed_of ?_ e
          unfold findLMR
          split
          · next h =>
            split
            · next e => exact blamed_of (blamed_findRel (hp.props pf.pattern.leftMiddle (by simp [ParsedPattern.parts]))) e
            · split
              · next e => exact blamed_of (blamed_ltr (hp.text pf.pattern.leftMiddle (by simp [ParsedPattern.parts]) _ h)) e
              · exact blamed_ok _
              · split
                · exact blamed_lib lib_attribute
                · exact blamed_ok _
          · exact blamed_ok _
        · unfold findMRR
          split
          · next h =>
            split
            · next e => exact blamed_of (blamed_findRel (hp.props pf.pattern.middleRight (by simp [ParsedPattern.parts]))) e
            · split
              · next e => exact blamed_of (blamed_ltr (hp.text pf.pattern.middleRight (by simp [ParsedPattern.parts]) _ h)) e
              · split
                · exact blamed_lib lib_attribute
                · exact blamed_ok _
              · split
                · exact blamed_lib lib_attribute
                · exact blamed_ok _
          · exact blamed_ok _

theorem addLoopR_err {db : V} {l : List (Str × V)} (hn : (keys l).Nodup) {r : Raised} (h : addLoopR db l = .error r) :
    r.OfLibrary ∨ ∃ k ∈ keys l, inVal k db = .ok true ∧
      r.Says .nodeExists [.words c!"Node ", .words k, .words c!" already exists did you mean to update"] := by
  induction l generalizing db with
  | nil => simp [addLoopR] at h
  | cons x l ih =>
    obtain ⟨k, v⟩ := x
    rw [addLoopR] at h
    split at h
    · next e he => simp at h; subst h; exact .inl ⟨rfl, lib_inVal _ he⟩
    · next he => simp at h; subst h; exact .inr ⟨k, by simp [keys], he, rfl, rfl⟩
    · split at h
      · next e he => simp at h; subst h; exact .inl ⟨rfl, lib_setItem _ he⟩
      · next db' he =>
        have hn' : k ∉ keys l ∧ (keys l).Nodup := by simpa [keys] using hn
        rcases ih hn'.2 h with h1 | ⟨k', hk', h1, h2⟩
        · exact .inl h1
        · refine .inr ⟨k', ?_, ?_, h2⟩
          · simp only [keys, List.map_cons, List.mem_cons]; exact .inr hk'
          · unfold setItem at he
            split at he
            · next d =>
              simp at he
              subst he
              have hne : k ≠ k' := fun e => hn'.1 (e ▸ hk')
              simpa [inVal, dictHas, dictGet_dictSet_ne hne] using h1
            · simp at he

end WG
