/-
Helper lemmas for the answers of the shell to lines that fail.
-/
import Verif.Props.Refused
import Verif.Props.Parse
import Verif.Proofs.MakeNodes
import Verif.Proofs.Dict
import Verif.Spec.Answers

set_option linter.unusedSectionVars false
set_option linter.unusedSimpArgs false

namespace WG
variable [PyRuntime]

/-! ### The same exceptions -/

theorem noText_props (t : Option Str) : noText (getPropertyDictR t) = getPropertyDict t := C92_same_kind t

theorem noText_lib {α : Type} (x : Except PyErr α) : noText (x.mapError Raised.lib) = x := by
  cases x <;> rfl

theorem noText_ltr (s : Str) : noText (isLeftToRightR s) = isLeftToRight s := by
  unfold isLeftToRightR isLeftToRight
  split
  · rfl
  · cases s.getLast? <;> rfl

theorem noText_nodePre (n : Int) (t : PartText) : noText (mkNodePreR n t) = mkNodePre n t := by
  unfold mkNodePreR mkNodePre
  cases t.label <;> rfl

theorem noText_LM (n : Int) (p : ParsedPattern) (mp : MakePre) : noText (processLMR n p mp) = processLM n p mp := by
  unfold processLMR processLM
  rcases p.leftMiddle.text with _ | _ | ⟨c, cs⟩
  · rfl
  · rfl
  · simp only
    rw [← noText_ltr]
    cases isLeftToRightR _ with
    | error e => rfl
    | ok b => cases mp.middle <;> rfl

theorem noText_MR (n : Int) (p : ParsedPattern) (mp : MakePre) : noText (processMRR n p mp) = processMR n p mp := by
  unfold processMRR processMR
  rcases p.middleRight.text with _ | _ | ⟨c, cs⟩
  · rfl
  · rfl
  · simp only
    rw [← noText_ltr]
    cases isLeftToRightR _ with
    | error e => rfl
    | ok b => cases mp.middle <;> cases mp.right <;> rfl

theorem noText_middle (n : Int) (p : ParsedPattern) (mp : MakePre) : noText (processMiddleR n p mp) = processMiddle n p mp := by
  unfold processMiddleR processMiddle
  split
  · rw [← noText_nodePre]
    cases mkNodePreR n p.middle <;> rfl
  · rfl

theorem noText_right (n : Int) (p : ParsedPattern) (mp : MakePre) : noText (processRightR n p mp) = processRight n p mp := by
  unfold processRightR processRight
  split
  · rw [← noText_nodePre]
    cases mkNodePreR n p.right <;> rfl
  · rfl

theorem noText_onePattern (n : Int) (p : ParsedPattern) : noText (processPatternR n p) = processPattern n p := by
  unfold processPatternR processPattern
  rw [← noText_nodePre]
  cases mkNodePreR n p.left with
  | error e => rfl
  | ok l =>
    simp only [noText_ok]
    rw [← noText_middle]
    cases processMiddleR (n + 1) p _ with
    | error e => rfl
    | ok x =>
      simp only [noText_ok]
      rw [← noText_right]
      cases processRightR x.1 p x.2 with
      | error e => rfl
      | ok y =>
        simp only [noText_ok]
        rw [← noText_LM]
        cases processLMR y.1 p y.2 with
        | error e => rfl
        | ok z =>
          simp only [noText_ok]
          exact noText_MR _ _ _

theorem noText_allPatterns (n : Int) (l : List ParsedPattern) : noText (processPatternsR n l) = processPatterns n l := by
  induction l generalizing n with
  | nil => rfl
  | cons p l ih =>
    rw [processPatternsR, processPatterns, ← noText_onePattern]
    cases processPatternR n p with
    | error e => rfl
    | ok x =>
      simp only [noText_ok]
      rw [← ih]
      cases processPatternsR x.1 l <;> rfl

theorem noText_makeList (n : Int) (l : List ParsedMake) : noText (processParsedMakeListR n l) = processParsedMakeList n l := by
  induction l generalizing n with
  | nil => rfl
  | cons m l ih =>
    rw [processParsedMakeListR, processParsedMakeList, ← noText_allPatterns]
    split
    · rfl
    · cases processPatternsR n m.patterns with
      | error e => rfl
      | ok x =>
        simp only [noText_ok]
        rw [← ih]
        cases processParsedMakeListR x.1 l <;> rfl

theorem noText_makeRel (r : RelPre) : noText (makeRelationshipR r) = makeRelationship r := by
  unfold makeRelationshipR makeRelationship
  rw [← noText_props]
  cases getPropertyDictR r.props with
  | error e => rfl
  | ok x => simp only [noText_ok]; split <;> rfl

theorem noText_makeRels (l : List RelPre) : noText (makeRelationshipsR l) = makeRelationships l := by
  induction l with
  | nil => rfl
  | cons r l ih =>
    rw [makeRelationshipsR, makeRelationships, ← noText_makeRel, ← ih]
    cases makeRelationshipR r with
    | error e => rfl
    | ok x => simp only [noText_ok]; cases makeRelationshipsR l <;> rfl

theorem noText_mkNode (wn : Int) (label : Str) (props : Option (Dict V)) (rels : Option (List RelData)) :
    noText (mkNodeR wn label props rels) = mkNode wn label props rels := by
  unfold mkNodeR mkNode
  cases h : (rels.getD []).find? (fun r => !decide (wn = r.fromWn ∨ wn = r.toWn)) with
  | none =>
    rw [List.find?_eq_none] at h
    rw [if_pos (by rw [List.all_eq_true]; intro r hr; have := h r hr; simp at this; simp; omega)]
    rfl
  | some r =>
    have h1 := List.find?_some h
    have h2 := List.mem_of_find?_eq_some h
    rw [if_neg (by rw [List.all_eq_true]; intro hall; have := hall r h2; simp_all)]
    rfl

theorem noText_makeNode (n : NodePre) : noText (makeNodeR n) = makeNode n := by
  unfold makeNodeR makeNode
  rw [← noText_props, ← noText_makeRels]
  cases getPropertyDictR n.props with
  | error e => rfl
  | ok x =>
    simp only [noText_ok]
    split
    · exact noText_mkNode _ _ _ _
    · cases makeRelationshipsR n.rels with
      | error e => rfl
      | ok y => exact noText_mkNode _ _ _ _

theorem noText_makeNodes (mp : MakePre) : noText (makeNodesR mp) = makeNodes mp := by
  unfold makeNodesR makeNodes
  rw [← noText_makeNode]
  cases makeNodeR mp.left with
  | error e => rfl
  | ok l =>
    simp only [noText_ok]
    cases mp.middle with
    | none => cases mp.right <;> rfl
    | some m =>
      simp only
      rw [← noText_makeNode m]
      cases makeNodeR m with
      | error e => rfl
      | ok m' => cases mp.right <;> rfl

theorem noText_allNodes (l : List MakePre) : noText (makeAllNodesR l) = makeAllNodes l := by
  induction l with
  | nil => rfl
  | cons r l ih =>
    rw [makeAllNodesR, makeAllNodes, ← noText_makeNodes, ← ih]
    cases makeNodesR r with
    | error e => rfl
    | ok x => simp only [noText_ok]; cases makeAllNodesR l <;> rfl

theorem noText_addLoop (db : V) (l : List (Str × V)) : noText (addLoopR db l) = addLoop db l := by
  induction l generalizing db with
  | nil => rfl
  | cons x l ih =>
    obtain ⟨k, v⟩ := x
    rw [addLoopR, addLoop]
    cases inVal k db with
    | error e => rfl
    | ok b =>
      cases b with
      | true => rfl
      | false =>
        simp only
        cases setItem db k v with
        | error e => rfl
        | ok d => exact ih _

theorem noText_findNode (t : PartText) (c : Option Criteria) : noText (findNodeR t c) = findNode t c := by
  unfold findNodeR findNode
  rw [← noText_props]
  cases getPropertyDictR t.props with
  | error e => rfl
  | ok x =>
    simp only [noText_ok]
    cases mkFindNode t.handle t.label x with
    | error e => rfl
    | ok n => exact noText_lib _

theorem noText_findMiddle (p : ParsedPattern) (c : Option Criteria) (f : FindPre) : noText (findMiddleR p c f) = findMiddle p c f := by
  unfold findMiddleR findMiddle
  rw [← noText_findNode]
  split
  · cases findNodeR p.middle c <;> rfl
  · rfl

theorem noText_findRight (p : ParsedPattern) (c : Option Criteria) (f : FindPre) : noText (findRightR p c f) = findRight p c f := by
  unfold findRightR findRight
  rw [← noText_props]
  split
  · cases getPropertyDictR p.left.props with
    | error e => rfl
    | ok x =>
      simp only [noText_ok]
      cases updateWithModel x c p.middle.handle with
      | error e => rfl
      | ok y =>
        simp only
        cases mkFindNode p.middle.handle p.right.label y with
        | error e => rfl
        | ok n =>
          simp only
          cases addCriteriaNode c p.middle.handle n <;> rfl
  · rfl

theorem noText_findRel (t : PartText) (c : Option Criteria) : noText (findRelR t c) = findRel t c := by
  unfold findRelR findRel
  rw [← noText_props]
  cases getPropertyDictR t.props with
  | error e => rfl
  | ok x => exact noText_lib _

theorem noText_findLM (p : ParsedPattern) (c : Option Criteria) (f : FindPre) : noText (findLMR p c f) = findLM p c f := by
  unfold findLMR findLM
  rcases p.leftMiddle.text with _ | _ | ⟨ch, cs⟩
  · rfl
  · rfl
  · simp only
    rw [← noText_findRel, ← noText_ltr]
    cases findRelR p.leftMiddle c with
    | error e => rfl
    | ok r =>
      simp only [noText_ok]
      cases isLeftToRightR _ with
      | error e => rfl
      | ok b => cases b <;> cases f.middle <;> rfl

theorem noText_findMR (p : ParsedPattern) (c : Option Criteria) (f : FindPre) : noText (findMRR p c f) = findMR p c f := by
  unfold findMRR findMR
  rcases p.middleRight.text with _ | _ | ⟨ch, cs⟩
  · rfl
  · rfl
  · simp only
    rw [← noText_findRel, ← noText_ltr]
    cases findRelR p.middleRight c with
    | error e => rfl
    | ok r =>
      simp only [noText_ok]
      cases isLeftToRightR _ with
      | error e => rfl
      | ok b => cases b <;> cases f.middle <;> cases f.right <;> rfl

theorem noText_processFind (pf : ParsedFind) (c : Option Criteria) : noText (processParsedFindR pf c) = processParsedFind pf c := by
  unfold processParsedFindR processParsedFind
  split
  · rfl
  · rw [← noText_findNode]
    cases findNodeR pf.pattern.left c with
    | error e => rfl
    | ok l =>
      simp only [noText_ok]
      rw [← noText_findMiddle]
      cases findMiddleR pf.pattern c _ with
      | error e => rfl
      | ok f1 =>
        simp only [noText_ok]
        rw [← noText_findRight]
        cases findRightR pf.pattern c f1 with
        | error e => rfl
        | ok f2 =>
          simp only [noText_ok]
          rw [← noText_findLM]
          cases findLMR pf.pattern c f2 with
          | error e => rfl
          | ok f3 => exact noText_findMR _ _ _

/-! ### Programs -/

/-- The outcome of a program whose exceptions have texts. -/
def Tel.out {α : Type} (t : Tel α) (fs : FS) : Except Raised α × FS :=
  match t.prog.run fs with
  | (.ok y, fs') => (y, fs')
  | (.error e, fs') => (.error (.lib e), fs')

/-- The program with texts does what the program without them does. -/
def Same {α : Type} (t : Tel α) (p : Prog α) : Prop :=
  ∀ fs, t.prog.run fs = (.ok (t.out fs).1, (p.run fs).2) ∧ noText (t.out fs).1 = (p.run fs).1

theorem same_mk {α : Type} {t : Tel α} {p : Prog α} (h : ∀ fs, ∃ y, t.prog.run fs = (.ok y, (p.run fs).2) ∧ noText y = (p.run fs).1) : Same t p := by
  intro fs
  obtain ⟨y, h1, h2⟩ := h fs
  have : (t.out fs).1 = y := by simp [Tel.out, h1]
  rw [this]
  exact ⟨h1, h2⟩

theorem same_out {α : Type} {t : Tel α} {p : Prog α} (h : Same t p) (fs : FS) : (t.out fs).2 = (p.run fs).2 := by
  unfold Tel.out
  rw [(h fs).1]

theorem same_pure {α : Type} (a : α) : Same (pure a : Tel α) (pure a) := same_mk fun _ => ⟨.ok a, rfl, rfl⟩

theorem same_pureR {α : Type} {x : Except Raised α} {y : Except PyErr α} (h : noText x = y) : Same (Tel.pureR x) (liftE y) :=
  same_mk fun fs => ⟨x, by rw [run_liftE]; rfl, by rw [run_liftE]; exact h⟩

theorem same_raise {α : Type} {r : Raised} {e : PyErr} (h : r.kind = e) : Same (Tel.pureR (.error r) : Tel α) (.raise e) :=
  same_mk fun fs => ⟨.error r, rfl, by simp [h]⟩

theorem run_lift {α : Type} (p : Prog α) (fs : FS) : (Tel.lift p).prog.run fs = (.ok ((p.run fs).1.mapError Raised.lib), (p.run fs).2) := by
  unfold Tel.lift
  rw [run_tryCatch, run_bind]
  cases h : p.run fs with
  | mk x fs' => cases x <;> rfl

theorem same_lift {α : Type} (p : Prog α) : Same (Tel.lift p) p :=
  same_mk fun fs => ⟨_, run_lift p fs, noText_lib _⟩

theorem same_bind {α β : Type} {t : Tel α} {p : Prog α} {f : α → Tel β} {g : α → Prog β} (h : Same t p) (h' : ∀ a, Same (f a) (g a)) :
    Same (t >>= f) (p >>= g) := by
  refine same_mk fun fs => ?_
  change ∃ y, (t.prog >>= _).run fs = _ ∧ _
  rw [run_bind, run_bind, (h fs).1]
  have h2 := (h fs).2
  cases hp : p.run fs with
  | mk x fs' =>
    rw [hp] at h2
    simp only at h2 ⊢
    cases ht : (t.out fs).1 with
    | error e =>
      rw [ht] at h2
      simp only [noText_err] at h2
      subst h2
      exact ⟨.error e, rfl, rfl⟩
    | ok a =>
      rw [ht] at h2
      simp only [noText_ok] at h2
      subst h2
      exact ⟨_, h' a fs'⟩

theorem same_add (p : Path) (items : List (Str × V)) : Same (addItemToDatabaseR p items) (addItemToDatabase p items) := by
  exact same_bind (same_lift _) fun _ => same_bind (same_pureR (noText_lib _)) fun _ => same_bind (same_pureR (noText_addLoop _ _)) fun _ =>
    same_bind (same_lift _) fun _ => same_pure _

theorem same_counter (p : Path) : Same (getCurrentWiggleNumberR p) (getCurrentWiggleNumber p) := by
  refine same_bind (same_lift _) fun s => ?_
  split
  · exact same_raise rfl
  · cases pyInt s with
    | none => exact same_raise rfl
    | some n => exact same_pure _

theorem same_make (env : Env) (l : List ParsedMake) (g : GPath) : Same (makeR env l g) (make env l g) := by
  refine same_bind (same_counter _) fun n => same_bind (same_pureR (noText_makeList _ _)) fun r => same_bind (same_pureR (noText_allNodes _)) fun ns => ?_
  refine same_bind ?_ fun _ => same_bind (same_lift _) fun _ => same_bind (same_lift _) fun _ => same_pure _
  exact same_bind (same_add g.db (nodesToAdd env ns)) fun _ => same_pure true

theorem same_find (pf : ParsedFind) (g : GPath) (c : Option Criteria) : Same (findR pf g c) (find pf g c) := by
  refine same_bind (same_pureR (noText_processFind _ _)) fun f => same_bind (same_lift _) fun b => ?_
  split <;> exact same_pure _

theorem same_query (env : Env) (q : Str) (g : GPath) : Same (queryR env q g) (query env q g) := by
  unfold queryR query
  rw [if_neg (by simp), if_neg (by simp)]
  refine same_bind (same_pureR (noText_parse q)) fun x => same_bind (same_bind ?_ fun _ => ?_) fun _ => same_pure _
  · rcases x.make with _ | _ | ⟨m, ms⟩
    · exact same_pure _
    · exact same_pure _
    · exact same_make _ _ _
  · cases x.find with
    | none => exact same_raise rfl
    | some f => exact same_bind (same_find _ _ _) fun _ => same_bind (same_lift _) fun _ => same_pure _

theorem same_shell (env : Env) (g : GPath) (l : List Str) (fs : FS) :
    ∃ as, (shellLoopR env g l).run fs = (.ok as, ((shellLoop env g l).run fs).2) ∧ ((shellLoop env g l).run fs).1 = .ok (as.map Answer.event) := by
  induction l generalizing fs with
  | nil => exact ⟨[], rfl, rfl⟩
  | cons q l ih =>
    rw [shellLoopR, shellLoop]
    split
    · exact ⟨[.bye], rfl, rfl⟩
    · split
      · obtain ⟨as, h1, h2⟩ := ih fs
        refine ⟨.help :: as, ?_, ?_⟩
        · rw [run_bind, run_bind, h1]
          cases hs : (shellLoop env g l).run fs with
          | mk x fs' =>
            rw [hs] at h2
            subst h2
            rfl
        · rw [run_bind]
          cases hs : (shellLoop env g l).run fs with
          | mk x fs' =>
            rw [hs] at h2
            subst h2
            rfl
      · have hq := same_query env q g fs
        obtain ⟨as, h1, h2⟩ := ih ((query env q g).run fs).2
        have key : (Prog.tryCatch (do let _ ← query env q g; pure Event.done) fun e => pure (.failed e)).run fs =
            (.ok (match (query env q g).run fs with
              | (.ok _, _) => Event.done
              | (.error e, _) => .failed e), ((query env q g).run fs).2) := by
          rw [run_tryCatch, run_bind]
          cases (query env q g).run fs with
          | mk x fs' => cases x <;> rfl
        refine ⟨(match ((queryR env q g).out fs).1 with
          | .ok _ => Answer.done
          | .error r => .failed r) :: as, ?_, ?_⟩
        · rw [run_bind, run_bind, hq.1, key]
          simp only
          rw [run_bind, run_bind, h1]
          cases hs : (shellLoop env g l).run ((query env q g).run fs).2 with
          | mk x fs' =>
            rw [hs] at h2
            subst h2
            rfl
        · rw [run_bind, key]
          simp only
          rw [run_bind]
          cases hs : (shellLoop env g l).run ((query env q g).run fs).2 with
          | mk x fs' =>
            rw [hs] at h2
            subst h2
            simp only [run_pure, List.map_cons]
            have h3 := hq.2
            cases hr : (query env q g).run fs with
            | mk y fs2 =>
              rw [hr] at h3
              simp only at h3
              cases ho : ((queryR env q g).out fs).1 with
              | ok a => rw [ho] at h3; simp only [noText_ok] at h3; subst h3; rfl
              | error a => rw [ho] at h3; simp only [noText_err] at h3; subst h3; rfl

end WG
