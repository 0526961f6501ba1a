/-
Lemmas: what a parsed well-formed query stores.
-/
import Verif.Spec.Actual
import Verif.Proofs.AcceptQuery
import Verif.Proofs.Consistent
import Verif.Props.Literal
import Verif.Props.Pattern
import Verif.Props.Query
set_option linter.unusedSectionVars false
set_option linter.unusedSimpArgs false

namespace WG
open Re
variable [PyRuntime]

/-! ### Properties -/

theorem atom_ser {a : Atom} {v : V} (h : a.Means v) : v.Ser ∧ v.WF := by
  cases a with
  | float d f =>
    obtain ⟨x, _, rfl⟩ := h
    simp [Val.Ser, Val.WF]
  | null => rw [show v = .none from h]; simp [Val.Ser, Val.WF]
  | bool b => rw [show v = .bool b from h]; simp [Val.Ser, Val.WF]
  | int z n => rw [show v = .int n from h]; simp [Val.Ser, Val.WF]
  | str q s => rw [show v = .str s from h]; simp [Val.Ser, Val.WF]

theorem lit_ser {a : Lit} {v : V} (h : a.Means v) : (jsonDump v).2 = true := by
  have : v.Ser ∧ v.WF := by
    cases a with
    | atom a => exact atom_ser h
    | list l sp =>
      obtain ⟨vs, rfl, h⟩ := h
      rw [Val.Ser, Val.WF, serList_iff, wfList_iff]
      have : ∀ x ∈ vs, x.Ser ∧ x.WF := by
        induction l generalizing vs with
        | nil =>
          rw [show vs = [] from h]
          simp
        | cons x l ih =>
          obtain ⟨v, vs, rfl, h1, h2⟩ := h
          intro y hy
          rcases List.mem_cons.1 hy with rfl | hy
          · exact atom_ser h1
          · exact ih vs h2 y hy
      exact ⟨fun x hx => (this x hx).1, fun x hx => (this x hx).2⟩
  exact (jsonDump_complete this.2).2 this.1

theorem goodProps_mean {o : Option Str} (h : GoodProps o) :
    ∃ d : Option (Dict V), getPropertyDict o = .ok d ∧ PropsMean o d ∧ ∀ x, d = some x → ∀ y ∈ x, (jsonDump y.2).2 = true := by
  cases o with
  | none => exact ⟨none, rfl, rfl, by simp⟩
  | some p =>
    obtain ⟨l, sp, rfl, hl, hsp⟩ := h p rfl
    have : ∃ l' : List (PropText × V), l'.map Prod.fst = l ∧ ∀ x ∈ l', x.1.OK ∧ x.1.lit.Means x.2 := by
      clear h
      induction l with
      | nil => exact ⟨[], rfl, by simp⟩
      | cons a l ih =>
        obtain ⟨l', rfl, h'⟩ := ih fun x hx => hl x (List.mem_cons_of_mem _ hx)
        obtain ⟨v, hv⟩ := Lit.means_total (hl a (by simp)).lit
        refine ⟨(a, v) :: l', rfl, fun x hx => ?_⟩
        rcases List.mem_cons.1 hx with rfl | hx
        · exact ⟨hl a (by simp), hv⟩
        · exact h' x hx
    obtain ⟨l', rfl, hl'⟩ := this
    have ht : sp.all (fun c => !isWord c) = true := by
      rw [List.all_eq_true] at hsp ⊢
      intro c hc
      have := hsp c hc
      cases hw : isWord c with
      | false => rfl
      | true => rw [word_not_space hw] at this; simp at this
    obtain ⟨d, h1, h2, h3, h4⟩ := C45_last_one_wins hl' ht
    refine ⟨some d, h1, ⟨l', sp, d, rfl, hl', hsp, rfl, h2, h3, h4⟩, ?_⟩
    rintro x e y hy
    injection e with e
    subst e
    have h5 : lastValue y.1 (l'.map fun x => (x.1.name, x.2)) = some y.2 := by
      rw [← h4]
      exact dictGet_of_mem h2 hy
    rw [lastValue, Option.map_eq_some_iff] at h5
    obtain ⟨z, hz, e⟩ := h5
    have := List.mem_of_find?_eq_some hz
    rw [List.mem_reverse, List.mem_map] at this
    obtain ⟨a, ha, rfl⟩ := this
    rw [← e]
    exact lit_ser (hl' a ha).2

theorem goodProps_ser {o : Option Str} {a b c : Option Str} (h : GoodProps o) : PropsSer ⟨a, b, c, o⟩ := by
  obtain ⟨d, h1, -, h3⟩ := goodProps_mean h
  exact ⟨d, h1, h3⟩

theorem propsSer_ok {t : PartText} (h : PropsSer t) : PropsOK t := by
  obtain ⟨d, h, -⟩ := h
  exact ⟨d, h⟩

theorem propsD_mean {o : Option Str} (h : GoodProps o) : PropsMean o (propsD o) := by
  obtain ⟨d, h1, h2, -⟩ := goodProps_mean h
  rw [propsD, h1]
  exact h2

/-! ### Shapes -/

theorem truthy_node (n : NodeText) : truthy n.part.text = true := rfl

theorem rel_nonempty (r : RelText) : ∃ c cs, r.render = c :: cs := by
  cases h : r.render with
  | nil => simp [RelText.render, List.replicate_succ] at h
  | cons c cs => exact ⟨c, cs, rfl⟩

theorem truthy_rel (r : RelText) : truthy r.part.text = true := by
  obtain ⟨c, cs, e⟩ := rel_nonempty r
  simp [RelText.part, truthy, e]

theorem rel_oneHead {r : RelText} (h : r.Storable) : ¬ bothHeads r.part := by
  have hno : ∀ {v : Str}, v.all isParamChar = true → '<' ∉ v ∧ '>' ∉ v := by
    intro v hv
    constructor <;> intro hc <;> have := (param_angle (List.all_eq_true.1 hv _ hc)).1 <;> simp [isAngle] at this
  have h1 := hno (RelText.content_all h.1)
  have h2 := hno (v := r.sp3) (List.all_eq_true.2 fun c hc => space_param (List.all_eq_true.1 h.1.sp3 c hc))
  rintro ⟨h3, h4⟩
  have h5 := h.2.2
  simp only [RelText.part, Option.getD_some, RelText.render, List.mem_append, List.mem_cons, List.mem_replicate] at h3 h4
  cases hr : r.toRight <;> cases hl : r.toLeft <;> simp [hr, hl, h1, h2] at h3 h4 h5

theorem points_seen {r : RelText} (h : r.OK) : pointsRight r.part = r.seenRight := by
  unfold RelText.seenRight
  by_cases hs : r.sp3 = []
  · obtain ⟨s, e⟩ := rel_last r hs
    simp only [pointsRight, RelText.part, Option.getD_some, e, hs]
    cases r.toRight <;> simp
  · obtain ⟨t, c, e⟩ := List.eq_nil_or_concat r.sp3 |>.resolve_left hs
    have hc : isSpace c = true := List.all_eq_true.1 h.sp3 c (by simp [e])
    have hne : c ≠ '>' := by
      rintro rfl
      have := (param_angle (space_param hc)).1
      simp [isAngle] at this
    have : pointsRight r.part = false := by
      have : ∃ s, r.render = s ++ [c] := by
        refine ⟨(if r.toLeft then c!"<" else []) ++ (List.replicate (r.dashes1 + 1) '-' ++ '[' :: (r.content ++ ']' ::
          (List.replicate (r.dashes2 + 1) '-' ++ ((if r.toRight then c!">" else []) ++ t)))), ?_⟩
        simp [RelText.render, e]
      obtain ⟨s, e'⟩ := this
      simp [pointsRight, RelText.part, e', hne]
    rw [this]
    cases h' : r.sp3 with
    | nil => exact absurd h' hs
    | cons _ _ => simp

theorem chain_shape {c : ChainText} (h : c.Storable) : PatShape c.pattern := by
  have hn : ∀ n : NodeText, n.part.label ≠ none := by intro n; simp [NodeText.part]
  have hf : truthy PartText.absent.text = false := rfl
  cases c with
  | one n => exact ⟨hn n, by simp [ChainText.pattern, hf], by simp [ChainText.pattern, hf], by simp [ChainText.pattern, hf], by simp [ChainText.pattern, hf]⟩
  | two n r m =>
    exact ⟨hn n, fun _ => hn m, by simp [ChainText.pattern, hf], fun _ => ⟨truthy_node m, rel_oneHead h.2.1⟩, by simp [ChainText.pattern, hf]⟩
  | three n r m r' m' =>
    exact ⟨hn n, fun _ => hn m, fun _ => hn m', fun _ => ⟨truthy_node m, rel_oneHead h.2.1⟩,
      fun _ => ⟨truthy_node m, truthy_node m', rel_oneHead h.2.2.2.1⟩⟩

theorem chain_ser {c : ChainText} (h : c.Storable) : ∀ t ∈ c.pattern.parts, PropsSer t := by
  have ha : PropsSer .absent := ⟨none, rfl, by simp⟩
  intro t ht
  cases c with
  | one n =>
    simp only [ChainText.pattern, ParsedPattern.parts, List.mem_cons, List.not_mem_nil, or_false] at ht
    rcases ht with rfl | rfl | rfl | rfl | rfl
    · exact goodProps_ser h.2
    all_goals exact ha
  | two n r m =>
    simp only [ChainText.pattern, ParsedPattern.parts, List.mem_cons, List.not_mem_nil, or_false] at ht
    rcases ht with rfl | rfl | rfl | rfl | rfl
    · exact goodProps_ser h.1.2
    · exact goodProps_ser h.2.1.2.1
    · exact goodProps_ser h.2.2.2
    all_goals exact ha
  | three n r m r' m' =>
    simp only [ChainText.pattern, ParsedPattern.parts, List.mem_cons, List.not_mem_nil, or_false] at ht
    rcases ht with rfl | rfl | rfl | rfl | rfl
    · exact goodProps_ser h.1.2
    · exact goodProps_ser h.2.1.2.1
    · exact goodProps_ser h.2.2.1.2
    · exact goodProps_ser h.2.2.2.1.2.1
    · exact goodProps_ser h.2.2.2.2.2

theorem chain_patSer_st {c : ChainText} (h : c.Storable) : PatSer c.pattern := by
  have := chain_ser h
  exact ⟨this _ (by simp [ParsedPattern.parts]), fun _ => this _ (by simp [ParsedPattern.parts]),
    fun _ => this _ (by simp [ParsedPattern.parts]), fun _ _ => this _ (by simp [ParsedPattern.parts])⟩

theorem chain_patProps {c : ChainText} (h : c.Storable) : PatProps c.pattern := by
  have := chain_patSer_st h
  exact ⟨propsSer_ok this.left, fun h => propsSer_ok (this.middle h), fun h => propsSer_ok (this.lm h), fun h h' => propsSer_ok (this.mr h h')⟩

theorem chain_storesRel {c : ChainText} (h : c.rels ≠ []) : StoresRel c.pattern := by
  cases c with
  | one n => simp [ChainText.rels] at h
  | two n r m => exact .inl (truthy_rel r)
  | three n r m r' m' => exact .inl (truthy_rel r)

/-- The parsed MAKE statements stand for the patterns. -/
def MakeOf (mk : Option (List ParsedMake)) (cs : List ChainText) : Prop :=
  (mk = none ∧ cs = []) ∨
    ∃ p ps, mk = some (p :: ps) ∧ (∀ pm ∈ p :: ps, pm.clause = .make) ∧ patsOf (p :: ps) = cs.map ChainText.pattern

theorem makeOf_text (l : List StmtText) : MakeOf (parsedMakes l) (l.flatMap StmtText.chains) := by
  cases l with
  | nil => exact .inl ⟨rfl, rfl⟩
  | cons t l =>
    refine .inr ⟨_, _, rfl, ?_, ?_⟩
    · intro pm hpm
      rcases List.mem_cons.1 hpm with rfl | h
      · rfl
      · obtain ⟨t', -, rfl⟩ := List.mem_map.1 h
        rfl
    · simp [patsOf, List.flatMap_map, List.map_flatMap]

theorem makes_ok_st {pml : List ParsedMake} {cs : List ChainText} (h1 : ∀ pm ∈ pml, pm.clause = .make)
    (h2 : patsOf pml = cs.map ChainText.pattern) (h : ∀ c ∈ cs, c.Storable) : MakeOK pml := by
  have hg : ∀ p ∈ patsOf pml, ∃ c : ChainText, c.Storable ∧ p = c.pattern := by
    intro p hp
    rw [h2, List.mem_map] at hp
    obtain ⟨c, hc, rfl⟩ := hp
    exact ⟨c, h c hc, rfl⟩
  refine ⟨h1, fun p hp => ?_, fun p hp => ?_⟩
  · obtain ⟨c, hc, rfl⟩ := hg p hp
    exact chain_shape hc
  · obtain ⟨c, hc, rfl⟩ := hg p hp
    exact chain_patProps hc

theorem RelText.Good.storable {r : RelText} (h : r.Good) : r.Storable := ⟨h.1, h.2.1, by rw [h.2.2.1]; cases r.toRight <;> simp⟩

theorem ChainText.Good.storable {c : ChainText} (h : c.Good) : c.Storable := by
  cases c with
  | one n => exact h
  | two n r m => exact ⟨h.1, h.2.1.storable, h.2.2⟩
  | three n r m r' m' => exact ⟨h.1, h.2.1.storable, h.2.2.1, h.2.2.2.1.storable, h.2.2.2.2⟩

/-! ### Records -/

theorem nodeRecord_of {env : Env} {n : NodeText} (h : n.Good) (wn : Int) (rs : List RelPre) :
    NodeRecord (nodeVal env (nodeData (nodePre wn n.part rs))) wn n := by
  have := isNode_nodeVal env (nodeData (nodePre wn n.part rs))
  exact ⟨propsD n.props, propsD_mean h.2, this⟩

theorem relRecord_of {env : Env} {r : RelText} (h : r.Storable) (x : RelPre) (h1 : x.name = r.part.label) (h2 : x.props = r.props) :
    RelRecord (relVal env (relData x)) x.wn r x.fromWn x.toWn := by
  have := isRel_relVal env (relData x)
  refine ⟨propsD r.props, propsD_mean h.2.1, ?_⟩
  have e : (relData x).name = some r.nameStr := by
    simp only [relData, h1, RelText.part, RelText.nameStr]
    rcases r.name with _ | ⟨a, l, b⟩ <;> rfl
  rw [e] at this
  simpa [relData, h2] using this

theorem rels_nodeData (env : Env) (wn : Int) (t : PartText) (rs : List RelPre) :
    relationsOf (nodeVal env (nodeData (nodePre wn t rs))) = rs.map fun r => relVal env (relData r) := by
  rw [relationsOf_nodeVal, relsD_nodeData]
  simp [nodePre]

theorem seen_of {env : Env} {r : RelText} (hr : r.Storable) {x : RelPre} {a b : Int} (h1 : x.name = r.part.label) (h2 : x.props = r.props)
    (h3 : x.fromWn = if r.seenRight then a else b) (h4 : x.toWn = if r.seenRight then b else a) :
    RelSeen ((if r.seenRight then [x] else []).map fun r => relVal env (relData r))
      ((if r.seenRight then [] else [x]).map fun r => relVal env (relData r)) x.wn r a b := by
  have hx := relRecord_of (env := env) hr x h1 h2
  rw [h3, h4] at hx
  refine ⟨relVal env (relData x), ?_⟩
  cases hs : r.seenRight <;> simpa [hs] using hx

theorem chain_actual {env : Env} {b : Int} {c : ChainText} (h : c.Storable) :
    ActualRecords b c ((storedNodes b c.pattern).map (dbEntry env)) := by
  have hf : truthy PartText.absent.text = false := rfl
  cases c with
  | one n =>
    refine ⟨_, ?_, nodeRecord_of (env := env) h b (leftRels b (ChainText.one n).pattern), ?_⟩
    · simp [storedNodes, ChainText.pattern, hf, dbEntry, nodeData, nodePre]
    · rw [rels_nodeData]
      simp [leftRels, ChainText.pattern, hf]
  | two n r m =>
    have hp := points_seen h.2.1.1
    have ht := truthy_rel r
    have hn : (relLM b (ChainText.two n r m).pattern).wn = b + 2 := by
      simp [relLM, lmNum, writtenNodes, ChainText.pattern, truthy_node, hf]
    refine ⟨_, _, ?_, nodeRecord_of (env := env) h.1 b (leftRels b (ChainText.two n r m).pattern),
      nodeRecord_of (env := env) h.2.2 (b + 1) (middleRels b (ChainText.two n r m).pattern), ?_⟩
    · simp [storedNodes, ChainText.pattern, truthy_node, dbEntry, nodeData, nodePre]
    · rw [rels_nodeData, rels_nodeData, ← hn]
      have := seen_of (env := env) (x := relLM b (ChainText.two n r m).pattern) (a := b) (b := b + 1) h.2.1 rfl rfl
        (by simp [relLM, ChainText.pattern, hp]) (by simp [relLM, ChainText.pattern, hp])
      have e1 : leftRels b (ChainText.two n r m).pattern = if r.seenRight then [relLM b (ChainText.two n r m).pattern] else [] := by
        simp [leftRels, ChainText.pattern, ht, hp]
      have e2 : middleRels b (ChainText.two n r m).pattern = if r.seenRight then [] else [relLM b (ChainText.two n r m).pattern] := by
        cases hs : r.seenRight <;> simp [middleRels, ChainText.pattern, ht, hp, hs, hf]
      rw [e1, e2]
      exact this
  | three n r m r' m' =>
    have hp := points_seen h.2.1.1
    have hp' := points_seen h.2.2.2.1.1
    have ht := truthy_rel r
    have ht' := truthy_rel r'
    have hn : (relLM b (ChainText.three n r m r' m').pattern).wn = b + 3 := by
      simp [relLM, lmNum, writtenNodes, ChainText.pattern, truthy_node]
    have hn' : (relMR b (ChainText.three n r m r' m').pattern).wn = b + 4 := by
      simp [relMR, mrNum, writtenNodes, ChainText.pattern, truthy_node, ht]
      omega
    refine ⟨_, _, (if r.seenRight then [] else [relLM b (ChainText.three n r m r' m').pattern]).map fun r => relVal env (relData r),
      (if r'.seenRight then [relMR b (ChainText.three n r m r' m').pattern] else []).map fun r => relVal env (relData r), ?_,
      nodeRecord_of (env := env) h.1 b (leftRels b (ChainText.three n r m r' m').pattern),
      nodeRecord_of (env := env) h.2.2.1 (b + 1) (middleRels b (ChainText.three n r m r' m').pattern), ?_, ?_, ?_⟩
    · simp [storedNodes, ChainText.pattern, truthy_node, dbEntry, nodeData, nodePre]
    · rw [rels_nodeData, ← List.map_append]
      congr 1
      cases hs : r.seenRight <;> cases hs' : r'.seenRight <;> simp [middleRels, ChainText.pattern, ht, hp, hs, ht', hp', hs']
    · rw [rels_nodeData, ← hn]
      have e1 : leftRels b (ChainText.three n r m r' m').pattern =
          if r.seenRight then [relLM b (ChainText.three n r m r' m').pattern] else [] := by
        simp [leftRels, ChainText.pattern, ht, hp]
      rw [e1]
      exact seen_of (env := env) (x := relLM b (ChainText.three n r m r' m').pattern) (a := b) (b := b + 1) h.2.1 rfl rfl
        (by simp [relLM, ChainText.pattern, hp]) (by simp [relLM, ChainText.pattern, hp])
    · cases hs' : r'.seenRight with
      | false => simp
      | true =>
        have hx := relRecord_of (env := env) h.2.2.2.1 (relMR b (ChainText.three n r m r' m').pattern) rfl rfl
        rw [hn', show (relMR b (ChainText.three n r m r' m').pattern).fromWn = b + 1 by simp [relMR, ChainText.pattern, hp', hs'],
          show (relMR b (ChainText.three n r m r' m').pattern).toWn = b + 2 by simp [relMR, ChainText.pattern, hp', hs']] at hx
        exact ⟨_, rfl, hx⟩

/-- Short patterns are stored as written. -/
theorem actual_short {b : Int} {c : ChainText} {new : Dict V} (hs : c.Short) (h : ActualRecords b c new) : ChainRecords b c new := by
  cases c with
  | one n => exact h
  | two n r m =>
    have e : r.seenRight = r.toRight := by simp [RelText.seenRight, show r.sp3 = [] from hs]
    obtain ⟨v, w, h1, h2, h3, x, h4⟩ := h
    rw [e] at h4
    exact ⟨v, w, h1, h2, h3, x, h4⟩
  | three n r m r' m' => exact hs.elim

theorem actualAll_short {b : Int} {cs : List ChainText} {new : Dict V} (hs : ∀ c ∈ cs, c.Short) (h : ActualAll b cs new) :
    AllRecords b cs new := by
  induction cs generalizing b new with
  | nil => exact h
  | cons c cs ih =>
    obtain ⟨x, y, e, h1, h2⟩ := h
    exact ⟨x, y, e, actual_short (hs c (by simp)) h1, ih (fun c' hc => hs c' (List.mem_cons_of_mem _ hc)) h2⟩


theorem patSize_chain (c : ChainText) : patSize c.pattern = c.size := by
  have hf : truthy PartText.absent.text = false := rfl
  cases c <;> simp [patSize, writtenNodes, writtenRels, ChainText.pattern, ChainText.size, hf, truthy_node, truthy_rel]

theorem totalSize_chains (cs : List ChainText) : totalSize (cs.map ChainText.pattern) = sizeOfAll cs := by
  simp [totalSize, sizeOfAll, patSize_chain, Function.comp_def]

theorem all_actual {env : Env} {b : Int} {cs : List ChainText} (h : ∀ c ∈ cs, c.Storable) :
    ActualAll b cs (dbBatch env b (cs.map ChainText.pattern)) := by
  induction cs generalizing b with
  | nil => rfl
  | cons c cs ih =>
    refine ⟨_, _, ?_, chain_actual (env := env) (h c (by simp)),
      ih (b := b + c.size) fun c' hc => h c' (List.mem_cons_of_mem _ hc)⟩
    simp [dbBatch, allStored, place, patSize_chain]

theorem wantLabels_chains {cs : List ChainText} {x : Str} :
    x ∈ wantLabels (cs.map ChainText.pattern) ↔ ∃ c ∈ cs, x ∈ c.labels := by
  have hf : truthy PartText.absent.text = false := rfl
  have : ∀ c : ChainText, (writtenNodes c.pattern).map labelD = c.labels := by
    intro c
    cases c <;> simp [writtenNodes, ChainText.pattern, ChainText.labels, hf, truthy_node, labelD] <;> simp [NodeText.part]
  simp [wantLabels, List.flatMap_map, this]

theorem relNameOf_part (r : RelText) : relNameOf r.part = if r.nameStr = [] then [] else [r.nameStr] := by
  unfold relNameOf addRelName RelText.part RelText.nameStr
  rcases r.name with _ | ⟨a, l, b⟩
  · rfl
  · cases l <;> rfl

theorem wantNames_chains {cs : List ChainText} {x : Str} :
    x ∈ wantNames (cs.map ChainText.pattern) ↔ x ≠ [] ∧ ∃ c ∈ cs, ∃ r ∈ c.rels, r.nameStr = x := by
  have hf : truthy PartText.absent.text = false := rfl
  have h1 : ∀ c : ChainText, writtenRels c.pattern = c.rels.map RelText.part := by
    intro c
    cases c <;> simp [writtenRels, ChainText.pattern, ChainText.rels, hf, truthy_rel]
  simp only [wantNames, List.flatMap_map, h1, List.mem_flatMap, relNameOf_part]
  constructor
  · rintro ⟨c, hc, r, hr, hx⟩
    split at hx
    · simp at hx
    · next hne =>
      simp at hx
      subst hx
      exact ⟨hne, c, hc, r, hr, rfl⟩
  · rintro ⟨hne, c, hc, r, hr, rfl⟩
    exact ⟨c, hc, r, hr, by simp [hne]⟩

theorem below_batch {env : Env} {d : Dict V} {n : Int} {pats : List ParsedPattern} (h : BelowCounter d n) :
    BelowCounter (d ++ dbBatch env n pats) (n + totalSize pats) := by
  intro w hw hk
  rw [List.map_append, List.mem_append] at hk
  rcases hk with hk | hk
  · exact h w (by omega) hk
  · obtain ⟨w', h1, h2, e⟩ := (keys_batch env n pats).2 _ hk
    have := intStr_inj e
    omega

/-! ### Execution -/

theorem find_ok {raw : Str} {c : ChainText} (hc : c.Storable) (hf : c.Findable) :
    ∃ f, processParsedFind ⟨raw, .find, c.pattern⟩ none = .ok f := by
  have ha : truthy PartText.absent.text = false := rfl
  cases c with
  | one n =>
    obtain ⟨f, h, -⟩ := C51_one_node_partial ⟨raw, .find, (ChainText.one n).pattern⟩ n.label rfl ⟨ha, ha, ha, ha⟩ rfl
      (propsSer_ok (goodProps_ser hc.2))
    exact ⟨f, h⟩
  | two n r m => exact hf.elim
  | three n r m r' m' =>
    obtain ⟨f, _, _, h, -⟩ := C51_three_nodes_partial ⟨raw, .find, (ChainText.three n r m r' m').pattern⟩ rfl (chain_shape hc)
      (truthy_node m) (truthy_node m') fun t ht => propsSer_ok (chain_ser hc t ht)
    exact ⟨f, h⟩

theorem find_run {raw : Str} {c : ChainText} (hc : c.Storable) (hf : c.Findable) {fs : FS} {g : GPath} {d : Dict V}
    {labels names : List Str} {rels : Dict (List Int)} {n : Int} (h : Healthy fs g d labels names rels n) :
    ∃ r, (find ⟨raw, .find, c.pattern⟩ g none).run fs = (.ok r, fs) := by
  obtain ⟨f, hp⟩ := find_ok (raw := raw) hc hf
  obtain ⟨D, hD, hs⟩ := h.idx
  obtain ⟨r, hr, -⟩ := C50_actual_behaviour _ none g fs f D labels names rels hD hs hp
  exact ⟨r, hr⟩

theorem query_parsed_run {q : Str} {mk : Option (List ParsedMake)} {f : ParsedFind} {rep : Option ParsedReport}
    (hq : parseQueryString q = .ok ⟨mk, some f, rep⟩) (env : Env) (g : GPath) (fs : FS) :
    (query env q g).run fs = match (executeMakes env g mk).run fs with
      | (.error e, fs') => (.error e, fs')
      | (.ok _, fs') => match (find f g none).run fs' with
        | (.error e, fs') => (.error e, fs')
        | (.ok _, fs') => (.ok true, fs') := by
  rw [query_run, hq]
  simp only
  rw [execute_run rfl]
  cases (executeMakes env g mk).run fs with
  | mk r fs1 =>
    cases r with
    | error e => rfl
    | ok b =>
      simp only
      cases (find f g none).run fs1 with
      | mk r fs2 => cases r <;> rfl

/-- What FIND does with a good pattern. -/
theorem find_two {raw : Str} {n m : NodeText} {r : RelText} (hn : n.Good) (hm : m.Good) :
    processParsedFind ⟨raw, .find, (ChainText.two n r m).pattern⟩ none = .error .validation := by
  obtain ⟨a, ha, -⟩ := goodProps_mean hn.2
  obtain ⟨b, hb, -⟩ := goodProps_mean hm.2
  have e1 : n.part.props = n.props := rfl
  have e2 : m.part.props = m.props := rfl
  have e3 : n.part.label = some n.label := rfl
  have e4 : m.part.label = some m.label := rfl
  have e5 : PartText.absent.label = none := rfl
  simp [processParsedFind, findNode, findMiddle, findRight, ChainText.pattern, truthy_node, e1, e2, e3, e4, e5, ha, hb, mkFindNode, addCriteriaNode,
    updateWithModel]

/-- What a query returns whose MAKE step went well. -/
theorem find_step {raw : Str} {c : ChainText} (hc : c.Storable) {fs : FS} {g : GPath} {d : Dict V}
    {labels names : List Str} {rels : Dict (List Int)} {n : Int} (h : Healthy fs g d labels names rels n) :
    (match (find ⟨raw, .find, c.pattern⟩ g none).run fs with
      | (.error e, fs') => (.error e, fs')
      | (.ok _, fs') => ((.ok true : Except PyErr Bool), fs')) = (c.findResult, fs) := by
  have hok : c.Findable → (match (find ⟨raw, .find, c.pattern⟩ g none).run fs with
      | (.error e, fs') => (.error e, fs')
      | (.ok _, fs') => ((.ok true : Except PyErr Bool), fs')) = (.ok true, fs) := by
    intro hf
    obtain ⟨r, hr⟩ := find_run (raw := raw) hc hf h
    rw [hr]
  cases c with
  | one n => exact hok trivial
  | two n r m =>
    unfold find
    rw [find_two hc.1 hc.2.2]
    rfl
  | three n r m r' m' => exact hok trivial

/-- What a query does whose parts are parsed to good patterns. -/
theorem run_leaves_st {q : Str} {mk : Option (List ParsedMake)} {cs : List ChainText} {raw : Str} {fc : ChainText} {rep : Option ParsedReport}
    (hq : parseQueryString q = .ok ⟨mk, some ⟨raw, .find, fc.pattern⟩, rep⟩) (hmk : MakeOf mk cs)
    (hg : ∀ c ∈ cs, c.Storable) (hfc : fc.Storable)
    (hrels : cs = [] ∨ ∃ c ∈ cs, c.rels ≠ []) (env : Env) (g : GPath) (fs : FS)
    {d : Dict V} {labels names : List Str} {rels : Dict (List Int)} {n : Int} (h : Healthy fs g d labels names rels n)
    (hb : BelowCounter d n) (hne : mk = none ∨ cs ≠ []) : Leaves env q g fs d labels names rels n cs fc.findResult := by
  unfold Leaves
  rw [query_parsed_run hq]
  rcases hmk with ⟨rfl, rfl⟩ | ⟨p, ps, rfl, hcl, hpats⟩
  · refine ⟨fs, [], labels, names, rels, ?_, ?_, ?_, ?_, ?_, fun _ _ _ _ => rfl⟩
    · simp only [executeMakes, Prog.run, pure]
      exact find_step hfc h
    · simpa [sizeOfAll] using h
    · simpa [sizeOfAll] using hb
    · rfl
    · exact ⟨by simp, by simp, by simp⟩
  · obtain ⟨c, hc, hrel⟩ := hrels.resolve_left (hne.resolve_left (by simp))
    have hok := makes_ok_st hcl hpats hg
    have hrun := (C23_valid_make_succeeds_partial env (p :: ps) g fs d labels names rels n h hb hok
      (fun p hp => by
        rw [hpats, List.mem_map] at hp
        obtain ⟨c, hc, rfl⟩ := hp
        exact chain_patSer_st (hg c hc))
      ⟨c.pattern, by rw [hpats]; exact List.mem_map_of_mem hc, chain_storesRel hrel⟩).1
    have hrun' := run_of hrun
    obtain ⟨-, hfresh, -, -, hother, labels', names', rels', hh, hl, hn, hrl, -⟩ := make_success h hrun'
    rw [hpats] at hfresh hh hl hn hrl
    refine ⟨_, dbBatch env n (cs.map ChainText.pattern), labels', names', rels', ?_, ?_, ?_, all_actual hg, ?_, hother⟩
    · rw [show (executeMakes env g (some (p :: ps))).run fs = (make env (p :: ps) g).run fs from rfl, hrun']
      exact find_step hfc hh
    · rw [← totalSize_chains]; exact hh
    · rw [← totalSize_chains]; exact below_batch hb
    · refine ⟨fun x => (hl x).trans (or_congr_right wantLabels_chains), fun x => (hn x).trans (or_congr_right wantNames_chains),
        fun k m => (hrl k m).trans (or_congr_right ?_)⟩
      constructor
      · rintro ⟨new, h1, h2⟩
        obtain ⟨v, h3, -, h4⟩ := (relBatch_iff (env := env) hfresh.1).1 h1
        refine ⟨v, dictGet_some_mem h3, ?_⟩
        have : some m ∈ (relationsOf v).map relWn := by rw [h4]; exact List.mem_map_of_mem h2
        obtain ⟨r, hr, e⟩ := List.mem_map.1 this
        exact ⟨r, hr, e⟩
      · rintro ⟨v, h1, r, hr, e⟩
        have h2 := dictGet_of_mem hfresh.1 h1
        obtain ⟨ns, h3⟩ := rel_nums env h2
        refine ⟨ns, (relBatch_iff (env := env) hfresh.1).2 ⟨v, h2, List.ne_nil_of_mem hr, h3⟩, ?_⟩
        have : some m ∈ ns.map some := by rw [← h3, ← e]; exact List.mem_map_of_mem hr
        simpa using this

/-- The same for short patterns and a FIND that succeeds. -/
theorem run_parsed_st {q : Str} {mk : Option (List ParsedMake)} {cs : List ChainText} {raw : Str} {fc : ChainText} {rep : Option ParsedReport}
    (hq : parseQueryString q = .ok ⟨mk, some ⟨raw, .find, fc.pattern⟩, rep⟩) (hmk : MakeOf mk cs)
    (hg : ∀ c ∈ cs, c.Storable) (hfc : fc.Storable) (hff : fc.Findable) (hshort : ∀ c ∈ cs, c.Short)
    (hrels : cs = [] ∨ ∃ c ∈ cs, c.rels ≠ []) (env : Env) (g : GPath) (fs : FS)
    {d : Dict V} {labels names : List Str} {rels : Dict (List Int)} {n : Int} (h : Healthy fs g d labels names rels n)
    (hb : BelowCounter d n) (hne : mk = none ∨ cs ≠ []) : Stores env q g fs d labels names rels n cs := by
  obtain ⟨fs', new, l', n', r', h1, h2, h3, h4, h5, h6⟩ := run_leaves_st hq hmk hg hfc hrels env g fs h hb hne
  have e : fc.findResult = .ok true := by cases fc <;> first | rfl | exact hff.elim
  rw [e] at h1
  exact ⟨fs', new, l', n', r', h1, h2, h3, actualAll_short hshort h4, h5, h6⟩

/-- What a query does whose MAKEs have no relationship. -/
theorem run_ruins_st {q : Str} {mk : Option (List ParsedMake)} {cs : List ChainText} {f : ParsedFind} {rep : Option ParsedReport}
    (hq : parseQueryString q = .ok ⟨mk, some f, rep⟩) (hmk : MakeOf mk cs)
    (hg : ∀ c ∈ cs, c.Storable) (hrels : ∀ c ∈ cs, c.rels = []) (env : Env) (g : GPath) (fs : FS)
    {d : Dict V} {labels names : List Str} {rels : Dict (List Int)} {n : Int} (h : Healthy fs g d labels names rels n)
    (hb : BelowCounter d n) (hne : mk ≠ none) : Ruins env q g fs d n cs := by
  unfold Ruins
  rw [query_parsed_run hq]
  rcases hmk with ⟨rfl, rfl⟩ | ⟨p, ps, rfl, hcl, hpats⟩
  · simp at hne
  · have hok := makes_ok_st hcl hpats hg
    have hs : ∀ p' ∈ patsOf (p :: ps), PatSer p' := fun p' hp => by
      rw [hpats, List.mem_map] at hp
      obtain ⟨c, hc, rfl⟩ := hp
      exact chain_patSer_st (hg c hc)
    have hf := fresh_batch (env := env) (pats := patsOf (p :: ps)) fun w h1 _ => hb w h1
    have hser := (dbBatch_ser (env := env) (b := n) hok.props hok.shape).2 hs
    have hr : relBatch n (patsOf (p :: ps)) = [] := by
      apply Classical.byContradiction
      intro hne
      obtain ⟨p', hp, hst⟩ := (relBatch_ne (b := n) hok.shape).1 hne
      rw [hpats, List.mem_map] at hp
      obtain ⟨c, hc, rfl⟩ := hp
      have := hrels c hc
      cases c with
      | one m => simp [StoresRel, ChainText.pattern, PartText.absent, truthy] at hst
      | two m r m' => simp [ChainText.rels] at this
      | three m r m' r' m'' => simp [ChainText.rels] at this
    obtain ⟨bad, hbad, e⟩ := commit_relationless h hf hser hr
    rw [show (executeMakes env g (some (p :: ps))).run fs = (make env (p :: ps) g).run fs from rfl, run_make_counter h.counter,
      afterCounter_ok hok, e]
    rw [hpats] at hf hser ⊢
    refine ⟨_, dbBatch env n (cs.map ChainText.pattern), rfl, ⟨_, ?_, jsonLoad_dump _ (ser_append h.ser hf hser)⟩, ?_, ⟨bad, FS.get_set_self _ _ _, hbad⟩, ?_⟩
    · rw [FS.get_set_ne (Ne.symm h.db_idx), FS.get_set_self]
    · exact all_actual hg
    · intro p h1 h2
      rw [FS.get_set_ne (Ne.symm h2), FS.get_set_ne (Ne.symm h1)]

/-! ### The same for good patterns -/

theorem chain_patSer {c : ChainText} (h : c.Good) : PatSer c.pattern := chain_patSer_st h.storable

theorem makes_ok {pml : List ParsedMake} {cs : List ChainText} (h1 : ∀ pm ∈ pml, pm.clause = .make)
    (h2 : patsOf pml = cs.map ChainText.pattern) (h : ∀ c ∈ cs, c.Good) : MakeOK pml := makes_ok_st h1 h2 fun c hc => (h c hc).storable

theorem run_leaves {q : Str} {mk : Option (List ParsedMake)} {cs : List ChainText} {raw : Str} {fc : ChainText} {rep : Option ParsedReport}
    (hq : parseQueryString q = .ok ⟨mk, some ⟨raw, .find, fc.pattern⟩, rep⟩) (hmk : MakeOf mk cs)
    (hg : ∀ c ∈ cs, c.Good) (hfc : fc.Good)
    (hrels : cs = [] ∨ ∃ c ∈ cs, c.rels ≠ []) (env : Env) (g : GPath) (fs : FS)
    {d : Dict V} {labels names : List Str} {rels : Dict (List Int)} {n : Int} (h : Healthy fs g d labels names rels n)
    (hb : BelowCounter d n) (hne : mk = none ∨ cs ≠ []) : Leaves env q g fs d labels names rels n cs fc.findResult :=
  run_leaves_st hq hmk (fun c hc => (hg c hc).storable) hfc.storable hrels env g fs h hb hne

theorem run_parsed {q : Str} {mk : Option (List ParsedMake)} {cs : List ChainText} {raw : Str} {fc : ChainText} {rep : Option ParsedReport}
    (hq : parseQueryString q = .ok ⟨mk, some ⟨raw, .find, fc.pattern⟩, rep⟩) (hmk : MakeOf mk cs)
    (hg : ∀ c ∈ cs, c.Good) (hfc : fc.Good) (hff : fc.Findable) (hshort : ∀ c ∈ cs, c.Short)
    (hrels : cs = [] ∨ ∃ c ∈ cs, c.rels ≠ []) (env : Env) (g : GPath) (fs : FS)
    {d : Dict V} {labels names : List Str} {rels : Dict (List Int)} {n : Int} (h : Healthy fs g d labels names rels n)
    (hb : BelowCounter d n) (hne : mk = none ∨ cs ≠ []) : Stores env q g fs d labels names rels n cs :=
  run_parsed_st hq hmk (fun c hc => (hg c hc).storable) hfc.storable hff hshort hrels env g fs h hb hne

theorem run_ruins {q : Str} {mk : Option (List ParsedMake)} {cs : List ChainText} {f : ParsedFind} {rep : Option ParsedReport}
    (hq : parseQueryString q = .ok ⟨mk, some f, rep⟩) (hmk : MakeOf mk cs)
    (hg : ∀ c ∈ cs, c.Good) (hrels : ∀ c ∈ cs, c.rels = []) (env : Env) (g : GPath) (fs : FS)
    {d : Dict V} {labels names : List Str} {rels : Dict (List Int)} {n : Int} (h : Healthy fs g d labels names rels n)
    (hb : BelowCounter d n) (hne : mk ≠ none) : Ruins env q g fs d n cs :=
  run_ruins_st hq hmk (fun c hc => (hg c hc).storable) hrels env g fs h hb hne

end WG
