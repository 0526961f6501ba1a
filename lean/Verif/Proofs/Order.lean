/- Two runs with different iteration orders of sets. -/
import Verif.Spec.Order
import Verif.Proofs.Query

set_option linter.unusedSectionVars false
set_option linter.unusedSimpArgs false

namespace WG
variable [PyRuntime]

/-! ### Values -/

theorem SameKeys.refl {R : V → V → Prop} (h : ∀ v, R v v) (d : Dict V) : SameKeys R d d := by
  induction d with
  | nil => trivial
  | cons x d ih => exact ⟨rfl, h _, ih⟩

theorem SameKeys.mono {R S : V → V → Prop} (h : ∀ v w, R v w → S v w) {d d' : Dict V} (hd : SameKeys R d d') : SameKeys S d d' := by
  induction d generalizing d' with
  | nil => cases d' <;> simp_all [SameKeys]
  | cons x d ih =>
    cases d' with
    | nil => simp [SameKeys] at hd
    | cons y d' => exact ⟨hd.1, h _ _ hd.2.1, ih hd.2.2⟩

theorem SameKeys.keys {R : V → V → Prop} {d d' : Dict V} (h : SameKeys R d d') : d.map Prod.fst = d'.map Prod.fst := by
  induction d generalizing d' with
  | nil => cases d' <;> simp_all [SameKeys]
  | cons x d ih =>
    cases d' with
    | nil => simp [SameKeys] at h
    | cons y d' => simp [h.1, ih h.2.2]

theorem reordered_refl (n : Nat) (v : V) : Reordered n v v := by
  induction n with
  | zero => exact .inl rfl
  | succ n ih => exact .inl ih

theorem reordered_cases {n : Nat} {v w : V} (h : Reordered (n + 1) v w) :
    v = w ∨ (∃ l l', v = .list l ∧ w = .list l' ∧ l.Perm l') ∨ ∃ d d', v = .dict d ∧ w = .dict d' ∧ SameKeys (Reordered n) d d' := by
  induction n with
  | zero =>
    rcases h with (h | h) | h
    · exact .inl h
    · exact .inr (.inl h)
    · exact .inr (.inr h)
  | succ n ih =>
    rcases h with h | h
    · rcases ih h with h | h | ⟨d, d', h1, h2, h3⟩
      · exact .inl h
      · exact .inr (.inl h)
      · exact .inr (.inr ⟨d, d', h1, h2, h3.mono fun _ _ h => .inl h⟩)
    · exact .inr (.inr h)

theorem reordered_list {n : Nat} {l l' : List V} (h : l.Perm l') : Reordered n (.list l) (.list l') := by
  induction n with
  | zero => exact .inr ⟨l, l', rfl, rfl, h⟩
  | succ n ih => exact .inl ih

/-- Outcomes that are related. -/
def RelE {α β : Type} (S : α → β → Prop) : Except PyErr α → Except PyErr β → Prop
  | .ok a, .ok b => S a b
  | .error e, .error e' => e = e'
  | _, _ => False

theorem RelE.bind {α β α' β' : Type} {S : α → β → Prop} {T : α' → β' → Prop} {x : Except PyErr α} {y : Except PyErr β}
    {f : α → Except PyErr α'} {f' : β → Except PyErr β'} (h : RelE S x y) (hf : ∀ a b, S a b → RelE T (f a) (f' b)) :
    RelE T (x.bind f) (y.bind f') := by
  cases x <;> cases y <;> simp_all [RelE, Except.bind]

theorem perm_dedup {l l' : List V} (h : ∀ x, x ∈ l ↔ x ∈ l') : (dedup l).Perm (dedup l') :=
  (List.perm_ext_iff_of_nodup (nodup_dedup _) (nodup_dedup _)).2 fun x => by rw [mem_dedup, mem_dedup, h]

theorem pySet_like {n : Nat} {v w : V} (h : Reordered (n + 1) v w) : RelE List.Perm (pySet v) (pySet w) := by
  rcases reordered_cases h with rfl | ⟨l, l', rfl, rfl, h'⟩ | ⟨d, d', rfl, rfl, h'⟩
  · cases pySet v with
    | ok a => exact .refl _
    | error e => rfl
  · have e : l.all hashable = l'.all hashable := by
      rw [Bool.eq_iff_iff, List.all_eq_true, List.all_eq_true]
      exact ⟨fun hx x hm => hx x (h'.mem_iff.2 hm), fun hx x hm => hx x (h'.mem_iff.1 hm)⟩
    simp only [pySet, e]
    split
    · exact perm_dedup fun x => h'.mem_iff
    · rfl
  · have := h'.keys
    have e : ∀ d : Dict V, d.map (fun p => Val.str (F := PyRuntime.F) p.1) = (d.map Prod.fst).map Val.str := fun d => by simp
    simp only [pySet, RelE]
    rw [e, e, this]

theorem dictGet_like {R : V → V → Prop} {d d' : Dict V} (h : SameKeys R d d') (k : Str) :
    (dictGet k d = none ∧ dictGet k d' = none) ∨ ∃ v w, dictGet k d = some v ∧ dictGet k d' = some w ∧ R v w := by
  induction d generalizing d' with
  | nil => cases d' <;> simp_all [SameKeys, dictGet]
  | cons x d ih =>
    cases d' with
    | nil => simp [SameKeys] at h
    | cons y d' =>
      obtain ⟨k1, v⟩ := x
      obtain ⟨k2, w⟩ := y
      obtain ⟨rfl, h1, h2⟩ := h
      simp only [dictGet]
      split
      · exact .inr ⟨v, w, rfl, rfl, h1⟩
      · exact ih h2

theorem dictSet_like {R : V → V → Prop} {d d' : Dict V} (h : SameKeys R d d') (k : Str) {x y : V} (hx : R x y) :
    SameKeys R (dictSet k x d) (dictSet k y d') := by
  induction d generalizing d' with
  | nil => cases d' <;> simp_all [SameKeys, dictSet]
  | cons z d ih =>
    cases d' with
    | nil => simp [SameKeys] at h
    | cons z' d' =>
      obtain ⟨k1, v⟩ := z
      obtain ⟨k2, w⟩ := z'
      obtain ⟨rfl, h1, h2⟩ := h
      simp only [dictSet]
      split
      · exact ⟨rfl, hx, h2⟩
      · exact ⟨rfl, h1, ih h2⟩

theorem getItem_like {n : Nat} {v w : V} (h : Reordered (n + 1) v w) (k : Str) :
    RelE (Reordered n) (getItem v k) (getItem w k) := by
  rcases reordered_cases h with rfl | ⟨l, l', rfl, rfl, h'⟩ | ⟨d, d', rfl, rfl, h'⟩
  · cases getItem v k with
    | ok a => exact reordered_refl _ _
    | error e => rfl
  · rfl
  · rcases dictGet_like h' k with ⟨h1, h2⟩ | ⟨v, w, h1, h2, h3⟩
    · simp [getItem, h1, h2, RelE]
    · simpa [getItem, h1, h2, RelE] using h3

theorem setItem_like {n : Nat} {v w x y : V} (h : Reordered (n + 1) v w) (hx : Reordered n x y) (k : Str) :
    RelE (Reordered (n + 1)) (setItem v k x) (setItem w k y) := by
  rcases reordered_cases h with rfl | ⟨l, l', rfl, rfl, h'⟩ | ⟨d, d', rfl, rfl, h'⟩
  · cases v with
    | dict d => exact .inr ⟨_, _, rfl, rfl, dictSet_like (SameKeys.refl (reordered_refl n) d) k hx⟩
    | _ => rfl
  · rfl
  · exact .inr ⟨_, _, rfl, rfl, dictSet_like h' k hx⟩

/-! ### The updates of the index -/

/-- What `add_items_set_to_index_by_name` makes of the index. -/
def addSetVal (o : SetOrd) (items : List Str) (name : Str) (idx : V) : Except PyErr V :=
  (getItem idx name).bind fun old => (pySet old).bind fun s => setItem idx name (.list (o.ord (dedup (s ++ items.map Val.str))))

theorem addSetVal_like {o o' : SetOrd} {items : List Str} {name : Str} {v w : V} (h : Reordered 2 v w) :
    RelE (Reordered 2) (addSetVal o items name v) (addSetVal o' items name w) := by
  refine (getItem_like h name).bind fun a b h1 => (pySet_like h1).bind fun s s' hs => setItem_like h (reordered_list ?_) name
  exact ((o.perm _).trans (perm_dedup fun x => by simp [hs.mem_iff])).trans (o'.perm _).symm

theorem relIndexStep_like {o o' : SetOrd} {v w : V} {k : Str} {new : List V} (h : Reordered 1 v w) :
    RelE (Reordered 1) (relIndexStep o v k new) (relIndexStep o' w k new) := by
  have main : ∀ d d', SameKeys (Reordered 0) d d' →
      RelE (Reordered 1) (relIndexStep o (.dict d) k new) (relIndexStep o' (.dict d') k new) := by
    intro d d' h
    rcases dictGet_like h k with ⟨h1, h2⟩ | ⟨v, w, h1, h2, h3⟩
    · simp only [relIndexStep, h1, h2]
      exact .inr ⟨_, _, rfl, rfl, dictSet_like h k (reordered_list ((o.perm _).trans (o'.perm _).symm))⟩
    · have := pySet_like (n := 0) (.inl h3)
      simp only [relIndexStep, h1, h2]
      cases hp : pySet v <;> cases hq : pySet w <;> rw [hp, hq] at this <;> simp only [RelE] at this ⊢
      · exact this
      · refine .inr ⟨_, _, rfl, rfl, dictSet_like h k (reordered_list ?_)⟩
        exact ((o.perm _).trans (perm_dedup fun x => by simp [this.mem_iff])).trans (o'.perm _).symm
  rcases reordered_cases h with rfl | ⟨l, l', rfl, rfl, h'⟩ | ⟨d, d', rfl, rfl, h'⟩
  · cases v with
    | dict d => exact main d d (SameKeys.refl (reordered_refl 0) d)
    | _ => rfl
  · rfl
  · exact main d d' h'

theorem relIndexLoop_like {o o' : SetOrd} {v w : V} {items : List (Str × List V)} (h : Reordered 1 v w) :
    RelE (Reordered 1) (relIndexLoop o v items) (relIndexLoop o' w items) := by
  induction items generalizing v w with
  | nil => exact h
  | cons x items ih =>
    obtain ⟨k, new⟩ := x
    have := relIndexStep_like (o := o) (o' := o') (k := k) (new := new) h
    simp only [relIndexLoop]
    cases hp : relIndexStep o v k new <;> cases hq : relIndexStep o' w k new <;> rw [hp, hq] at this <;>
      simp only [RelE] at this ⊢
    · exact this
    · exact ih this

/-- What `add_items_to_node_relationships_index` makes of the index. -/
def addRelVal (o : SetOrd) (items : List (Str × List V)) (idx : V) : Except PyErr V :=
  (getItem idx NODE_RELATIONSHIPS_INDEX_NAME).bind fun rel => (relIndexLoop o rel items).bind fun rel' =>
    setItem idx NODE_RELATIONSHIPS_INDEX_NAME rel'

theorem addRelVal_like {o o' : SetOrd} {items : List (Str × List V)} {v w : V} (h : Reordered 2 v w) :
    RelE (Reordered 2) (addRelVal o items v) (addRelVal o' items w) :=
  (getItem_like h _).bind fun _ _ h1 => (relIndexLoop_like h1).bind fun _ _ h2 => setItem_like h h2 _

/-! ### They stay JSON -/

theorem getItem_ser {v x : V} {k : Str} (h : v.Ser) (hx : getItem v k = .ok x) : x.Ser := by
  unfold getItem at hx
  split at hx
  · split at hx
    · next e => cases hx; exact ser_of_dictGet h e
    · simp at hx
  · simp at hx

theorem setItem_ser {v x y : V} {k : Str} (h : v.Ser) (hx : x.Ser) (hy : setItem v k x = .ok y) : y.Ser := by
  rw [setItem.eq_def] at hy
  split at hy
  · cases hy; exact ser_dictSet h hx
  · simp at hy

theorem setItem_dict {v x y : V} {k : Str} (hy : setItem v k x = .ok y) : ∃ d, v = .dict d := by
  rw [setItem.eq_def] at hy
  split at hy
  · exact ⟨_, rfl⟩
  · simp at hy

theorem bind_ok {α β : Type} {x : Except PyErr α} {f : α → Except PyErr β} {b : β} (h : x.bind f = .ok b) :
    ∃ a, x = .ok a ∧ f a = .ok b := by
  cases x with
  | error e => simp [Except.bind] at h
  | ok a => exact ⟨a, rfl, h⟩

theorem addSetVal_ser {o : SetOrd} {items : List Str} {name : Str} {v w : V} (h : v.Ser) (hw : addSetVal o items name v = .ok w) :
    w.Ser := by
  obtain ⟨a, h1, hw⟩ := bind_ok hw
  obtain ⟨s, h2, hw⟩ := bind_ok hw
  exact setItem_ser h (ser_ord (ser_union (getItem_ser h h1) h2)) hw

theorem relIndexStep_ser {o : SetOrd} {v w : V} {k : Str} {new : List V} (h : v.Ser) (hn : ∀ x ∈ new, x.Ser)
    (hw : relIndexStep o v k new = .ok w) : w.Ser := by
  unfold relIndexStep at hw
  split at hw
  · next d =>
    split at hw
    · next old e =>
      split at hw
      · next s es =>
        cases hw
        refine ser_dictSet h (ser_ord fun x hx => ?_)
        rw [mem_dedup, List.mem_append] at hx
        rcases hx with hx | hx
        · exact pySet_ser (ser_of_dictGet h e) es x hx
        · exact hn x hx
      · simp at hw
    · cases hw
      exact ser_dictSet h (ser_ord fun x hx => hn x (mem_dedup.1 hx))
  · simp at hw

theorem relIndexLoop_ser {o : SetOrd} {v w : V} {items : List (Str × List V)} (h : v.Ser)
    (hn : ∀ it ∈ items, ∀ x ∈ it.2, x.Ser) (hw : relIndexLoop o v items = .ok w) : w.Ser := by
  induction items generalizing v with
  | nil => cases hw; exact h
  | cons x items ih =>
    obtain ⟨k, new⟩ := x
    simp only [relIndexLoop] at hw
    split at hw
    · next v' e => exact ih (relIndexStep_ser h (hn (k, new) (by simp)) e) (fun it hit => hn it (by simp [hit])) hw
    · simp at hw

theorem addRelVal_ser {o : SetOrd} {items : List (Str × List V)} {v w : V} (h : v.Ser)
    (hn : ∀ it ∈ items, ∀ x ∈ it.2, x.Ser) (hw : addRelVal o items v = .ok w) : w.Ser := by
  obtain ⟨a, h1, hw⟩ := bind_ok hw
  obtain ⟨s, h2, hw⟩ := bind_ok hw
  exact setItem_ser h (relIndexLoop_ser (getItem_ser h h1) hn h2) hw

/-! ### Runs -/

/-- Read the index, compute, write it at the position `pos`, truncate. -/
def updateIndex (p : Path) (pos : Str → Nat) (f : V → Except PyErr V) : Prog Bool := do
  let text ← readFile p
  let idx ← liftE (loads text)
  let idx' ← liftE (f idx)
  let pos ← dumpTo p (pos text) idx'
  unitOp (.truncate p pos) .osError
  pure true

theorem liftE_ok_bind {α β : Type} (a : α) (f : α → Prog β) : (liftE (.ok a) >>= f) = f a := rfl

theorem addItemsSet_eq (o : SetOrd) (p : Path) (items : List Str) (name : Str) :
    addItemsSetToIndex o p items name = updateIndex p (fun _ => 0) (addSetVal o items name) := by
  unfold addItemsSetToIndex updateIndex
  refine congrArg (readFile p >>= ·) (funext fun text => ?_)
  refine congrArg (liftE (loads text) >>= ·) (funext fun idx => ?_)
  unfold addSetVal
  cases getItem idx name with
  | error e => rfl
  | ok old =>
    cases h : pySet old with
    | error e => rw [liftE_ok_bind]; simp only [Except.bind, h]; rfl
    | ok s => rw [liftE_ok_bind]; simp only [Except.bind, h]; rfl

theorem addRel_eq (o : SetOrd) (p : Path) (items : List (Str × List V)) :
    addItemsToNodeRelationshipsIndex o p items =
      updateIndex p (fun text => if items.isEmpty then text.length else 0) (addRelVal o items) := by
  unfold addItemsToNodeRelationshipsIndex updateIndex
  refine congrArg (readFile p >>= ·) (funext fun text => ?_)
  refine congrArg (liftE (loads text) >>= ·) (funext fun idx => ?_)
  unfold addRelVal
  cases getItem idx NODE_RELATIONSHIPS_INDEX_NAME with
  | error e => rfl
  | ok old =>
    cases h : relIndexLoop o old items with
    | error e => rw [liftE_ok_bind]; simp only [Except.bind, h]; rfl
    | ok s => rw [liftE_ok_bind]; simp only [Except.bind, h]; rfl

theorem run_updateIndex_none {p : Path} {pos : Str → Nat} {f : V → Except PyErr V} {fs : FS} (h : fs.get p = none) :
    (updateIndex p pos f).run fs = (.error .fileNotFound, fs) := by
  unfold updateIndex
  rw [run_bind_err (run_readFile_none h)]

theorem run_updateIndex_bad {p : Path} {pos : Str → Nat} {f : V → Except PyErr V} {fs : FS} {t : Str} (h : fs.get p = some t)
    (hl : jsonLoad t = none) : (updateIndex p pos f).run fs = (.error .jsonDecode, fs) := by
  unfold updateIndex
  rw [run_bind_ok (run_readFile_some h), loads_none hl]
  rfl

theorem run_updateIndex_err {p : Path} {pos : Str → Nat} {f : V → Except PyErr V} {fs : FS} {t : Str} {v : V} {e : PyErr}
    (h : fs.get p = some t) (hl : jsonLoad t = some v) (hf : f v = .error e) : (updateIndex p pos f).run fs = (.error e, fs) := by
  unfold updateIndex
  rw [run_bind_ok (run_readFile_some h), loads_some hl, liftE_ok_bind, hf]
  rfl

theorem run_updateIndex_start {p : Path} {pos : Str → Nat} {f : V → Except PyErr V} {fs : FS} {t : Str} {v w : V}
    (h : fs.get p = some t) (hl : jsonLoad t = some v) (hf : f v = .ok w) (hw : w.Ser) (h0 : pos t = 0) :
    (updateIndex p pos f).run fs = (.ok true, fs.set p (dumpText w)) := by
  unfold updateIndex
  rw [run_bind_ok (run_readFile_some h), loads_some hl, liftE_ok_bind, hf, liftE_ok_bind, h0]
  exact run_dump_trunc h hw

theorem run_updateIndex_end {p : Path} {pos : Str → Nat} {f : V → Except PyErr V} {fs : FS} {t : Str} {v w : V}
    (h : fs.get p = some t) (hl : jsonLoad t = some v) (hf : f v = .ok w) (hw : w.Ser) (h0 : pos t = t.length) :
    (updateIndex p pos f).run fs = (.ok true, fs.set p (t ++ dumpText w)) := by
  unfold updateIndex
  rw [run_bind_ok (run_readFile_some h), loads_some hl, liftE_ok_bind, hf, liftE_ok_bind, h0,
    run_bind_ok (by rw [run_dumpTo h, jsonDump_ser _ hw]; rfl), run_bind_ok (run_truncate (FS.get_set_self _ _ _))]
  simp only [run_pure, FS.set_set, overlay_end]
  rw [List.take_of_length_le (by simp)]

theorem object_append {t : Str} {d : Dict V} {w : V} (h : jsonLoad t = some (.dict d)) (hw : w.Ser) :
    jsonLoad (t ++ dumpText w) = none := by
  rw [jsonLoad_object_append h]
  have hst := dumpText_startOK _ hw
  rw [hst.skip]
  obtain ⟨c, r, e, _⟩ := hst
  rw [e]; rfl

/-! ### Simulation -/

/-- Started on disks that are the same up to order, both programs end with related outcomes and such disks. -/
def Sim (g : GPath) {α : Type} (S : α → α → Prop) (p q : Prog α) : Prop :=
  ∀ fs fs', SameUpToOrder g fs fs' →
    RelE S (p.run fs).1 (q.run fs').1 ∧ SameUpToOrder g (p.run fs).2 (q.run fs').2

theorem Sim.bind {g : GPath} {α β : Type} {S : α → α → Prop} {T : β → β → Prop} {p q : Prog α} {f f' : α → Prog β}
    (h : Sim g S p q) (hf : ∀ a b, S a b → Sim g T (f a) (f' b)) : Sim g T (p >>= f) (q >>= f') := by
  intro fs fs' hs
  have := h fs fs' hs
  rw [run_bind, run_bind]
  cases h1 : p.run fs with
  | mk r fs1 =>
    cases h2 : q.run fs' with
    | mk r' fs2 =>
      rw [h1, h2] at this
      cases r <;> cases r' <;> simp only [RelE, false_and] at this ⊢
      · exact this
      · exact hf _ _ this.1 _ _ this.2

theorem Sim.tryCatch {g : GPath} {α : Type} {S : α → α → Prop} {p q : Prog α} {f f' : PyErr → Prog α}
    (h : Sim g S p q) (hf : ∀ e, Sim g S (f e) (f' e)) : Sim g S (p.tryCatch f) (q.tryCatch f') := by
  intro fs fs' hs
  have := h fs fs' hs
  rw [run_tryCatch, run_tryCatch]
  cases h1 : p.run fs with
  | mk r fs1 =>
    cases h2 : q.run fs' with
    | mk r' fs2 =>
      rw [h1, h2] at this
      cases r <;> cases r' <;> simp only [RelE, false_and] at this ⊢
      · rw [this.1]; exact hf _ _ _ this.2
      · exact this

theorem Sim.liftE {g : GPath} {α : Type} {S : α → α → Prop} {x y : Except PyErr α} (h : RelE S x y) :
    Sim g S (liftE x) (liftE y) := by
  intro fs fs' hs
  rw [run_liftE, run_liftE]
  exact ⟨h, hs⟩

theorem Sim.pure {g : GPath} {α : Type} {S : α → α → Prop} {a b : α} (h : S a b) : Sim g S (pure a) (pure b) :=
  fun _ _ hs => ⟨h, hs⟩

theorem Sim.raise {g : GPath} {α : Type} {S : α → α → Prop} (e : PyErr) : Sim g S (.raise e) (.raise e) :=
  fun _ _ hs => ⟨rfl, hs⟩

theorem relE_refl {α : Type} (x : Except PyErr α) : RelE Eq x x := by
  cases x <;> rfl

/-- A call on a file other than `p`. -/
def Op.away (p : Path) : Op → Prop
  | .read q | .openW q | .write q _ _ | .truncate q _ => q ≠ p
  | _ => False

theorem SameUpToOrder.set {g : GPath} {fs fs' : FS} (h : SameUpToOrder g fs fs') {p : Path} (hp : p ≠ g.idx) (s : Str) :
    SameUpToOrder g (fs.set p s) (fs'.set p s) where
  folders := h.folders
  dirs := h.dirs
  plain := h.plain
  files q hq := by
    by_cases e : p = q
    · subst e; rw [FS.get_set_self, FS.get_set_self]
    · rw [FS.get_set_ne e, FS.get_set_ne e, h.files q hq]
  idx := by rw [FS.get_set_ne hp, FS.get_set_ne hp]; exact h.idx

theorem SameUpToOrder.setIdx {g : GPath} {fs fs' : FS} (h : SameUpToOrder g fs fs') {s s' : Str}
    (hs : SameIndexFile (some s) (some s')) : SameUpToOrder g (fs.set g.idx s) (fs'.set g.idx s') where
  folders := h.folders
  dirs := h.dirs
  plain := h.plain
  files q hq := by
    rw [FS.get_set_ne (Ne.symm hq), FS.get_set_ne (Ne.symm hq), h.files q hq]
  idx := by rw [FS.get_set_self, FS.get_set_self]; exact hs

theorem exec_away {g : GPath} {fs fs' : FS} {op : Op} (h : SameUpToOrder g fs fs') (ho : op.away g.idx) :
    (exec op fs).1 = (exec op fs').1 ∧ SameUpToOrder g (exec op fs).2 (exec op fs').2 := by
  cases op <;> simp only [Op.away] at ho <;> simp only [exec, h.dirs, h.files _ ho]
  · cases fs'.get _ <;> exact ⟨rfl, h⟩
  · split
    · exact ⟨rfl, h.set ho _⟩
    · exact ⟨rfl, h⟩
  · cases fs'.get _
    · exact ⟨rfl, h⟩
    · exact ⟨rfl, h.set ho _⟩
  · cases fs'.get _
    · exact ⟨rfl, h⟩
    · exact ⟨rfl, h.set ho _⟩

theorem Sim.away {g : GPath} {α : Type} {p : Prog α} (h : p.AllOps (Op.away g.idx)) : Sim g Eq p p := by
  induction h with
  | ret a => exact .pure rfl
  | raise e => exact .raise e
  | act op k ho _ ih =>
    intro fs fs' hs
    obtain ⟨h1, h2⟩ := exec_away hs ho
    have := ih (exec op fs).1 _ _ h2
    simp only [Prog.run]
    rw [← h1]
    exact this

theorem Sim.update {g : GPath} {pos : Str → Nat} {f f' : V → Except PyErr V}
    (hf : ∀ v w, Reordered 2 v w → RelE (Reordered 2) (f v) (f' w))
    (hs : ∀ v w, v.Ser → f v = .ok w → w.Ser) (hs' : ∀ v w, v.Ser → f' v = .ok w → w.Ser)
    (hpos : (∀ t, pos t = 0) ∨ ((∀ t, pos t = t.length) ∧ (∀ v w, f v = .ok w → ∃ d, v = .dict d) ∧
      ∀ v w, f' v = .ok w → ∃ d, v = .dict d)) :
    Sim g Eq (updateIndex g.idx pos f) (updateIndex g.idx pos f') := by
  intro fs fs' h
  have hi := h.idx
  cases h1 : fs.get g.idx with
  | none =>
    cases h2 : fs'.get g.idx with
    | some t' => rw [h1, h2] at hi; exact hi.elim
    | none => rw [run_updateIndex_none h1, run_updateIndex_none h2]; exact ⟨rfl, h⟩
  | some t =>
    cases h2 : fs'.get g.idx with
    | none => rw [h1, h2] at hi; exact hi.elim
    | some t' =>
      rw [h1, h2] at hi
      rcases hi with ⟨h3, h4⟩ | ⟨v, w, h3, h4, h5⟩
      · rw [run_updateIndex_bad h1 h3, run_updateIndex_bad h2 h4]; exact ⟨rfl, h⟩
      · have := hf v w h5
        cases h6 : f v with
        | error e =>
          cases h7 : f' w with
          | ok x => rw [h6, h7] at this; exact this.elim
          | error e' =>
            rw [h6, h7] at this
            rw [run_updateIndex_err h1 h3 h6, run_updateIndex_err h2 h4 h7]
            exact ⟨this, h⟩
        | ok x =>
          cases h7 : f' w with
          | error e' => rw [h6, h7] at this; exact this.elim
          | ok y =>
            rw [h6, h7] at this
            have hx := hs v x (jsonLoad_ser h3) h6
            have hy := hs' w y (jsonLoad_ser h4) h7
            rcases hpos with hpos | ⟨hpos, hd, hd'⟩
            · rw [run_updateIndex_start h1 h3 h6 hx (hpos t), run_updateIndex_start h2 h4 h7 hy (hpos t')]
              exact ⟨rfl, h.setIdx (.inr ⟨x, y, jsonLoad_dump _ hx, jsonLoad_dump _ hy, this⟩)⟩
            · obtain ⟨d, rfl⟩ := hd v x h6
              obtain ⟨d', rfl⟩ := hd' w y h7
              rw [run_updateIndex_end h1 h3 h6 hx (hpos t), run_updateIndex_end h2 h4 h7 hy (hpos t')]
              exact ⟨rfl, h.setIdx (.inl ⟨object_append h3 hx, object_append h4 hy⟩)⟩

theorem sim_addSet {g : GPath} {o o' : SetOrd} {items : List Str} {name : Str} :
    Sim g Eq (addItemsSetToIndex o g.idx items name) (addItemsSetToIndex o' g.idx items name) := by
  rw [addItemsSet_eq, addItemsSet_eq]
  exact .update (fun _ _ => addSetVal_like) (fun _ _ => addSetVal_ser) (fun _ _ => addSetVal_ser) (.inl fun _ => rfl)

theorem addRelVal_dict {o : SetOrd} {items : List (Str × List V)} {v w : V} (h : addRelVal o items v = .ok w) : ∃ d, v = .dict d := by
  obtain ⟨a, _, h⟩ := bind_ok h
  obtain ⟨s, _, h⟩ := bind_ok h
  exact setItem_dict h

theorem sim_addRel {g : GPath} {o o' : SetOrd} {items : List (Str × List V)} (hn : ∀ it ∈ items, ∀ x ∈ it.2, x.Ser) :
    Sim g Eq (addItemsToNodeRelationshipsIndex o g.idx items) (addItemsToNodeRelationshipsIndex o' g.idx items) := by
  rw [addRel_eq, addRel_eq]
  refine .update (fun _ _ => addRelVal_like) (fun _ _ h => addRelVal_ser h hn) (fun _ _ h => addRelVal_ser h hn) ?_
  cases items with
  | nil => exact .inr ⟨fun _ => rfl, fun _ _ => addRelVal_dict, fun _ _ => addRelVal_dict⟩
  | cons x items => exact .inl fun _ => rfl

theorem sim_loadSet {g : GPath} {name : Str} : Sim g List.Perm (loadIndexSet g.idx name) (loadIndexSet g.idx name) := by
  intro fs fs' h
  have hro := run_readOnly (readOnly_loadSet g.idx name) fs
  have hro' := run_readOnly (readOnly_loadSet g.idx name) fs'
  refine ⟨?_, by rw [hro, hro']; exact h⟩
  have hi := h.idx
  unfold loadIndexSet
  rw [run_tryCatch, run_tryCatch]
  cases h1 : fs.get g.idx with
  | none =>
    cases h2 : fs'.get g.idx with
    | some t' => rw [h1, h2] at hi; exact hi.elim
    | none => rw [run_bind_err (run_readFile_none h1), run_bind_err (run_readFile_none h2)]; rfl
  | some t =>
    cases h2 : fs'.get g.idx with
    | none => rw [h1, h2] at hi; exact hi.elim
    | some t' =>
      rw [h1, h2] at hi
      rw [run_bind_ok (run_readFile_some h1), run_bind_ok (run_readFile_some h2)]
      rcases hi with ⟨h3, h4⟩ | ⟨v, w, h3, h4, h5⟩
      · rw [loads_none h3, loads_none h4]
        exact .refl _
      · rw [loads_some h3, loads_some h4, liftE_ok_bind, liftE_ok_bind]
        have h6 : RelE List.Perm ((getItem v name).bind pySet) ((getItem w name).bind pySet) :=
          (getItem_like h5 name).bind fun _ _ h => pySet_like h
        have e : ∀ (x : V) (fs : FS), (liftE (getItem x name) >>= fun v => liftE (pySet v)).run fs = ((getItem x name).bind pySet, fs) := by
          intro x fs
          cases getItem x name with
          | error e => rfl
          | ok a => rw [liftE_ok_bind, run_liftE]; rfl
        rw [e, e]
        cases h7 : (getItem v name).bind pySet <;> cases h8 : (getItem w name).bind pySet <;> rw [h7, h8] at h6 <;>
          simp only [RelE] at h6 ⊢
        · subst h6
          rename_i a
          by_cases hj : a = PyErr.jsonDecode
          · rw [if_pos hj]; exact .refl []
          · rw [if_neg hj]; exact rfl
        · exact h6

/-! ### MAKE, FIND, queries, sessions -/

/-- Processes that differ in the iteration order of sets, and perhaps in the time, only. -/
def SameBut (env env' : Env) : Prop := env.importTime = env'.importTime

theorem away_addItem {g : GPath} (h : g.db ≠ g.idx) (items : Dict V) : (addItemToDatabase g.db items).AllOps (Op.away g.idx) := by
  unfold addItemToDatabase dumpTo
  refine .bind (.readFile h) fun _ => .bind (.liftE _) fun _ => .bind (.liftE _) fun _ => .bind (.bind (.unitOp h) fun _ => ?_) fun _ => .ret _
  split
  · exact .ret _
  · exact .raise _

theorem away_counter {g : GPath} (h : g.wn ≠ g.idx) : (getCurrentWiggleNumber g.wn).AllOps (Op.away g.idx) := by
  unfold getCurrentWiggleNumber
  refine .bind (.readFile h) fun _ => ?_
  split
  · exact .raise _
  · split
    · exact .ret _
    · exact .raise _

theorem away_update {g : GPath} (h : g.wn ≠ g.idx) (n : Int) : (updateWiggleNumber g.wn n).AllOps (Op.away g.idx) :=
  .bind (.unitOp h) fun _ => .bind (.unitOp h) fun _ => .ret _

theorem sameBut_node {env env' : Env} (h : SameBut env env') (n : NodeData) : nodeVal env n = nodeVal env' n := by
  have hm : ∀ k, metaVal env k = metaVal env' k := fun k => by unfold metaVal; rw [h]
  have hr : relVal env = relVal env' := by funext r; unfold relVal; rw [hm]
  unfold nodeVal
  rw [hm, hr]

theorem relIndexes_ser (nodes : List NodeData) : ∀ it ∈ relIndexesToAdd nodes, ∀ x ∈ it.2, x.Ser := by
  intro it hit x hx
  have := mem_of_mem_dictOf hit
  obtain ⟨n, _, h⟩ := List.mem_filterMap.1 this
  split at h
  · cases h
    obtain ⟨r, _, rfl⟩ := List.mem_map.1 hx
    trivial
  · simp at h

theorem sim_make {g : GPath} {env env' : Env} (he : SameBut env env') (h1 : g.db ≠ g.idx) (h2 : g.wn ≠ g.idx)
    (pml : List ParsedMake) : Sim g Eq (make env pml g) (make env' pml g) := by
  unfold make
  refine (Sim.away (away_counter h2)).bind fun n n' hn => ?_
  subst hn
  refine (Sim.liftE (relE_refl _)).bind fun r r' hr => ?_
  subst hr
  refine (Sim.liftE (relE_refl _)).bind fun nodes nodes' hnodes => ?_
  subst hnodes
  refine Sim.bind (S := Eq) ?_ fun _ _ _ => Sim.bind (S := Eq) ?_ fun _ _ _ => (Sim.away (away_update h2 _)).bind fun _ _ _ => .pure rfl
  · unfold addNodesToGraph nodesToAdd
    simp only [sameBut_node he]
    exact (Sim.away (away_addItem h1 _)).bind fun _ _ _ => .pure rfl
  · unfold addIndexes
    exact (sim_addRel (relIndexes_ser nodes)).bind fun _ _ _ => sim_addSet.bind fun _ _ _ => sim_addSet.bind fun _ _ _ => .pure rfl

theorem sim_find {g : GPath} (pf : ParsedFind) (c : Option Criteria) : Sim g Eq (find pf g c) (find pf g c) := by
  unfold find findShortCircuit
  refine (Sim.liftE (relE_refl _)).bind fun f f' hf => ?_
  subst hf
  refine Sim.bind (S := Eq) (sim_loadSet.bind fun l l' hl => sim_loadSet.bind fun m m' hm => ?_) fun b b' hb => ?_
  · have e1 : nodeLabelIsInIndex f.labels l = nodeLabelIsInIndex f.labels l' := by
      unfold nodeLabelIsInIndex
      simp only [hl.mem_iff]
    have e2 : relationshipNameIsInIndex f.relNames m = relationshipNameIsInIndex f.relNames m' := by
      unfold relationshipNameIsInIndex
      simp only [hm.mem_iff]
    rw [e1, e2]
    repeat' (first | split | exact .pure rfl)
  · subst hb
    split <;> exact .pure rfl

theorem sim_query {g : GPath} {env env' : Env} (he : SameBut env env') (h1 : g.db ≠ g.idx) (h2 : g.wn ≠ g.idx) (q : Str) :
    Sim g Eq (query env q g) (query env' q g) := by
  unfold query
  simp only [Bool.and_false, Bool.false_eq_true, if_false]
  refine (Sim.liftE (relE_refl _)).bind fun p p' hp => ?_
  subst hp
  refine Sim.bind (S := Eq) ?_ fun _ _ _ => .pure rfl
  unfold executeQuery
  refine Sim.bind (S := Eq) ?_ fun _ _ _ => ?_
  · unfold executeMakes
    split
    · exact sim_make he h1 h2 _
    · exact .pure rfl
  · split
    · exact .raise _
    · refine (sim_find _ _).bind fun x x' hx => ?_
      subst hx
      refine Sim.bind (S := Eq) ?_ fun _ _ _ => .pure rfl
      unfold executeReport
      split
      · exact .pure rfl
      · exact .pure rfl

theorem sim_shell {g : GPath} {env env' : Env} (he : SameBut env env') (h1 : g.db ≠ g.idx) (h2 : g.wn ≠ g.idx) (inputs : List Str) :
    Sim g Eq (shellLoop env g inputs) (shellLoop env' g inputs) := by
  induction inputs with
  | nil => exact .pure rfl
  | cons q rest ih =>
    unfold shellLoop
    split
    · exact .pure rfl
    · split
      · exact ih.bind fun l l' hl => .pure (by rw [hl])
      · exact (Sim.tryCatch ((sim_query he h1 h2 q).bind fun _ _ _ => .pure rfl) fun e => .pure rfl).bind fun ev ev' hev =>
          ih.bind fun l l' hl => .pure (by rw [hl, hev])

theorem sameUpToOrder_refl (g : GPath) (fs : FS) : SameUpToOrder g fs fs where
  folders := rfl
  dirs := rfl
  plain := rfl
  files _ _ := rfl
  idx := by
    cases fs.get g.idx with
    | none => trivial
    | some t =>
      cases h : jsonLoad t with
      | none => exact .inl ⟨h, h⟩
      | some v => exact .inr ⟨v, v, h, h, reordered_refl 2 v⟩

end WG
