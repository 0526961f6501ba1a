/-
The records of the database are not looked at: two disks with the same numbers cannot be told apart.
-/
import Verif.Proofs.Screen
import Verif.Proofs.Durable
import Verif.Proofs.Concurrent

set_option linter.unusedSectionVars false

namespace WG

section
variable [PyRuntime]

/-- The relation that is kept: index and counter agree; the databases have the same numbers, or neither can be read. -/
structure AlikeDb (g : GPath) (a b : FS) : Prop where
  agree : Agree [g.idx, g.wn] a b
  db : (∃ d d', Stored a g.db d ∧ Stored b g.db d' ∧ ∀ k, k ∈ keys d ↔ k ∈ keys d') ∨ Unreadable a g.db ∧ Unreadable b g.db

/-- The program gives the same result on alike disks, and leaves alike disks. -/
def Blind {α : Type} (g : GPath) (p : Prog α) : Prop :=
  ∀ a b, AlikeDb g a b → (p.run a).1 = (p.run b).1 ∧ AlikeDb g (p.run a).2 (p.run b).2

theorem Blind.ret {α : Type} (g : GPath) (a : α) : Blind g (.ret a : Prog α) := fun _ _ h => ⟨rfl, h⟩

theorem Blind.raise {α : Type} (g : GPath) (e : PyErr) : Blind g (.raise e : Prog α) := fun _ _ h => ⟨rfl, h⟩

theorem Blind.liftE {α : Type} (g : GPath) (x : Except PyErr α) : Blind g (WG.liftE x) := by
  cases x
  · exact .raise _ _
  · exact .ret _ _

theorem Blind.bind {α β : Type} {g : GPath} {p : Prog α} {f : α → Prog β} (hp : Blind g p) (hf : ∀ a, Blind g (f a)) : Blind g (p >>= f) := by
  intro a b h
  obtain ⟨h1, h2⟩ := hp a b h
  rw [run_bind, run_bind]
  cases ha : p.run a with
  | mk r a' =>
    cases hb : p.run b with
    | mk r' b' =>
      rw [ha, hb] at h1 h2
      simp only at h1 h2
      subst h1
      cases r with
      | ok x => exact hf x _ _ h2
      | error e => exact ⟨rfl, h2⟩

theorem Blind.within {α : Type} {g : GPath} {p : Prog α} (h1 : g.db ≠ g.idx) (h2 : g.db ≠ g.wn) (hp : p.AllOps (Op.within [g.idx, g.wn])) :
    Blind g p := by
  intro a b h
  obtain ⟨e, h'⟩ := run_agree hp h.agree
  have hf : ∀ c : FS, (p.run c).2.get g.db = c.get g.db := fun c => run_only (hp.mono fun _ => Op.within_only) (by simp [h1, h2]) c
  refine ⟨e, h', ?_⟩
  rcases h.db with ⟨d, d', ⟨ha, t, ha1, ha2⟩, ⟨hb, t', hb1, hb2⟩, hk⟩ | ⟨⟨t, ht, hl⟩, t', ht', hl'⟩
  · exact .inl ⟨d, d', ⟨by rw [hf, ha], t, by rw [hf, ha1], ha2⟩, ⟨by rw [hf, hb], t', by rw [hf, hb1], hb2⟩, hk⟩
  · exact .inr ⟨⟨t, by rw [hf, ht], hl⟩, t', by rw [hf, ht'], hl'⟩

theorem AlikeDb.set {g : GPath} {a b : FS} (h1 : g.db ≠ g.idx) (h2 : g.db ≠ g.wn) (h : Agree [g.idx, g.wn] a b) (s t : Str) :
    Agree [g.idx, g.wn] (a.set g.db s) (b.set g.db t) := by
  refine ⟨h.1, fun p hp => ?_⟩
  have hne : g.db ≠ p := by
    simp only [List.mem_cons, List.not_mem_nil, or_false] at hp
    rcases hp with rfl | rfl
    · exact h1
    · exact h2
  rw [FS.get_set_ne hne, FS.get_set_ne hne]
  exact h.2 p hp

theorem Blind.add {g : GPath} (h1 : g.db ≠ g.idx) (h2 : g.db ≠ g.wn) {items : Dict V} (hw : Val.WFDict items) :
    Blind g (addItemToDatabase g.db items) := by
  intro a b h
  rcases h.db with ⟨d, d', ha, hb, hk⟩ | ⟨⟨t, ht, hl⟩, t', ht', hl'⟩
  · have hfi : Fresh d items ↔ Fresh d' items := by simp only [Fresh, hk]
    by_cases hf : Fresh d items
    · have hf' := hfi.1 hf
      by_cases hs : Val.SerDict items
      · rw [run_add_ok ha.text ha.ser hf hs, run_add_ok hb.text hb.ser hf' hs]
        refine ⟨rfl, AlikeDb.set h1 h2 h.agree _ _, .inl ⟨d ++ items, d' ++ items, ?_, ?_, fun k => ?_⟩⟩
        · exact ⟨FS.get_set_self _ _ _, _, FS.get_set_self _ _ _, jsonLoad_dump _ (ser_append ha.ser hf hs)⟩
        · exact ⟨FS.get_set_self _ _ _, _, FS.get_set_self _ _ _, jsonLoad_dump _ (ser_append hb.ser hf' hs)⟩
        · have := hk k
          simp only [keys, List.map_append, List.mem_append] at this ⊢
          rw [this]
      · obtain ⟨t, e1, e2⟩ := run_add_opq ha.text ha.ser hf hw hs
        obtain ⟨t', e1', e2'⟩ := run_add_opq hb.text hb.ser hf' hw hs
        rw [e2, e2']
        exact ⟨rfl, AlikeDb.set h1 h2 h.agree _ _, .inr ⟨⟨t, FS.get_set_self _ _ _, e1⟩, t', FS.get_set_self _ _ _, e1'⟩⟩
    · rw [run_add_collision ha.text (jsonLoad_dump _ ha.ser) hf, run_add_collision hb.text (jsonLoad_dump _ hb.ser) (mt hfi.2 hf)]
      exact ⟨rfl, h⟩
  · rw [run_add_bad ht hl, run_add_bad ht' hl']
    exact ⟨rfl, h⟩

theorem blind_make {g : GPath} (h1 : g.db ≠ g.idx) (h2 : g.db ≠ g.wn) (env : Env) (pml : List ParsedMake) : Blind g (make env pml g) := by
  rw [make_eq]
  refine .bind (.within h1 h2 ((within_getCounter _).mono fun _ => Op.within_mono (by simp))) fun n => ?_
  by_cases h : MakeOK pml
  · rw [afterCounter_ok h, commit_eq]
    exact .bind (.add h1 h2 (dbBatch_wf ..)) fun _ =>
      .bind (.within h1 h2 ((within_commitIndexes ..).mono fun _ => Op.within_mono (by simp))) fun _ =>
      .bind (.within h1 h2 ((within_updateCounter ..).mono fun _ => Op.within_mono (by simp))) fun _ => .ret _ _
  · obtain ⟨e, he⟩ := afterCounter_bad (env := env) (g := g) (n := n) h
    rw [he]; exact .raise _ _

theorem blind_makes {g : GPath} (h1 : g.db ≠ g.idx) (h2 : g.db ≠ g.wn) (env : Env) (m : Option (List ParsedMake)) :
    Blind g (executeMakes env g m) := by
  unfold executeMakes
  split
  · exact blind_make h1 h2 env _
  · exact .ret _ _

theorem blind_find {g : GPath} (h1 : g.db ≠ g.idx) (h2 : g.db ≠ g.wn) (pf : ParsedFind) (c : Option Criteria) : Blind g (find pf g c) :=
  .within h1 h2 ((within_find ..).mono fun _ => Op.within_mono (by simp))

theorem blind_query {g : GPath} (h1 : g.db ≠ g.idx) (h2 : g.db ≠ g.wn) (env : Env) (q : Str) : Blind g (query env q g) := by
  unfold query
  split
  · exact .raise _ _
  · refine .bind (.liftE _ _) fun p => .bind ?_ fun _ => .ret _ _
    unfold executeQuery
    refine .bind (blind_makes h1 h2 env _) fun _ => ?_
    split
    · exact .raise _ _
    · refine .bind (blind_find h1 h2 _ _) fun _ => .bind ?_ fun _ => .ret _ _
      unfold executeReport
      split
      · exact .ret _ _
      · exact .ret _ _

theorem query_shows_alike {g : GPath} (h1 : g.db ≠ g.idx) (h2 : g.db ≠ g.wn) (env : Env) (q : Str) {a b : FS} (h : AlikeDb g a b) :
    (queryS env q g).shows a = (queryS env q g).shows b := by
  rw [query_shows_eq, query_shows_eq]
  cases parseQueryString q with
  | error e => rfl
  | ok p =>
    simp only
    cases p.find with
    | none => rfl
    | some f =>
      simp only
      obtain ⟨e1, e2⟩ := blind_makes h1 h2 env p.make a b h
      cases ha : (executeMakes env g p.make).run a with
      | mk r a' =>
        cases hb : (executeMakes env g p.make).run b with
        | mk r' b' =>
          rw [ha, hb] at e1 e2
          simp only at e1 e2
          subst e1
          cases r with
          | error e => rfl
          | ok x =>
            simp only
            rw [find_shows, find_shows, (blind_find h1 h2 f none a' b' e2).1]

/-- Two alike disks show the same in every session, and stay alike. -/
theorem session_alike {g : GPath} (h1 : g.db ≠ g.idx) (h2 : g.db ≠ g.wn) (env : Env) (inputs : List Str) {a b : FS} (h : AlikeDb g a b) :
    (shellLoopS env g inputs).shows a = (shellLoopS env g inputs).shows b := by
  induction inputs generalizing a b with
  | nil => rfl
  | cons q rest ih =>
    by_cases hq : q = c!"q"
    · subst hq
      rfl
    · by_cases hh : AsksHelp q
      · rw [shell_shows_help env g q rest a hq hh, shell_shows_help env g q rest b hq hh, ih h]
      · obtain ⟨e1, e2⟩ := blind_query h1 h2 env q a b h
        rw [shell_shows env g q rest a hq hh, shell_shows env g q rest b hq hh, query_shows_alike h1 h2 env q h, e1, ih e2]

end

end WG
