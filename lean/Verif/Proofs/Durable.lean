/-
Crash states of queries, sessions and runs, as far as the database file is concerned.
-/
import Verif.Spec.Durable
import Verif.Proofs.World
import Verif.Props.History

set_option linter.unusedSectionVars false
set_option linter.unusedSimpArgs false

namespace WG

/-! ### Programs -/

theorem crash_bind_frame {α β : Type} {tear : Path → Prop} {p : Prog α} {f : α → Prog β} {ps : List Path} {q : Path}
    (hf : ∀ a, (f a).AllOps (Op.only ps)) (hq : q ∉ ps) {fs fs' : FS} (h : CrashAt tear (p >>= f) fs fs') :
    CrashAt tear p fs fs' ∨ fs'.get q = (p.run fs).2.get q := by
  rcases crash_bind h with h | ⟨a, fs1, h1, h⟩
  · exact .inl h
  · right
    rw [crash_frame (hf a) hq h, h1]

theorem run_bind_frame {α β : Type} {p : Prog α} {f : α → Prog β} {ps : List Path} {q : Path}
    (hf : ∀ a, (f a).AllOps (Op.only ps)) (hq : q ∉ ps) (fs : FS) : ((p >>= f).run fs).2.get q = (p.run fs).2.get q := by
  rw [run_bind]
  cases h : p.run fs with
  | mk r fs1 =>
    cases r with
    | error e => rfl
    | ok a => exact run_only (hf a) hq fs1

variable [PyRuntime]

theorem crash_addItem_once {tear : Path → Prop} {p : Path} {items : Dict V} {fs fs' : FS} (ht : ¬ tear p)
    (h : CrashAt tear (addItemToDatabase p items) fs fs') :
    fs' = fs ∨ fs' = ((addItemToDatabase p items).run fs).2 := by
  refine crash_addItem_atomic ?_
  have key : ∀ {α : Type} {q : Prog α} {fs fs' : FS}, q.AllOps (Op.only [p]) → CrashAt tear q fs fs' →
      CrashAt (fun _ => False) q fs fs' := by
    intro α q fs fs' ho hc
    induction hc with
    | here => exact .here _ _
    | torn r pos s n k fs hr =>
      cases ho with
      | act _ _ h1 _ =>
        have := h1.2 r rfl
        simp only [List.mem_singleton] at this
        subst this
        exact absurd hr ht
    | step op k fs fs' _ ih =>
      cases ho with
      | act _ _ _ h2 => exact .step op k fs fs' (ih (h2 _))
  exact key (only_addItem p items) h

/-! ### MAKE and queries -/

/-- However far a MAKE gets, the database file is the one before it or the one after it. -/
theorem crash_make_db {tear : Path → Prop} {env : Env} {ms : List ParsedMake} {g : GPath} {fs fs' : FS} (ht : ¬ tear g.db)
    (h1 : g.db ≠ g.idx) (h2 : g.db ≠ g.wn) (h : CrashAt tear (make env ms g) fs fs') :
    fs'.get g.db = fs.get g.db ∨ fs'.get g.db = ((make env ms g).run fs).2.get g.db := by
  rcases crash_make h with rfl | ⟨n, hn, hok, hc⟩
  · exact .inl rfl
  rw [run_make_counter hn, afterCounter_ok hok]
  rw [commit_eq] at hc ⊢
  have hf : ∀ a : Bool, (commitIndexes env n (patsOf ms) g >>= fun _ => updateWiggleNumber g.wn (n + totalSize (patsOf ms)) >>= fun _ =>
      (pure true : Prog Bool)).AllOps (Op.only [g.idx, g.wn]) := fun _ =>
    .bind ((only_commitIndexes ..).mono fun _ => Op.only_mono (by simp)) fun _ =>
      .bind ((only_updateCounter ..).mono fun _ => Op.only_mono (by simp)) fun _ => .ret _
  have hq : g.db ∉ [g.idx, g.wn] := by simp [h1, h2]
  rw [run_bind_frame hf hq]
  rcases crash_bind_frame hf hq hc with hc | hc
  · rcases crash_addItem_once ht hc with rfl | rfl
    · exact .inl rfl
    · exact .inr rfl
  · exact .inr hc

/-- Crash states of a query are those of its MAKE. -/
theorem crash_query {tear : Path → Prop} {env : Env} {q : Str} {g : GPath} {fs fs' : FS}
    (h : CrashAt tear (query env q g) fs fs') : fs' = fs ∨ ∃ ms, Makes q ms ∧ CrashAt tear (make env ms g) fs fs' := by
  unfold query at h
  simp only [Bool.and_false, Bool.false_eq_true, if_false] at h
  cases hp : parseQueryString q with
  | error e => rw [hp] at h; exact .inl (crash_raise h)
  | ok p =>
    rw [hp] at h
    change CrashAt tear (executeQuery env p g >>= fun _ => pure true) fs fs' at h
    have hro : ∀ a : Bool, (match p.find with
        | none => (.raise .exception : Prog Bool)
        | some f => do
          let found ← find f g none
          let _ ← executeReport found g p.report
          pure true).AllOps fun o => o.readOnly = true := by
      intro _
      split
      · exact .raise _
      · refine .bind (readOnly_find _ _ _) fun _ => .bind ?_ fun _ => .ret _
        unfold executeReport
        split <;> exact .ret _
    have hx : CrashAt tear (executeMakes env g p.make) fs fs' := by
      have base : ∀ fs', CrashAt tear (executeQuery env p g) fs fs' → CrashAt tear (executeMakes env g p.make) fs fs' := by
        intro fs' h
        unfold executeQuery at h
        rcases crash_bind h with h | ⟨b, fs1, h1, h⟩
        · exact h
        · have := crash_readOnly (hro b) h
          subst this
          have := crash_run tear (executeMakes env g p.make) fs
          rw [h1] at this
          exact this
      rcases crash_bind h with h | ⟨b, fs1, h1, h⟩
      · exact base _ h
      · have := crash_pure h
        subst this
        refine base _ ?_
        have := crash_run tear (executeQuery env p g) fs
        rw [h1] at this
        exact this
    unfold executeMakes at hx
    split at hx
    · next m ms e => exact .inr ⟨m :: ms, ⟨by simp, p, hp, e⟩, hx⟩
    · exact .inl (crash_pure hx)

/-- However far a query gets, the database file is the one before it or the one after it. -/
theorem crash_query_db {tear : Path → Prop} {env : Env} {q : Str} {g : GPath} {fs fs' : FS} (ht : ¬ tear g.db)
    (h1 : g.db ≠ g.idx) (h2 : g.db ≠ g.wn) (h : CrashAt tear (query env q g) fs fs') :
    fs'.get g.db = fs.get g.db ∨ fs'.get g.db = ((query env q g).run fs).2.get g.db := by
  rcases crash_query h with rfl | ⟨ms, hm, hc⟩
  · exact .inl rfl
  rcases query_cases env q g fs with ⟨ms', hm', e, -⟩ | ⟨hn, -⟩
  · have := makes_unique hm hm'
    subst this
    rw [e]
    exact crash_make_db ht h1 h2 hc
  · exact absurd hm (hn ms)

/-! ### Sessions -/

theorem query_caught (env : Env) (q : Str) (g : GPath) (fs : FS) :
    ∃ ev, (Prog.tryCatch (do let _ ← query env q g; pure Event.done) fun e => pure (.failed e)).run fs =
      (.ok ev, ((query env q g).run fs).2) := by
  rw [run_tryCatch, run_bind]
  cases (query env q g).run fs with
  | mk r fs1 => cases r <;> exact ⟨_, rfl⟩

theorem session_cons {env : Env} {g : GPath} {q : Str} {rest : List Str} (h1 : q ≠ c!"q") (fs : FS) :
    ((shellLoop env g (q :: rest)).run fs).2 =
      ((shellLoop env g rest).run (if isSubstr c!"help" (lower q) = true then fs else ((query env q g).run fs).2)).2 := by
  rw [shellLoop, if_neg h1]
  by_cases hh : isSubstr c!"help" (lower q) = true
  · rw [if_pos hh, if_pos hh, run_bind]
    cases (shellLoop env g rest).run fs with
    | mk r fs1 => cases r <;> rfl
  · rw [if_neg hh, if_neg hh]
    obtain ⟨ev, he⟩ := query_caught env q g fs
    rw [run_bind_ok he, run_bind]
    cases (shellLoop env g rest).run ((query env q g).run fs).2 with
    | mk r fs1 => cases r <;> rfl

theorem crash_caught {tear : Path → Prop} {env : Env} {q : Str} {g : GPath} {fs fs' : FS}
    (h : CrashAt tear (Prog.tryCatch (do let _ ← query env q g; pure Event.done) fun e => pure (.failed e)) fs fs') :
    CrashAt tear (query env q g) fs fs' := by
  have last := crash_run tear (query env q g) fs
  rcases crash_tryCatch h with h | ⟨e, fs1, h1, h⟩
  · rcases crash_bind h with h | ⟨_, fs1, h1, h⟩
    · exact h
    · have := crash_pure h
      subst this
      rw [h1] at last; exact last
  · have := crash_pure h
    subst this
    rw [run_bind] at h1
    cases hr : (query env q g).run fs with
    | mk r fs2 =>
      rw [hr] at h1 last
      cases r with
      | error e => simp at h1; rw [← h1.2]; exact last
      | ok b => simp [pure, Prog.run] at h1

theorem crash_session_cons {tear : Path → Prop} {env : Env} {g : GPath} {q : Str} {rest : List Str} {fs fs' : FS}
    (h : CrashAt tear (shellLoop env g (q :: rest)) fs fs') :
    fs' = fs ∨ q ≠ c!"q" ∧ (CrashAt tear (query env q g) fs fs' ∧ ¬ isSubstr c!"help" (lower q) = true ∨
      CrashAt tear (shellLoop env g rest) (if isSubstr c!"help" (lower q) = true then fs else ((query env q g).run fs).2) fs') := by
  rw [shellLoop] at h
  split at h
  · exact .inl (crash_pure h)
  next h1 =>
  refine .inr ⟨h1, ?_⟩
  by_cases hh : isSubstr c!"help" (lower q) = true
  · rw [if_pos hh] at h
    rw [if_pos hh]
    right
    rcases crash_bind h with h | ⟨_, fs1, h2, h⟩
    · exact h
    · have := crash_pure h
      subst this
      have := crash_run tear (shellLoop env g rest) fs
      rw [h2] at this; exact this
  · rw [if_neg hh] at h
    rw [if_neg hh]
    rcases crash_bind h with h | ⟨_, fs1, h2, h⟩
    · exact .inl ⟨crash_caught h, hh⟩
    · right
      obtain ⟨ev, he⟩ := query_caught env q g fs
      rw [he] at h2
      simp only [Prod.mk.injEq] at h2
      obtain ⟨-, rfl⟩ := h2
      rcases crash_bind h with h | ⟨_, fs2, h3, h⟩
      · exact h
      · have := crash_pure h
        subst this
        have := crash_run tear (shellLoop env g rest) ((query env q g).run fs).2
        rw [h3] at this; exact this

/-- However far a session gets, the database file is the one after some of its first texts. -/
theorem crash_session_db {tear : Path → Prop} {env : Env} {g : GPath} {inputs : List Str} {fs fs' : FS} (ht : ¬ tear g.db)
    (h1 : g.db ≠ g.idx) (h2 : g.db ≠ g.wn) (h : CrashAt tear (shellLoop env g inputs) fs fs') :
    ∃ k, k ≤ inputs.length ∧ fs'.get g.db = ((shellLoop env g (inputs.take k)).run fs).2.get g.db := by
  induction inputs generalizing fs with
  | nil => exact ⟨0, by simp, by rw [crash_pure h]; rfl⟩
  | cons q rest ih =>
    rcases crash_session_cons h with rfl | ⟨hq, ⟨h, hh⟩ | h⟩
    · exact ⟨0, by simp, rfl⟩
    · rcases crash_query_db ht h1 h2 h with e | e
      · exact ⟨0, by simp, e⟩
      · refine ⟨1, by simp, ?_⟩
        rw [List.take_succ_cons, List.take_zero, session_cons hq, if_neg hh, e]
        rfl
    · obtain ⟨k, hk, e⟩ := ih h
      exact ⟨k + 1, by simpa using hk, by rw [List.take_succ_cons, session_cons hq, e]⟩

/-! ### Records are only added -/

/-- Records may have been added behind the old ones. -/
def Grew (fs fs' : FS) (p : Path) : Prop :=
  ∀ d, Stored fs p d → ∃ new, Stored fs' p (d ++ new)

theorem Grew.same {fs fs' : FS} {p : Path} (h : fs'.get p = fs.get p) : Grew fs fs' p := by
  intro d hd
  obtain ⟨t, h1, h2⟩ := hd.load
  exact ⟨[], by rw [List.append_nil]; exact ⟨by rw [h, hd.text], t, by rw [h, h1], h2⟩⟩

theorem Grew.of {fs fs1 fs' : FS} {p : Path} (h : Grew fs fs1 p) (e : fs'.get p = fs1.get p) : Grew fs fs' p := by
  intro d hd
  obtain ⟨new, hn⟩ := h d hd
  obtain ⟨t, h1, h2⟩ := hn.load
  exact ⟨new, by rw [e, hn.text], t, by rw [e, h1], h2⟩

theorem Grew.trans {fs fs1 fs' : FS} {p : Path} (h : Grew fs fs1 p) (h' : Grew fs1 fs' p) : Grew fs fs' p := by
  intro d hd
  obtain ⟨new, hn⟩ := h d hd
  obtain ⟨new', hn'⟩ := h' _ hn
  exact ⟨new ++ new', by rw [← List.append_assoc]; exact hn'⟩

theorem Stored.ser {fs : FS} {p : Path} {d : Dict V} (h : Stored fs p d) : (Val.dict d).Ser := by
  obtain ⟨t, -, h2⟩ := h.load
  exact jsonLoad_ser h2

theorem query_grows {env : Env} {q : Str} {g : GPath} {fs : FS} (h1 : g.db ≠ g.idx) (h2 : g.db ≠ g.wn) (hj : JsonOnly q) :
    Grew fs ((query env q g).run fs).2 g.db := by
  rcases query_cases env q g fs with ⟨ms, hm, e, -⟩ | ⟨-, e⟩
  · rw [e]
    rcases counter_cases g.wn fs with ⟨n, hn⟩ | ⟨e', hn⟩
    · rw [run_make_counter hn]
      by_cases hok : MakeOK ms
      · rw [afterCounter_ok hok, commit_eq]
        have hf : ∀ a : Bool, (commitIndexes env n (patsOf ms) g >>= fun _ => updateWiggleNumber g.wn (n + totalSize (patsOf ms)) >>= fun _ =>
            (pure true : Prog Bool)).AllOps (Op.only [g.idx, g.wn]) := fun _ =>
          .bind ((only_commitIndexes ..).mono fun _ => Op.only_mono (by simp)) fun _ =>
            .bind ((only_updateCounter ..).mono fun _ => Op.only_mono (by simp)) fun _ => .ret _
        refine Grew.of (fs1 := ((addItemToDatabase g.db (dbBatch env n (patsOf ms))).run fs).2) ?_
          (run_bind_frame hf (by simp [h1, h2]) fs)
        intro d hd
        have hser := (dbBatch_ser (env := env) (b := n) hok.props hok.shape).2 (hj ms hm hok)
        by_cases hfr : Fresh d (dbBatch env n (patsOf ms))
        · rw [run_add_ok hd.text hd.ser hfr hser]
          exact ⟨_, FS.get_set_self _ _ _, _, FS.get_set_self _ _ _, jsonLoad_dump _ (ser_append hd.ser hfr hser)⟩
        · rw [run_add_collision hd.text (jsonLoad_dump _ hd.ser) hfr]
          exact ⟨[], by rw [List.append_nil]; exact hd⟩
      · obtain ⟨e', he⟩ := afterCounter_bad (env := env) (g := g) (n := n) hok
        rw [he]
        exact .same rfl
    · rw [run_make_noCounter hn]
      exact .same rfl
  · rw [e]
    exact .same rfl

theorem session_grows {env : Env} {g : GPath} {inputs : List Str} {fs : FS} (h1 : g.db ≠ g.idx) (h2 : g.db ≠ g.wn)
    (hj : ∀ q ∈ inputs, JsonOnly q) : Grew fs ((shellLoop env g inputs).run fs).2 g.db := by
  induction inputs generalizing fs with
  | nil => exact .same rfl
  | cons q rest ih =>
    by_cases hq : q = c!"q"
    · rw [shellLoop, if_pos hq]
      exact .same rfl
    · rw [session_cons hq]
      refine Grew.trans ?_ (ih fun q hm => hj q (by simp [hm]))
      split
      · exact .same rfl
      · exact query_grows h1 h2 (hj q (by simp))

theorem crash_session_grows {tear : Path → Prop} {env : Env} {g : GPath} {inputs : List Str} {fs fs' : FS} (ht : ¬ tear g.db)
    (h1 : g.db ≠ g.idx) (h2 : g.db ≠ g.wn) (hj : ∀ q ∈ inputs, JsonOnly q) (h : CrashAt tear (shellLoop env g inputs) fs fs') :
    Grew fs fs' g.db := by
  obtain ⟨k, -, e⟩ := crash_session_db ht h1 h2 h
  exact (session_grows h1 h2 fun q hm => hj q (List.mem_of_mem_take hm)).of e

/-! ### Selection -/

theorem crash_createNewDbms {tear : Path → Prop} {folder : Str} {inputs : List Str} {fs fs' : FS}
    (h : CrashAt tear (createNewDbms folder inputs) fs fs') : KeepsFiles fs fs' := by
  induction inputs generalizing fs with
  | nil => rw [crash_ret h]; exact .refl _
  | cons x inputs ih =>
    rw [createNewDbms] at h
    have body : ∀ fs', CrashAt tear (do let g ← getNewGdbmsFilePaths x folder; pure (some (g, inputs))) fs fs' → KeepsFiles fs fs' := by
      intro fs' h
      rcases crash_bind h with h | ⟨_, fs1, h1, h⟩
      · exact crash_create h
      · have := crash_pure h
        subst this
        have := crash_create (crash_run tear (getNewGdbmsFilePaths x folder) fs)
        rw [h1] at this; exact this
    rcases crash_tryCatch h with h | ⟨e, fs1, h1, h⟩
    · exact body _ h
    · have hk : KeepsFiles fs fs1 := by
        have := body _ (crash_run tear _ fs)
        rw [h1] at this; exact this
      split at h
      · exact hk.trans (ih h)
      · rw [crash_raise h]; exact hk

theorem readOnly_menu (folder : Str) : (getAndDisplayAvailableDbms folder).AllOps fun o => o.readOnly = true := by
  unfold getAndDisplayAvailableDbms listExistingDbms
  refine .bind (.act _ _ rfl fun r => ?_) fun l => ?_
  · cases r <;> first | exact .ret _ | exact .raise _
  · split <;> exact .ret _

theorem readOnly_files (folder name : Str) : (getExistingFiles folder name).AllOps fun o => o.readOnly = true := by
  have one : ∀ p, (getExistingFile p).AllOps fun o => o.readOnly = true := by
    intro p
    unfold getExistingFile
    refine .bind (.flagOp rfl) fun b => ?_
    split
    · exact .raise _
    · exact .ret _
  exact .bind (one _) fun _ => .bind (one _) fun _ => .bind (one _) fun _ => .ret _

theorem crash_getExisting {tear : Path → Prop} {folder : Str} {inputs : List Str} {fs fs' : FS}
    (h : CrashAt tear (getExistingGdbms folder inputs) fs fs') : KeepsFiles fs fs' := by
  induction inputs generalizing fs with
  | nil =>
    rw [getExistingGdbms] at h
    rcases crash_bind h with h | ⟨m, fs1, h1, h'⟩
    · rw [crash_readOnly (readOnly_menu _) h]; exact .refl _
    clear h
    rename CrashAt _ _ _ _ => h
    have := run_readOnly (readOnly_menu DBMS_FOLDER) fs
    rw [h1] at this
    simp only at this
    subst this
    split at h
    · exact crash_createNewDbms h
    · exact crash_createNewDbms h
    · rw [crash_pure h]; exact .refl _
  | cons x inputs ih =>
    rw [getExistingGdbms] at h
    rcases crash_bind h with h | ⟨m, fs1, h1, h'⟩
    · rw [crash_readOnly (readOnly_menu _) h]; exact .refl _
    clear h
    rename CrashAt _ _ _ _ => h
    have := run_readOnly (readOnly_menu DBMS_FOLDER) fs
    rw [h1] at this
    simp only at this
    subst this
    split at h
    · exact crash_createNewDbms h
    · exact crash_createNewDbms h
    · split at h
      · exact ih h
      · next name _ =>
        have hro : (do let g ← getExistingFiles folder name; pure (some (g, inputs))).AllOps fun o => o.readOnly = true :=
          .bind (readOnly_files _ _) fun _ => .ret _
        rcases crash_tryCatch h with h | ⟨e, fs2, h2, h'⟩
        · rw [crash_readOnly hro h]; exact .refl _
        · have := run_readOnly hro fs1
          rw [h2] at this
          simp only at this
          subst this
          split at h'
          · exact ih h'
          · rw [crash_raise h']; exact .refl _

theorem crash_select {tear : Path → Prop} {inputs : List Str} {fs fs' : FS}
    (h : CrashAt tear (selectGdbms inputs) fs fs') : KeepsFiles fs fs' := by
  cases inputs with
  | nil => rw [crash_pure h]; exact .refl _
  | cons c inputs =>
    rw [selectGdbms] at h
    split at h
    · exact crash_getExisting h
    · exact crash_createNewDbms h

/-- All results that a program may return. -/
inductive Returns {α : Type} (P : α → Prop) : Prog α → Prop where
  | ret (a : α) (h : P a) : Returns P (.ret a)
  | raise (e : PyErr) : Returns P (.raise e)
  | act (op : Op) (k : Resp → Prog α) (h : ∀ r, Returns P (k r)) : Returns P (.act op k)

theorem Returns.run {α : Type} {P : α → Prop} {p : Prog α} (h : Returns P p) {fs fs' : FS} {a : α}
    (hr : p.run fs = (.ok a, fs')) : P a := by
  induction h generalizing fs with
  | ret b hb => simp at hr; rw [← hr.1]; exact hb
  | raise e => simp at hr
  | act op k _ ih => exact ih _ hr

theorem Returns.any {α : Type} (p : Prog α) : Returns (fun _ => True) p := by
  induction p with
  | ret a => exact .ret a trivial
  | raise e => exact .raise e
  | act op k ih => exact .act op k ih

theorem Returns.bind {α β : Type} {P : α → Prop} {Q : β → Prop} {p : Prog α} {f : α → Prog β} (h : Returns P p)
    (hf : ∀ a, P a → Returns Q (f a)) : Returns Q (p >>= f) := by
  induction h with
  | ret a ha => exact hf a ha
  | raise e => exact .raise e
  | act op k _ ih => exact .act op _ ih

theorem Returns.tryCatch {α : Type} {P : α → Prop} {p : Prog α} {f : PyErr → Prog α} (h : Returns P p)
    (hf : ∀ e, Returns P (f e)) : Returns P (p.tryCatch f) := by
  induction h with
  | ret a ha => exact .ret a ha
  | raise e => exact hf e
  | act op k _ ih => exact .act op _ ih

/-- The selected GDBMS is one of the default folder, and the texts left are the last ones. -/
def Selected (inputs : List Str) (r : Option (GPath × List Str)) : Prop :=
  ∀ g rest, r = some (g, rest) → (∃ name, g = gdbmsPath DBMS_FOLDER name) ∧ ∃ used, inputs = used ++ rest

theorem Selected.cons {x : Str} {inputs : List Str} {r : Option (GPath × List Str)} (h : Selected inputs r) :
    Selected (x :: inputs) r := by
  intro g rest e
  obtain ⟨h1, u, rfl⟩ := h g rest e
  exact ⟨h1, x :: u, rfl⟩

theorem Returns.mono {α : Type} {P Q : α → Prop} {p : Prog α} (h : Returns P p) (hPQ : ∀ a, P a → Q a) : Returns Q p := by
  induction h with
  | ret a ha => exact .ret a (hPQ a ha)
  | raise e => exact .raise e
  | act op k _ ih => exact .act op k ih

theorem returns_file (p : Path) (text : Str) : Returns (· = p) (createNewFile p text) := by
  unfold createNewFile
  refine .bind (.any _) fun _ _ => .bind (.any _) fun b _ => ?_
  split
  · exact .raise _
  · exact .bind (.any _) fun _ _ => .bind (.any _) fun _ _ => .bind (.any _) fun _ _ => .ret _ rfl

theorem returns_new (inputs : List Str) : Returns (Selected inputs) (createNewDbms DBMS_FOLDER inputs) := by
  induction inputs with
  | nil => exact .ret _ (by intro _ _ e; cases e)
  | cons x inputs ih =>
    rw [createNewDbms]
    refine .tryCatch (.bind (P := (· = gdbmsPath DBMS_FOLDER x)) ?_ fun g hg => .ret _ ?_) fun e => ?_
    · refine .bind (returns_file _ _) fun a ha => .bind (returns_file _ _) fun b hb => .bind (returns_file _ _) fun c hc => .ret _ ?_
      rw [ha, hb, hc]; rfl
    · intro g' rest e
      cases e
      exact ⟨⟨x, hg⟩, [x], rfl⟩
    · split
      · exact ih.mono fun _ h => h.cons
      · exact .raise _

theorem returns_existing (inputs : List Str) : Returns (Selected inputs) (getExistingGdbms DBMS_FOLDER inputs) := by
  induction inputs with
  | nil =>
    rw [getExistingGdbms]
    refine .bind (.any _) fun m _ => ?_
    split
    · exact returns_new _
    · exact returns_new _
    · exact .ret _ (by intro _ _ e; cases e)
  | cons x inputs ih =>
    rw [getExistingGdbms]
    refine .bind (.any _) fun m _ => ?_
    split
    · exact returns_new _
    · exact returns_new _
    · split
      · exact ih.mono fun _ h => h.cons
      · next name _ =>
        have one : ∀ p, Returns (· = p) (getExistingFile p) := by
          intro p
          unfold getExistingFile
          refine .bind (.any _) fun b _ => ?_
          split
          · exact .raise _
          · exact .ret _ rfl
        refine .tryCatch (.bind (P := (· = gdbmsPath DBMS_FOLDER name)) ?_ fun g hg => .ret _ ?_) fun e => ?_
        · refine .bind (one _) fun a ha => .bind (one _) fun b hb => .bind (one _) fun c hc => .ret _ ?_
          rw [ha, hb, hc]; rfl
        · intro g' rest e
          cases e
          exact ⟨⟨name, hg⟩, [x], rfl⟩
        · split
          · exact ih.mono fun _ h => h.cons
          · exact .raise _

theorem returns_select (inputs : List Str) : Returns (Selected inputs) (selectGdbms inputs) := by
  cases inputs with
  | nil => exact .ret _ (by intro _ _ e; cases e)
  | cons c inputs =>
    rw [selectGdbms]
    split
    · exact (returns_existing _).mono fun _ h => h.cons
    · exact (returns_new _).mono fun _ h => h.cons

/-! ### Processes -/

/-- Crash states of a process: still selecting, or in the session. -/
theorem crash_shell {tear : Path → Prop} {env : Env} {inputs : List Str} {fs fs' : FS}
    (h : CrashAt tear (startWiggleShell env inputs) fs fs') :
    KeepsFiles fs fs' ∨ ∃ name rest fs1, (∃ used, inputs = used ++ rest) ∧ KeepsFiles fs fs1 ∧
      CrashAt tear (shellLoop env (gdbmsPath DBMS_FOLDER name) rest) fs1 fs' := by
  unfold startWiggleShell at h
  rcases crash_bind h with h | ⟨sel, fs1, h1, h⟩
  · exact .inl (crash_select h)
  have hk : KeepsFiles fs fs1 := by
    have := crash_select (crash_run tear (selectGdbms inputs) fs)
    rw [h1] at this; exact this
  have hs := (returns_select inputs).run h1
  cases sel with
  | none => rw [crash_pure h]; exact .inl hk
  | some s =>
    obtain ⟨g, rest⟩ := s
    obtain ⟨⟨name, rfl⟩, hu⟩ := hs g rest rfl
    refine .inr ⟨name, rest, fs1, hu, hk, ?_⟩
    rcases crash_bind h with h | ⟨_, fs2, h2, h⟩
    · exact h
    · have := crash_pure h
      subst this
      have := crash_run tear (shellLoop env (gdbmsPath DBMS_FOLDER name) rest) fs1
      rw [h2] at this; exact this

theorem Grew.keeps {fs fs' : FS} {p : Path} (h : KeepsFiles fs fs') : Grew fs fs' p := by
  intro d hd
  obtain ⟨t, h1, h2⟩ := hd.load
  exact ⟨[], by rw [List.append_nil]; exact ⟨h _ _ hd.text, t, h _ _ h1, h2⟩⟩

theorem dbPath_apart (folder name : Str) : dbPath folder name ≠ idxPath folder name ∧ dbPath folder name ≠ wnPath folder name := by
  constructor <;> intro e <;> simp [dbPath, idxPath, wnPath] at e

theorem crash_shell_grows {env : Env} {inputs : List Str} {fs fs' : FS} (hj : ∀ q ∈ inputs, JsonOnly q)
    (h : CrashAt NotDatabase (startWiggleShell env inputs) fs fs') (name : Str) : Grew fs fs' (dbPath DBMS_FOLDER name) := by
  rcases crash_shell h with h | ⟨x, rest, fs1, ⟨used, rfl⟩, hk, h⟩
  · exact .keeps h
  · refine (Grew.keeps hk).trans ?_
    by_cases e : name = x
    · subst e
      exact crash_session_grows (g := gdbmsPath DBMS_FOLDER name) (fun ht => ht name rfl) (dbPath_apart _ _).1 (dbPath_apart _ _).2
        (fun q hm => hj q (by simp [hm])) h
    · refine .same (crash_frame (only_shellLoop _ _ _) ?_ h)
      have := gdbms_apart (folder := DBMS_FOLDER) (fun e' => e e'.symm : x ≠ name)
      intro hm
      exact this _ (by exact hm) (dbPath DBMS_FOLDER name) (by simp) rfl

theorem life_grows {fs fs' : FS} (h : Life JsonOnly fs fs') (name : Str) : Grew fs fs' (dbPath DBMS_FOLDER name) := by
  induction h with
  | none => exact .same rfl
  | whole _ env inputs hok ih => exact ih.trans (crash_shell_grows hok (crash_run _ _ _) name)
  | stopped _ env inputs hok hc ih => exact ih.trans (crash_shell_grows hok hc name)

/-! ### Crash states can be reached -/

theorem crash_tryCatch_left {α : Type} {tear : Path → Prop} {p : Prog α} {f : PyErr → Prog α} {fs fs' : FS}
    (h : CrashAt tear p fs fs') : CrashAt tear (p.tryCatch f) fs fs' := by
  induction h with
  | here => exact .here _ _
  | torn p pos s n k fs ht => exact .torn p pos s n _ fs ht
  | step op k fs fs' h ih => exact .step op _ fs fs' ih

theorem query_crash {tear : Path → Prop} {env : Env} {q : Str} {g : GPath} {fs fs' : FS} {ms : List ParsedMake} (hm : Makes q ms)
    (h : CrashAt tear (make env ms g) fs fs') : CrashAt tear (query env q g) fs fs' := by
  obtain ⟨h0, p, hp, hm⟩ := hm
  unfold query
  simp only [Bool.and_false, Bool.false_eq_true, if_false]
  rw [hp]
  change CrashAt tear (executeQuery env p g >>= fun _ => pure true) fs fs'
  refine crash_bind_left ?_
  unfold executeQuery
  refine crash_bind_left ?_
  rw [hm]
  cases ms with
  | nil => exact absurd rfl h0
  | cons m ms => exact h

theorem session_crash {tear : Path → Prop} {env : Env} {q : Str} {rest : List Str} {g : GPath} {fs fs' : FS} (h1 : q ≠ c!"q")
    (h2 : ¬ AsksHelp q) (h : CrashAt tear (query env q g) fs fs') : CrashAt tear (shellLoop env g (q :: rest)) fs fs' := by
  rw [shellLoop, if_neg h1, if_neg (fun h => h2 ((isSubstr_iff _ _).1 h))]
  exact crash_bind_left (crash_tryCatch_left (crash_bind_left h))

theorem session_crash_later {tear : Path → Prop} {env : Env} {q : Str} {rest : List Str} {g : GPath} {fs fs' : FS} (h1 : q ≠ c!"q")
    (h2 : ¬ AsksHelp q) (h : CrashAt tear (shellLoop env g rest) ((query env q g).run fs).2 fs') :
    CrashAt tear (shellLoop env g (q :: rest)) fs fs' := by
  rw [shellLoop, if_neg h1, if_neg (fun h => h2 ((isSubstr_iff _ _).1 h))]
  obtain ⟨ev, he⟩ := query_caught env q g fs
  exact crash_bind_right he (crash_bind_left h)

/-! ### Dead GDBMSs -/

theorem dead_of {fs : FS} {g : GPath} (h : ∀ env ms fs', patsOf ms ≠ [] → CrashAt (fun _ => True) (make env ms g) fs fs' → fs' = fs)
    (he : ∀ env ms, patsOf ms ≠ [] → ∃ e, ((make env ms g).run fs).1 = .error e) : Dead fs g := by
  intro env q hq
  constructor
  · intro fs' hc
    rcases crash_query hc with e | ⟨ms, hm, hc⟩
    · exact e
    · exact h env ms fs' (hq ms hm) hc
  · rintro ⟨ms, hm⟩
    rcases query_cases env q g fs with ⟨ms', hm', -, h2⟩ | ⟨hn, -⟩
    · obtain ⟨e, h3⟩ := he env ms' (hq ms' hm')
      exact ⟨e, h2 e h3⟩
    · exact absurd hm (hn ms)

/-- The counter names a node that is there. -/
theorem dead_stuck {fs : FS} {g : GPath} {d : Dict V} {n : Int} (hd : Holds fs g.db d)
    (hn : (getCurrentWiggleNumber g.wn).run fs = (.ok n, fs)) (hk : intStr n ∈ keys d) : Dead fs g := by
  refine dead_of (fun env ms fs' hp hc => ?_) fun env ms hp => ?_
  · rcases crash_make hc with e | ⟨m, hm, hok, hc⟩
    · exact e
    rw [hn] at hm
    simp only [Prod.mk.injEq, Except.ok.injEq, and_true] at hm
    subst hm
    obtain ⟨t, h1, h2⟩ := hd
    have hnf : ¬ Fresh d (dbBatch env n (patsOf ms)) := fun hf => hf.2 _ (first_key hp) hk
    rcases crash_commit hc with hc | ⟨fs1, r1, hc⟩
    · rcases crash_addItem h1 h2 hc with e | ⟨hf, -⟩
      · exact e
      · exact absurd hf hnf
    · rw [run_add_collision h1 h2 hnf] at r1
      simp at r1
  · obtain ⟨e, he, -⟩ := C26_stuck env ms g fs d n hd hn hk hp
    rw [he]
    exact ⟨e, rfl⟩

/-- There is no number in the counter file. -/
theorem dead_counter {fs : FS} {g : GPath} {e : PyErr} (hn : (getCurrentWiggleNumber g.wn).run fs = (.error e, fs)) : Dead fs g := by
  refine dead_of (fun env ms fs' hp hc => ?_) fun env ms hp => ?_
  · rcases crash_make hc with e | ⟨m, hm, -⟩
    · exact e
    · rw [hn] at hm
      simp at hm
  · rw [run_make_noCounter hn]
    exact ⟨e, rfl⟩

theorem crash_make_usable {env : Env} {ms : List ParsedMake} {g : GPath} {fs fs' : FS} (h : Usable fs g) (hp : ¬ Poison ms)
    (hc : CrashAt (fun _ => False) (make env ms g) fs fs') : Usable fs' g ∨ Dead fs' g := by
  have hu := (make_usable (env := env) ms h).1 hp
  obtain ⟨d, labels, names, rels, n, hh, hb⟩ := id h
  rcases crash_make hc with rfl | ⟨m, hm, hok, hc⟩
  · exact .inl h
  obtain rfl := counter_det hh.counter hm
  have hgood : (∀ p ∈ patsOf ms, PatSer p) ∧ ∃ p ∈ patsOf ms, StoresRel p :=
    Classical.byContradiction fun hn => hp ⟨hok, hn⟩
  have hser := (dbBatch_ser (env := env) (b := n) hok.props hok.shape).2 hgood.1
  have hne : patsOf ms ≠ [] := by
    obtain ⟨p, hp, -⟩ := hgood.2
    intro e
    rw [e] at hp
    simp at hp
  have hf := fresh_batch (env := env) (pats := patsOf ms) fun w h1 _ => hb w h1
  have r := run_add_ok (p := g.db) hh.dbText hh.ser hf hser
  have hk : intStr n ∈ keys (d ++ dbBatch env n (patsOf ms)) := by
    rw [keys, List.map_append, List.mem_append]
    exact .inr (first_key hne)
  have hl := jsonLoad_dump _ (ser_append hh.ser hf hser)
  have stuck : ∀ fs', fs'.get g.db = some (dumpText (.dict (d ++ dbBatch env n (patsOf ms)))) → fs'.get g.wn = fs.get g.wn →
      Dead fs' g := fun fs' h1 h2 =>
    dead_stuck ⟨_, h1, hl⟩ (counter_congr h2.symm hh.counter) hk
  rcases crash_commit hc with hc | ⟨fs1, r1, hc⟩
  · rcases crash_addItem_atomic hc with rfl | rfl
    · exact .inl h
    · rw [r]
      exact .inr (stuck _ (FS.get_set_self _ _ _) (FS.get_set_ne hh.db_wn _ _))
  · have r' := r1
    rw [r] at r'
    simp only [Prod.mk.injEq, true_and] at r'
    subst r'
    rcases hc with hc | ⟨x, fs2, r2, hc⟩
    · refine .inr (stuck _ ?_ ?_)
      · rw [crash_frame (only_commitIndexes ..) (by simpa using hh.db_idx) hc, FS.get_set_self]
      · rw [crash_frame (only_commitIndexes ..) (by simpa using Ne.symm hh.idx_wn) hc, FS.get_set_ne hh.db_wn]
    · have e1 := run_only (only_commitIndexes env n (patsOf ms) g) (q := g.db) (by simpa using hh.db_idx)
        (fs.set g.db (dumpText (.dict (d ++ dbBatch env n (patsOf ms)))))
      have e2 := run_only (only_commitIndexes env n (patsOf ms) g) (q := g.wn) (by simpa using Ne.symm hh.idx_wn)
        (fs.set g.db (dumpText (.dict (d ++ dbBatch env n (patsOf ms)))))
      have e3 := run_only_dirs (only_commitIndexes env n (patsOf ms) g)
        (fs.set g.db (dumpText (.dict (d ++ dbBatch env n (patsOf ms)))))
      rw [r2] at e1 e2 e3
      rw [FS.get_set_self] at e1
      rw [FS.get_set_ne hh.db_wn] at e2
      rcases crash_updateCounter (fun h => h) hc with rfl | rfl | rfl
      · exact .inr (stuck _ e1 e2)
      · have := run_getCurrentWiggleNumber (FS.get_set_self fs2 g.wn [])
        exact .inr (dead_counter (e := _) (by rw [this]; rfl))
      · left
        have hd : DirOK fs2 g.wn := by
          have := hh.dir
          unfold DirOK at this ⊢
          rw [e3]; exact this
        rw [run_make_counter hm, afterCounter_ok hok, commit_eq, run_bind_ok r1, run_bind_ok r2,
          run_bind_ok (run_updateWiggleNumber hd)] at hu
        exact hu

/-- However far a session gets that types nothing the program cannot store, the GDBMS is usable or dead. -/
theorem crash_session_usable {env : Env} {g : GPath} {inputs : List Str} {fs fs' : FS} (h : Usable fs g)
    (hq : ∀ q ∈ inputs, ∀ ms, Makes q ms → ¬ Poison ms) (hc : CrashAt (fun _ => False) (shellLoop env g inputs) fs fs') :
    Usable fs' g ∨ Dead fs' g := by
  induction inputs generalizing fs with
  | nil => rw [crash_pure hc]; exact .inl h
  | cons q rest ih =>
    rcases crash_session_cons hc with rfl | ⟨-, ⟨hc, -⟩ | hc⟩
    · exact .inl h
    · rcases crash_query hc with rfl | ⟨ms, hm, hc⟩
      · exact .inl h
      · exact crash_make_usable h (hq q (by simp) ms hm) hc
    · refine ih ?_ (fun q hm => hq q (by simp [hm])) hc
      split
      · exact h
      · exact C69_stays_usable_partial env q g fs h (hq q (by simp))

theorem crash_dead_session {env : Env} {g : GPath} {inputs : List Str} {fs fs' : FS} (h : Dead fs g)
    (hq : ∀ q ∈ inputs, HasPatterns q) (hc : CrashAt (fun _ => True) (shellLoop env g inputs) fs fs') : fs' = fs := by
  induction inputs generalizing fs with
  | nil => exact crash_pure hc
  | cons q rest ih =>
    have h1 := (h env q (hq q (by simp))).1
    rcases crash_session_cons hc with rfl | ⟨-, ⟨hc, -⟩ | hc⟩
    · rfl
    · exact h1 _ hc
    · have e : (if isSubstr c!"help" (lower q) = true then fs else ((query env q g).run fs).2) = fs := by
        split
        · rfl
        · exact h1 _ (crash_run _ _ _)
      rw [e] at hc
      exact ih h (fun q hm => hq q (by simp [hm])) hc

/-! ### Well-formed queries -/

theorem jsonOnly_text {q : Str} {mk : Option (List ParsedMake)} {cs : List ChainText} {f : Option ParsedFind} {rep : Option ParsedReport}
    (hq : parseQueryString q = .ok ⟨mk, f, rep⟩) (hmk : MakeOf mk cs) (hg : ∀ c ∈ cs, c.Good) : JsonOnly q := by
  rintro ms ⟨h0, p, h1, h2⟩ -
  rw [hq] at h1
  cases h1
  simp only at h2
  subst h2
  rcases hmk with ⟨e, -⟩ | ⟨m, ms', e, hcl, hp⟩
  · cases e
  · cases e
    intro p hm
    rw [hp] at hm
    obtain ⟨c, hc, rfl⟩ := List.mem_map.1 hm
    exact chain_patSer (hg c hc)

theorem makes_text {q : Str} {mk : Option (List ParsedMake)} {cs : List ChainText} {f : Option ParsedFind} {rep : Option ParsedReport}
    (hq : parseQueryString q = .ok ⟨mk, f, rep⟩) (hmk : MakeOf mk cs) (hg : ∀ c ∈ cs, c.Good) (hr : ∃ c ∈ cs, c.rels ≠ []) :
    ∃ ms, Makes q ms ∧ MakeOK ms ∧ ¬ Poison ms := by
  obtain ⟨c, hc, hr⟩ := hr
  have hn : ¬ ∃ ms, Makes q ms ∧ Poison ms := fun h => hr (((poison_text hq hmk hg).1 h).2 c hc)
  rcases hmk with ⟨-, rfl⟩ | ⟨p, ps, h, hcl, hp⟩
  · simp at hc
  · subst h
    have hm : Makes q (p :: ps) := ⟨by simp, _, hq, rfl⟩
    exact ⟨p :: ps, hm, makes_ok hcl hp hg, fun h => hn ⟨_, hm, h⟩⟩

theorem session_quit {env : Env} {g : GPath} (l : List Str) (fs : FS) :
    ((shellLoop env g (l ++ [c!"q"])).run fs).2 = ((shellLoop env g l).run fs).2 := by
  induction l generalizing fs with
  | nil => rfl
  | cons q l ih =>
    by_cases hq : q = c!"q"
    · rw [List.cons_append, shellLoop, shellLoop, if_pos hq, if_pos hq]
    · rw [List.cons_append, session_cons hq, session_cons hq, ih]

end WG
