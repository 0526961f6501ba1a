/-
Runs of the whole program: selection, session, and what stays untouched.
-/
import Verif.Spec.World
import Verif.Props.Usable
import Verif.Props.Gdbms

set_option linter.unusedSectionVars false
set_option linter.unusedSimpArgs false

namespace WG
variable [PyRuntime] {R : Int → ChainText → Dict V → Prop}

/-! ### Frames -/

theorem exec_folders {o : Op} (h : o.noDirs = true) (fs : FS) :
    (exec o fs).2.folders = fs.folders ∧ (exec o fs).2.plain = fs.plain := by
  cases o <;> simp [Op.noDirs] at h <;> simp only [exec] <;> repeat' (first | split | exact ⟨rfl, rfl⟩ | exact ⟨trivial, trivial⟩)

theorem run_only_folders {α : Type} {p : Prog α} {ps : List Path} (h : p.AllOps (Op.only ps)) (fs : FS) :
    (p.run fs).2.folders = fs.folders ∧ (p.run fs).2.plain = fs.plain := by
  induction h generalizing fs with
  | ret a => exact ⟨rfl, rfl⟩
  | raise e => exact ⟨rfl, rfl⟩
  | act op k h _ ih =>
    simp only [Prog.run]
    rw [(ih _ _).1, (ih _ _).2]
    exact exec_folders h.1 fs

theorem stock_frame {fs fs' : FS} {g : GPath} {cs : List ChainText} (h : Stock R fs g cs) (h1 : fs'.get g.db = fs.get g.db)
    (h2 : fs'.get g.idx = fs.get g.idx) (h3 : fs'.get g.wn = fs.get g.wn) (hd : ∀ x ∈ fs.dirs, x ∈ fs'.dirs) : Stock R fs' g cs := by
  obtain ⟨d, labels, names, rels, hh, hb, ha, hi⟩ := h
  refine ⟨d, labels, names, rels, ⟨by rw [h1]; exact hh.dbText, ?_, ?_, by rw [h3]; exact hh.wn, hd _ hh.dir, hh.db_idx, hh.db_wn,
    hh.idx_wn⟩, hb, ha, hi⟩
  · unfold Holds
    rw [h1]; exact hh.db
  · unfold Holds
    rw [h2]; exact hh.idx

theorem gdbms_apart {folder name name' : Str} (h : name ≠ name') :
    ∀ p ∈ [dbPath folder name, idxPath folder name, wnPath folder name],
      ∀ p' ∈ [dbPath folder name', idxPath folder name', wnPath folder name'], p' ≠ p := by
  intro p hp p' hp' e
  have : p.dir = name := by
    simp only [List.mem_cons, List.not_mem_nil, or_false] at hp
    rcases hp with rfl | rfl | rfl <;> rfl
  have : p'.dir = name' := by
    simp only [List.mem_cons, List.not_mem_nil, or_false] at hp'
    rcases hp' with rfl | rfl | rfl <;> rfl
  simp_all

/-! ### The session -/

/-- A typed well-formed query with a relationship, if it makes something. -/
theorem typed_leaves {t : TypedText} (ht : t.Good) (hrel : t.make = none ∨ ∃ c ∈ t.chains, c.rels ≠ []) (env : Env) (g : GPath)
    (fs : FS) {d : Dict V} {labels names : List Str} {rels : Dict (List Int)} {n : Int}
    (h : Healthy fs g d labels names rels n) (hb : BelowCounter d n) :
    Leaves env t.render g fs d labels names rels n t.chains t.find.first.findResult := by
  refine run_leaves (typed_parse ht) (makeOf_text _) ?_ ht.find.first ?_ env g fs h hb ?_
  · intro c hc
    obtain ⟨m, hm, hc⟩ := List.mem_flatMap.1 hc
    exact ((ht.make m (by simpa using hm)).chains c hc).1
  · exact hrel.imp_left fun e => by simp [e]
  · cases hm : t.make with
    | none => exact .inl rfl
    | some t => exact .inr (by simp [StmtText.chains])

theorem records_mono {R R' : Int → ChainText → Dict V → Prop} {b : Int} {cs : List ChainText} {new : Dict V}
    (hR : ∀ c ∈ cs, ∀ b new, R b c new → R' b c new) (h : Records R b cs new) : Records R' b cs new := by
  induction cs generalizing b new with
  | nil => exact h
  | cons c cs ih =>
    obtain ⟨x, y, e, h1, h2⟩ := h
    exact ⟨x, y, e, hR c (by simp) _ _ h1, ih (fun c' hc => hR c' (List.mem_cons_of_mem _ hc)) h2⟩

/-- What is actually stored counts as the records of the pattern. -/
def Typed.Counts (R : Int → ChainText → Dict V → Prop) (t : Typed) : Prop :=
  ∀ c ∈ t.chains, ∀ b new, ActualRecords b c new → R b c new

theorem session_stock {env : Env} {g : GPath} {ts : List Typed} (ht : ∀ t ∈ ts, t.Fair ∧ t.Counts R) {fs : FS} {cs : List ChainText}
    (h : Stock R fs g cs) : ∃ log fs', (shellLoop env g (ts.map Typed.text ++ [c!"q"])).run fs = (.ok log, fs') ∧ FairLog ts log ∧
      Stock R fs' g (cs ++ ts.flatMap Typed.chains) := by
  induction ts generalizing fs cs with
  | nil => exact ⟨[.bye], fs, rfl, rfl, by simpa using h⟩
  | cons t ts ih =>
    have ht' : ∀ t ∈ ts, t.Fair ∧ t.Counts R := fun t hm => ht t (by simp [hm])
    obtain ⟨h1, hR⟩ := ht t (by simp)
    cases t with
    | query t =>
      obtain ⟨h1, hrel, h2⟩ := h1
      obtain ⟨d, labels, names, rels, hh, hb, ha, hi⟩ := h
      obtain ⟨fs1, new, l1, n1, r1, hr, hh1, hb1, ha1, hi1, -⟩ := typed_leaves h1 hrel env g fs hh hb
      have es : (sizeOfAll cs : Int) + sizeOfAll t.chains = (sizeOfAll (cs ++ t.chains) : Int) := by
        rw [sizeOfAll_append]; omega
      rw [es] at hh1 hb1
      obtain ⟨log, fs2, h3, h4, h5⟩ := ih ht' (fs := fs1) (cs := cs ++ t.chains) ⟨d ++ new, l1, n1, r1, hh1, hb1,
        records_append ha (by simpa [Typed.chains] using records_mono hR ha1), indexed_trans hi hi1⟩
      obtain ⟨ev, log', fs3, e1, e2, e3⟩ := C54_input_is_executed_partial env g t.render (ts.map Typed.text ++ [c!"q"]) fs
        (typed_not_q h1) h2
      rw [hr] at e2 e3
      rw [h3] at e2
      simp only [Prod.mk.injEq, Except.ok.injEq] at e2
      obtain ⟨rfl, rfl⟩ := e2
      refine ⟨_, _, e1, ⟨?_, h4⟩, by simpa [Typed.chains, List.append_assoc] using h5⟩
      rcases e3 with ⟨rfl, b, e3⟩ | ⟨e, rfl, e3⟩ <;> rw [show t.find.first.findResult = _ from e3]
    | other s =>
      obtain ⟨h1, h2⟩ := h1
      obtain ⟨log, fs2, h3, h4, h5⟩ := ih ht' h
      by_cases hh : AsksHelp s
      · refine ⟨.help :: log, fs2, ?_, h4, by simpa [Typed.chains] using h5⟩
        show (shellLoop env g (s :: (ts.map Typed.text ++ [c!"q"]))).run fs = _
        rw [shellLoop, if_neg h1, if_pos ((isSubstr_iff _ _).2 hh), run_bind_ok h3]
        rfl
      · obtain ⟨ev, log', fs3, e1, e2, -⟩ := C54_input_is_executed_partial env g s (ts.map Typed.text ++ [c!"q"]) fs h1 hh
        have h2 := h2.resolve_left hh
        rcases query_cases env s g fs with ⟨ms, hm, -⟩ | ⟨-, h6⟩
        · exact absurd hm (h2 ms)
        · rw [h6, h3] at e2
          simp only [Prod.mk.injEq, Except.ok.injEq] at e2
          obtain ⟨rfl, rfl⟩ := e2
          exact ⟨_, _, e1, h4, by simpa [Typed.chains] using h5⟩

/-! ### The menu -/

theorem sorted_position {l : List Str} (hs : l.Pairwise (· ≤ ·)) (hn : l.Nodup) {i : Nat} {x : Str} (h : l[i]? = some x) :
    l.countP (· < x) = i := by
  induction l generalizing i with
  | nil => simp at h
  | cons y l ih =>
    rw [List.pairwise_cons] at hs
    rw [List.nodup_cons] at hn
    cases i with
    | zero =>
      simp only [List.getElem?_cons_zero, Option.some.injEq] at h
      subst h
      rw [List.countP_eq_zero]
      intro a ha
      simp only [decide_eq_true_eq]
      rcases List.mem_cons.1 ha with rfl | ha
      · exact List.lt_irrefl _
      · exact List.not_lt.2 (hs.1 a ha)
    | succ i =>
      rw [List.getElem?_cons_succ] at h
      have hx : x ∈ l := List.mem_of_getElem? h
      have hlt : y < x := by
        rcases List.le_iff_lt_or_eq.1 (hs.1 x hx) with h' | h'
        · exact h'
        · exact absurd (h' ▸ hx) hn.1
      rw [List.countP_cons_of_pos (by simpa using hlt), ih hs.2 hn.2 h]

theorem menu_at {names : List Str} {i : Nat} {name : Str} (h : names[i]? = some name) (hi : i < 26) :
    dictGet (menuLetter i) (menuOf names) = some name := by
  obtain ⟨hl, e⟩ := List.getElem?_eq_some_iff.1 h
  refine dictGet_of_mem (menuOf_nodup _) ?_
  simp only [menuOf, List.mem_map]
  refine ⟨(Char.ofNat (65 + i), name), ?_, rfl⟩
  refine List.mem_iff_getElem.2 ⟨i, by rw [List.length_zip, upper_length]; omega, ?_⟩
  rw [List.getElem_zip]
  have h1 := upper_get i (by omega)
  rw [List.getElem?_eq_getElem (by rw [upper_length]; omega)] at h1
  simp only [Option.some.injEq] at h1
  rw [h1, e]

theorem KeepsAs.menu {σ : Type} {S : FS → GPath → σ → Prop} {fs : FS} {w : Shelf σ} (h : KeepsAs S fs w) : (menuNames fs DBMS_FOLDER).Perm w.names := by
  refine (List.perm_ext_iff_of_nodup (menuNames_nodup h.dirs) h.nodup).2 fun x => ?_
  rw [mem_menuNames, h.names]
  simp [notGdbms]

/-! ### Selection -/

theorem Stock.files {fs : FS} {g : GPath} {cs : List ChainText} (h : Stock R fs g cs) :
    (fs.get g.db).isSome ∧ (fs.get g.idx).isSome ∧ (fs.get g.wn).isSome := by
  obtain ⟨d, labels, names, rels, hh, -⟩ := h
  obtain ⟨D, ⟨t, ht, _⟩, _⟩ := hh.idx
  obtain ⟨t', ht', _⟩ := hh.wn
  rw [hh.dbText, ht, ht']
  simp

/-- What holds of a GDBMS is read off its three files and the directory, and there are three files. -/
structure OnFiles {σ : Type} (S : FS → GPath → σ → Prop) : Prop where
  files : ∀ {fs g s}, S fs g s → (fs.get g.db).isSome ∧ (fs.get g.idx).isSome ∧ (fs.get g.wn).isSome
  frame : ∀ {fs fs' g s}, S fs g s → fs'.get g.db = fs.get g.db → fs'.get g.idx = fs.get g.idx → fs'.get g.wn = fs.get g.wn →
    (∀ x ∈ fs.dirs, x ∈ fs'.dirs) → S fs' g s

theorem stock_onFiles : OnFiles (Stock R) := ⟨Stock.files, stock_frame⟩

section
variable {σ : Type} {S : FS → GPath → σ → Prop}

theorem select_old (hS : OnFiles S) {fs : FS} {w : Shelf σ} (h : KeepsAs S fs w) {tries rest : List Str} {x : Str × σ} (hx : x ∈ w)
    (ht : ∀ s ∈ tries, ∀ i, i < 26 → i < w.length → s ≠ menuLetter i) (hi : w.names.countP (· < x.1) < 26) :
    (getExistingGdbms DBMS_FOLDER (tries ++ menuLetter (w.names.countP (· < x.1)) :: rest)).run fs =
      (.ok (some (gdbmsPath DBMS_FOLDER x.1, rest)), fs) := by
  have hp := h.menu
  have hxn : x.1 ∈ menuNames fs DBMS_FOLDER := hp.mem_iff.2 (List.mem_map.2 ⟨x, hx, rfl⟩)
  have hne : menuNames fs DBMS_FOLDER ≠ [] := by intro e; rw [e] at hxn; simp at hxn
  induction tries with
  | nil =>
    obtain ⟨i, hi', e⟩ := List.mem_iff_getElem.1 hxn
    have e' : (menuNames fs DBMS_FOLDER)[i]? = some x.1 := by rw [List.getElem?_eq_getElem hi', e]
    have : (menuNames fs DBMS_FOLDER).countP (· < x.1) = i := sorted_position (sortStrs_sorted _) (menuNames_nodup h.dirs) e'
    rw [List.Perm.countP_eq _ hp] at this
    rw [List.nil_append, select_round h.folder hne, this, menu_at e' (by omega)]
    simp only
    exact if_pos (hS.files (h.stock x hx))
  | cons s tries ih =>
    rw [List.cons_append, select_round h.folder hne]
    have : dictGet s (menuOf (menuNames fs DBMS_FOLDER)) = none := by
      cases e : dictGet s (menuOf (menuNames fs DBMS_FOLDER)) with
      | none => rfl
      | some n =>
        obtain ⟨i, h1, h2, h3⟩ := menu_get_index e
        obtain ⟨h4, -⟩ := List.getElem?_eq_some_iff.1 h1
        rw [hp.length_eq] at h4
        exact absurd h3 (ht s (by simp) i h2 (by simpa [Shelf.names] using h4))
    rw [this]
    exact ih fun s hs => ht s (by simp [hs])

theorem select_new (hS : OnFiles S) {fs : FS} {w : Shelf σ} (h : KeepsAs S fs w) {tries rest : List Str} {name : Str}
    (ht : ∀ s ∈ tries, s ∈ w.names) (hn : name ∉ w.names) (hs : name ∉ notGdbms) :
    (createNewDbms DBMS_FOLDER (tries ++ name :: rest)).run fs = (.ok (some (gdbmsPath DBMS_FOLDER name, rest)),
      (((withDir fs DBMS_FOLDER name).set (dbPath DBMS_FOLDER name) c!"{}").set (idxPath DBMS_FOLDER name)
        newIndexText).set (wnPath DBMS_FOLDER name) c!"0") := by
  induction tries with
  | nil =>
    have hf := h.free name hn hs
    rw [List.nil_append, createNewDbms, run_tryCatch, run_bind_ok (create_new hf.mkdir hf.db hf.idx hf.wn)]
    rfl
  | cons s tries ih =>
    have hm := ht s (by simp)
    obtain ⟨x, hx, rfl⟩ := List.mem_map.1 hm
    have hd := ((h.names x.1).1 hm).1
    have h1 : fs.get (dbPath DBMS_FOLDER x.1) ≠ none := Option.isSome_iff_ne_none.1 (hS.files (h.stock x hx)).1
    rw [List.cons_append, createNewDbms, run_tryCatch, run_bind_err (create_db_taken (Or.inl hd) h1), withDir_of_mem hd]
    exact ih fun s hs => ht s (by simp [hs])

theorem new_keeps (hS : OnFiles S) {z : σ} (hz : ∀ {fs g}, Healthy fs g [] [] [] [] 0 → S fs g z) {fs : FS} {w : Shelf σ}
    (h : KeepsAs S fs w) {name : Str} (hn : name ∉ w.names) (hs : name ∉ notGdbms) :
    KeepsAs S ((((withDir fs DBMS_FOLDER name).set (dbPath DBMS_FOLDER name) c!"{}").set (idxPath DBMS_FOLDER name)
        newIndexText).set (wnPath DBMS_FOLDER name) c!"0") (w ++ [(name, z)]) := by
  have hf := h.free name hn hs
  obtain ⟨fs', h1, h2, h3, -⟩ := C55_created_is_empty fs DBMS_FOLDER name hf
  rw [create_new hf.mkdir hf.db hf.idx hf.wn] at h1
  have hnd : (DBMS_FOLDER, name) ∉ fs.dirs := fun hm => hn ((h.names name).2 ⟨hm, hs⟩)
  have hpl := hf.mkdir.resolve_left hnd
  have hwd := withDir_def fs DBMS_FOLDER name
  rw [if_neg hnd, if_neg hpl, if_pos h.folder] at hwd
  simp only [Prod.mk.injEq, true_and] at h1
  generalize hfs : (((withDir fs DBMS_FOLDER name).set (dbPath DBMS_FOLDER name) c!"{}").set (idxPath DBMS_FOLDER name)
        newIndexText).set (wnPath DBMS_FOLDER name) c!"0" = fs1 at h1 ⊢
  subst h1
  have hdirs : fs1.dirs = fs.dirs ++ [(DBMS_FOLDER, name)] := by rw [← hfs, hwd]; rfl
  have hfolders : fs1.folders = fs.folders := by rw [← hfs, hwd]; rfl
  have hplain : fs1.plain = fs.plain := by rw [← hfs, hwd]; rfl
  have hget : ∀ name', name' ≠ name → ∀ p ∈ [dbPath DBMS_FOLDER name', idxPath DBMS_FOLDER name', wnPath DBMS_FOLDER name'],
      fs1.get p = fs.get p := by
    intro name' hne p hp
    have := gdbms_apart hne p hp
    rw [← hfs, FS.get_set_ne (this _ (by simp)), FS.get_set_ne (this _ (by simp)), FS.get_set_ne (this _ (by simp)), hwd]
    rfl
  have hnames : Shelf.names (w ++ [(name, z)]) = w.names ++ [name] := by simp [Shelf.names]
  refine ⟨by rw [hfolders]; exact h.folder, ?_, ?_, fun x => ?_, fun x hx hx' => ?_, fun x hx => ?_⟩
  · rw [hdirs, List.nodup_append]
    exact ⟨h.dirs, by simp, by simp; intro a b hab e1 e2; subst e1; subst e2; exact hnd hab⟩
  · rw [hnames, List.nodup_append]
    exact ⟨h.nodup, by simp, by simp; intro a hab e; subst e; exact hn hab⟩
  · rw [hnames, hdirs, List.mem_append, h.names]
    by_cases e : x = name
    · subst e; simp [hs]
    · simp [e]
  · rw [hnames] at hx
    simp only [List.mem_append, List.mem_cons, List.not_mem_nil, or_false, not_or] at hx
    have hf' := h.free x hx.1 hx'
    have := hget x hx.2
    refine ⟨?_, by rw [this _ (by simp)]; exact hf'.db, by rw [this _ (by simp)]; exact hf'.idx, by rw [this _ (by simp)]; exact hf'.wn⟩
    rw [hdirs, hplain]
    exact hf'.mkdir.imp_left fun h => by simp [h]
  · rcases List.mem_append.1 hx with hx | hx
    · have hne : x.1 ≠ name := fun e => hn (e ▸ List.mem_map.2 ⟨x, hx, rfl⟩)
      have := hget x.1 hne
      exact hS.frame (h.stock x hx) (this _ (by simp [gdbmsPath])) (this _ (by simp [gdbmsPath])) (this _ (by simp [gdbmsPath]))
        fun y hy => by rw [hdirs]; simp [hy]
    · simp only [List.mem_cons, List.not_mem_nil, or_false] at hx
      subst hx
      exact hz h3

/-- Only the GDBMS in use changes. -/
theorem session_keeps (hS : OnFiles S) {fs fs' : FS} {w w' : Shelf σ} {name : Str} {cs cs' : σ} (h : KeepsAs S fs (w ++ (name, cs) :: w'))
    {env : Env} {inputs : List Str} (hr : ((shellLoop env (gdbmsPath DBMS_FOLDER name) inputs).run fs).2 = fs')
    (hs : S fs' (gdbmsPath DBMS_FOLDER name) cs') : KeepsAs S fs' (w ++ (name, cs') :: w') := by
  have ho := only_shellLoop env (gdbmsPath DBMS_FOLDER name) inputs
  have hdirs : fs'.dirs = fs.dirs := by rw [← hr]; exact run_only_dirs ho fs
  have hf := run_only_folders ho fs
  rw [hr] at hf
  have hget : ∀ name', name' ≠ name → ∀ p ∈ [dbPath DBMS_FOLDER name', idxPath DBMS_FOLDER name', wnPath DBMS_FOLDER name'],
      fs'.get p = fs.get p := by
    intro name' hne p hp
    rw [← hr]
    refine run_only ho ?_ fs
    intro hm
    exact gdbms_apart hne p hp p hm rfl
  have hnames : Shelf.names (w ++ (name, cs') :: w') = Shelf.names (w ++ (name, cs) :: w') := by simp [Shelf.names]
  have hin : name ∈ Shelf.names (w ++ (name, cs) :: w') := by simp [Shelf.names]
  refine ⟨by rw [hf.1]; exact h.folder, by rw [hdirs]; exact h.dirs, by rw [hnames]; exact h.nodup,
    fun x => by rw [hnames, hdirs]; exact h.names x, fun x hx hx' => ?_, fun x hx => ?_⟩
  · rw [hnames] at hx
    have hne : x ≠ name := fun e => hx (e ▸ hin)
    have hf' := h.free x hx hx'
    have := hget x hne
    exact ⟨by rw [hdirs, hf.2]; exact hf'.mkdir, by rw [this _ (by simp)]; exact hf'.db, by rw [this _ (by simp)]; exact hf'.idx,
      by rw [this _ (by simp)]; exact hf'.wn⟩
  · by_cases e : x = (name, cs')
    · subst e; exact hs
    · have hx' : x ∈ w ∨ x ∈ w' := by
        simp only [List.mem_append, List.mem_cons, e, false_or] at hx
        exact hx
      have hxo : x ∈ w ++ (name, cs) :: w' := by
        rcases hx' with h' | h' <;> simp [h']
      have hne : x.1 ≠ name := by
        have hnd := h.nodup
        simp only [Shelf.names, List.map_append, List.map_cons, List.nodup_append, List.nodup_cons] at hnd
        rcases hx' with h' | h'
        · exact hnd.2.2 _ (List.mem_map.2 ⟨x, h', rfl⟩) _ (by simp)
        · intro e
          exact hnd.2.1.1 (e ▸ List.mem_map.2 ⟨x, h', rfl⟩)
      have := hget x.1 hne
      exact hS.frame (h.stock x hxo) (this _ (by simp [gdbmsPath])) (this _ (by simp [gdbmsPath])) (this _ (by simp [gdbmsPath]))
        fun y hy => by rw [hdirs]; exact hy

/-- The start of a run in which a new name is given. -/
theorem selects_new (hS : OnFiles S) {fs : FS} {w : Shelf σ} (h : KeepsAs S fs w) {answer : Str} {tries rest : List Str} {name : Str}
    (ha : answer ∉ [c!"y", c!"yes"] ∨ w = []) (ht : ∀ s ∈ tries, s ∈ w.names) (hn : name ∉ w.names) (hs : name ∉ notGdbms) :
    (selectGdbms (answer :: (tries ++ name :: rest))).run fs = (.ok (some (gdbmsPath DBMS_FOLDER name, rest)),
      (((withDir fs DBMS_FOLDER name).set (dbPath DBMS_FOLDER name) c!"{}").set (idxPath DBMS_FOLDER name)
        newIndexText).set (wnPath DBMS_FOLDER name) c!"0") := by
  rw [selectGdbms]
  by_cases hy : answer = c!"y" ∨ answer = c!"yes"
  · rw [if_pos hy]
    have hw : w = [] := ha.resolve_left fun h => h (by simpa using hy)
    have hm : menuNames fs DBMS_FOLDER = [] := by
      have := h.menu
      rw [hw] at this
      exact List.Perm.eq_nil this
    have he : ∀ inputs, (getExistingGdbms DBMS_FOLDER inputs).run fs = (createNewDbms DBMS_FOLDER inputs).run fs := by
      intro inputs
      cases inputs <;> rw [getExistingGdbms, run_bind_ok (menu_run h.folder), if_pos hm]
    rw [he]
    exact select_new hS h ht hn hs
  · rw [if_neg hy]
    exact select_new hS h ht hn hs

end

/-! ### A run -/

/-- One run of the program. -/
theorem run_world {ok : Typed → Prop} (hk : ∀ t, ok t → t.Fair ∧ t.Counts R) (env : Env) (r : ProgRun) (w w' : World) (fs : FS)
    (h : Keeps R fs w) (hr : r.Leads ok w w') :
    (∃ log fs', (startWiggleShell env r.inputs).run fs = (.ok (some log), fs') ∧ FairLog r.typed log ∧ Keeps R fs' w') ∧
      ∀ t ∈ r.typed, ok t := by
  cases hr with
  | new _ hok ha ht hp hs =>
    have h1 := new_keeps stock_onFiles (z := []) (fun h3 => ⟨[], [], [], [], h3, below_nil 0, rfl, by simp, by simp, by simp⟩) h hp hs
    have h2 := selects_new stock_onFiles h (rest := r.typed.map Typed.text ++ [c!"q"]) ha ht hp hs
    obtain ⟨log, fs', h3, h4, h5⟩ := session_stock (env := env) (fun t h' => hk t (hok t h')) (h1.stock (r.pick, []) (by simp))
    refine ⟨⟨log, fs', ?_, h4, ?_⟩, hok⟩
    · unfold startWiggleShell
      rw [ProgRun.inputs, run_bind_ok h2]
      simp only
      rw [run_bind_ok h3]
      rfl
    · exact session_keeps stock_onFiles h1 (by rw [h3]) h5
  | old w w' name cs hok ha ht hi hp =>
    have h2 : (selectGdbms r.inputs).run fs = (.ok (some (gdbmsPath DBMS_FOLDER name, r.typed.map Typed.text ++ [c!"q"])), fs) := by
      show (selectGdbms (r.answer :: _)).run fs = _
      rw [selectGdbms, if_pos (by simpa using ha), hp]
      exact select_old stock_onFiles h (x := (name, cs)) (by simp) ht hi
    obtain ⟨log, fs', h3, h4, h5⟩ := session_stock (env := env) (fun t h' => hk t (hok t h')) (h.stock (name, cs) (by simp))
    refine ⟨⟨log, fs', ?_, h4, ?_⟩, hok⟩
    · unfold startWiggleShell
      rw [run_bind_ok h2]
      simp only
      rw [run_bind_ok h3]
      rfl
    · exact session_keeps stock_onFiles h (by rw [h3]) h5

theorem goodLog_of {ts : List Typed} {log : List Event} (ht : ∀ t ∈ ts, t.OK) (h : FairLog ts log) : GoodLog ts log := by
  induction ts generalizing log with
  | nil => exact h
  | cons t ts ih =>
    have ih := ih (fun t' h' => ht t' (List.mem_cons_of_mem _ h')) (log := log.tail)
    have h1 := ht t (by simp)
    cases t with
    | query t =>
      cases log with
      | nil => exact h
      | cons ev log =>
        obtain ⟨h2, h3⟩ := h
        have e : t.find.first.findResult = .ok true := by
          have := h1.1.find
          cases hc : t.find.first <;> first | rfl | (rw [hc] at this; exact this.elim)
        rw [e] at h2
        exact ⟨h2, ih h3⟩
    | other s =>
      cases log with
      | nil => exact h
      | cons ev log => exact ih h

theorem ok_fair {t : Typed} (h : t.OK) : t.Fair ∧ t.Counts ChainRecords := by
  cases t with
  | query t => exact ⟨⟨h.1.good, h.1.rel, h.2⟩, fun c hc b new => actual_short (h.1.short c hc)⟩
  | other s => exact ⟨h, fun c hc => by simp [Typed.chains] at hc⟩

/-! ### Names that are taken -/

theorem create_path {folder name : Str} {fs fs' : FS} {g : GPath} (hr : (getNewGdbmsFilePaths name folder).run fs = (.ok g, fs')) :
    g = gdbmsPath folder name := by
  have hcm : CanMkdir fs folder name := by
    by_cases hc : CanMkdir fs folder name
    · exact hc
    · rw [create_blocked hc] at hr; simp at hr
  by_cases h1 : fs.get (dbPath folder name) = none
  case neg => rw [create_db_taken hcm h1] at hr; simp at hr
  by_cases h2 : fs.get (idxPath folder name) = none
  case neg => rw [create_idx_taken hcm h1 h2] at hr; simp at hr
  by_cases h3 : fs.get (wnPath folder name) = none
  case neg => rw [create_wn_taken hcm h1 h2 h3] at hr; simp at hr
  rw [create_new hcm h1 h2 h3] at hr
  simp only [Prod.mk.injEq, Except.ok.injEq] at hr
  exact hr.1.symm

theorem createNewDbms_other {folder name : Str} (inputs : List Str) (fs fs' : FS) (g : GPath) (rest : List Str)
    (hd : (folder, name) ∈ fs.dirs) (hf : fs.get (dbPath folder name) ≠ none)
    (h : (createNewDbms folder inputs).run fs = (.ok (some (g, rest)), fs')) : g ≠ gdbmsPath folder name := by
  induction inputs generalizing fs with
  | nil => simp [createNewDbms] at h
  | cons x inputs ih =>
    have keep : ((getNewGdbmsFilePaths x folder).run fs).2.get (dbPath folder name) ≠ none := by
      obtain ⟨t, ht⟩ := Option.isSome_iff_exists.1 (Option.isSome_iff_ne_none.2 hf)
      rw [C56_creation_changes_no_file_run fs folder x _ _ ht]
      simp
    have keepd : (folder, name) ∈ ((getNewGdbmsFilePaths x folder).run fs).2.dirs := by
      by_cases hc : CanMkdir fs folder x
      · have hm := withDir_dirs_mono (f := folder) (d := x) hd
        by_cases h1 : fs.get (dbPath folder x) = none
        · by_cases h2 : fs.get (idxPath folder x) = none
          · by_cases h3 : fs.get (wnPath folder x) = none
            · rw [create_new hc h1 h2 h3]; exact hm
            · rw [create_wn_taken hc h1 h2 h3]; exact hm
          · rw [create_idx_taken hc h1 h2]; exact hm
        · rw [create_db_taken hc h1]; exact hm
      · rw [create_blocked hc]; exact hd
    rw [createNewDbms, run_tryCatch, run_bind] at h
    cases hr : (getNewGdbmsFilePaths x folder).run fs with
    | mk r fs1 =>
      rw [hr] at h keep keepd
      cases r with
      | error e =>
        simp only at h
        split at h
        · exact ih fs1 keepd keep h
        · simp at h
      | ok g1 =>
        simp [pure] at h
        obtain ⟨⟨rfl, rfl⟩, rfl⟩ := h
        have hx := create_path hr
        intro e
        rw [hx] at e
        have : x = name := congrArg (fun g : GPath => g.db.dir) e
        subst this
        rw [create_db_taken (Or.inl hd) hf] at hr
        simp at hr

end WG
