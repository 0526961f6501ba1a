/-
Whatever lines are typed, run after run: C71, C76, C85.
-/
import Verif.Spec.Total
import Verif.Props.Ruined
import Verif.Props.Actual

set_option linter.unusedSectionVars false
set_option linter.unusedSimpArgs false

namespace WG

section
variable [PyRuntime]

theorem held_onFiles : OnFiles HeldBy where
  files := by
    intro fs g s h
    cases s with
    | whole cs => exact Stock.files h
    | lost cs l =>
      obtain ⟨d, x, -, -, -, ⟨t, h1, -⟩, ⟨t', h2, -⟩, t'', h3, -⟩ := h
      simp [h1, h2, h3]
  frame := by
    intro fs fs' g s h h1 h2 h3 hd
    cases s with
    | whole cs => exact stock_frame h h1 h2 h3 hd
    | lost cs l =>
      obtain ⟨d, x, k1, k2, k3, k4, k5, k6⟩ := h
      refine ⟨d, x, k1, k2, k3, ?_, ?_, by rw [h3]; exact k6⟩
      · unfold Holds at k4 ⊢
        rw [h1]
        exact k4
      · unfold Unreadable at k5 ⊢
        rw [h2]
        exact k5

theorem held_new {fs : FS} {g : GPath} (h : Healthy fs g [] [] [] [] 0) : HeldBy fs g (.whole []) :=
  ⟨[], [], [], [], h, below_nil 0, rfl, by simp, by simp, by simp⟩

theorem lost_counter {p : Path} {fs : FS} {n : Int} (h : ∃ t, fs.get p = some t ∧ t ≠ [] ∧ pyInt t = some n) :
    (getCurrentWiggleNumber p).run fs = (.ok n, fs) := by
  obtain ⟨t, h1, h2, h3⟩ := h
  rw [run_getCurrentWiggleNumber h1, h3]
  simp [h2]

theorem said_not_q {t : Said} (ht : t.OK) : t.text ≠ c!"q" := by
  cases t with
  | line x => exact line_not_q ht.loose ht.quit
  | other s => exact ht.1

/-- One text. -/
theorem said_step {t : Said} (ht : t.OK) (env : Env) {g : GPath} {fs : FS} {o : Held} (h : HeldBy fs g o) :
    ∃ ev o' fs', (shellLoop env g [t.text]).run fs = (.ok [ev], fs') ∧ SaidDoes o t ev o' ∧ HeldBy fs' g o' := by
  cases t with
  | line x =>
    cases o with
    | whole cs =>
      obtain ⟨d, labels, names, rels, hh, hb, ha, hi⟩ := h
      by_cases hr : TypedRuins x
      · obtain ⟨fs', loga, logb, cs', new, lost, h1, h2, h3, h4, h5, h6, h7, h8, -⟩ :=
          C85_ruined_session (a := []) (b := []) (by simp) ht hr (by simp) env g fs d labels names rels _ hh hb
        cases h2
        cases h3
        obtain rfl : new = [] := h4
        obtain ⟨f, hf, hru, -⟩ := (C85_line_outcome ht.loose ht.tail env g fs d labels names rels _ hh hb).2 hr.accepted
        obtain ⟨fs2, lost', k1, -, -, -, k5⟩ := hru ⟨hr.make, hr.rel⟩
        obtain ⟨ev, log', fs3, e1, e2, -⟩ := C54_input_is_executed_partial env g x.text [] fs (line_not_q ht.loose ht.quit) hr.help
        have e1' := e1.symm.trans h1
        rw [k1] at e2
        simp only [shellLoop, Prog.run, pure, Prod.mk.injEq, Except.ok.injEq] at e2
        simp only [Prod.mk.injEq] at e1'
        obtain rfl : fs2 = fs' := e2.2.trans e1'.2
        refine ⟨_, _, fs2, h1, .ruin hr, d, lost, ha, by simp only [sizeOfAll, List.map_nil, List.sum_nil, Int.natCast_zero, Int.add_zero] at h5 ⊢; exact h5, rowChains_ne hr.make, by simpa using h6, h8, ?_⟩
        rw [k5 _ (Ne.symm hh.db_wn) (Ne.symm hh.idx_wn)]
        exact hh.wn
      · obtain ⟨fs', log, cs', new, l', n', r', h1, h2, h3, h4, h5, h6, -⟩ :=
          C85_line_session (ls := [x]) (by simpa using ⟨ht, hr⟩) env g fs d labels names rels _ hh hb
        cases h2 with
        | @cons _ ev c _ _ _ h2 hs =>
          cases hs
          have es : (sizeOfAll cs : Int) + sizeOfAll (c ++ []) = (sizeOfAll (cs ++ c) : Int) := by
            rw [List.append_nil, sizeOfAll_append]; omega
          rw [es] at h3 h4
          rw [List.append_nil] at h5 h6
          exact ⟨ev, _, fs', h1, .line h2 hr, d ++ new, l', n', r', h3, h4, records_append ha (by rw [Int.zero_add]; exact h5), indexed_trans hi h6⟩
    | lost cs l =>
      have h' := h
      obtain ⟨d, y, k1, k2, k3, k4, k5, k6⟩ := h
      obtain ⟨log, h1, h2⟩ := session_stuck (ls := [x]) (fun _ h => List.mem_singleton.1 h ▸ ht) env g fs (d ++ y) (sizeOfAll cs) k4 (lost_counter k6)
        (by rw [keys, List.map_append, List.mem_append]; exact .inr (first_actual k2 k3)) k5
      cases h2 with
      | cons h2 hs =>
        cases hs
        exact ⟨_, _, fs, h1, .stuck h2, h'⟩
  | other s =>
    by_cases hh : AsksHelp s
    · refine ⟨.help, o, fs, ?_, .help hh, h⟩
      rw [Said.text, shellLoop, if_neg ht.1, if_pos ((isSubstr_iff _ _).2 hh)]
      rfl
    · obtain ⟨ev, log', fs3, e1, e2, e3⟩ := C54_input_is_executed_partial env g s [] fs ht.1 hh
      rcases query_cases env s g fs with ⟨ms, hm, -⟩ | ⟨-, h6⟩
      · exact absurd hm (ht.2.resolve_left hh ms)
      · rw [h6] at e2
        simp only [shellLoop, Prog.run, pure, Prod.mk.injEq, Except.ok.injEq] at e2
        obtain ⟨rfl, rfl⟩ := e2
        exact ⟨ev, o, fs, e1, .other hh (e3.imp And.left fun ⟨e, h, _⟩ => ⟨e, h⟩), h⟩

/-- A whole session. -/
theorem said_session {ts : List Said} (ht : ∀ t ∈ ts, t.OK) (env : Env) {g : GPath} {fs : FS} {o : Held} (h : HeldBy fs g o) :
    ∃ log o' fs', (shellLoop env g (ts.map Said.text)).run fs = (.ok log, fs') ∧ SaidDo o ts log o' ∧ HeldBy fs' g o' := by
  induction ts generalizing fs o with
  | nil => exact ⟨[], o, fs, rfl, .nil, h⟩
  | cons t ts ih =>
    obtain ⟨ev, o1, fs1, h1, h2, h3⟩ := said_step (ht t (by simp)) env h
    obtain ⟨log, o2, fs2, h4, h5, h6⟩ := ih (fun t' h' => ht t' (List.mem_cons_of_mem _ h')) h3
    exact ⟨ev :: log, o2, fs2, shellLoop_append (a := [t.text]) (by simpa using said_not_q (ht t (by simp))) h1 h4, .cons h2 h5, h6⟩

/-- C76, C85: one run, whatever lines are typed and whatever the GDBMSs hold, ruined or not.  It ends without an exception; the GDBMS that
was chosen holds what the lines make of it, and all others what they held. -/
theorem C76_any_run (env : Env) (v : Visit) (hv : ∀ t ∈ v.said, t.OK) (w : Shelf Held) (fs : FS) (h : KeepsAs HeldBy fs w)
    (hf : v.New w.names ∨ ∃ name ∈ w.names, v.Old w.names name) :
    ∃ log fs' w', (startWiggleShell env v.inputs).run fs = (.ok (some log), fs') ∧ v.Leads w log w' ∧ KeepsAs HeldBy fs' w' := by
  have key : ∀ (a b : Shelf Held) (name : Str) (o : Held) (fs1 : FS), KeepsAs HeldBy fs1 (a ++ (name, o) :: b) →
      (selectGdbms v.inputs).run fs = (.ok (some (gdbmsPath DBMS_FOLDER name, v.said.map Said.text ++ if v.quits then [c!"q"] else [])), fs1) →
      ∃ log o' fs', (startWiggleShell env v.inputs).run fs = (.ok (some (log ++ v.ending)), fs') ∧ SaidDo o v.said log o' ∧
        KeepsAs HeldBy fs' (a ++ (name, o') :: b) := by
    intro a b name o fs1 hk hs
    obtain ⟨log, o', fs', h1, h2, h3⟩ := said_session hv env (hk.stock (name, o) (by simp))
    have hend : (shellLoop env (gdbmsPath DBMS_FOLDER name) (if v.quits then [c!"q"] else [])).run fs' = (.ok v.ending, fs') := by
      unfold Visit.ending
      cases v.quits <;> rfl
    have hall := shellLoop_append (fun q hq => by
      obtain ⟨t, ht, rfl⟩ := List.mem_map.1 hq
      exact said_not_q (hv t ht)) h1 hend
    refine ⟨log, o', fs', ?_, h2, session_keeps held_onFiles hk (by rw [hall]) h3⟩
    unfold startWiggleShell
    rw [run_bind_ok hs]
    simp only
    rw [run_bind_ok hall]
    rfl
  rcases hf with hn | ⟨name, hm, ho⟩
  · have h1 := new_keeps held_onFiles held_new h hn.fresh hn.shown
    obtain ⟨log, o', fs', k1, k2, k3⟩ := key w [] v.pick (.whole []) _ h1
      (selects_new held_onFiles h (hn.answer.imp_right fun e => List.map_eq_nil_iff.1 e) hn.tries hn.fresh hn.shown)
    exact ⟨_, fs', _, k1, .new hn k2, k3⟩
  · obtain ⟨⟨name, o⟩, hx, rfl⟩ := List.mem_map.1 hm
    obtain ⟨a, b, rfl⟩ := List.append_of_mem hx
    obtain ⟨log, o', fs', k1, k2, k3⟩ := key a b name o fs h (by
      show (selectGdbms (v.answer :: _)).run fs = _
      rw [selectGdbms, if_pos (by simpa using ho.answer), ho.pick]
      exact select_old held_onFiles h (x := (name, o)) (by simp) (by simpa [Shelf.names] using ho.tries) ho.letter)
    exact ⟨_, fs', _, k1, .old ho k2, k3⟩

/-- C76, C85: any number of runs.  `VisitsLead` says for each what is answered and what every GDBMS holds in the end. -/
theorem C76_any_runs (vs : List (Env × Visit)) (hv : ∀ v ∈ vs, ∀ t ∈ v.2.said, t.OK) (w : Shelf Held) (fs : FS) (h : KeepsAs HeldBy fs w)
    (hf : Fit w.names vs) :
    ∃ logs fs' w', visitAll vs fs = (logs.map fun log => .ok (some log), fs') ∧ VisitsLead w vs logs w' ∧ KeepsAs HeldBy fs' w' := by
  induction vs generalizing w fs with
  | nil => exact ⟨[], fs, w, rfl, .nil, h⟩
  | cons v vs ih =>
    have ih := @ih fun v' h' => hv v' (List.mem_cons_of_mem _ h')
    have hc : v.2.New w.names ∨ ∃ name ∈ w.names, v.2.Old w.names name := by
      cases hf with
      | new h _ => exact .inl h
      | old hn h _ => exact .inr ⟨_, hn, h⟩
    obtain ⟨log, fs1, w1, h1, h2, h3⟩ := C76_any_run v.1 v.2 (hv v (by simp)) w fs h hc
    have hf1 : Fit w1.names vs := by
      have hex : ∀ {name}, v.2.New w.names → v.2.Old w.names name → name ∈ w.names → False := by
        intro name hn ho hm
        rcases hn.answer with h | h
        · exact h ho.answer
        · rw [h] at hm
          simp at hm
      cases h2 with
      | new hn _ =>
        cases hf with
        | new _ hs => simpa [Shelf.names] using hs
        | old hm ho _ => exact (hex hn ho hm).elim
      | old ho _ =>
        cases hf with
        | new hn _ => exact (hex hn ho (by simp [Shelf.names])).elim
        | old _ _ hs => simpa [Shelf.names] using hs
    obtain ⟨logs, fs2, w2, k1, k2, k3⟩ := ih w1 fs1 h3 hf1
    exact ⟨log :: logs, fs2, w2, by simp [visitAll, h1, k1], .cons h2 k2, k3⟩

/-! ### What the description says -/

/-- Only what is said decides what is held then. -/
theorem does_unique {o o1 o2 : Held} {t : Said} {ev1 ev2 : Event} (h1 : SaidDoes o t ev1 o1) (h2 : SaidDoes o t ev2 o2) : o1 = o2 := by
  have typed : ∀ {x : TypedLine} {e1 e2 c1 c2}, TypedDoes x e1 c1 → TypedDoes x e2 c2 → c1 = c2 := by
    intro x e1 e2 c1 c2 h1 h2
    cases h1 <;> cases h2 <;> first | rfl | exact absurd ‹AsksHelp _› ‹¬ AsksHelp _› | exact absurd ‹TypedLine.Refused _› ‹¬ TypedLine.Refused _›
  cases h1 with
  | line h hf =>
    cases h2 with
    | line h' hf' => rw [typed h h']
    | ruin h' => exact absurd h' hf
  | ruin h =>
    cases h2 with
    | line h' hf' => exact absurd h hf'
    | ruin h' => rfl
  | stuck h => cases h2; rfl
  | help h => cases h2 <;> rfl
  | other h hev => cases h2 <;> rfl

theorem do_unique {o o1 o2 : Held} {ts : List Said} {l1 l2 : List Event} (h1 : SaidDo o ts l1 o1) (h2 : SaidDo o ts l2 o2) : o1 = o2 := by
  induction h1 generalizing l2 with
  | nil => cases h2; rfl
  | cons h hs ih =>
    cases h2 with
    | cons h' hs' =>
      cases does_unique h h'
      exact ih hs'

theorem grows_refl (o : Held) : o.Grows o := by
  cases o <;> simp [Held.Grows]

theorem grows_trans {o1 o2 o3 : Held} (h1 : o1.Grows o2) (h2 : o2.Grows o3) : o1.Grows o3 := by
  cases o1 <;> cases o2 <;> cases o3 <;> simp [Held.Grows] at h1 h2 ⊢
  all_goals first | exact h1.trans h2 | (obtain ⟨rfl, rfl⟩ := h2; first | exact h1 | exact ⟨h1.1, h1.2⟩)

theorem do_grows {o o' : Held} {ts : List Said} {log : List Event} (h : SaidDo o ts log o') : o.Grows o' := by
  induction h with
  | nil => exact grows_refl _
  | cons h hs ih =>
    refine grows_trans ?_ ih
    cases h <;> first | exact grows_refl _ | simp [Held.Grows]

theorem leads_grows {v : Visit} {w w' : Shelf Held} {log : List Event} (h : v.Leads w log w') {x : Str × Held} (hx : x ∈ w) :
    ∃ o, (x.1, o) ∈ w' ∧ x.2.Grows o := by
  cases h with
  | new h hd => exact ⟨x.2, List.mem_append_left _ hx, grows_refl _⟩
  | @old a b name o o' _ h hd =>
    rcases List.mem_append.1 hx with hx | hx
    · exact ⟨x.2, List.mem_append_left _ hx, grows_refl _⟩
    · rcases List.mem_cons.1 hx with rfl | hx
      · exact ⟨o', by simp, do_grows hd⟩
      · exact ⟨x.2, by simp [hx], grows_refl _⟩

/-- C76: whatever is typed in any number of runs, no GDBMS disappears and none loses a pattern. -/
theorem C76_nothing_lost {vs : List (Env × Visit)} {logs : List (List Event)} {w w' : Shelf Held} (h : VisitsLead w vs logs w')
    {x : Str × Held} (hx : x ∈ w) : ∃ o, (x.1, o) ∈ w' ∧ x.2.Grows o := by
  induction h generalizing x with
  | nil => exact ⟨x.2, hx, grows_refl _⟩
  | cons h hs ih =>
    obtain ⟨o, h1, h2⟩ := leads_grows h hx
    obtain ⟨o', h3, h4⟩ := ih h1
    exact ⟨o', h3, grows_trans h2 h4⟩

/-- C69: a GDBMS whose index was ruined holds the same for ever. -/
theorem C69_lost_forever {vs : List (Env × Visit)} {logs : List (List Event)} {w w' : Shelf Held} (h : VisitsLead w vs logs w')
    {name : Str} {cs l : List ChainText} (hx : (name, .lost cs l) ∈ w) : (name, .lost cs l) ∈ w' := by
  obtain ⟨o, h1, h2⟩ := C76_nothing_lost h hx
  cases (h2 : o = _)
  exact h1

theorem letter_inj {names : List Str} {a b : Str} (ha : a ∈ names) (hb : b ∈ names) (h : names.countP (· < a) = names.countP (· < b)) :
    a = b := by
  have lt : ∀ {a b : Str}, a ∈ names → a < b → names.countP (· < a) < names.countP (· < b) := by
    intro a b ha hab
    clear h
    have mono : ∀ l : List Str, l.countP (· < a) ≤ l.countP (· < b) := fun l =>
      List.countP_mono_left fun x _ hx => by
        simp only [decide_eq_true_eq] at hx ⊢
        exact List.lt_trans hx hab
    obtain ⟨p, q, rfl⟩ := List.append_of_mem ha
    have h1 := mono p
    have h2 := mono q
    simp only [List.countP_append, List.countP_cons, List.lt_irrefl, decide_false, hab, decide_true, if_true]
    simp
    omega
  rcases Classical.em (a < b) with h1 | h1
  · exact absurd h (Nat.ne_of_lt (lt ha h1))
  · rcases Classical.em (b < a) with h2 | h2
    · exact absurd h.symm (Nat.ne_of_lt (lt hb h2))
    · exact List.le_antisymm (List.not_lt.1 h2) (List.not_lt.1 h1)

theorem split_unique {a a' b b' : Shelf Held} {n : Str} {o o' : Held} (hn : (Shelf.names (a ++ (n, o) :: b)).Nodup)
    (h : a ++ (n, o) :: b = a' ++ (n, o') :: b') : a = a' ∧ o = o' ∧ b = b' := by
  induction a generalizing a' with
  | nil =>
    cases a' with
    | nil => simpa using h
    | cons x a' =>
      simp only [List.nil_append, List.cons_append, List.cons.injEq] at h
      obtain ⟨rfl, rfl⟩ := h
      simp [Shelf.names] at hn
  | cons x a ih =>
    cases a' with
    | nil =>
      simp only [List.nil_append, List.cons_append, List.cons.injEq] at h
      obtain ⟨rfl, rfl⟩ := h
      simp [Shelf.names] at hn
    | cons y a' =>
      simp only [List.cons_append, List.cons.injEq] at h
      obtain ⟨rfl, h⟩ := h
      obtain ⟨rfl, h'⟩ := ih (by simp [Shelf.names] at hn ⊢; exact hn.2) h
      exact ⟨rfl, h'⟩

theorem leads_unique {v : Visit} {w w1 w2 : Shelf Held} {l1 l2 : List Event} (hn : w.names.Nodup) (h1 : v.Leads w l1 w1) (h2 : v.Leads w l2 w2) :
    w1 = w2 := by
  have letters : ∀ i < 26, ∀ j < 26, Char.ofNat (65 + i) = Char.ofNat (65 + j) → i = j := by decide
  have hex : ∀ {name}, v.New w.names → v.Old w.names name → name ∈ w.names → False := by
    intro name hn ho hm
    rcases hn.answer with h | h
    · exact h ho.answer
    · rw [h] at hm
      simp at hm
  cases h1 with
  | new h hd =>
    cases h2 with
    | new h' hd' => rw [do_unique hd hd']
    | old h' hd' => exact (hex h h' (by simp [Shelf.names])).elim
  | @old a b n o o1 _ h hd =>
    generalize hw : a ++ (n, o) :: b = w' at *
    cases h2 with
    | new h' hd' => exact (hex h' h (by rw [← hw]; simp [Shelf.names])).elim
    | @old a' b' n' o' o2 _ h' hd' =>
      have hnn : n = n' := letter_inj (names := Shelf.names (a' ++ (n', o') :: b')) (by rw [← hw]; simp [Shelf.names]) (by simp [Shelf.names]) (by
        have := h.pick.symm.trans h'.pick
        simp only [menuLetter, List.cons.injEq, and_true] at this
        exact letters _ h.letter _ h'.letter this)
      subst hnn
      obtain ⟨rfl, rfl, rfl⟩ := split_unique (by rw [hw]; exact hn) hw
      rw [do_unique hd hd']

/-- C76: the description leaves no choice: what the GDBMSs hold after some runs depends only on what they held before and on what is typed. -/
theorem C76_determined {vs : List (Env × Visit)} {l1 l2 : List (List Event)} {w w1 w2 : Shelf Held} (hn : w.names.Nodup)
    (h1 : VisitsLead w vs l1 w1) (h2 : VisitsLead w vs l2 w2) : w1 = w2 := by
  induction h1 generalizing l2 with
  | nil => cases h2; rfl
  | cons h hs ih =>
    cases h2 with
    | cons h' hs' =>
      cases leads_unique hn h h'
      refine ih ?_ hs'
      cases h with
      | new h _ =>
        simp only [Shelf.names, List.map_append, List.map_cons, List.map_nil, List.nodup_append, List.nodup_cons, List.not_mem_nil,
          not_false_eq_true, List.nodup_nil, and_self, List.mem_singleton, forall_eq, true_and]
        exact ⟨hn, fun a ha e => h.fresh (e ▸ ha)⟩
      | old h _ => simpa [Shelf.names] using hn

end

section
attribute [local instance] demoRuntime

/-- C76: in the first run the third line ruins the index of `zoo`; in the second a new GDBMS is made, after the name `zoo` was refused; in
the third `zoo` is chosen again, and the program is left without "q".  `zoo` stays ruined and the other GDBMS holds its patterns. -/
def ruinRuns : List (Env × Visit) :=
  [(demoEnv, ⟨c!"n", [], c!"zoo", [.line tLine, .other c!"hello", .line tAlone, .line tLine], true⟩),
   (demoEnv, ⟨c!"n", [c!"zoo"], c!"ark", [.line tLine, .line tLine], true⟩),
   (demoEnv, ⟨c!"y", [c!"C", c!"zoo"], c!"B", [.line tLine, .line tAlone], false⟩)]

theorem bareDisk_held : KeepsAs HeldBy bareDisk [] :=
  ⟨by decide, by decide, by decide, fun x => by simp [Shelf.names, bareDisk], fun x _ _ => ⟨.inr (by simp [bareDisk]), rfl, rfl, rfl⟩,
    by simp⟩

theorem ruinRuns_ok : ∀ v ∈ ruinRuns, ∀ t ∈ v.2.said, t.OK := by
  have h1 : (Said.line tLine).OK := tLine_fair.toTypedWritten
  have h2 : (Said.line tAlone).OK := tAlone_written
  have h3 : (Said.other c!"hello").OK := ⟨by decide, .inr (not_makes (by decide +kernel))⟩
  simp only [ruinRuns, List.mem_cons, List.not_mem_nil, or_false, forall_eq_or_imp, forall_eq]
  exact ⟨⟨h1, h3, h2, h1⟩, ⟨h1, h1⟩, h1, h2⟩

theorem ruinRuns_fit : Fit [] ruinRuns :=
  .new ⟨.inl (by decide), by simp, by simp, by decide⟩ (.new ⟨.inl (by decide), by simp, by decide, by decide⟩
    (.old (name := c!"zoo") (by decide) ⟨by decide, by
      simp only [List.mem_cons, List.not_mem_nil, or_false, forall_eq_or_imp, forall_eq]
      exact ⟨by decide, fun i _ _ => by simp [menuLetter]⟩, by decide, by decide⟩ .nil))

example : ∃ logs fs' w' cs, visitAll ruinRuns bareDisk = (List.map (fun log => .ok (some log)) logs, fs') ∧ VisitsLead [] ruinRuns logs w' ∧
    KeepsAs HeldBy fs' w' ∧ (c!"zoo", .lost cs [aOne.first]) ∈ w' := by
  obtain ⟨logs, fs', w', h1, h2, h3⟩ := C76_any_runs ruinRuns ruinRuns_ok [] bareDisk bareDisk_held ruinRuns_fit
  have h2' := h2
  unfold ruinRuns at h2
  generalize hw : ([] : Shelf Held) = w0 at h2
  cases h2 with
  | cons h hs =>
    cases h with
    | old => simp at hw
    | new h hd =>
      subst hw
      cases hd with
      | cons d1 hd =>
        cases d1 with
        | ruin h => exact absurd h tLine_fair.fair
        | @line _ _ _ c _ _ =>
          cases hd with
          | cons d2 hd =>
            have e2 : ∀ {t ev o'}, SaidDoes (.whole ([] ++ c)) (.other t) ev o' → o' = .whole ([] ++ c) := fun h => by cases h <;> rfl
            cases e2 d2
            cases hd with
            | cons d3 hd =>
              cases d3 with
              | line _ hf => exact absurd tAlone_ruins hf
              | ruin _ =>
                have := do_grows hd
                exact ⟨_, fs', w', [] ++ c, h1, h2', h3, C69_lost_forever hs (by
                  rw [show _ = Held.lost _ _ from this]
                  simp [tAlone, fromMake, rowChains, StmtText.chains, aOne])⟩

end

end WG
