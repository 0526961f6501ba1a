/-
A torn write of the counter, for every MAKE: C01, C02.
-/
import Verif.Props.History
import Verif.Proofs.Durable

set_option linter.unusedSectionVars false
set_option linter.unusedSimpArgs false

namespace WG

/-- The first characters of a number written in decimal: nothing, or the number without its last digits. -/
theorem natStr_take (n m : Nat) : (natStr n).take m = [] ∨ ∃ k, (natStr n).take m = natStr (n / 10 ^ k) := by
  induction n using natStr_induct with
  | case1 n h =>
    cases m with
    | zero => exact .inl rfl
    | succ m =>
      refine .inr ⟨0, ?_⟩
      rw [natStr_eq n, if_pos h]
      simp [natStr_eq n, h]
  | case2 n h ih =>
    by_cases hm : m ≤ (natStr (n / 10)).length
    · have e : (natStr n).take m = (natStr (n / 10)).take m := by
        rw [natStr_eq n, if_neg h, List.take_append_of_le_length hm]
      rw [e]
      rcases ih with ih | ⟨k, ih⟩
      · exact .inl ih
      · refine .inr ⟨k + 1, ?_⟩
        rw [ih, Nat.div_div_eq_div_mul, Nat.pow_succ, Nat.mul_comm 10]
    · refine .inr ⟨0, ?_⟩
      rw [List.take_of_length_le]
      · simp
      · rw [natStr_eq n, if_neg h]
        simp
        omega

/-- Without its last `k` digits. -/
theorem natStr_drop_digits (n k : Nat) (h : n / 10 ^ k ≠ 0) : ∃ m, (natStr n).take m = natStr (n / 10 ^ k) := by
  induction k generalizing n with
  | zero => exact ⟨(natStr n).length, by simp⟩
  | succ k ih =>
    have e : n / 10 ^ (k + 1) = (n / 10) / 10 ^ k := by rw [Nat.div_div_eq_div_mul, Nat.pow_succ, Nat.mul_comm 10]
    rw [e] at h ⊢
    obtain ⟨m, hm⟩ := ih (n / 10) h
    have hn : ¬ n < 10 := by
      intro hn
      rw [Nat.div_eq_of_lt hn, Nat.zero_div] at h
      exact h rfl
    by_cases hl : m ≤ (natStr (n / 10)).length
    · exact ⟨m, by rw [natStr_eq n, if_neg hn, List.take_append_of_le_length hl, hm]⟩
    · refine ⟨(natStr (n / 10)).length, ?_⟩
      rw [natStr_eq n, if_neg hn, List.take_append_of_le_length (Nat.le_refl _), List.take_length, ← hm, List.take_of_length_le]
      omega

section
variable [PyRuntime]

theorem crash_updateCounter_torn {tear : Path → Prop} {p : Path} {n : Int} {fs fs' : FS}
    (h : CrashAt tear (updateWiggleNumber p n) fs fs') :
    fs' = fs ∨ ∃ m, fs' = fs.set p ((intStr n).take m) := by
  unfold updateWiggleNumber at h
  rcases crash_bind h with h | ⟨_, fs1, h1, h2⟩
  · rcases crash_unitOp h with h | h | ⟨_, _, _, _, e, _⟩
    · exact Or.inl h
    · by_cases hd : (p.folder, p.dir) ∈ fs.dirs
      · simp [exec, hd] at h; exact Or.inr ⟨0, h⟩
      · simp [exec, hd] at h; exact Or.inl h
    · cases e
  · have hfs1 : fs1 = fs.set p [] := by
      by_cases hd : (p.folder, p.dir) ∈ fs.dirs
      · rw [run_openW hd] at h1; simp at h1; exact h1.symm
      · rw [run_openW_fail hd] at h1; simp at h1
    subst hfs1
    right
    have full : ∀ s, (exec (.write p 0 s) (fs.set p [])).2 = fs.set p s := by
      intro s
      simp [exec, FS.get_set_self, overlay, FS.set_set]
    rcases crash_bind h2 with h | ⟨_, fs2, h1, h2⟩
    · rcases crash_unitOp h with h | h | ⟨_, _, _, m, e, -, h⟩
      · exact ⟨0, h⟩
      · rw [full] at h; exact ⟨(intStr n).length, by simpa using h⟩
      · injection e with e1 e2 e3
        subst e1 e2 e3
        rw [full] at h
        exact ⟨m, h⟩
    · have := crash_pure h2
      subst this
      rw [run_write (FS.get_set_self _ _ _)] at h1
      simp [overlay, FS.set_set] at h1
      exact ⟨(intStr n).length, by simpa using h1.symm⟩

/-- C02 when any write may be torn: what the counter says after a MAKE that was stopped anywhere, if it says anything.  It is the old number,
or the new one without some of its last digits. -/
theorem C02_torn_exact (env : Env) (pml : List ParsedMake) (g : GPath) (fs fs' : FS) (n : Nat) (n' : Int)
    (hne : g.db ≠ g.wn) (hne' : g.idx ≠ g.wn) (h : CrashAt (fun _ => True) (make env pml g) fs fs')
    (hn : (getCurrentWiggleNumber g.wn).run fs = (.ok (n : Int), fs))
    (hn' : (getCurrentWiggleNumber g.wn).run fs' = (.ok n', fs')) :
    n' = n ∨ ∃ k, n' = (((n + totalSize (patsOf pml)) / 10 ^ k : Nat) : Int) := by
  have same : fs'.get g.wn = fs.get g.wn → n' = n := fun e => (counter_det hn (counter_congr e hn')).symm
  rcases crash_make h with rfl | ⟨m, hm, _, hc⟩
  · exact .inl (same rfl)
  obtain rfl := counter_det hn hm
  rcases crash_commit hc with hc | ⟨fs1, h1, hc⟩
  · exact .inl (same (crash_frame (only_addItem ..) (by simpa using Ne.symm hne) hc))
  have e1 := run_only (only_addItem g.db (dbBatch env n (patsOf pml))) (q := g.wn) (by simpa using Ne.symm hne) fs
  rw [h1] at e1
  rcases hc with hc | ⟨r, fs2, h2, hc⟩
  · exact .inl (same ((crash_frame (only_commitIndexes ..) (by simpa using Ne.symm hne') hc).trans e1))
  have e2 := run_only (only_commitIndexes env n (patsOf pml) g) (q := g.wn) (by simpa using Ne.symm hne') fs1
  rw [h2] at e2
  rcases crash_updateCounter_torn hc with rfl | ⟨m, rfl⟩
  · exact .inl (same (e2.trans e1))
  · have e : intStr ((n : Int) + (totalSize (patsOf pml) : Nat)) = natStr (n + totalSize (patsOf pml)) := by
      rw [← Int.natCast_add]; rfl
    rw [e] at hn'
    rcases natStr_take (n + totalSize (patsOf pml)) m with h | ⟨k, h⟩
    · rw [h, run_getCurrentWiggleNumber (FS.get_set_self _ _ _)] at hn'
      simp at hn'
    · rw [h] at hn'
      refine .inr ⟨k, ?_⟩
      have : natStr ((n + totalSize (patsOf pml)) / 10 ^ k) = intStr (((n + totalSize (patsOf pml)) / 10 ^ k : Nat) : Int) := rfl
      rw [this, run_getCurrentWiggleNumber_int (FS.get_set_self _ _ _)] at hn'
      simpa using hn'.symm

/-- A MAKE gives its first node the number the counter says. -/
theorem batch_first (env : Env) (b : Int) {pats : List ParsedPattern} (h : pats ≠ []) : some b ∈ allNumbers (dbBatch env b pats) := by
  cases pats with
  | nil => exact absurd rfl h
  | cons p ps =>
    unfold dbBatch
    rw [allNumbers_batch, List.mem_map]
    refine ⟨b, List.mem_flatMap.2 ⟨nodeData (nodePre b p.left (leftRels b p)), ?_, ?_⟩, rfl⟩
    · simp [allStored, place, storedNodes]
    · simp [numsOf, nodeData, nodePre]

/-- C01 violated for every MAKE: its write of the counter can be torn so that the counter has lost its last `k` digits while everything else
has been stored.  The next MAKE that succeeds numbers its first node with what is left, a number that was given away before; if an entity has it,
two entities have the same number. -/
theorem C01_torn_counter_reuses {env : Env} {pml : List ParsedMake} {g : GPath} {fs fs' : FS} {d : Dict V} {labels names : List Str}
    {rels : Dict (List Int)} {n : Nat} {r : Bool} (h : Healthy fs g d labels names rels n) (hr : (make env pml g).run fs = (.ok r, fs'))
    (k : Nat) (hk : (n + totalSize (patsOf pml)) / 10 ^ k ≠ 0) :
    ∃ fs'' d', CrashAt (fun p => p = g.wn) (make env pml g) fs fs'' ∧ (∀ p, p ≠ g.wn → fs''.get p = fs'.get p) ∧ Holds fs'' g.db d' ∧
      (getCurrentWiggleNumber g.wn).run fs'' = (.ok (((n + totalSize (patsOf pml)) / 10 ^ k : Nat) : Int), fs'') ∧
      ∀ env' pml' r' fs3, patsOf pml' ≠ [] → (make env' pml' g).run fs'' = (.ok r', fs3) →
        ∃ d3, Holds fs3 g.db d3 ∧ some ((((n + totalSize (patsOf pml)) / 10 ^ k : Nat)) : Int) ∈ allNumbers d3 ∧
          (some ((((n + totalSize (patsOf pml)) / 10 ^ k : Nat)) : Int) ∈ allNumbers d' → ¬ NumbersUnique d3) := by
  obtain ⟨m, hm⟩ := natStr_drop_digits _ k hk
  have hcr := crash_make_torn_counter (tear := fun p => p = g.wn) rfl h.counter hr m
  have e : intStr ((n : Int) + (totalSize (patsOf pml) : Nat)) = natStr (n + totalSize (patsOf pml)) := by
    rw [← Int.natCast_add]; rfl
  rw [e, hm] at hcr
  obtain ⟨-, -, -, -, -, l', n', r', hh, -⟩ := make_success h hr
  have hget : ∀ p, p ≠ g.wn → (fs'.set g.wn (natStr ((n + totalSize (patsOf pml)) / 10 ^ k))).get p = fs'.get p :=
    fun p hp => FS.get_set_ne (Ne.symm hp) _ _
  have hh' : Healthy (fs'.set g.wn (natStr ((n + totalSize (patsOf pml)) / 10 ^ k))) g (d ++ dbBatch env n (patsOf pml)) l' n' r'
      (((n + totalSize (patsOf pml)) / 10 ^ k : Nat) : Int) := by
    obtain ⟨D, ⟨t, h1, h2⟩, h3⟩ := hh.idx
    obtain ⟨t', h4, h5⟩ := hh.db
    have ei : natStr ((n + totalSize (patsOf pml)) / 10 ^ k) = intStr (((n + totalSize (patsOf pml)) / 10 ^ k : Nat) : Int) := rfl
    refine ⟨by rw [hget _ h.db_wn]; exact hh.dbText, ⟨t', by rw [hget _ h.db_wn]; exact h4, h5⟩,
      ⟨D, ⟨t, by rw [hget _ h.idx_wn]; exact h1, h2⟩, h3⟩, ⟨_, FS.get_set_self _ _ _, natStr_ne_nil _, ?_⟩, hh.dir, h.db_idx, h.db_wn, h.idx_wn⟩
    rw [ei, pyInt_intStr]
  refine ⟨_, d ++ dbBatch env n (patsOf pml), hcr, hget, hh'.db, hh'.counter, ?_⟩
  intro env' pml' r' fs3 hne hr3
  obtain ⟨-, -, -, -, -, _, _, _, hh3, -⟩ := make_success hh' hr3
  have hmem := batch_first env' (((n + totalSize (patsOf pml)) / 10 ^ k : Nat) : Int) hne
  refine ⟨_, hh3.db, ?_, fun hd hu => ?_⟩
  · rw [allNumbers_append, List.mem_append]
    exact .inr hmem
  · have := hu.nodup
    rw [allNumbers_append, List.nodup_append] at this
    exact this.2.2 _ hd _ hmem rfl

end

section
attribute [local instance] demoRuntime

/-- Twenty-one entities; the counter keeps only the `2` of `21`, the number of a relationship. -/
example : ∃ fs'' d', CrashAt (fun p => p = demoG.wn) (make demoEnv demoSeven demoG) demoFresh fs'' ∧ Holds fs'' demoG.db d' ∧
    (getCurrentWiggleNumber demoG.wn).run fs'' = (.ok 2, fs'') := by
  have ok : ((make demoEnv demoSeven demoG).run demoFresh).1 = .ok true := by decide +kernel
  have hs : totalSize (patsOf demoSeven) = 21 := by decide +kernel
  obtain ⟨fs'', d', h1, -, h2, h3, -⟩ := C01_torn_counter_reuses (n := 0) demoFresh_healthy (run_of ok) 1 (by rw [hs]; decide)
  refine ⟨fs'', d', h1, h2, ?_⟩
  rw [h3, hs]
  rfl

/-- After the torn write of that counter the number is 0, 21, or 2. -/
example (fs' : FS) (n' : Int) (h : CrashAt (fun _ => True) (make demoEnv demoSeven demoG) demoFresh fs')
    (hn : (getCurrentWiggleNumber demoG.wn).run fs' = (.ok n', fs')) : n' = 0 ∨ n' = 21 ∨ n' = 2 := by
  have hs : totalSize (patsOf demoSeven) = 21 := by decide +kernel
  rcases C02_torn_exact demoEnv demoSeven demoG demoFresh fs' 0 n' (by decide) (by decide) h demoFresh_healthy.counter hn with h | ⟨k, h⟩
  · exact .inl h
  · rw [hs] at h
    match k with
    | 0 => exact .inr (.inl (by simpa using h))
    | 1 => exact .inr (.inr (by simpa using h))
    | k + 2 =>
      have : (0 + 21) / 10 ^ (k + 2) = 0 := by
        refine Nat.div_eq_of_lt ?_
        have := Nat.one_le_pow k 10 (by omega)
        rw [Nat.pow_add]
        omega
      rw [this] at h
      exact .inl h

end

end WG
