/-
Misspelt keywords, and texts without a statement.
-/
import Verif.Proofs.Checks

set_option linter.unusedSectionVars false
set_option linter.unusedSimpArgs false

namespace WG
open Re
variable [PyRuntime]

/-! ### All permutations are listed -/

theorem picks_mem {α : Type} {x : α} {l : List α} (h : x ∈ l) : ∃ l', (x, l') ∈ picks l ∧ l.Perm (x :: l') := by
  induction l with
  | nil => simp at h
  | cons y l ih =>
    rcases List.mem_cons.1 h with rfl | h
    · exact ⟨l, by simp [picks], .refl _⟩
    · obtain ⟨l', h1, h2⟩ := ih h
      refine ⟨y :: l', ?_, (h2.cons y).trans (.swap ..)⟩
      simp only [picks, List.mem_cons, List.mem_map]
      exact .inr ⟨_, h1, rfl⟩

theorem perms_mem {α : Type} {n : Nat} {l m : List α} (hn : m.length = n) (h : l.Perm m) : l ∈ perms n m := by
  induction n generalizing l m with
  | zero =>
    have : m = [] := List.eq_nil_of_length_eq_zero hn
    subst this
    simp [perms, h.eq_nil]
  | succ n ih =>
    cases l with
    | nil =>
      have := h.length_eq
      simp at this
      omega
    | cons x l =>
      obtain ⟨m', h1, h2⟩ := picks_mem (h.subset (List.mem_cons_self ..))
      have h3 : l.Perm m' := (h.trans h2).cons_inv
      have := h2.length_eq
      simp at this
      simp only [perms, List.mem_flatMap, List.mem_map]
      exact ⟨_, h1, l, ih (by simp only; omega) h3, rfl⟩

/-! ### Ways to match, forwards and backwards -/

theorem mem_seq {a b : Re} {s : Str} {m m' : MRes} (h : m ∈ a.run s) (h' : m' ∈ b.run m.2.1) :
    (m.1 ++ m'.1, m'.2.1, m.2.2 ++ m'.2.2) ∈ (Re.seq a b).run s := by
  simp only [run, List.mem_flatMap, List.mem_map]
  exact ⟨m, h, m', h', rfl⟩

theorem mem_seq_inv {a b : Re} {s : Str} {x : MRes} (h : x ∈ (Re.seq a b).run s) :
    ∃ m ∈ a.run s, ∃ m' ∈ b.run m.2.1, x = (m.1 ++ m'.1, m'.2.1, m.2.2 ++ m'.2.2) := by
  simp only [run, List.mem_flatMap, List.mem_map] at h
  obtain ⟨m, h, m', h', e⟩ := h
  exact ⟨m, h, m', h', e.symm⟩

theorem mem_grp {n : Nat} {a : Re} {s : Str} {m : MRes} (h : m ∈ a.run s) :
    (m.1, m.2.1, (n, m.1) :: m.2.2) ∈ (Re.grp n a).run s := by
  simp only [run, List.mem_map]
  exact ⟨m, h, rfl⟩

theorem mem_grp_inv {n : Nat} {a : Re} {s : Str} {x : MRes} (h : x ∈ (Re.grp n a).run s) :
    ∃ m ∈ a.run s, x = (m.1, m.2.1, (n, m.1) :: m.2.2) := by
  simp only [run, List.mem_map] at h
  obtain ⟨m, h, e⟩ := h
  exact ⟨m, h, e.symm⟩

theorem mem_alts {l : List Re} {r : Re} {s : Str} {m : MRes} (hr : r ∈ l) (h : m ∈ r.run s) : m ∈ (alts l).run s := by
  induction l with
  | nil => simp at hr
  | cons a l ih =>
    cases l with
    | nil =>
      simp at hr
      subst hr
      exact h
    | cons b l =>
      simp only [alts, run, List.mem_append]
      rcases List.mem_cons.1 hr with rfl | hr
      · exact .inl h
      · exact .inr (ih hr)

theorem mem_star {p : Char → Bool} {w : Str} (hw : w.all p = true) (s : Str) : (w, s, []) ∈ (Re.star p).run (w ++ s) := by
  simp only [run, List.mem_map]
  refine ⟨(w, s), ?_, rfl⟩
  induction w with
  | nil =>
    cases s with
    | nil => simp [starRuns]
    | cons c cs => rw [List.nil_append, starRuns]; split <;> simp
  | cons c cs ih =>
    simp only [List.all_cons, Bool.and_eq_true] at hw
    simp only [List.cons_append, starRuns, hw.1, if_true, List.mem_append, List.mem_map]
    exact .inl ⟨_, ih hw.2, rfl⟩

theorem mem_star_inv {p : Char → Bool} {s : Str} {x : MRes} (h : x ∈ (Re.star p).run s) :
    x.1 ++ x.2.1 = s ∧ x.1.all p = true ∧ x.2.2 = [] := by
  simp only [run, List.mem_map] at h
  obtain ⟨y, hy, rfl⟩ := h
  have := starRuns_append hy
  exact ⟨this.1, this.2, rfl⟩

theorem mem_cls_inv {p : Char → Bool} {s : Str} {x : MRes} (h : x ∈ (Re.cls p).run s) :
    ∃ c cs, s = c :: cs ∧ p c = true ∧ x = ([c], cs, []) := by
  cases s with
  | nil => simp [run] at h
  | cons c cs =>
    rw [run] at h
    split at h
    · next hp => simp at h; exact ⟨c, cs, rfl, hp, h⟩
    · simp at h

theorem mem_ch_inv {c : Char} {s : Str} {x : MRes} (h : x ∈ (ch c).run s) : ∃ cs, s = c :: cs ∧ x = ([c], cs, []) := by
  obtain ⟨d, cs, h1, h2, h3⟩ := mem_cls_inv h
  have : d = c := by simpa using h2
  subst this
  exact ⟨cs, h1, h3⟩

theorem mem_plus {p : Char → Bool} {w : Str} (hw : w.all p = true) (hne : w ≠ []) (s : Str) :
    (w, s, []) ∈ (plus p).run (w ++ s) := by
  cases w with
  | nil => simp at hne
  | cons c cs =>
    simp only [List.all_cons, Bool.and_eq_true] at hw
    exact mem_seq (hd_cls (cs ++ s) hw.1).mem (mem_star hw.2 s)

theorem mem_plus_inv {p : Char → Bool} {s : Str} {x : MRes} (h : x ∈ (plus p).run s) :
    x.1 ++ x.2.1 = s ∧ x.1.all p = true ∧ x.1 ≠ [] ∧ x.2.2 = [] := by
  obtain ⟨m, h1, m', h2, rfl⟩ := mem_seq_inv h
  obtain ⟨c, cs, rfl, hc, rfl⟩ := mem_cls_inv h1
  obtain ⟨h3, h4, h5⟩ := mem_star_inv h2
  simp only at h3
  refine ⟨by simp [h3], ?_, by simp, by simp [h5]⟩
  simp only [List.cons_append, List.nil_append, List.all_cons, hc, h4, Bool.and_self]

theorem mem_optC_inv {p : Char → Bool} {s : Str} {x : MRes} (h : x ∈ (optC p).run s) :
    (∃ c cs, s = c :: cs ∧ p c = true ∧ x = ([c], cs, [])) ∨ x = ([], s, []) := by
  simp only [optC, run, List.mem_append, List.mem_singleton] at h
  rcases h with h | h
  · exact .inl (mem_cls_inv h)
  · exact .inr h

theorem mem_optC_none {p : Char → Bool} (s : Str) : ([], s, []) ∈ (optC p).run s := by simp [optC, run]

theorem fails_of {r : Re} {s : Str} (h : ∀ m, m ∉ r.run s) : Fails r s := List.eq_nil_iff_forall_not_mem.2 h

theorem not_fails {r : Re} {s : Str} {m : MRes} (h : m ∈ r.run s) : ¬ Fails r s := by
  intro hf
  rw [hf] at h
  simp at h

/-! ### A misspelt keyword is found -/

/-- At most one white-space character. -/
def OneSpace (sp : Str) : Prop := sp = [] ∨ ∃ c, isSpace c = true ∧ sp = [c]

theorem mem_oneSpace {sp : Str} (h : OneSpace sp) (s : Str) : (sp, s, []) ∈ (optC isSpace).run (sp ++ s) := by
  rcases h with rfl | ⟨c, hc, rfl⟩
  · exact mem_optC_none s
  · exact (hd_optC s hc).mem

theorem spelling_found {kw a w sp b : Str} (hw : Misspelt kw w) (hsp : OneSpace sp) :
    (spelling kw).finditer (a ++ (w ++ (sp ++ '(' :: b))) ≠ [] := by
  have h1 : (w, sp ++ '(' :: b, []) ∈ (alts ((perms kw.length kw).map wordCI)).run (w ++ (sp ++ '(' :: b)) :=
    mem_alts (List.mem_map.2 ⟨_, perms_mem rfl hw, rfl⟩) (hd_wordCI (ciSpelling_of rfl) _).mem
  exact finditer_ne_nil (not_fails (mem_seq (mem_optC_none _) (mem_seq (mem_grp h1)
    (mem_seq (mem_oneSpace hsp _) (hd_ch '(' b).mem))))

theorem reportSpelling_found {a w body b : Str} (hw : Misspelt c!"report" w) (hb : body ≠ []) (hn : '\n' ∉ body) :
    reportSpelling.finditer (a ++ (w ++ (body ++ ';' :: b))) ≠ [] := by
  have h1 : (w, body ++ ';' :: b, []) ∈ (alts ((perms 6 c!"report").map wordCI)).run (w ++ (body ++ ';' :: b)) :=
    mem_alts (List.mem_map.2 ⟨_, perms_mem rfl hw, rfl⟩) (hd_wordCI (ciSpelling_of rfl) _).mem
  have h2 : body.all isDot = true := by
    rw [List.all_eq_true]
    intro c hc
    simp only [isDot, bne_iff_ne, ne_eq]
    rintro rfl
    exact hn hc
  exact finditer_ne_nil (not_fails (mem_grp (mem_seq (mem_grp h1) (mem_seq (mem_plus h2 hb _) (hd_ch ';' b).mem))))

/-! ### A match of the clause regex is a statement -/

theorem alt_self_inv {a : Re} {s : Str} {m : MRes} (h : m ∈ (Re.alt a a).run s) : m ∈ a.run s := by
  simpa [run] using h

theorem noNL_of_all {w : Str} (h : w.all isDot = true) : '\n' ∉ w := by
  intro hm
  have := List.all_eq_true.1 h _ hm
  simp [isDot] at this

theorem clauseAll_inv {kw s : Str} {x : MRes} (h : x ∈ (clauseAll kw).run s) :
    ∃ w sp body, s = stmtText w sp body ++ x.2.1 ∧ x.1 = stmtText w sp body ∧ CISpelling kw w ∧
      sp.all isSpace = true ∧ body ≠ [] ∧ '\n' ∉ body := by
  obtain ⟨m0, h0, rfl⟩ := mem_grp_inv h
  obtain ⟨m1, h1, m2, h2, rfl⟩ := mem_seq_inv h0
  obtain ⟨m1, h1', rfl⟩ := mem_grp_inv h1
  have hw := wordCI_mem (alt_self_inv h1')
  have e1 := run_append (alt_self_inv h1')
  obtain ⟨m3, h3, m4, h4, rfl⟩ := mem_seq_inv h2
  obtain ⟨e3, hsp, _⟩ := mem_star_inv h3
  obtain ⟨m5, h5, m6, h6, rfl⟩ := mem_seq_inv h4
  obtain ⟨cs, e5, rfl⟩ := mem_ch_inv h5
  obtain ⟨m7, h7, m8, h8, rfl⟩ := mem_seq_inv h6
  obtain ⟨e7, hd, hne, _⟩ := mem_plus_inv h7
  obtain ⟨m9, h9, m10, h10, rfl⟩ := mem_seq_inv h8
  obtain ⟨cs', e9, rfl⟩ := mem_ch_inv h9
  obtain ⟨cs'', e10, rfl⟩ := mem_ch_inv h10
  simp only at *
  refine ⟨m1.1, m3.1, m7.1, ?_, ?_, hw, hsp, hne, noNL_of_all hd⟩
  · rw [← e1, ← e3, e5, ← e7, e9, e10]
    simp [stmtText]
  · simp [stmtText]

theorem reportAll_inv {s : Str} {x : MRes} (h : x ∈ reportAll.run s) :
    ∃ w body, s = w ++ (body ++ c!";") ++ x.2.1 ∧ x.1 = w ++ (body ++ c!";") ∧ CISpelling c!"report" w ∧
      body ≠ [] ∧ '\n' ∉ body := by
  obtain ⟨m0, h0, rfl⟩ := mem_grp_inv h
  obtain ⟨m1, h1, m2, h2, rfl⟩ := mem_seq_inv h0
  obtain ⟨m1, h1', rfl⟩ := mem_grp_inv h1
  have hw := wordCI_mem (alt_self_inv h1')
  have e1 := run_append (alt_self_inv h1')
  obtain ⟨m7, h7, m8, h8, rfl⟩ := mem_seq_inv h2
  obtain ⟨e7, hd, hne, _⟩ := mem_plus_inv h7
  obtain ⟨cs', e9, rfl⟩ := mem_ch_inv h8
  simp only at *
  refine ⟨m1.1, m7.1, ?_, ?_, hw, hne, noNL_of_all hd⟩
  · rw [← e1, ← e7, e9]
    simp
  · simp

theorem noStatement_nil {kw q : Str} (h : NoStatement kw q) : (clauseAll kw).finditer q = [] := by
  rw [finditer_nil_iff]
  rintro pre post rfl
  refine fails_of fun m hm => ?_
  obtain ⟨w, sp, body, e, _, h1, h2, h3, h4⟩ := clauseAll_inv hm
  exact h pre w sp body m.2.1 (by rw [e]; simp) h1 h2 h3 h4

theorem noReport_nil {q : Str} (h : NoReport q) : reportAll.finditer q = [] := by
  rw [finditer_nil_iff]
  rintro pre post rfl
  refine fails_of fun m hm => ?_
  obtain ⟨w, body, e, _, h1, h3, h4⟩ := reportAll_inv hm
  exact h pre w body m.2.1 (by rw [e]; simp) h1 h3 h4

/-- Everything `finditer` returns for a clause is a statement of the query. -/
theorem clauseAll_sound {kw q : Str} {x : Str × Caps} (h : x ∈ (clauseAll kw).finditer q) :
    ∃ w sp body, x.1 = stmtText w sp body ∧ CISpelling kw w ∧ sp.all isSpace = true ∧ body ≠ [] ∧ '\n' ∉ body := by
  obtain ⟨pre, post, _, h2⟩ := finditer_sound h
  obtain ⟨w, sp, body, _, e, h1, h2, h3, h4⟩ := clauseAll_inv h2
  exact ⟨w, sp, body, e, h1, h2, h3, h4⟩

end WG
