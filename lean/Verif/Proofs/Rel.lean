/-
What the pattern regex captures, and what the direction check sees of it.
-/
import Verif.Proofs.Chain
import Verif.Spec.Make

set_option linter.unusedSectionVars false
set_option linter.unusedSimpArgs false

namespace WG
open Re
variable [PyRuntime]

/-! ### Any match of the relationship group -/

theorem notHead_dash_after (t : Str) : ∃ d r, t = d ++ r ∧ d.all (· == '-') = true ∧ NotHead (· == '-') r :=
  ⟨_, _, (List.takeWhile_append_dropWhile (p := (· == '-')) (l := t)).symm, all_takeWhile _ t, notHead_dropWhile _ t⟩

theorem gt_after (t : Str) : ∃ g r, t = g ++ r ∧ (g = [] ∨ g = ['>']) ∧ (g = [] → NotHead (· == '>') r) := by
  cases t with
  | nil => exact ⟨[], [], rfl, .inl rfl, fun _ => notHead_nil _⟩
  | cons c cs =>
    by_cases h : c = '>'
    · subst h
      exact ⟨['>'], cs, rfl, .inr rfl, by simp⟩
    · exact ⟨[], c :: cs, rfl, .inl rfl, fun _ => notHead_cons (by simpa using h)⟩

/-- A text that starts with an opened relationship, its content, a bracket and a dash is a relationship. -/
theorem relAt_of_prefix {s lt d1 C t : Str} (e : s = lt ++ (d1 ++ '[' :: (C ++ ']' :: '-' :: t)))
    (hlt : lt = [] ∨ lt = ['<']) (h1 : d1.all (· == '-') = true) (h1' : d1 ≠ []) (hC : C.all isParamChar = true) :
    ∃ d2 gt sp rest, RelAt s lt d1 C d2 gt sp rest := by
  obtain ⟨d, r, ed, hd, hr⟩ := notHead_dash_after t
  obtain ⟨g, r', eg, hg, hg'⟩ := gt_after r
  refine ⟨'-' :: d, g, r'.takeWhile isSpace, r'.dropWhile isSpace, ?_⟩
  have er : r'.takeWhile isSpace ++ r'.dropWhile isSpace = r' := List.takeWhile_append_dropWhile
  exact
  { eq := by rw [er, ← eg, e, ed]; simp
    hlt := hlt, hd1 := h1, hd1' := h1', hC := hC
    hd2 := by simpa using hd
    hd2' := by simp
    hgt := hg
    stop1 := by rw [er, ← eg]; exact hr
    stop2 := by rw [er]; exact hg'
    hsp := all_takeWhile _ _
    stop3 := notHead_dropWhile _ _ }

theorem relAt_of_mem {i : Nat} {s : Str} {m : MRes} (h : m ∈ (relGrp i).run s) :
    ∃ lt d1 C d2 gt sp rest, RelAt s lt d1 C d2 gt sp rest := by
  obtain ⟨m0, k, rfl⟩ := mem_grp_inv h
  obtain ⟨a1, h1, x1, k10, -⟩ := mem_seq_inv k
  obtain ⟨a2, h2, x2, k20, -⟩ := mem_seq_inv k10
  obtain ⟨a3, h3, x3, k30, -⟩ := mem_seq_inv k20
  obtain ⟨a4, h4, x4, k40, -⟩ := mem_seq_inv k30
  obtain ⟨a5, h5, x5, k50, -⟩ := mem_seq_inv k40
  obtain ⟨a6, h6, x6, k60, -⟩ := mem_seq_inv k50
  obtain ⟨a7, h7, x7, k70, -⟩ := mem_seq_inv k60
  obtain ⟨a8, h8, x8, k80, -⟩ := mem_seq_inv k70
  obtain ⟨a9, h9, x9, k90, -⟩ := mem_seq_inv k80
  obtain ⟨b1, h10, y1, k100, -⟩ := mem_seq_inv k90
  obtain ⟨b2, h11, y2, k110, -⟩ := mem_seq_inv k100
  obtain ⟨b3, h12, y3, k120, -⟩ := mem_seq_inv k110
  obtain ⟨b4, h13, y4, k130, -⟩ := mem_seq_inv k120
  obtain ⟨b5, h14, y5, k140, -⟩ := mem_seq_inv k130
  obtain ⟨e2, p2, n2, -⟩ := mem_plus_inv h2
  obtain ⟨cs3, e3, rfl⟩ := mem_ch_inv h3
  obtain ⟨e4, p4, -⟩ := mem_star_inv h4
  obtain ⟨m5, k5, rfl⟩ := mem_grp_inv h5
  obtain ⟨e5, p5, -⟩ := mem_star_inv k5
  obtain ⟨e6, p6, -⟩ := mem_star_inv h6
  obtain ⟨e8, p8, -⟩ := mem_star_inv h8
  obtain ⟨m9, k9, rfl⟩ := mem_grp_inv h9
  obtain ⟨e9, p9, -⟩ := mem_star_inv k9
  obtain ⟨e10, p10, -⟩ := mem_star_inv h10
  obtain ⟨e12, p12, -⟩ := mem_star_inv h12
  obtain ⟨cs13, e13, rfl⟩ := mem_ch_inv h13
  obtain ⟨e14, p14, n14, -⟩ := mem_plus_inv h14
  have e1 := run_append h1
  have e7 := run_append h7
  have e11 := run_append h11
  have p7 : a7.1.all isParamChar = true := by
    rcases mem_optC_inv h7 with ⟨c, cs, _, hc, rfl⟩ | rfl
    · simp only [beq_iff_eq] at hc
      subst hc
      simp [isParamChar]
    · rfl
  have p11 : b2.1.all isParamChar = true := by
    simp only [run, List.mem_append, List.mem_singleton] at h11
    rcases h11 with h11 | rfl
    · obtain ⟨m11, k11, rfl⟩ := mem_grp_inv h11
      exact (mem_plus_inv k11).2.1
    · rfl
  obtain ⟨d', ed⟩ := dash_head (s := b5.2.1) p14 n14
  refine (fun ⟨d2, gt, sp, rest, h⟩ => ⟨a1.1, a2.1, a4.1 ++ (m5.1 ++ (a6.1 ++ (a7.1 ++ (a8.1 ++ (m9.1 ++ (b1.1 ++ (b2.1 ++ b3.1))))))),
    d2, gt, sp, rest, h⟩) (relAt_of_prefix (t := d' ++ b5.2.1) ?_ ?_ p2 n2 ?_)
  · simp only at *
    rw [← e1, ← e2, e3, ← e4, ← e5, ← e6, ← e7, ← e8, ← e9, ← e10, ← e11, ← e12, e13, ← e14, ed]
    simp
  · rcases mem_optC_inv h1 with ⟨c, cs, _, hc, rfl⟩ | rfl
    · simp only [beq_iff_eq] at hc
      subst hc
      exact .inr rfl
    · exact .inl rfl
  · have w := fun {s : Str} (h : s.all isWord = true) => all_mono (fun c => word_param) h
    have q := fun {s : Str} (h : s.all isSpace = true) => all_mono (fun c => space_param) h
    simp only [List.all_append, Bool.and_eq_true]
    exact ⟨q p4, w p5, q p6, p7, q p8, w p9, q p10, p11, q p12⟩

/-! ### Matches of the pattern regex -/

/-- What the first way of a part is. -/
theorem part_cases {g : Re} {s : Str} {m : MRes} (h : Hd (part g) s m) :
    ∃ sp s', s = sp ++ s' ∧ sp.all isSpace = true ∧ NotHead isSpace s' ∧
      ((∃ x, Hd g s' x ∧ m = (sp ++ x.1, x.2.1, x.2.2)) ∨ (Fails g s' ∧ m = (sp, s', []))) := by
  refine ⟨s.takeWhile isSpace, s.dropWhile isSpace, List.takeWhile_append_dropWhile.symm, all_takeWhile _ _,
    notHead_dropWhile _ _, ?_⟩
  rcases hd_or_fails g (s.dropWhile isSpace) with ⟨x, hx⟩ | hf
  · have := hd_part_hit (all_takeWhile isSpace s) (notHead_dropWhile isSpace s) hx
    rw [List.takeWhile_append_dropWhile] at this
    exact .inl ⟨x, hx, h.unique this⟩
  · have := hd_part_none (all_takeWhile isSpace s) (notHead_dropWhile isSpace s) hf
    rw [List.takeWhile_append_dropWhile] at this
    exact .inr ⟨hf, h.unique this⟩

/-- A part whose first way is empty has no other. -/
theorem part_empty {g : Re} {s : Str} {m : MRes} (h : Hd (part g) s m) (hm : m.1 = []) (hg : ∀ s x, Hd g s x → x.1 ≠ []) :
    OnlyEmpty (part g) s ∧ m = ([], s, []) := by
  obtain ⟨sp, s', rfl, hsp, hs, ⟨x, hx, rfl⟩ | ⟨hf, rfl⟩⟩ := part_cases h
  · simp only [List.append_eq_nil_iff] at hm
    exact absurd hm.2 (hg _ _ hx)
  · simp only at hm
    subst hm
    exact ⟨onlyEmpty_seq (onlyEmpty_star hs) (onlyEmpty_opt hf), rfl⟩

theorem grp_ch_ne {n : Nat} {c : Char} {r : Re} {s : Str} {x : MRes} (h : x ∈ (Re.grp n (.seq (ch c) r)).run s) : x.1 ≠ [] := by
  obtain ⟨m, k, rfl⟩ := mem_grp_inv h
  obtain ⟨a, h1, b, _, rfl⟩ := mem_seq_inv k
  obtain ⟨cs, _, rfl⟩ := mem_ch_inv h1
  simp

theorem nodeGrp_ne {i : Nat} {s : Str} {x : MRes} (h : Hd (nodeGrp i) s x) : x.1 ≠ [] := grp_ch_ne h.mem

theorem relGrp_ne {i : Nat} {s : Str} {x : MRes} (h : Hd (relGrp i) s x) : x.1 ≠ [] := by
  obtain ⟨lt, d1, C, d2, gt, sp, rest, hr⟩ := relAt_of_mem h.mem
  rw [h.unique (hd_relGrp hr i)]
  simp [relCore]

/-- The five parts of a match. -/
structure Split (s : Str) (m0 m1 m2 m3 m4 : MRes) : Prop where
  h0 : Hd (part (nodeGrp 0)) s m0
  h1 : Hd (part (relGrp 1)) m0.2.1 m1
  h2 : Hd (part (nodeGrp 2)) m1.2.1 m2
  h3 : Hd (part (relGrp 3)) m2.2.1 m3
  h4 : Hd (part (nodeGrp 4)) m3.2.1 m4

/-- Its captures. -/
def splitCaps (m0 m1 m2 m3 m4 : MRes) : Caps := m0.2.2 ++ (m1.2.2 ++ (m2.2.2 ++ (m3.2.2 ++ m4.2.2)))

theorem split_total (s : Str) : ∃ m0 m1 m2 m3 m4, Split s m0 m1 m2 m3 m4 ∧
    Hd nodesRelsPattern s (m0.1 ++ (m1.1 ++ (m2.1 ++ (m3.1 ++ m4.1))), m4.2.1, splitCaps m0 m1 m2 m3 m4) := by
  obtain ⟨m0, h0⟩ := part_total (nodeGrp 0) s
  obtain ⟨m1, h1⟩ := part_total (relGrp 1) m0.2.1
  obtain ⟨m2, h2⟩ := part_total (nodeGrp 2) m1.2.1
  obtain ⟨m3, h3⟩ := part_total (relGrp 3) m2.2.1
  obtain ⟨m4, h4⟩ := part_total (nodeGrp 4) m3.2.1
  exact ⟨m0, m1, m2, m3, m4, ⟨h0, h1, h2, h3, h4⟩, hd_seq h0 (hd_seq h1 (hd_seq h2 (hd_seq h3 h4)))⟩

/-- If the first way is empty, all are. -/
theorem pattern_empty {s : Str} {m : MRes} (h : Hd nodesRelsPattern s m) (hm : m.1 = []) : OnlyEmpty nodesRelsPattern s := by
  obtain ⟨m0, m1, m2, m3, m4, hs, hd⟩ := split_total s
  rw [h.unique hd] at hm
  simp only [List.append_eq_nil_iff] at hm
  obtain ⟨e0, e1, e2, e3, e4⟩ := hm
  have hn : ∀ i s x, Hd (nodeGrp i) s x → x.1 ≠ [] := fun i s x => nodeGrp_ne
  have hr : ∀ i s x, Hd (relGrp i) s x → x.1 ≠ [] := fun i s x => relGrp_ne
  obtain ⟨o0, rfl⟩ := part_empty hs.h0 e0 (hn 0)
  obtain ⟨o1, rfl⟩ := part_empty hs.h1 e1 (hr 1)
  obtain ⟨o2, rfl⟩ := part_empty hs.h2 e2 (hn 2)
  obtain ⟨o3, rfl⟩ := part_empty hs.h3 e3 (hr 3)
  obtain ⟨o4, rfl⟩ := part_empty hs.h4 e4 (hn 4)
  exact onlyEmpty_seq o0 (onlyEmpty_seq o1 (onlyEmpty_seq o2 (onlyEmpty_seq o3 o4)))

/-- The non-empty matches of a regex whose first way is empty only if all are: first ways. -/
theorem solid_sound {r : Re} (hr : ∀ s m, Hd r s m → m.1 = [] → OnlyEmpty r s) {s : Str} {x : Str × Caps}
    (h : x ∈ solid (r.finditer s)) : ∃ pre post, s = pre ++ (x.1 ++ post) ∧ Hd r (x.1 ++ post) (x.1, post, x.2) := by
  suffices ∀ n (s : Str), s.length < n → ∀ x ∈ solid (r.finditer s),
      ∃ pre post, s = pre ++ (x.1 ++ post) ∧ Hd r (x.1 ++ post) (x.1, post, x.2) from
    this (s.length + 1) s (by omega) x h
  clear h x s
  intro n
  induction n with
  | zero => intro s hs; omega
  | succ n ih =>
    intro s hs x hx
    have step : ∀ c cs, s = c :: cs → x ∈ solid (r.finditer cs) →
        ∃ pre post, s = pre ++ (x.1 ++ post) ∧ Hd r (x.1 ++ post) (x.1, post, x.2) := by
      rintro c cs rfl hx
      obtain ⟨pre, post, h1, h2⟩ := ih cs (by simp at hs; omega) x hx
      exact ⟨c :: pre, post, by simp [h1], h2⟩
    rcases hd_or_fails r s with ⟨m, hm⟩ | hf
    · by_cases he : m.1 = []
      · have ho := hr s m hm he
        cases s with
        | nil => rw [solid_onlyEmpty_nil ho] at hx; simp at hx
        | cons c cs =>
          rw [solid_onlyEmpty ho] at hx
          exact step c cs rfl hx
      · rw [solid_hit hm he] at hx
        have ha := run_append hm.mem
        rcases List.mem_cons.1 hx with rfl | hx
        · exact ⟨[], m.2.1, by simp [ha], by simpa [ha] using hm⟩
        · obtain ⟨pre, post, h1, h2⟩ := ih m.2.1 (by have := rest_shorter hm.mem he; omega) x hx
          exact ⟨m.1 ++ pre, post, by rw [← ha, h1]; simp, h2⟩
    · cases s with
      | nil => rw [solid_onlyEmpty_nil (fails_onlyEmpty hf)] at hx; simp at hx
      | cons c cs =>
        rw [solid_onlyEmpty (fails_onlyEmpty hf)] at hx
        exact step c cs rfl hx

/-- Every pattern of a statement comes from five parts somewhere in it. -/
theorem statementPatterns_split {stmt : Str} {p : ParsedPattern} (h : p ∈ statementPatterns stmt) :
    ∃ pre s m0 m1 m2 m3 m4, stmt = pre ++ s ∧ Split s m0 m1 m2 m3 m4 ∧ p = patternOf (splitCaps m0 m1 m2 m3 m4) := by
  rw [statementPatterns_eq] at h
  obtain ⟨x, hx, rfl⟩ := List.mem_map.1 h
  obtain ⟨pre, post, e, hd⟩ := solid_sound (fun s m => pattern_empty) hx
  obtain ⟨m0, m1, m2, m3, m4, hs, hd'⟩ := split_total (x.1 ++ post)
  have := congrArg (fun m : MRes => m.2.2) (hd.unique hd')
  simp only at this
  exact ⟨pre, x.1 ++ post, m0, m1, m2, m3, m4, e, hs, by rw [this]⟩

/-! ### Group numbers -/

/-- The groups of a regex. -/
def groups : Re → List Nat
  | .eps | .cls _ | .star _ => []
  | .seq a b | .alt a b => groups a ++ groups b
  | .opt a => groups a
  | .grp n a => n :: groups a

theorem caps_groups {r : Re} {s : Str} {m : MRes} (h : m ∈ r.run s) {n : Nat} {t : Str} (hc : (n, t) ∈ m.2.2) :
    n ∈ groups r := by
  induction r generalizing s m with
  | eps => simp [run] at h; subst h; simp at hc
  | cls p =>
    obtain ⟨c, cs, _, _, rfl⟩ := mem_cls_inv h
    simp at hc
  | star p => rw [(mem_star_inv h).2.2] at hc; simp at hc
  | seq a b iha ihb =>
    obtain ⟨x, hx, y, hy, rfl⟩ := mem_seq_inv h
    simp only [List.mem_append] at hc
    simp only [groups, List.mem_append]
    exact hc.imp (iha hx) (ihb hy)
  | alt a b iha ihb =>
    simp only [run, List.mem_append] at h
    simp only [groups, List.mem_append]
    exact h.imp (fun h => iha h hc) (fun h => ihb h hc)
  | opt a iha =>
    simp only [run, List.mem_append, List.mem_singleton] at h
    rcases h with h | rfl
    · exact iha h hc
    · simp at hc
  | grp k a iha =>
    obtain ⟨x, hx, rfl⟩ := mem_grp_inv h
    simp only [List.mem_cons, Prod.mk.injEq] at hc
    simp only [groups, List.mem_cons]
    rcases hc with ⟨rfl, _⟩ | hc
    · exact .inl rfl
    · exact .inr (iha hx hc)

theorem capGet_none {n : Nat} {caps : Caps} (h : ∀ t, (n, t) ∉ caps) : capGet n caps = none := by
  cases hc : capGet n caps with
  | none => rfl
  | some t => exact absurd (capGet_mem hc) (h t)

/-- A part captures its own groups only. -/
theorem part_caps_node {i n : Nat} {s : Str} {m : MRes} (h : Hd (part (nodeGrp i)) s m) (hn : n < 4 * i ∨ 4 * i + 3 < n) :
    capGet n m.2.2 = none := by
  refine capGet_none fun t ht => ?_
  have := caps_groups h.mem ht
  simp [part, nodeGrp, groups, seqs, optC, plus, ch, gAll, gHandle, gLabel, gProps] at this
  omega

theorem part_caps_rel {i n : Nat} {s : Str} {m : MRes} (h : Hd (part (relGrp i)) s m) (hn : n < 4 * i ∨ 4 * i + 3 < n) :
    capGet n m.2.2 = none := by
  refine capGet_none fun t ht => ?_
  have := caps_groups h.mem ht
  simp [part, relGrp, groups, seqs, optC, plus, ch, gAll, gHandle, gLabel, gProps] at this
  omega

/-- The parts of the pattern. -/
theorem split_pattern {s : Str} {m0 m1 m2 m3 m4 : MRes} (h : Split s m0 m1 m2 m3 m4) :
    patternOf (splitCaps m0 m1 m2 m3 m4) =
      ⟨partOf 0 m0.2.2, partOf 1 m1.2.2, partOf 2 m2.2.2, partOf 3 m3.2.2, partOf 4 m4.2.2⟩ := by
  have c0 := fun n (hn : n < 4 * 0 ∨ 4 * 0 + 3 < n) => part_caps_node h.h0 hn
  have c1 := fun n (hn : n < 4 * 1 ∨ 4 * 1 + 3 < n) => part_caps_rel h.h1 hn
  have c2 := fun n (hn : n < 4 * 2 ∨ 4 * 2 + 3 < n) => part_caps_node h.h2 hn
  have c3 := fun n (hn : n < 4 * 3 ∨ 4 * 3 + 3 < n) => part_caps_rel h.h3 hn
  have c4 := fun n (hn : n < 4 * 4 ∨ 4 * 4 + 3 < n) => part_caps_node h.h4 hn
  simp only [patternOf, partOf, splitCaps, capGet_append, gAll, gHandle, gLabel, gProps]
  simp only [Option.none_or, Option.or_none, c0, c1, c2, c3, c4, Nat.reduceMul, Nat.reduceAdd, Nat.reduceLT, true_or,
    or_true, Nat.lt_irrefl, or_false, false_or]

/-! ### What the parts are -/

theorem capGet_propsCaps (k n : Nat) (C : Str) : capGet k (propsCaps n C) = if n = k ∧ C ≠ [] then some C else none := by
  unfold propsCaps
  by_cases h : C = [] <;> by_cases h' : n = k <;> simp [h, h', capGet]

/-- A relationship part that took part in the match. -/
theorem rel_part {i : Nat} {s : Str} {m : MRes} (h : Hd (part (relGrp i)) s m) (ht : (partOf i m.2.2).text ≠ none) :
    ∃ sp s' lt d1 C d2 gt sp' rest, s = sp ++ s' ∧ sp.all isSpace = true ∧ RelAt s' lt d1 C d2 gt sp' rest ∧
      m.2.1 = rest ∧ partOf i m.2.2 = ⟨some (relCore lt d1 C d2 gt ++ sp'), some (relHandle C), some (relName C),
        if relC3 C = [] then none else some (relC3 C)⟩ := by
  obtain ⟨sp, s', e, hsp, hs, ⟨x, hx, rfl⟩ | ⟨hf, rfl⟩⟩ := part_cases h
  · obtain ⟨lt, d1, C, d2, gt, sp', rest, hr⟩ := relAt_of_mem hx.mem
    refine ⟨sp, s', lt, d1, C, d2, gt, sp', rest, e, hsp, hr, ?_⟩
    rw [hx.unique (hd_relGrp hr i)]
    refine ⟨rfl, ?_⟩
    simp only [partOf, capGet, gAll, gHandle, gLabel, gProps, capGet_propsCaps]
    by_cases hc : relC3 C = [] <;> simp [hc]
  · simp [partOf, capGet] at ht

/-- The last element of a sequence decides how the match ends. -/
theorem ends_seq {a b : Re} {P : Str → Prop} (h : ∀ s m, m ∈ b.run s → ∃ x y, m.1 = x ++ ')' :: y ∧ P y) (s : Str) (m : MRes)
    (hm : m ∈ (Re.seq a b).run s) : ∃ x y, m.1 = x ++ ')' :: y ∧ P y := by
  obtain ⟨m1, _, m2, h2, rfl⟩ := mem_seq_inv hm
  obtain ⟨x, y, e, hy⟩ := h _ _ h2
  exact ⟨m1.1 ++ x, y, by simp [e], hy⟩

/-- A node part that took part in the match ends with a parenthesis and white space. -/
theorem node_part {i : Nat} {s : Str} {m : MRes} (h : Hd (part (nodeGrp i)) s m) (ht : ∃ n t, capGet n m.2.2 = some t) :
    ∃ a sp, m.1 = a ++ ')' :: sp ∧ sp.all isSpace = true := by
  obtain ⟨sp, s', e, hsp, hs, ⟨x, hx, rfl⟩ | ⟨hf, rfl⟩⟩ := part_cases h
  · obtain ⟨m0, k, rfl⟩ := mem_grp_inv hx.mem
    have hl : ∀ s m, m ∈ (Re.seq (ch ')') (.star isSpace)).run s → ∃ a sp, m.1 = a ++ ')' :: sp ∧ sp.all isSpace = true := by
      intro s m hm
      obtain ⟨b2, h2, y2, j2, rfl⟩ := mem_seq_inv hm
      obtain ⟨cs, _, rfl⟩ := mem_ch_inv h2
      exact ⟨[], y2.1, rfl, (mem_star_inv j2).2.1⟩
    obtain ⟨a, b, e1, e2⟩ := ends_seq (ends_seq (ends_seq (ends_seq (ends_seq (ends_seq (ends_seq (ends_seq (ends_seq
      (ends_seq hl))))))))) _ _ k
    exact ⟨sp ++ a, b, by simp [e1], e2⟩
  · obtain ⟨n, t, ht⟩ := ht
    simp [capGet] at ht

/-! ### What the direction check finds -/

theorem relDirCheck_ne {s : Str} {m : MRes} (h : m ∈ relDirCheck.run s) : m.1 ≠ [] := by
  obtain ⟨m0, k, rfl⟩ := mem_grp_inv h
  obtain ⟨a1, -, x1, k1, rfl⟩ := mem_seq_inv k
  obtain ⟨a2, h2, x2, -, rfl⟩ := mem_seq_inv k1
  have := (mem_plus_inv h2).2.2.1
  simp [this]

/-- No class of the regex contains the character. -/
def avoids (x : Char) : Re → Prop
  | .eps => True
  | .cls p | .star p => p x = false
  | .seq a b | .alt a b => avoids x a ∧ avoids x b
  | .opt a | .grp _ a => avoids x a

theorem avoids_sound {x : Char} {r : Re} (hr : avoids x r) {s : Str} {m : MRes} (h : m ∈ r.run s) : x ∉ m.1 := by
  induction r generalizing s m with
  | eps => simp [run] at h; subst h; simp
  | cls p =>
    obtain ⟨c, cs, _, hc, rfl⟩ := mem_cls_inv h
    simp only [List.mem_singleton]
    rintro rfl
    rw [avoids, hc] at hr
    simp at hr
  | star p =>
    intro hx
    have := List.all_eq_true.1 (mem_star_inv h).2.1 _ hx
    rw [avoids, this] at hr
    simp at hr
  | seq a b iha ihb =>
    obtain ⟨y, hy, z, hz, rfl⟩ := mem_seq_inv h
    simp only [List.mem_append, not_or]
    exact ⟨iha hr.1 hy, ihb hr.2 hz⟩
  | alt a b iha ihb =>
    simp only [run, List.mem_append] at h
    exact h.elim (iha hr.1) (ihb hr.2)
  | opt a iha =>
    simp only [run, List.mem_append, List.mem_singleton] at h
    rcases h with h | rfl
    · exact iha hr h
    · simp
  | grp k a iha =>
    obtain ⟨y, hy, rfl⟩ := mem_grp_inv h
    exact iha (m := y) hr hy

/-- No match of the direction check contains a parenthesis. -/
theorem relDirCheck_paren {s : Str} {m : MRes} (h : m ∈ relDirCheck.run s) : ')' ∉ m.1 :=
  avoids_sound (by simp [avoids, relDirCheck, seqs, optC, plus, ch, sp_lit, wd_lit, pc_lit]) h

/-- A prefix without `x` of a text ends before the first `x`. -/
theorem prefix_before {x : Char} {w t u v : Str} (h : w ++ t = u ++ x :: v) (hx : x ∉ w) : ∃ u', u = w ++ u' ∧ t = u' ++ x :: v := by
  induction w generalizing u with
  | nil => exact ⟨u, rfl, h⟩
  | cons c cs ih =>
    cases u with
    | nil => simp at h hx; exact absurd h.1.symm hx.1
    | cons d ds =>
      simp only [List.cons_append, List.cons.injEq] at h
      simp only [List.mem_cons, not_or] at hx
      obtain ⟨u', e1, e2⟩ := ih h.2 hx.2
      exact ⟨u', by simp [h.1, e1], e2⟩

/-- Behind a parenthesis the check starts afresh. -/
theorem relDirCheck_after (u v : Str) :
    ∃ pre, relDirCheck.finditer (u ++ ')' :: v) = pre ++ relDirCheck.finditer v := by
  suffices ∀ n (u : Str), u.length < n → ∃ pre, relDirCheck.finditer (u ++ ')' :: v) = pre ++ relDirCheck.finditer v from
    this (u.length + 1) u (by omega)
  intro n
  induction n with
  | zero => intro u hu; omega
  | succ n ih =>
    intro u hu
    cases u with
    | nil =>
      refine ⟨[], ?_⟩
      rw [List.nil_append, finditer_fail (fails_relDirCheck (notHead_cons (by decide)))]
      rfl
    | cons c cs =>
      rcases hd_or_fails relDirCheck (c :: cs ++ ')' :: v) with ⟨m, hm⟩ | hf
      · have hne := relDirCheck_ne hm.mem
        obtain ⟨u', e1, e2⟩ := prefix_before (run_append hm.mem) (relDirCheck_paren hm.mem)
        rw [finditer_hit hm hne, e2]
        obtain ⟨pre, hpre⟩ := ih u' (by
          have : 0 < m.1.length := List.length_pos_iff.2 hne
          have := congrArg List.length e1
          simp at this hu
          omega)
        exact ⟨(m.1, m.2.2) :: pre, by rw [hpre]; rfl⟩
      · obtain ⟨pre, hpre⟩ := ih cs (by simp at hu; omega)
        exact ⟨pre, by rw [← hpre]; exact finditer_fail hf⟩

/-- A relationship behind a parenthesis is checked. -/
theorem relDirCheck_finds {u sp s lt d1 C d2 gt sp' rest : Str} (hsp : sp.all isSpace = true)
    (h : RelAt s lt d1 C d2 gt sp' rest) :
    (relCore lt d1 C d2 gt, [(0, relCore lt d1 C d2 gt), (1, relName C)]) ∈
      relDirCheck.finditer (u ++ ')' :: (sp ++ s)) := by
  obtain ⟨pre, e⟩ := relDirCheck_after u (sp ++ s)
  have hskip : relDirCheck.finditer (sp ++ s) = relDirCheck.finditer s := by
    refine finditer_skip fun a b e hb => fails_relDirCheck ?_
    cases b with
    | nil => exact absurd rfl hb
    | cons c cs =>
      have hc : isSpace c = true := by
        rw [e, List.all_append, List.all_cons, Bool.and_eq_true, Bool.and_eq_true] at hsp
        exact hsp.2.1
      refine notHead_cons ?_
      simp only [Bool.or_eq_false_iff, beq_eq_false_iff_ne]
      constructor <;> rintro rfl <;> simp [sp_lit] at hc
  have hd := hd_relDirCheck h
  rw [e, hskip, finditer_hit hd (relDirCheck_ne hd.mem)]
  simp

/-! ### The checks on relationships -/

/-- The relationships of a pattern have a name in upper case or none, and one arrow head. -/
def GoodRel (t : PartText) : Prop :=
  (∀ l, t.label = some l → l ≠ [] → isUpperStr l = true) ∧
    ∀ x, t.text = some x → (('<' ∈ x ∧ '>' ∉ x) ∨ ('<' ∉ x ∧ '>' ∈ x))

theorem goodRel_of {lt d1 C d2 gt sp : Str} {h p : Option Str} (hsp : sp.all isSpace = true)
    (hc : checkRel [(0, relCore lt d1 C d2 gt), (1, relName C)] = .ok ()) :
    GoodRel ⟨some (relCore lt d1 C d2 gt ++ sp), h, some (relName C), p⟩ := by
  have hsp' : '<' ∉ sp ∧ '>' ∉ sp := by
    rw [List.all_eq_true] at hsp
    constructor <;> intro hm <;> have := hsp _ hm <;> simp [sp_lit] at this
  simp only [checkRel, capGet, if_pos, Option.getD_some] at hc
  simp only [Nat.reduceEqDiff, if_false, Option.getD_some, ite_eq_right_iff, reduceCtorEq, imp_false] at hc
  constructor
  · rintro l hl hne
    simp only [Option.some.injEq] at hl
    subst hl
    split at hc
    · simp at hc
    · split at hc
      · simp at hc
      · split at hc
        · simp at hc
        · next h => grind
  · rintro x hx
    simp only [Option.some.injEq] at hx
    subst hx
    simp only [List.mem_append, hsp', or_false]
    split at hc
    · simp at hc
    · split at hc
      · simp at hc
      · grind

theorem checkRelationships_sound {ss1 ss2 : List Str} {s : Str} (h : checkRelationships (ss1 ++ s :: ss2) = .ok ())
    (h1 : ∀ s' ∈ ss1, relDirCheck.finditer s' ≠ []) : ∀ x ∈ relDirCheck.finditer s, checkRel x.2 = .ok () := by
  induction ss1 with
  | nil =>
    intro x hx
    simp only [List.nil_append, checkRelationships] at h
    cases hf : relDirCheck.finditer s with
    | nil => rw [hf] at hx; simp at hx
    | cons m ms =>
      rw [hf] at h hx
      simp only at h
      split at h
      · simp at h
      · next u hu =>
        exact (forEach_ok.1 (show forEach _ _ = .ok () from hu)) x hx
  | cons s' ss1 ih =>
    simp only [List.cons_append, checkRelationships] at h
    cases hf : relDirCheck.finditer s' with
    | nil => exact absurd hf (h1 s' (by simp))
    | cons m ms =>
      rw [hf] at h
      simp only at h
      split at h
      · simp at h
      · exact ih h fun s'' hs => h1 s'' (by simp [hs])

/-- Every relationship that stands behind a node of its pattern is found by the check. -/
theorem pattern_rels {stmt : Str} {p : ParsedPattern} (h : p ∈ statementPatterns stmt) (hs : PatShape p) {t : PartText}
    (ht : (t = p.leftMiddle ∨ t = p.middleRight) ∧ truthy t.text = true) :
    ∃ lt d1 C d2 gt sp, sp.all isSpace = true ∧
      (∃ hd pr, t = ⟨some (relCore lt d1 C d2 gt ++ sp), hd, some (relName C), pr⟩) ∧
      (relCore lt d1 C d2 gt, [(0, relCore lt d1 C d2 gt), (1, relName C)]) ∈ relDirCheck.finditer stmt := by
  obtain ⟨pre, s, m0, m1, m2, m3, m4, rfl, hsp, rfl⟩ := statementPatterns_split h
  rw [split_pattern hsp] at hs ht
  have hne : t.text ≠ none := by intro e; rw [e] at ht; simp [truthy] at ht
  have e0 := run_append hsp.h0.mem
  have e1 := run_append hsp.h1.mem
  have e2 := run_append hsp.h2.mem
  obtain ⟨ht | ht, htr⟩ := ht
  · simp only at ht
    subst ht
    obtain ⟨sp, s', lt, d1, C, d2, gt, sp', rest, e, hspc, hr, _, hp⟩ := rel_part hsp.h1 hne
    obtain ⟨a, b, ha, hb⟩ := node_part hsp.h0 (by
      have := hs.left
      cases hl : (partOf 0 m0.2.2).label with
      | none => exact absurd hl this
      | some l => exact ⟨_, l, hl⟩)
    refine ⟨lt, d1, C, d2, gt, sp', hr.hsp, ⟨_, _, hp⟩, ?_⟩
    have := relDirCheck_finds (u := pre ++ a) (sp := b ++ sp) (by simp [hb, hspc]) hr
    have es : pre ++ s = (pre ++ a) ++ ')' :: ((b ++ sp) ++ s') := by
      rw [← e0, ha, e]; simp
    rw [es]
    exact this
  · simp only at ht
    subst ht
    obtain ⟨sp, s', lt, d1, C, d2, gt, sp', rest, e, hspc, hr, _, hp⟩ := rel_part hsp.h3 hne
    obtain ⟨a, b, ha, hb⟩ := node_part hsp.h2 (by
      have := (hs.mr htr).1
      cases hl : (partOf 2 m2.2.2).text with
      | none => simp [truthy, hl] at this
      | some l => exact ⟨_, l, hl⟩)
    refine ⟨lt, d1, C, d2, gt, sp', hr.hsp, ⟨_, _, hp⟩, ?_⟩
    have := relDirCheck_finds (u := pre ++ (m0.1 ++ (m1.1 ++ a))) (sp := b ++ sp) (by simp [hb, hspc]) hr
    have es : pre ++ s = (pre ++ (m0.1 ++ (m1.1 ++ a))) ++ ')' :: ((b ++ sp) ++ s') := by
      rw [← e0, ← e1, ← e2, ha, e]; simp
    rw [es]
    exact this

/-- A pattern has a relationship. -/
def HasRel (p : ParsedPattern) : Prop := truthy p.leftMiddle.text = true ∨ truthy p.middleRight.text = true

theorem pattern_found {stmt : Str} {p : ParsedPattern} (h : p ∈ statementPatterns stmt) (hs : PatShape p) (hr : HasRel p) :
    relDirCheck.finditer stmt ≠ [] := by
  intro e
  have : ∃ t, (t = p.leftMiddle ∨ t = p.middleRight) ∧ truthy t.text = true := by
    rcases hr with h | h
    · exact ⟨_, .inl rfl, h⟩
    · exact ⟨_, .inr rfl, h⟩
  obtain ⟨t, ht⟩ := this
  obtain ⟨_, _, _, _, _, _, _, _, hm⟩ := pattern_rels h hs ht
  rw [e] at hm
  simp at hm

theorem pattern_good {ss1 ss2 : List Str} {s : Str} (h : checkRelationships (ss1 ++ s :: ss2) = .ok ())
    (h1 : ∀ s' ∈ ss1, relDirCheck.finditer s' ≠ []) {p : ParsedPattern} (hp : p ∈ statementPatterns s) (hs : PatShape p)
    {t : PartText} (ht : (t = p.leftMiddle ∨ t = p.middleRight) ∧ truthy t.text = true) : GoodRel t := by
  obtain ⟨lt, d1, C, d2, gt, sp, hsp, ⟨hd, pr, rfl⟩, hm⟩ := pattern_rels hp hs ht
  exact goodRel_of hsp (checkRelationships_sound h h1 _ hm)

/-! ### Chains that are too long -/

/-- Three nodes use up the pattern. -/
theorem hd_three {n m m' : NodeText} {r r' : RelText} (h : (ChainText.three n r m r' m').OK) {sp rest : Str}
    (hsp : sp.all isSpace = true) (hr : NotHead isSpace rest) :
    Hd nodesRelsPattern (sp ++ ((ChainText.three n r m r' m').render ++ rest))
      (sp ++ (ChainText.three n r m r' m').render, rest, (ChainText.three n r m r' m').caps) := by
  suffices HdR nodesRelsPattern ((sp ++ (ChainText.three n r m r' m').render) ++ rest) rest
      (ChainText.three n r m r' m').caps by
    have := this.toHd
    simpa using this
  rw [List.append_assoc]
  obtain ⟨hn, hrel, hm, hrel', hm'⟩ := h
  have h2 := hd_node (sp := []) hm rfl (rel_starts r' (m'.render ++ rest)).1 2
  have h4 := hd_node (sp := []) hm' rfl hr 4
  have := (hd_node hn hsp (rel_starts r (m.render ++ (r'.render ++ (m'.render ++ rest)))).1 0).seq
    ((hd_rel hrel m (r'.render ++ (m'.render ++ rest)) 1).seq
    (h2.seq ((hd_rel hrel' m' rest 3).seq h4)))
  simpa [nodesRelsPattern, seqs, ChainText.caps, ChainText.render] using this

/-- A statement that starts with a relationship: the first pattern has no left node. -/
theorem patterns_rel_first {r : RelText} (h : r.OK) (n : NodeText) (rest : Str) :
    ∃ p ps, statementPatterns (r.render ++ (n.render ++ rest)) = p :: ps ∧ p.left = .absent ∧ p.leftMiddle = r.part := by
  obtain ⟨m0, m1, m2, m3, m4, hs, hd⟩ := split_total (r.render ++ (n.render ++ rest))
  have h0 := hd_none (g := nodeGrp 0) (rel_starts r (n.render ++ rest)).1 (fails_nodeGrp (rel_starts r (n.render ++ rest)).2)
  obtain ⟨w0, h0⟩ := h0
  have e0 := hs.h0.unique h0
  have h1 := hs.h1
  rw [e0] at h1
  obtain ⟨w1, k1⟩ := hd_rel h n rest 1
  have e1 := h1.unique k1
  have hne : m0.1 ++ (m1.1 ++ (m2.1 ++ (m3.1 ++ m4.1))) ≠ [] := by
    intro e
    simp only [List.append_eq_nil_iff] at e
    have ha := run_append h1.mem
    rw [e.2.1, e1] at ha
    simp only [List.nil_append] at ha
    have := congrArg List.length ha
    simp [RelText.render] at this
    omega
  rw [statementPatterns_eq, solid_hit hd hne, List.map_cons]
  refine ⟨_, _, rfl, ?_, ?_⟩
  · rw [split_pattern hs, e0]
    rfl
  · rw [split_pattern hs, e1]
    simp [partOf, partCaps, capGet, capGet_optCaps, gAll, gHandle, gLabel, gProps, RelText.part, RelText.nm]
    rcases r.name with _ | ⟨_, _, _⟩ <;> rfl

theorem chain_notHead (c : ChainText) (rest : Str) : NotHead isSpace (c.render ++ rest) := by
  cases c <;> exact notHead_cons sp_lit.2.1

theorem renderLong_node (n : NodeText) (l : List (RelText × NodeText)) : ∃ rest, renderLong n l = n.render ++ rest := by
  cases l with
  | nil => exact ⟨[], by simp [renderLong]⟩
  | cons x l => exact ⟨_, rfl⟩

/-- Patterns before a chain that is too long do not help. -/
theorem patterns_before {l : List (Str × Str × ChainText)} (h : PatternsOK l) {t rest : Str} (ht : Idle t)
    (hne : l ≠ [] → t ≠ []) :
    statementPatterns (renderPatterns l ++ (t ++ rest)) = l.map (·.2.2.pattern) ++ statementPatterns rest := by
  induction l with
  | nil => simpa [renderPatterns] using patterns_idle (idle_iff.1 ht)
  | cons x l ih =>
    obtain ⟨t1, sp, c⟩ := x
    have hx := h.1 _ (List.mem_cons_self)
    have hl : PatternsOK l := ⟨fun y hy => h.1 y (List.mem_cons_of_mem _ hy), fun y hy => h.2 y (List.mem_of_mem_tail hy)⟩
    have hr : NotHead (fun c => !idleChar c) (renderPatterns l ++ (t ++ rest)) := by
      cases l with
      | nil => simpa [renderPatterns] using notHead_idle ht fun e => absurd e (hne (by simp))
      | cons y l =>
        obtain ⟨t', sp', c'⟩ := y
        have hy := h.1 (t', sp', c') (by simp)
        simp only [renderPatterns, List.append_assoc]
        exact notHead_idle hy.1 fun e => absurd e (h.2 (t', sp', c') (by simp))
    simp only [renderPatterns, List.append_assoc, List.map_cons, List.cons_append]
    rw [statementPatterns_chain hx.2.2 hx.1 hx.2.1 hr, ih hl fun _ => hne (by simp)]

/-- A chain of more than three nodes: the first three make a pattern, and then comes one without a left node. -/
theorem patterns_long {n : NodeText} {l : List (RelText × NodeText)} (h : LongOK n l) (hl : 3 ≤ l.length) {sp : Str}
    (hsp : sp.all isSpace = true) (rest : Str) :
    ∃ r m r' m' l' p ps, l = (r, m) :: (r', m') :: l' ∧
      statementPatterns (sp ++ (renderLong n l ++ rest)) = (ChainText.three n r m r' m').pattern :: p :: ps ∧
      p.left = .absent ∧ HasRel p := by
  match l, hl with
  | (r, m) :: (r', m') :: (r'', m'') :: l, _ =>
    have hok : (ChainText.three n r m r' m').OK :=
      ⟨h.1, (h.2 (r, m) (by simp)).1, (h.2 (r, m) (by simp)).2, (h.2 (r', m') (by simp)).1, (h.2 (r', m') (by simp)).2⟩
    obtain ⟨tail, et⟩ := renderLong_node m'' l
    obtain ⟨p, ps, hp, hp1, hp2⟩ := patterns_rel_first (h.2 (r'', m'') (by simp)).1 m'' (tail ++ rest)
    refine ⟨r, m, r', m', _, p, ps, rfl, ?_, hp1, .inl ?_⟩
    · have e : renderLong n ((r, m) :: (r', m') :: (r'', m'') :: l) ++ rest =
          (ChainText.three n r m r' m').render ++ (r''.render ++ (m''.render ++ (tail ++ rest))) := by
        simp [renderLong, et, ChainText.render]
      rw [e, statementPatterns_eq, solid_hit (hd_three hok hsp (rel_starts r'' _).1) (by simp [chain_ne]), List.map_cons,
        ← statementPatterns_eq, hp]
      simp [chain_pattern]
    · rw [hp2]
      simp only [RelText.part]
      unfold RelText.render
      split <;> rfl

end WG
