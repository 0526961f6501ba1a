/-
Lemmas about the regex matcher: soundness, the first way to match, and `finditer`.
-/
import Verif.Py.Regex

set_option linter.unusedSectionVars false
set_option linter.unusedSimpArgs false

namespace WG
open Re

/-! ### Soundness -/

theorem starRuns_append {p : Char → Bool} {s : Str} {x : Str × Str} (h : x ∈ starRuns p s) :
    x.1 ++ x.2 = s ∧ x.1.all p = true := by
  induction s generalizing x with
  | nil => simp [starRuns] at h; subst h; simp
  | cons c cs ih =>
    rw [starRuns] at h
    split at h
    · next hp =>
      rcases List.mem_append.1 h with h | h
      · obtain ⟨y, hy, rfl⟩ := List.mem_map.1 h
        have := ih hy
        simp [this.1, hp, this.2]
      · simp at h; subst h; simp
    · simp at h; subst h; simp

theorem run_append {r : Re} {s : Str} {m : MRes} (h : m ∈ r.run s) : m.1 ++ m.2.1 = s := by
  induction r generalizing s m with
  | eps => simp [run] at h; subst h; simp
  | cls p =>
    cases s with
    | nil => simp [run] at h
    | cons c cs =>
      rw [run] at h
      split at h
      · simp at h; subst h; simp
      · simp at h
  | star p =>
    simp only [run, List.mem_map] at h
    obtain ⟨x, hx, rfl⟩ := h
    exact (starRuns_append hx).1
  | seq a b iha ihb =>
    simp only [run, List.mem_flatMap, List.mem_map] at h
    obtain ⟨x, hx, y, hy, rfl⟩ := h
    have h1 := iha hx
    have h2 := ihb hy
    simp [List.append_assoc, h2, h1]
  | alt a b iha ihb =>
    simp only [run, List.mem_append] at h
    exact h.elim iha ihb
  | opt a iha =>
    simp only [run, List.mem_append, List.mem_singleton] at h
    rcases h with h | rfl
    · exact iha h
    · simp
  | grp n a iha =>
    simp only [run, List.mem_map] at h
    obtain ⟨x, hx, rfl⟩ := h
    exact iha (m := x) hx

/-- Captured texts lie inside the match. -/
theorem caps_infix {r : Re} {s : Str} {m : MRes} (h : m ∈ r.run s) {n : Nat} {t : Str} (hc : (n, t) ∈ m.2.2) :
    t <:+: m.1 := by
  induction r generalizing s m with
  | eps => simp [run] at h; subst h; simp at hc
  | cls p =>
    cases s with
    | nil => simp [run] at h
    | cons c cs =>
      rw [run] at h
      split at h
      · simp at h; subst h; simp at hc
      · simp at h
  | star p =>
    simp only [run, List.mem_map] at h
    obtain ⟨x, hx, rfl⟩ := h
    simp at hc
  | seq a b iha ihb =>
    simp only [run, List.mem_flatMap, List.mem_map] at h
    obtain ⟨x, hx, y, hy, rfl⟩ := h
    simp only [List.mem_append] at hc
    rcases hc with hc | hc
    · exact (iha hx hc).trans (List.prefix_append _ _).isInfix
    · exact (ihb hy hc).trans (List.suffix_append _ _).isInfix
  | alt a b iha ihb =>
    simp only [run, List.mem_append] at h
    exact h.elim (fun h => iha h hc) (fun h => ihb h hc)
  | opt a iha =>
    simp only [run, List.mem_append, List.mem_singleton] at h
    rcases h with h | rfl
    · exact iha h hc
    · simp at hc
  | grp k a iha =>
    simp only [run, List.mem_map] at h
    obtain ⟨x, hx, rfl⟩ := h
    simp only [List.mem_cons, Prod.mk.injEq] at hc
    rcases hc with ⟨_, rfl⟩ | hc
    · exact List.infix_refl _
    · exact iha (m := x) hx hc

theorem capGet_mem {n : Nat} {caps : Caps} {t : Str} (h : capGet n caps = some t) : (n, t) ∈ caps := by
  induction caps with
  | nil => simp [capGet] at h
  | cons x l ih =>
    obtain ⟨k, u⟩ := x
    rw [capGet] at h
    split at h
    · next hk => subst hk; simp at h; subst h; simp
    · exact List.mem_cons_of_mem _ (ih h)

/-- `capGet` on a concatenation. -/
theorem capGet_append (n : Nat) (a b : Caps) : capGet n (a ++ b) = (capGet n a).or (capGet n b) := by
  induction a with
  | nil => simp [capGet]
  | cons x l ih =>
    obtain ⟨k, u⟩ := x
    simp only [List.cons_append, capGet]
    split
    · simp
    · exact ih

/-! ### The first way to match -/

/-- `m` is the first way to match. -/
def Hd (r : Re) (s : Str) (m : MRes) : Prop := ∃ t, r.run s = m :: t

/-- There is no way to match. -/
def Fails (r : Re) (s : Str) : Prop := r.run s = []

/-- The text does not start with a character of the class. -/
def NotHead (p : Char → Bool) (s : Str) : Prop := ∀ c cs, s = c :: cs → p c = false

theorem notHead_nil (p : Char → Bool) : NotHead p [] := by intro c cs h; simp at h
theorem notHead_cons {p : Char → Bool} {c : Char} {cs : Str} (h : p c = false) : NotHead p (c :: cs) := by
  intro c' cs' e
  simp at e
  obtain ⟨rfl, _⟩ := e
  exact h

/-- First characters of a concatenation. -/
theorem notHead_append {p : Char → Bool} {a b : Str} (ha : ∀ c ∈ a, p c = false) (hb : NotHead p b) :
    NotHead p (a ++ b) := by
  cases a with
  | nil => exact hb
  | cons c cs => exact notHead_cons (ha c (by simp))

theorem Hd.matchAt {r : Re} {s : Str} {m : MRes} (h : Hd r s m) : r.matchAt s = some m := by
  obtain ⟨t, h⟩ := h
  simp [Re.matchAt, h]

theorem Fails.matchAt {r : Re} {s : Str} (h : Fails r s) : r.matchAt s = none := by
  simp [Re.matchAt, Fails] at *
  simp [h]

theorem hd_or_fails (r : Re) (s : Str) : (∃ m, Hd r s m) ∨ Fails r s := by
  cases h : r.run s with
  | nil => exact .inr h
  | cons m t => exact .inl ⟨m, t, h⟩

theorem Hd.mem {r : Re} {s : Str} {m : MRes} (h : Hd r s m) : m ∈ r.run s := by
  obtain ⟨t, h⟩ := h
  simp [h]

theorem Hd.unique {r : Re} {s : Str} {m m' : MRes} (h : Hd r s m) (h' : Hd r s m') : m = m' := by
  obtain ⟨t, h⟩ := h
  obtain ⟨t', h'⟩ := h'
  rw [h] at h'
  simp at h'
  exact h'.1

theorem hd_eps (s : Str) : Hd .eps s ([], s, []) := ⟨[], rfl⟩

theorem hd_cls {p : Char → Bool} {c : Char} (cs : Str) (h : p c = true) : Hd (.cls p) (c :: cs) ([c], cs, []) :=
  ⟨[], by simp [run, h]⟩

theorem fails_cls {p : Char → Bool} {s : Str} (h : NotHead p s) : Fails (.cls p) s := by
  cases s with
  | nil => rfl
  | cons c cs => simp [Fails, run, h c cs rfl]

theorem hd_ch (c : Char) (cs : Str) : Hd (ch c) (c :: cs) ([c], cs, []) := hd_cls cs (by simp)

theorem fails_ch {c : Char} {s : Str} (h : ∀ cs, s ≠ c :: cs) : Fails (ch c) s := by
  refine fails_cls fun d ds e => ?_
  subst e
  have := h ds
  simp at this
  simp [this]

theorem starRuns_notHead {p : Char → Bool} {s : Str} (h : NotHead p s) : starRuns p s = [([], s)] := by
  cases s with
  | nil => rfl
  | cons c cs => simp [starRuns, h c cs rfl]

theorem starRuns_first {p : Char → Bool} {w s : Str} (hw : w.all p = true) (h : NotHead p s) :
    ∃ t, starRuns p (w ++ s) = (w, s) :: t := by
  induction w with
  | nil => exact ⟨[], by simpa using starRuns_notHead h⟩
  | cons c cs ih =>
    simp only [List.all_cons, Bool.and_eq_true] at hw
    obtain ⟨t, ht⟩ := ih hw.2
    exact ⟨t.map (fun x => (c :: x.1, x.2)) ++ [([], c :: (cs ++ s))], by simp [starRuns, hw.1, ht]⟩

/-- The second way gives back one character. -/
theorem starRuns_second {p : Char → Bool} {u s : Str} {x : Char} (hu : u.all p = true) (hx : p x = true)
    (h : NotHead p s) : ∃ t, starRuns p (u ++ x :: s) = (u ++ [x], s) :: (u, x :: s) :: t := by
  induction u with
  | nil => exact ⟨[], by simp [starRuns, hx, starRuns_notHead h]⟩
  | cons c cs ih =>
    simp only [List.all_cons, Bool.and_eq_true] at hu
    obtain ⟨t, ht⟩ := ih hu.2
    exact ⟨t.map (fun x => (c :: x.1, x.2)) ++ [([], c :: (cs ++ x :: s))], by simp [starRuns, hu.1, ht]⟩

theorem hd_star {p : Char → Bool} {w s : Str} (hw : w.all p = true) (h : NotHead p s) :
    Hd (.star p) (w ++ s) (w, s, []) := by
  obtain ⟨t, ht⟩ := starRuns_first hw h
  exact ⟨t.map fun x => (x.1, x.2, []), by simp [run, ht]⟩

theorem hd_star_none {p : Char → Bool} {s : Str} (h : NotHead p s) : Hd (.star p) s ([], s, []) :=
  ⟨[], by simp [run, starRuns_notHead h]⟩

theorem hd_seq {a b : Re} {s : Str} {m m' : MRes} (ha : Hd a s m) (hb : Hd b m.2.1 m') :
    Hd (.seq a b) s (m.1 ++ m'.1, m'.2.1, m.2.2 ++ m'.2.2) := by
  obtain ⟨t, ha⟩ := ha
  obtain ⟨t', hb⟩ := hb
  simp only [Hd, run, ha, List.flatMap_cons, hb, List.map_cons, List.cons_append]
  exact ⟨_, rfl⟩

/-- Backtracking: the first ways of `a` that lead nowhere are skipped. -/
theorem hd_seq_skip {a b : Re} {s : Str} {pre t : List MRes} {m m' : MRes} (ha : a.run s = pre ++ m :: t)
    (hp : ∀ x ∈ pre, Fails b x.2.1) (hb : Hd b m.2.1 m') :
    Hd (.seq a b) s (m.1 ++ m'.1, m'.2.1, m.2.2 ++ m'.2.2) := by
  obtain ⟨t', hb⟩ := hb
  have h0 : (pre.flatMap fun m => (b.run m.2.1).map fun m' => (m.1 ++ m'.1, m'.2.1, m.2.2 ++ m'.2.2)) = [] := by
    rw [List.flatMap_eq_nil_iff]
    intro x hx
    have := hp x hx
    simp only [Fails] at this
    simp [this]
  simp only [Hd, run, ha, List.flatMap_append, h0, List.flatMap_cons, hb, List.map_cons, List.cons_append,
    List.nil_append]
  exact ⟨_, rfl⟩

theorem fails_seq_left {a b : Re} {s : Str} (h : Fails a s) : Fails (.seq a b) s := by
  simp [Fails, run] at *
  simp [h]

theorem fails_seq {a b : Re} {s : Str} (h : ∀ m ∈ a.run s, Fails b m.2.1) : Fails (.seq a b) s := by
  simp only [Fails, run, List.flatMap_eq_nil_iff, List.map_eq_nil_iff]
  exact h

theorem hd_grp {n : Nat} {a : Re} {s : Str} {m : MRes} (h : Hd a s m) :
    Hd (.grp n a) s (m.1, m.2.1, (n, m.1) :: m.2.2) := by
  obtain ⟨t, h⟩ := h
  simp only [Hd, run, h, List.map_cons]
  exact ⟨_, rfl⟩

theorem fails_grp {n : Nat} {a : Re} {s : Str} (h : Fails a s) : Fails (.grp n a) s := by
  simp [Fails, run] at *
  simp [h]

theorem hd_opt {a : Re} {s : Str} {m : MRes} (h : Hd a s m) : Hd (.opt a) s m := by
  obtain ⟨t, h⟩ := h
  exact ⟨t ++ [([], s, [])], by simp [run, h]⟩

theorem hd_opt_none {a : Re} {s : Str} (h : Fails a s) : Hd (.opt a) s ([], s, []) := by
  simp only [Fails] at h
  exact ⟨[], by simp [run, h]⟩

theorem hd_alt_left {a b : Re} {s : Str} {m : MRes} (h : Hd a s m) : Hd (.alt a b) s m := by
  obtain ⟨t, h⟩ := h
  exact ⟨t ++ b.run s, by simp [run, h]⟩

theorem hd_alt_right {a b : Re} {s : Str} {m : MRes} (h : Fails a s) (h' : Hd b s m) : Hd (.alt a b) s m := by
  obtain ⟨t, h'⟩ := h'
  simp only [Fails] at h
  exact ⟨t, by simp [run, h, h']⟩

theorem fails_alt {a b : Re} {s : Str} (h : Fails a s) (h' : Fails b s) : Fails (.alt a b) s := by
  simp only [Fails] at *
  simp [run, h, h']

theorem hd_plus {p : Char → Bool} {c : Char} {w s : Str} (hc : p c = true) (hw : w.all p = true) (h : NotHead p s) :
    Hd (plus p) (c :: (w ++ s)) (c :: w, s, []) :=
  hd_seq (hd_cls _ hc) (hd_star hw h)

theorem hd_plus' {p : Char → Bool} {w s : Str} (hw : w.all p = true) (hne : w ≠ []) (h : NotHead p s) :
    Hd (plus p) (w ++ s) (w, s, []) := by
  cases w with
  | nil => simp at hne
  | cons c cs =>
    simp only [List.all_cons, Bool.and_eq_true] at hw
    exact hd_plus hw.1 hw.2 h

theorem fails_plus {p : Char → Bool} {s : Str} (h : NotHead p s) : Fails (plus p) s :=
  fails_seq_left (fails_cls h)

theorem hd_optC {p : Char → Bool} {c : Char} (cs : Str) (h : p c = true) : Hd (optC p) (c :: cs) ([c], cs, []) :=
  hd_opt (hd_cls cs h)

theorem hd_optC_none {p : Char → Bool} {s : Str} (h : NotHead p s) : Hd (optC p) s ([], s, []) :=
  hd_opt_none (fails_cls h)

/-! ### `finditer` -/

theorem next_congr {α : Type} {s : Str} {k k' : Str → List α} (h : ∀ cs, cs.length < s.length → k cs = k' cs) :
    Re.next s k = Re.next s k' := by
  cases s with
  | nil => rfl
  | cons c cs => exact h cs (by simp)

theorem mem_of_head? {r : Re} {s : Str} {m : MRes} (h : r.matchAt s = some m) : m ∈ r.run s := by
  simp only [Re.matchAt] at h
  exact List.mem_of_head? h

theorem mem_of_nonempty {r : Re} {s : Str} {m : MRes} (h : r.matchNonempty s = some m) :
    m ∈ r.run s ∧ m.1 ≠ [] := by
  simp only [Re.matchNonempty] at h
  have h1 := List.mem_of_find?_eq_some h
  have h2 := List.find?_some h
  exact ⟨h1, by simpa using h2⟩

theorem rest_shorter {r : Re} {s : Str} {m : MRes} (h : m ∈ r.run s) (hne : m.1 ≠ []) : m.2.1.length < s.length := by
  have := run_append h
  rw [← this]
  have : 0 < m.1.length := List.length_pos_iff.2 hne
  simp
  omega

/-- One step of `finditer`, as a function of the continuation. -/
def findStep (r : Re) (s : Str) (k : Str → List (Str × Caps)) : List (Str × Caps) :=
  match r.matchAt s with
  | none => Re.next s k
  | some m =>
    if m.1.isEmpty then
      (m.1, m.2.2) ::
        (match r.matchNonempty s with
         | some m' => (m'.1, m'.2.2) :: k m'.2.1
         | none => Re.next s k)
    else (m.1, m.2.2) :: k m.2.1

theorem finditerFuel_succ (r : Re) (n : Nat) (s : Str) :
    finditerFuel r (n + 1) s = findStep r s (finditerFuel r n) := rfl

theorem findStep_congr {r : Re} {s : Str} {k k' : Str → List (Str × Caps)}
    (h : ∀ cs, cs.length < s.length → k cs = k' cs) : findStep r s k = findStep r s k' := by
  unfold findStep
  cases hm : r.matchAt s with
  | none => exact next_congr h
  | some m =>
    simp only
    split
    · cases hn : r.matchNonempty s with
      | none => simp only; rw [next_congr h]
      | some m' =>
        have := mem_of_nonempty hn
        simp only
        rw [h _ (rest_shorter this.1 this.2)]
    · next he => rw [h _ (rest_shorter (mem_of_head? hm) (by simpa using he))]

theorem finditerFuel_eq (r : Re) (n k : Nat) (s : Str) (hn : s.length < n) (hk : s.length < k) :
    finditerFuel r n s = finditerFuel r k s := by
  induction n generalizing k s with
  | zero => omega
  | succ n ih =>
    cases k with
    | zero => omega
    | succ k =>
      rw [finditerFuel_succ, finditerFuel_succ]
      exact findStep_congr fun cs hcs => ih k cs (by omega) (by omega)

/-- `finditer` without fuel. -/
theorem finditer_step (r : Re) (s : Str) : r.finditer s = findStep r s r.finditer := by
  unfold finditer
  rw [finditerFuel_succ]
  exact findStep_congr fun cs hcs => finditerFuel_eq r _ _ cs (by omega) (by omega)

theorem finditer_fail {r : Re} {c : Char} {cs : Str} (h : Fails r (c :: cs)) :
    r.finditer (c :: cs) = r.finditer cs := by
  rw [finditer_step]
  simp [findStep, h.matchAt, Re.next]

theorem finditer_nil {r : Re} (h : Fails r []) : r.finditer [] = [] := by
  rw [finditer_step]
  simp [findStep, h.matchAt, Re.next]

theorem finditer_hit {r : Re} {s : Str} {m : MRes} (h : Hd r s m) (hne : m.1 ≠ []) :
    r.finditer s = (m.1, m.2.2) :: r.finditer m.2.1 := by
  rw [finditer_step]
  have : m.1.isEmpty = false := by simpa using hne
  simp [findStep, h.matchAt, this]

/-- All ways are empty. -/
def OnlyEmpty (r : Re) (s : Str) : Prop := ∀ m ∈ r.run s, m.1 = []

theorem OnlyEmpty.nonempty {r : Re} {s : Str} (h : OnlyEmpty r s) : r.matchNonempty s = none := by
  simp only [Re.matchNonempty, List.find?_eq_none]
  intro m hm
  simp [h m hm]

/-- The non-empty matches. -/
def solid (l : List (Str × Caps)) : List (Str × Caps) := l.filter fun m => !m.1.isEmpty

theorem solid_onlyEmpty {r : Re} {c : Char} {cs : Str} (h : OnlyEmpty r (c :: cs)) :
    solid (r.finditer (c :: cs)) = solid (r.finditer cs) := by
  rw [finditer_step]
  unfold findStep
  cases hm : r.matchAt (c :: cs) with
  | none => simp [Re.next]
  | some m =>
    have hm1 : m.1 = [] := h m (mem_of_head? hm)
    simp [hm1, h.nonempty, Re.next, solid]

theorem solid_onlyEmpty_nil {r : Re} (h : OnlyEmpty r []) : solid (r.finditer []) = [] := by
  rw [finditer_step]
  unfold findStep
  cases hm : r.matchAt [] with
  | none => simp [Re.next, solid]
  | some m =>
    have hm1 : m.1 = [] := h m (mem_of_head? hm)
    simp [hm1, h.nonempty, Re.next, solid]

theorem solid_hit {r : Re} {s : Str} {m : MRes} (h : Hd r s m) (hne : m.1 ≠ []) :
    solid (r.finditer s) = (m.1, m.2.2) :: solid (r.finditer m.2.1) := by
  rw [finditer_hit h hne]
  have : m.1.isEmpty = false := by simpa using hne
  simp [solid, this]

theorem onlyEmpty_nil (r : Re) : OnlyEmpty r [] := by
  intro m hm
  have := run_append hm
  simp at this
  exact this.1

theorem fails_onlyEmpty {r : Re} {s : Str} (h : Fails r s) : OnlyEmpty r s := by
  intro m hm
  simp only [Fails] at h
  simp [h] at hm

theorem onlyEmpty_seq {a b : Re} {s : Str} (ha : OnlyEmpty a s) (hb : OnlyEmpty b s) : OnlyEmpty (.seq a b) s := by
  intro m hm
  simp only [run, List.mem_flatMap, List.mem_map] at hm
  obtain ⟨x, hx, y, hy, rfl⟩ := hm
  have h1 := ha x hx
  have h2 := run_append hx
  rw [h1] at h2
  simp only [List.nil_append] at h2
  rw [h2] at hy
  simp [h1, hb y hy]

theorem onlyEmpty_opt {a : Re} {s : Str} (ha : Fails a s) : OnlyEmpty (.opt a) s := by
  simp only [Fails] at ha
  intro m hm
  simp [run, ha] at hm
  simp [hm]

theorem onlyEmpty_star {p : Char → Bool} {s : Str} (h : NotHead p s) : OnlyEmpty (.star p) s := by
  intro m hm
  simp [run, starRuns_notHead h] at hm
  simp [hm]

/-- Skipping a text in which no match starts. -/
theorem finditer_skip {r : Re} {u s : Str} (h : ∀ a b, u = a ++ b → b ≠ [] → Fails r (b ++ s)) :
    r.finditer (u ++ s) = r.finditer s := by
  induction u with
  | nil => rfl
  | cons c cs ih =>
    rw [List.cons_append, finditer_fail (by simpa using h [] (c :: cs) rfl (by simp))]
    exact ih fun a b hab hb => h (c :: a) b (by simp [hab]) hb

/-- What a match of `finditer` is. -/
theorem finditer_sound {r : Re} {s : Str} {x : Str × Caps} (h : x ∈ r.finditer s) :
    ∃ pre post, s = pre ++ x.1 ++ post ∧ (x.1, post, x.2) ∈ r.run (x.1 ++ post) := by
  suffices ∀ n (s : Str), s.length < n → ∀ x ∈ r.finditer s,
      ∃ pre post, s = pre ++ x.1 ++ post ∧ (x.1, post, x.2) ∈ r.run (x.1 ++ post) from
    this (s.length + 1) s (by omega) x h
  clear h x s
  intro n
  induction n with
  | zero => intro s hs; omega
  | succ n ih =>
    intro s hs x hx
    have hnext : ∀ k, k = r.finditer → x ∈ Re.next s k →
        ∃ pre post, s = pre ++ x.1 ++ post ∧ (x.1, post, x.2) ∈ r.run (x.1 ++ post) := by
      rintro k rfl hx
      cases s with
      | nil => simp [Re.next] at hx
      | cons c cs =>
        simp only [Re.next] at hx
        obtain ⟨pre, post, h1, h2⟩ := ih cs (by simp at hs; omega) x hx
        exact ⟨c :: pre, post, by simp [h1], h2⟩
    have hthis : ∀ m ∈ r.run s, x = (m.1, m.2.2) →
        ∃ pre post, s = pre ++ x.1 ++ post ∧ (x.1, post, x.2) ∈ r.run (x.1 ++ post) := by
      rintro m hm rfl
      have := run_append hm
      exact ⟨[], m.2.1, by simp [this], by simpa [this] using hm⟩
    have hrest : ∀ m ∈ r.run s, m.1 ≠ [] → x ∈ r.finditer m.2.1 →
        ∃ pre post, s = pre ++ x.1 ++ post ∧ (x.1, post, x.2) ∈ r.run (x.1 ++ post) := by
      intro m hm hne hx
      have hl := rest_shorter hm hne
      obtain ⟨pre, post, h1, h2⟩ := ih m.2.1 (by omega) x hx
      refine ⟨m.1 ++ pre, post, ?_, h2⟩
      have := run_append hm
      rw [← this, h1]
      simp
    rw [finditer_step] at hx
    unfold findStep at hx
    cases hm : r.matchAt s with
    | none =>
      simp only [hm] at hx
      exact hnext _ rfl hx
    | some m =>
      simp only [hm] at hx
      have hmem := mem_of_head? hm
      split at hx
      · rcases List.mem_cons.1 hx with hx | hx
        · exact hthis m hmem hx
        · cases hn : r.matchNonempty s with
          | none => simp only [hn] at hx; exact hnext _ rfl hx
          | some m' =>
            simp only [hn] at hx
            have hm' := mem_of_nonempty hn
            rcases List.mem_cons.1 hx with hx | hx
            · exact hthis m' hm'.1 hx
            · exact hrest m' hm'.1 hm'.2 hx
      · next he =>
        rcases List.mem_cons.1 hx with hx | hx
        · exact hthis m hmem hx
        · exact hrest m hmem (by simpa using he) hx

/-- If there is a way to match somewhere, `finditer` is not empty. -/
theorem finditer_ne_nil {r : Re} {pre s : Str} (h : ¬ Fails r s) : r.finditer (pre ++ s) ≠ [] := by
  induction pre with
  | nil =>
    rcases hd_or_fails r s with ⟨m, hm⟩ | hf
    · rw [List.nil_append, finditer_step]
      simp only [findStep, hm.matchAt]
      split <;> simp
    · exact absurd hf h
  | cons c cs ih =>
    rw [List.cons_append, finditer_step]
    unfold findStep
    cases hm : r.matchAt (c :: (cs ++ s)) with
    | none => simpa [Re.next] using ih
    | some m => simp only; split <;> simp

/-- No match anywhere. -/
theorem finditer_nil_iff {r : Re} {s : Str} : r.finditer s = [] ↔ ∀ pre post, s = pre ++ post → Fails r post := by
  constructor
  · rintro h pre post rfl
    exact Classical.byContradiction fun hf => finditer_ne_nil (pre := pre) hf h
  · intro h
    induction s with
    | nil => exact finditer_nil (h [] [] rfl)
    | cons c cs ih =>
      rw [finditer_fail (h [] _ rfl)]
      exact ih fun pre post e => h (c :: pre) post (by simp [e])

end WG
