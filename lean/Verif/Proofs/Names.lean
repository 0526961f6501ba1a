/-
Lemmas on directory trees and the names of GDBMSs.
-/
import Verif.Spec.Names

set_option linter.unusedSectionVars false
set_option linter.unusedSimpArgs false

namespace WG

/-! ### Trees -/

theorem findEntry_put (p q : Place) (e : Entry) (t : Tree) :
    findEntry q (putEntry p e t) = if q = p then some e else findEntry q t := by
  induction t with
  | nil => simp only [putEntry, findEntry]; grind
  | cons x t ih =>
    obtain ⟨r, f⟩ := x
    simp only [putEntry]
    by_cases h : r = p
    · simp only [h, if_true, findEntry]; grind
    · simp only [h, if_false, findEntry, ih]; grind

theorem look_put {p : Place} (hp : p ≠ []) (q : Place) (e : Entry) (t : Tree) :
    Tree.look (putEntry p e t) q = if q = p then some e else t.look q := by
  simp only [Tree.look, findEntry_put]
  grind

theorem look_root (t : Tree) : t.look [] = some .dir := rfl

theorem walk_append (t : Tree) (at_ : Place) (xs ys : List Str) :
    t.walk at_ (xs ++ ys) = match t.walk at_ xs with
      | .error e => .error e
      | .ok q => t.walk q ys := by
  induction xs generalizing at_ with
  | nil => rfl
  | cons c cs ih =>
    simp only [List.cons_append, Tree.walk]
    cases t.look at_ with
    | none => rfl
    | some e => cases e with
      | dir => exact ih _
      | file s => rfl

theorem walk_error (t : Tree) (at_ : Place) (xs : List Str) (e : PyErr) (h : t.walk at_ xs = .error e) :
    e = .fileNotFound ∨ e = .osError := by
  induction xs generalizing at_ with
  | nil => simp [Tree.walk] at h
  | cons c cs ih =>
    simp only [Tree.walk] at h
    cases hl : t.look at_ with
    | none => rw [hl] at h; simp at h; exact Or.inl h.symm
    | some e' => cases e' with
      | dir => rw [hl] at h; exact ih _ h
      | file s => rw [hl] at h; simp at h; exact Or.inr h.symm

/-- Directories reach up to the root. -/
theorem closed_prefix {t : Tree} (hc : t.Closed) : ∀ (q p : Place), t.look (p ++ q) ≠ none → q ≠ [] → t.look p = some .dir := by
  intro q
  induction q with
  | nil => intro p _ h; exact absurd rfl h
  | cons c q ih =>
    intro p h _
    by_cases hq : q = []
    · rw [hq] at h; exact hc _ _ h
    · have h1 := ih (p ++ [c]) (by simpa using h) hq
      exact hc p c (by rw [h1]; simp)

theorem walk_plain (t : Tree) (at_ : Place) (xs : List Str) (hx : ∀ c ∈ xs, c ≠ c!"..")
    (hd : ∀ ys zs, xs = ys ++ zs → zs ≠ [] → t.look (at_ ++ ys) = some .dir) : t.walk at_ xs = .ok (at_ ++ xs) := by
  induction xs generalizing at_ with
  | nil => simp [Tree.walk]
  | cons c cs ih =>
    have h0 := hd [] (c :: cs) rfl (by simp)
    rw [List.append_nil] at h0
    simp only [Tree.walk, h0]
    rw [if_neg (hx c (by simp)), ih]
    · simp
    · exact fun c' hc' => hx c' (by simp [hc'])
    · intro ys zs e hz
      have := hd (c :: ys) zs (by rw [e]; rfl) hz
      simpa using this

/-! ### Splitting names -/

theorem splitChar_ne_nil (sep : Char) (s : Str) : splitChar sep s ≠ [] := by
  cases s with
  | nil => simp [splitChar]
  | cons c cs =>
    simp only [splitChar]
    split
    · simp
    · split <;> simp

theorem splitChar_none {sep : Char} {s : Str} (h : sep ∉ s) : splitChar sep s = [s] := by
  induction s with
  | nil => rfl
  | cons c cs ih =>
    have hc : c ≠ sep := fun e => h (by simp [e])
    simp only [splitChar, if_neg hc, ih (fun m => h (by simp [m]))]

theorem splitChar_append (sep : Char) (a b : Str) :
    splitChar sep (a ++ sep :: b) = splitChar sep a ++ splitChar sep b := by
  induction a with
  | nil => simp [splitChar]
  | cons c cs ih =>
    simp only [List.cons_append, splitChar]
    by_cases hc : c = sep
    · simp [hc, ih]
    · simp only [hc, if_false, ih]
      cases e : splitChar sep cs with
      | nil => exact absurd e (splitChar_ne_nil _ _)
      | cons w ws => rfl

theorem splitChar_mem {sep : Char} {s : Str} {c : Char} (h : c ∈ s) (hc : c ≠ sep) : ∃ w ∈ splitChar sep s, c ∈ w := by
  induction s with
  | nil => simp at h
  | cons d cs ih =>
    simp only [splitChar]
    by_cases hd : d = sep
    · simp only [hd, if_true]
      rcases List.mem_cons.1 h with e | m
      · exact absurd (e.trans hd) hc
      · obtain ⟨w, hw, hm⟩ := ih m
        exact ⟨w, by simp [hw], hm⟩
    · simp only [hd, if_false]
      cases e : splitChar sep cs with
      | nil => exact absurd e (splitChar_ne_nil _ _)
      | cons w ws =>
        rcases List.mem_cons.1 h with e' | m
        · exact ⟨d :: w, by simp, by simp [e']⟩
        · obtain ⟨v, hv, hm⟩ := ih m
          rw [e] at hv
          rcases List.mem_cons.1 hv with e2 | m2
          · exact ⟨d :: w, by simp, by rw [← e2]; simp [hm]⟩
          · exact ⟨v, by simp [m2], hm⟩

theorem splitChar_sub {sep : Char} {s w : Str} (h : w ∈ splitChar sep s) : ∀ c ∈ w, c ∈ s ∧ c ≠ sep := by
  induction s generalizing w with
  | nil => simp [splitChar] at h; simp [h]
  | cons d cs ih =>
    simp only [splitChar] at h
    by_cases hd : d = sep
    · simp only [hd, if_true] at h
      rcases List.mem_cons.1 h with e | m
      · simp [e]
      · intro c hc
        exact ⟨by simp [(ih m c hc).1], (ih m c hc).2⟩
    · simp only [hd, if_false] at h
      cases e : splitChar sep cs with
      | nil => exact absurd e (splitChar_ne_nil _ _)
      | cons v vs =>
        rw [e] at h ih
        rcases List.mem_cons.1 h with e2 | m2
        · intro c hc
          rw [e2] at hc
          rcases List.mem_cons.1 hc with e3 | m3
          · rw [e3]; exact ⟨by simp, hd⟩
          · have := ih (List.mem_cons_self ..) c m3
            exact ⟨by simp [this.1], this.2⟩
        · intro c hc
          have := ih (List.mem_cons_of_mem _ m2) c hc
          exact ⟨by simp [this.1], this.2⟩

theorem pathParts_append (a b : Str) : pathParts (a ++ '/' :: b) = pathParts a ++ pathParts b := by
  simp only [pathParts, splitChar_append, List.filter_append]

theorem pathParts_comp {s : Str} (h : '/' ∉ s) (h1 : s ≠ []) (h2 : s ≠ c!".") : pathParts s = [s] := by
  simp [pathParts, splitChar_none h, h1, h2]

theorem pathParts_ne_nil {s : Str} {c : Char} (h : c ∈ s) (h1 : c ≠ '/') (h2 : c ≠ '.') : pathParts s ≠ [] := by
  obtain ⟨w, hw, hm⟩ := splitChar_mem h h1
  have : w ∈ pathParts s := by
    simp only [pathParts, List.mem_filter]
    refine ⟨hw, ?_⟩
    simp only [decide_eq_true_eq]
    refine ⟨fun e => ?_, fun e => ?_⟩
    · rw [e] at hm; simp at hm
    · rw [e] at hm; simp at hm; exact h2 hm
  exact List.ne_nil_of_mem this

theorem pathParts_mem {s w : Str} (h : w ∈ pathParts s) : w ≠ [] ∧ w ≠ c!"." ∧ ∀ c ∈ w, c ∈ s ∧ c ≠ '/' := by
  simp only [pathParts, List.mem_filter, decide_eq_true_eq] at h
  exact ⟨h.2.1, h.2.2, splitChar_sub h.1⟩

theorem joinPath_rel {base : List Str} {s : Str} (h : ∀ r, s ≠ '/' :: r) : joinPath base s = base ++ pathParts s := by
  unfold joinPath
  split
  · exact absurd rfl (h _)
  · rfl

/-- The path of the file is that of the directory and the file's name. -/
theorem joinPath_file (base : List Str) (name f : Str) (hn : name ≠ []) :
    joinPath base (name ++ c!"/" ++ f) = joinPath base name ++ pathParts f := by
  cases name with
  | nil => exact absurd rfl hn
  | cons c cs =>
    have e : c :: cs ++ c!"/" ++ f = c :: cs ++ '/' :: f := by simp
    rw [e]
    by_cases hc : c = '/'
    · subst hc
      show pathParts ('/' :: cs ++ '/' :: f) = pathParts ('/' :: cs) ++ pathParts f
      exact pathParts_append _ _
    · rw [joinPath_rel (s := c :: cs ++ '/' :: f), joinPath_rel (s := c :: cs), pathParts_append, List.append_assoc]
      · intro r h; simp at h; exact hc h.1
      · intro r h; simp at h; exact hc h.1

/-! ### Making directories -/

theorem resolve_eq {t : Tree} {p : List Str} (h : hasNul p = false) : t.resolve p = t.walk [] p := by
  simp [Tree.resolve, h]

theorem hasNul_append (p q : List Str) : hasNul (p ++ q) = (hasNul p || hasNul q) := by simp [hasNul]

theorem hasNul_false {p : List Str} : hasNul p = false ↔ ∀ c ∈ p, Char.ofNat 0 ∉ c := by
  simp only [hasNul, List.any_eq_false, List.contains_iff_mem]

theorem resolve_nul {t : Tree} {p : List Str} (h : hasNul p = true) : t.resolve p = .error .value := by
  simp [Tree.resolve, h]

theorem resolve_error {t : Tree} {p : List Str} (h : hasNul p = false) {e : PyErr} (he : t.resolve p = .error e) :
    e = .fileNotFound ∨ e = .osError := by
  rw [resolve_eq h] at he
  exact walk_error _ _ _ _ he

/-- A path leads to something that is there, or to a new name in a directory. -/
theorem walk_fresh {t : Tree} (hc : t.Closed) (xs : List Str) : ∀ (at_ q : Place), t.look at_ ≠ none → t.walk at_ xs = .ok q →
    t.look q ≠ none ∨ ∃ u c, q = u ++ [c] ∧ c ∈ xs ∧ t.look u = some .dir := by
  induction xs with
  | nil => intro at_ q ha h; simp [Tree.walk] at h; rw [← h]; exact Or.inl ha
  | cons c cs ih =>
    intro at_ q ha h
    simp only [Tree.walk] at h
    cases hl : t.look at_ with
    | none => exact absurd hl ha
    | some e => cases e with
      | file s => rw [hl] at h; simp at h
      | dir =>
        rw [hl] at h
        simp only at h
        by_cases hx : t.look (if c = c!".." then at_.dropLast else at_ ++ [c]) = none
        · by_cases hdd : c = c!".."
          · rw [if_pos hdd] at hx
            exfalso
            by_cases hnil : at_ = []
            · rw [hnil] at hx; simp [look_root] at hx
            · have e := List.dropLast_concat_getLast hnil
              have := hc at_.dropLast (at_.getLast hnil) (by rw [e]; exact ha)
              rw [this] at hx; simp at hx
          · rw [if_neg hdd] at hx h
            cases cs with
            | nil =>
              simp [Tree.walk] at h
              exact Or.inr ⟨at_, c, h.symm, by simp, hl⟩
            | cons d ds => simp only [Tree.walk, hx] at h; simp at h
        · rcases ih _ _ hx h with h1 | ⟨u, c', e1, e2, e3⟩
          · exact Or.inl h1
          · exact Or.inr ⟨u, c', e1, by simp [e2], e3⟩

/-- The second tree has some new directories, whose names are among `names`; nothing else differs. -/
structure Grown (t u : Tree) (names : List Str) : Prop where
  closed : u.Closed
  keeps : ∀ q e, t.look q = some e → u.look q = some e
  files : SameFiles t u
  dirs : ∀ p c, u.look (p ++ [c]) = some .dir → t.look (p ++ [c]) = some .dir ∨ c ∈ names

theorem Grown.refl {t : Tree} (hc : t.Closed) (names : List Str) : Grown t t names :=
  ⟨hc, fun _ _ h => h, fun _ _ => Iff.rfl, fun _ _ h => Or.inl h⟩

theorem Grown.trans {t u v : Tree} {names : List Str} (h1 : Grown t u names) (h2 : Grown u v names) : Grown t v names := by
  refine ⟨h2.closed, fun q e h => h2.keeps _ _ (h1.keeps _ _ h), fun p s => (h1.files p s).trans (h2.files p s), fun p c h => ?_⟩
  rcases h2.dirs p c h with h' | h'
  · exact h1.dirs p c h'
  · exact Or.inr h'

theorem Grown.mono {t u : Tree} {a b : List Str} (h : Grown t u a) (hab : ∀ x ∈ a, x ∈ b) : Grown t u b :=
  ⟨h.closed, h.keeps, h.files, fun p c hd => (h.dirs p c hd).imp id (hab c)⟩

theorem put_dir_grown {t : Tree} (hc : t.Closed) {u : Place} {c : Str} (hu : t.look u = some .dir) (hn : t.look (u ++ [c]) = none) :
    Grown t (putEntry (u ++ [c]) .dir t) [c] := by
  have hl := fun q => look_put (p := u ++ [c]) (by simp) q .dir t
  refine ⟨fun p d h => ?_, fun q e h => ?_, fun p s => ?_, fun p d h => ?_⟩
  · rw [hl] at h ⊢
    by_cases hp : p ++ [d] = u ++ [c]
    · have hpu : p = u := by simpa using List.append_inj_left' hp rfl
      rw [hpu]
      rw [if_neg (fun e => by have := congrArg List.length e; simp at this)]
      exact hu
    · rw [if_neg hp] at h
      have := hc _ _ h
      rw [if_neg (fun e => by rw [← e, this] at hn; simp at hn)]
      exact this
  · rw [hl, if_neg (fun e' => by rw [e', hn] at h; simp at h)]; exact h
  · rw [hl]
    by_cases hp : p = u ++ [c]
    · rw [if_pos hp, hp, hn]; simp
    · rw [if_neg hp]
  · rw [hl] at h
    by_cases hp : p ++ [d] = u ++ [c]
    · right
      have : [d] = [c] := List.append_inj_right' hp rfl
      simpa using this
    · rw [if_neg hp] at h; exact Or.inl h

theorem osMkdir_grown {t t1 : Tree} (hc : t.Closed) {p : List Str} (h : t.osMkdir p = .ok t1) : Grown t t1 p := by
  unfold Tree.osMkdir at h
  cases hr : t.resolve p with
  | error e => rw [hr] at h; simp at h
  | ok q =>
    rw [hr] at h
    simp only at h
    cases hl : t.look q with
    | some e => rw [hl] at h; simp at h
    | none =>
      rw [hl] at h
      simp only [Except.ok.injEq] at h
      have hw : t.walk [] p = .ok q := by
        unfold Tree.resolve at hr
        split at hr
        · simp at hr
        · exact hr
      rcases walk_fresh hc p [] q (by simp [look_root]) hw with h1 | ⟨u, c, e1, e2, e3⟩
      · exact absurd hl h1
      · subst e1
        rw [← h]
        exact (put_dir_grown hc e3 hl).mono (by simp [e2])

theorem osMkdir_error {t : Tree} {p : List Str} (hn : hasNul p = false) {e : PyErr} (h : t.osMkdir p = .error e) :
    e = .fileNotFound ∨ e = .osError := by
  unfold Tree.osMkdir at h
  cases hr : t.resolve p with
  | error e' => rw [hr] at h; simp at h; rw [← h]; exact resolve_error hn hr
  | ok q =>
    rw [hr] at h
    simp only at h
    split at h
    · simp at h; exact Or.inr h.symm
    · simp at h

theorem mkdirRev_effect (r : List Str) : ∀ {t : Tree}, t.Closed → hasNul r = false →
    Grown t (t.mkdirRev r).2 r ∧ ∀ e, (t.mkdirRev r).1 = .error e → e = .fileNotFound ∨ e = .osError := by
  induction r with
  | nil => intro t hc _; exact ⟨.refl hc _, by simp [Tree.mkdirRev]⟩
  | cons c r ih =>
    intro t hc hn
    have hn' : hasNul r = false := by simp only [hasNul, List.any_cons, Bool.or_eq_false_iff] at hn ⊢; exact hn.2
    have hnr : hasNul (c :: r).reverse = false := by
      rw [hasNul_false] at hn ⊢; intro x hx; exact hn x (List.mem_reverse.1 hx)
    have hmem : ∀ x ∈ (c :: r).reverse, x ∈ c :: r := fun x hx => List.mem_reverse.1 hx
    simp only [Tree.mkdirRev]
    cases h1 : t.osMkdir (c :: r).reverse with
    | ok t' => exact ⟨(osMkdir_grown hc h1).mono hmem, by simp⟩
    | error e =>
      rcases osMkdir_error hnr h1 with he | he
      · subst he
        simp only
        obtain ⟨g1, g2⟩ := ih hc hn'
        rcases h2 : t.mkdirRev r with ⟨res, t1⟩
        rw [h2] at g1 g2
        have g1' : Grown t t1 (c :: r) := g1.mono (fun x hx => by simp [hx])
        cases res with
        | error e => exact ⟨g1', fun e' he' => g2 e' (by simpa using he')⟩
        | ok u =>
          simp only
          unfold Tree.mkdirLast
          cases h3 : t1.osMkdir (c :: r).reverse with
          | ok t2 => exact ⟨g1'.trans ((osMkdir_grown g1'.closed h3).mono hmem), by simp⟩
          | error e =>
            simp only
            split
            · rename_i h4
              split at h4
              · simp at h4; rw [← h4]; exact ⟨g1', by simp⟩
              · simp at h4
            · rename_i h4
              split at h4
              · simp at h4
              · simp at h4; subst h4
                refine ⟨g1', fun e' he' => ?_⟩
                simp at he'; subst he'
                exact osMkdir_error hnr h3
      · subst he
        simp only
        split
        · exact ⟨.refl hc _, by simp⟩
        · exact ⟨.refl hc _, by simp⟩

theorem mkdirs_effect {t : Tree} (hc : t.Closed) (p : List Str) (hn : hasNul p = false) :
    Grown t (t.mkdirs p).2 p ∧ ∀ e, (t.mkdirs p).1 = .error e → e = .fileNotFound ∨ e = .osError := by
  have hn' : hasNul p.reverse = false := by
    rw [hasNul_false] at hn ⊢; intro x hx; exact hn x (by simpa using hx)
  obtain ⟨h1, h2⟩ := mkdirRev_effect p.reverse hc hn'
  exact ⟨h1.mono (by simp), h2⟩

theorem mkdirRev_nul {t : Tree} {r : List Str} (h : hasNul r = true) : t.mkdirRev r = (.error .value, t) := by
  cases r with
  | nil => simp [hasNul] at h
  | cons c r =>
    have hnr : hasNul (c :: r).reverse = true := by
      simp only [hasNul, List.any_reverse] at h ⊢; exact h
    simp only [Tree.mkdirRev, Tree.osMkdir, resolve_nul hnr]
    simp

/-! ### Names with a slash -/

/-- Nothing lies in a directory that is not there. -/
theorem walk_dead {t : Tree} {x : Str} (hx : ∀ p, t.look (p ++ [x]) ≠ some .dir) (hd : x ≠ c!"..") (p : List Str) (r : Str) (rs : List Str) :
    ∃ e, t.walk [] (p ++ x :: r :: rs) = .error e := by
  rw [walk_append]
  cases h : t.walk [] p with
  | error e => exact ⟨e, rfl⟩
  | ok q =>
    simp only [Tree.walk, if_neg hd]
    cases hl : t.look q with
    | none => exact ⟨_, rfl⟩
    | some e => cases e with
      | file s => exact ⟨_, rfl⟩
      | dir =>
        simp only
        cases hl2 : t.look (q ++ [x]) with
        | none => exact ⟨_, rfl⟩
        | some e => cases e with
          | file s => exact ⟨_, rfl⟩
          | dir => exact absurd hl2 (hx q)

theorem split_slash {s : Str} (h : '/' ∈ s) : ∃ a b, s = a ++ '/' :: b ∧ '/' ∉ a := by
  induction s with
  | nil => simp at h
  | cons c cs ih =>
    by_cases hc : c = '/'
    · exact ⟨[], cs, by simp [hc], by simp⟩
    · obtain ⟨a, b, e1, e2⟩ := ih (by
        rcases List.mem_cons.1 h with e | m
        · exact absurd e.symm hc
        · exact m)
      exact ⟨c :: a, b, by simp [e1], by simp [e2, Ne.symm hc]⟩

theorem hasNul_parts {s : Str} (h : Char.ofNat 0 ∉ s) : hasNul (pathParts s) = false := by
  rw [hasNul_false]
  intro w hw hm
  exact h ((pathParts_mem hw).2.2 _ hm).1

theorem hasNul_join {base : List Str} {s : Str} (hb : hasNul base = false) (h : Char.ofNat 0 ∉ s) : hasNul (joinPath base s) = false := by
  unfold joinPath
  split
  · exact hasNul_parts h
  · rw [hasNul_append, hb, hasNul_parts h]; rfl

theorem createFileT_slash {base : List Str} {name pre ext text : Str} {t : Tree} (hc : t.Closed) (hb : hasNul base = false)
    (hn : Char.ofNat 0 ∉ name) (hs : '/' ∈ name)
    (hp : '/' ∉ pre ∧ Char.ofNat 0 ∉ pre) (hp2 : ∃ c ∈ pre, c ≠ '.') (he : Char.ofNat 0 ∉ ext) (he2 : ∃ c ∈ ext, c ≠ '/' ∧ c ≠ '.')
    (hd : ∀ p c, pre <+: c → t.look (p ++ [c]) ≠ some .dir) (hj : ∀ c ∈ joinPath base name, ¬ pre <+: c) :
    ∃ e t1, createFileT base name pre ext text t = (.error e, t1) ∧ (e = .fileNotFound ∨ e = .osError) ∧ Grown t t1 (joinPath base name) := by
  have hnn : name ≠ [] := by intro e; rw [e] at hs; simp at hs
  obtain ⟨h1, h2⟩ := mkdirs_effect hc (joinPath base name) (hasNul_join hb hn)
  obtain ⟨a, b, e1, e2⟩ := split_slash hs
  obtain ⟨cp, hcp, hcp'⟩ := hp2
  have hpath : joinPath base (name ++ c!"/" ++ (pre ++ name ++ ext)) = joinPath base name ++ ((pre ++ a) :: pathParts (b ++ ext)) := by
    rw [joinPath_file _ _ _ hnn]
    congr 1
    have e : pre ++ name ++ ext = (pre ++ a) ++ '/' :: (b ++ ext) := by rw [e1]; simp
    rw [e, pathParts_append, pathParts_comp (s := pre ++ a)]
    · rfl
    · simp [hp.1, e2]
    · intro h; simp at h; rw [h.1] at hcp; simp at hcp
    · intro h
      have : cp ∈ pre ++ a := by simp [hcp]
      rw [h] at this; simp at this; exact hcp' this
  have hdots : pre ++ a ≠ c!".." := by
    intro h
    have : cp ∈ pre ++ a := by simp [hcp]
    rw [h] at this; simp at this; exact hcp' this
  obtain ⟨ce, hce, hce1, hce2⟩ := he2
  obtain ⟨r, rs, hr⟩ : ∃ r rs, pathParts (b ++ ext) = r :: rs := by
    have := pathParts_ne_nil (s := b ++ ext) (c := ce) (by simp [hce]) hce1 hce2
    cases h : pathParts (b ++ ext) with
    | nil => exact absurd h this
    | cons r rs => exact ⟨r, rs, rfl⟩
  have hnul : hasNul (joinPath base (name ++ c!"/" ++ (pre ++ name ++ ext))) = false := by
    apply hasNul_join hb
    simp [hn, hp.2, he]
  rcases hm : t.mkdirs (joinPath base name) with ⟨res, t1⟩
  rw [hm] at h1 h2
  unfold createFileT
  rw [hm]
  cases res with
  | error e => exact ⟨e, t1, rfl, h2 e rfl, h1⟩
  | ok u =>
    simp only
    have hx : ∀ p, t1.look (p ++ [pre ++ a]) ≠ some .dir := by
      intro p hl
      rcases h1.dirs _ _ hl with h3 | h3
      · exact hd p _ (by simp) h3
      · exact hj _ h3 (by simp)
    obtain ⟨e, hw⟩ := walk_dead hx hdots (joinPath base name) r rs
    have hres : t1.resolve (joinPath base (name ++ c!"/" ++ (pre ++ name ++ ext))) = .error e := by
      rw [resolve_eq hnul, hpath, hr, hw]
    simp only [Tree.isFile, Tree.touch, hres]
    refine ⟨e, t1, by simp, resolve_error hnul hres, h1⟩

/-! ### Names without a slash -/

theorem plain_noNul {p : List Str} (h : ∀ c ∈ p, PlainName c) : hasNul p = false :=
  hasNul_false.2 fun c hc => (h c hc).nul

theorem resolve_place {t : Tree} (hc : t.Closed) {up : Place} {c : Str} (hp : ∀ x ∈ up ++ [c], PlainName x) (hu : t.look up = some .dir) :
    t.resolve (up ++ [c]) = .ok (up ++ [c]) := by
  rw [resolve_eq (plain_noNul hp), walk_plain]
  · rfl
  · exact fun x hx => (hp x hx).notDots
  · intro ys zs e hz
    rw [List.nil_append]
    by_cases hy : ys = up
    · rw [hy]; exact hu
    · have hlen : ys.length ≤ up.length := by
        have := congrArg List.length e
        have hz' := List.length_pos_iff.2 hz
        simp at this; omega
      obtain ⟨ws, hws⟩ := List.prefix_of_prefix_length_le (l₁ := ys) (l₂ := up) (l₃ := up ++ [c]) ⟨zs, e.symm⟩ (by simp) hlen
      refine closed_prefix hc ws ys (by rw [hws, hu]; simp) (fun hnil => hy ?_)
      rw [hnil] at hws; simpa using hws

theorem osMkdir_place {t : Tree} (hc : t.Closed) {up : Place} {c : Str} (hp : ∀ x ∈ up ++ [c], PlainName x) (hu : t.look up = some .dir) :
    t.osMkdir (up ++ [c]) = match t.look (up ++ [c]) with
      | some _ => .error .osError
      | none => .ok (putEntry (up ++ [c]) .dir t) := by
  simp only [Tree.osMkdir, resolve_place hc hp hu]
  cases t.look (up ++ [c]) <;> rfl

theorem isDir_place {t : Tree} (hc : t.Closed) {up : Place} {c : Str} (hp : ∀ x ∈ up ++ [c], PlainName x) (hu : t.look up = some .dir) :
    t.isDir (up ++ [c]) = decide (t.look (up ++ [c]) = some .dir) := by
  simp only [Tree.isDir, resolve_place hc hp hu]

/-- `mkdir` of a name in an existing directory. -/
theorem mkdirs_place {t : Tree} (hc : t.Closed) {up : Place} {c : Str} (hp : ∀ x ∈ up ++ [c], PlainName x) (hu : t.look up = some .dir) :
    t.mkdirs (up ++ [c]) = match t.look (up ++ [c]) with
      | none => (.ok (), putEntry (up ++ [c]) .dir t)
      | some .dir => (.ok (), t)
      | some (.file _) => (.error .osError, t) := by
  have h1 := osMkdir_place hc hp hu
  have h2 := isDir_place hc hp hu
  have hrev : (c :: up.reverse).reverse = up ++ [c] := by simp
  simp only [Tree.mkdirs, List.reverse_append, List.reverse_cons, List.reverse_nil, List.nil_append, List.singleton_append, Tree.mkdirRev]
  simp only [List.reverse_reverse, h1, h2]
  cases hl : t.look (up ++ [c]) with
  | none => rfl
  | some e => cases e <;> simp

/-- `mkdir` of a name in a directory that is missing, but could be made. -/
theorem mkdirs_missing {t : Tree} (hc : t.Closed) {up : Place} {l d : Str} (hp : ∀ x ∈ up ++ [l], PlainName x) (hu : t.look up = some .dir)
    (hl : t.look (up ++ [l]) = none) (hd : Char.ofNat 0 ∉ d) :
    t.mkdirs (up ++ [l] ++ [d]) = match Tree.mkdirLast (putEntry (up ++ [l]) .dir t) (up ++ [l] ++ [d]) with
      | .ok t2 => (.ok (), t2)
      | .error e => (.error e, putEntry (up ++ [l]) .dir t) := by
  have hnul : hasNul (up ++ [l] ++ [d]) = false := by
    rw [hasNul_append, plain_noNul hp]; simp [hasNul, hd]
  have h1 : t.osMkdir (up ++ [l] ++ [d]) = .error .fileNotFound := by
    simp only [Tree.osMkdir]
    rw [resolve_eq hnul, walk_append]
    have := resolve_place hc hp hu
    rw [resolve_eq (plain_noNul hp)] at this
    rw [this]
    simp only [Tree.walk, hl]
  have h2 := mkdirs_place hc hp hu
  rw [hl] at h2
  have e1 : (up ++ [l] ++ [d]).reverse = d :: (up ++ [l]).reverse := by simp
  have e2 : (d :: (up ++ [l]).reverse).reverse = up ++ [l] ++ [d] := by simp
  unfold Tree.mkdirs at h2 ⊢
  rw [e1]
  simp only [Tree.mkdirRev, e2, h1, h2]
  cases Tree.mkdirLast (putEntry (up ++ [l]) .dir t) (up ++ [l] ++ [d]) <;> rfl

theorem closed_put_dir {t : Tree} (hc : t.Closed) {u : Place} {c : Str} (hu : t.look u = some .dir) (hn : t.look (u ++ [c]) = none) :
    Tree.Closed (putEntry (u ++ [c]) .dir t) := (put_dir_grown hc hu hn).closed

theorem closed_put_file {t : Tree} (hc : t.Closed) {u : Place} {c : Str} (hu : t.look u = some .dir) (hn : t.look (u ++ [c]) ≠ some .dir)
    (s : Str) : Tree.Closed (putEntry (u ++ [c]) (.file s) t) := by
  have hl := fun q => look_put (p := u ++ [c]) (by simp) q (.file s) t
  intro p d h
  rw [hl] at h ⊢
  by_cases hp : p ++ [d] = u ++ [c]
  · have hpu : p = u := by simpa using List.append_inj_left' hp rfl
    rw [hpu, if_neg (fun e => by have := congrArg List.length e; simp at this)]
    exact hu
  · rw [if_neg hp] at h
    have := hc _ _ h
    rw [if_neg (fun e => hn (by rw [← e]; exact this))]
    exact this

/-- A directory, then `..`: the directory above. -/
theorem resolve_dots {t : Tree} (hc : t.Closed) {up : Place} {l : Str} (hp : ∀ x ∈ up ++ [l], PlainName x) (hl : t.look (up ++ [l]) = some .dir) :
    t.resolve (up ++ [l] ++ [c!".."]) = .ok up := by
  have hu := hc up l (by rw [hl]; simp)
  have hnul : hasNul (up ++ [l] ++ [c!".."]) = false := by
    rw [hasNul_append, plain_noNul hp]; decide
  rw [resolve_eq hnul, walk_append]
  have := resolve_place hc hp hu
  rw [resolve_eq (plain_noNul hp)] at this
  rw [this]
  simp [Tree.walk, hl]

theorem look_folder {t : Tree} {base : Place} (hf : Folder t base) : t.look base = none ∨ t.look base = some .dir := by
  cases h : t.look base with
  | none => simp
  | some e => cases e with
    | dir => simp
    | file s => exact absurd h (hf.notFile s)

theorem join_dir {base : List Str} {name : Str} (hs : '/' ∉ name) :
    joinPath base name = base ++ if name = [] ∨ name = c!"." then [] else [name] := by
  rw [joinPath_rel (by intro r e; rw [e] at hs; simp at hs)]
  congr 1
  split
  · rename_i h; rcases h with h | h <;> rw [h] <;> decide
  · rename_i h; simp only [not_or] at h
    exact pathParts_comp hs h.1 h.2

theorem join_file {base : List Str} {name f : Str} (hs : '/' ∉ name) (hf : PlainName f) :
    joinPath base (name ++ c!"/" ++ f) = (if name = [] then [] else base ++ if name = c!"." then [] else [name]) ++ [f] := by
  have hpf := pathParts_comp hf.slash hf.nonempty hf.notDot
  by_cases hn : name = []
  · rw [if_pos hn, hn]
    show pathParts ('/' :: f) = _
    have := pathParts_append [] f
    rw [List.nil_append] at this
    rw [this, hpf]
    rfl
  · rw [joinPath_file _ _ _ hn, join_dir hs, hpf, if_neg hn]
    simp [hn]

/-- The directory of a name without a slash is made. -/
theorem mkdirs_home {t : Tree} (hc : t.Closed) {base : Place} (hf : Folder t base) {name : Str} (hs : '/' ∉ name) (hn : Char.ofNat 0 ∉ name)
    (hh : ∀ s, t.look (homeOf base name) ≠ some (.file s)) :
    ∃ t1, t.mkdirs (joinPath base name) = (.ok (), t1) ∧ t1.Closed ∧
      ∀ q, t1.look q = if q = base ∨ q = homeOf base name then some .dir else t.look q := by
  obtain ⟨up, l, e, hu⟩ := hf.above
  have hpl := hf.plain
  have hlk := look_folder hf
  subst e
  have hup : ∀ q : Place, t.look (up ++ [l]) = some .dir → q = up ++ [l] ∨ q = up → some Entry.dir = t.look q := by
    intro q h1 h2; rcases h2 with h2 | h2 <;> simp [h2, h1, hu]
  rw [join_dir hs]
  by_cases h1 : name = [] ∨ name = c!"."
  · -- the folder itself
    rw [if_pos h1, List.append_nil, mkdirs_place hc hpl hu]
    have hho : homeOf (up ++ [l]) name = [] ∨ homeOf (up ++ [l]) name = up ++ [l] := by
      rcases h1 with h1 | h1
      · left; simp [homeOf, h1]
      · right; simp [homeOf, h1]
    rcases hlk with hlk | hlk
    · rw [hlk]
      refine ⟨_, rfl, closed_put_dir hc hu hlk, fun q => ?_⟩
      rw [look_put (by simp)]
      rcases hho with hho | hho
      · rw [hho]
        by_cases hq : q = []
        · subst hq; simp [look_root]
        · simp [hq]
      · rw [hho]; simp
    · rw [hlk]
      refine ⟨_, rfl, hc, fun q => ?_⟩
      by_cases hq : q = up ++ [l] ∨ q = homeOf (up ++ [l]) name
      · rw [if_pos hq]
        rcases hq with hq | hq
        · rw [hq, hlk]
        · rcases hho with hho | hho
          · rw [hq, hho, look_root]
          · rw [hq, hho, hlk]
      · rw [if_neg hq]
  · rw [if_neg h1]
    simp only [not_or] at h1
    by_cases h2 : name = c!".."
    · -- the directory above
      have hho : homeOf (up ++ [l]) name = up := by simp [homeOf, h2]
      rw [hho, h2]
      rcases hlk with hlk | hlk
      · rw [mkdirs_missing hc hpl hu hlk (by decide)]
        have hc1 := closed_put_dir hc hu hlk
        have hl1 : Tree.look (putEntry (up ++ [l]) .dir t) (up ++ [l]) = some .dir := by rw [look_put (by simp)]; simp
        have hu1 := hc1 up l (by rw [hl1]; simp)
        have hr := resolve_dots hc1 hpl hl1
        simp only [Tree.mkdirLast, Tree.osMkdir, Tree.isDir, hr, hu1]
        simp only [decide_true, and_self, if_true]
        refine ⟨_, rfl, hc1, fun q => ?_⟩
        by_cases hq : q = up ++ [l] ∨ q = up
        · rw [if_pos hq]; rcases hq with hq | hq <;> rw [hq] <;> assumption
        · rw [if_neg hq, look_put (by simp)]; simp only [not_or] at hq; simp [hq.1]
      · have hr := resolve_dots hc hpl hlk
        have e1 : (up ++ [l] ++ [c!".."]).reverse = c!".." :: (up ++ [l]).reverse := by simp
        have e2 : (c!".." :: (up ++ [l]).reverse).reverse = up ++ [l] ++ [c!".."] := by simp
        have : t.mkdirs (up ++ [l] ++ [c!".."]) = (.ok (), t) := by
          unfold Tree.mkdirs
          rw [e1]
          simp only [Tree.mkdirRev, e2, Tree.osMkdir, Tree.isDir, hr, hu]
          simp
        rw [this]
        refine ⟨_, rfl, hc, fun q => ?_⟩
        by_cases hq : q = up ++ [l] ∨ q = up
        · rw [if_pos hq]; exact (hup q hlk hq).symm
        · rw [if_neg hq]
    · -- a proper name
      have hho : homeOf (up ++ [l]) name = up ++ [l] ++ [name] := by simp only [homeOf, h1.1, h1.2, h2, if_false]
      rw [hho] at hh ⊢
      have hpn : PlainName name := ⟨h1.1, h1.2, h2, hs, hn⟩
      have hpl2 : ∀ x ∈ up ++ [l] ++ [name], PlainName x := by
        intro x hx
        rcases List.mem_append.1 hx with hx | hx
        · exact hpl x hx
        · simp at hx; rw [hx]; exact hpn
      rcases hlk with hlk | hlk
      · rw [mkdirs_missing hc hpl hu hlk hn]
        have hc1 := closed_put_dir hc hu hlk
        have hl1 : Tree.look (putEntry (up ++ [l]) .dir t) (up ++ [l]) = some .dir := by rw [look_put (by simp)]; simp
        have hno : t.look (up ++ [l] ++ [name]) = none := by
          cases h : t.look (up ++ [l] ++ [name]) with
          | none => rfl
          | some e => have := hc _ _ (by rw [h]; simp : t.look (up ++ [l] ++ [name]) ≠ none); rw [hlk] at this; simp at this
        have hno1 : Tree.look (putEntry (up ++ [l]) .dir t) (up ++ [l] ++ [name]) = none := by
          rw [look_put (by simp), if_neg (fun e => by have := congrArg List.length e; simp at this)]; exact hno
        simp only [Tree.mkdirLast, osMkdir_place hc1 hpl2 hl1, hno1]
        refine ⟨_, rfl, closed_put_dir hc1 hl1 hno1, fun q => ?_⟩
        rw [look_put (by simp), look_put (by simp)]
        grind
      · rw [mkdirs_place hc hpl2 hlk]
        cases h : t.look (up ++ [l] ++ [name]) with
        | none =>
          refine ⟨_, rfl, closed_put_dir hc hlk h, fun q => ?_⟩
          rw [look_put (by simp)]
          grind
        | some e => cases e with
          | file s => exact absurd h (hh s)
          | dir =>
            refine ⟨_, rfl, hc, fun q => ?_⟩
            grind

/-- The file of a name without a slash lies in its directory. -/
theorem resolve_home {t : Tree} (hc : t.Closed) {base : Place} (hpl : ∀ c ∈ base, PlainName c) {up : Place} {l : Str} (hb : base = up ++ [l])
    (hbd : t.look base = some .dir) {name : Str} (hs : '/' ∉ name) (hn : Char.ofNat 0 ∉ name) (hh : t.look (homeOf base name) = some .dir)
    {f : Str} (hf : PlainName f) :
    t.resolve (joinPath base (name ++ c!"/" ++ f)) = .ok (homeOf base name ++ [f]) := by
  rw [join_file hs hf]
  by_cases h1 : name = []
  · have e : homeOf base name = [] := by simp [homeOf, h1]
    rw [e, if_pos h1]
    exact resolve_place hc (by simp; exact hf) (look_root t)
  · rw [if_neg h1]
    have happ : ∀ x ∈ base ++ [f], PlainName x := by
      intro x hx
      rcases List.mem_append.1 hx with hx | hx
      · exact hpl x hx
      · simp at hx; rw [hx]; exact hf
    by_cases h2 : name = c!"."
    · have e : homeOf base name = base := by simp [homeOf, h2]
      rw [e, if_pos h2, List.append_nil]
      exact resolve_place hc happ hbd
    · rw [if_neg h2]
      by_cases h3 : name = c!".."
      · have e : homeOf base name = up := by simp [homeOf, h3, hb]
        rw [e] at hh ⊢
        rw [h3, hb]
        rw [hb] at hbd hpl happ
        have hr := resolve_dots hc hpl hbd
        have hnul : hasNul (up ++ [l] ++ [c!".."]) = false := by
          rw [hasNul_append, plain_noNul hpl]; decide
        have hnul2 : hasNul (up ++ [l] ++ [c!".."] ++ [f]) = false := by
          rw [hasNul_append, hnul]; simp [hasNul, hf.nul]
        rw [resolve_eq hnul] at hr
        rw [resolve_eq hnul2, walk_append, hr]
        simp [Tree.walk, hh, hf.notDots]
      · have e : homeOf base name = base ++ [name] := by simp only [homeOf, h1, h2, h3, if_false]
        rw [e] at hh ⊢
        refine resolve_place hc ?_ hh
        intro x hx
        rcases List.mem_append.1 hx with hx | hx
        · rcases List.mem_append.1 hx with hx | hx
          · exact hpl x hx
          · simp at hx; rw [hx]; exact ⟨h1, h2, h3, hs, hn⟩
        · simp at hx; rw [hx]; exact hf

/-- The tree after a file has been made: its directory, and the file. -/
def madeLook (t : Tree) (base home file : Place) (text : Str) (q : Place) : Option Entry :=
  if q = file then some (.file text) else if q = base ∨ q = home then some .dir else t.look q

/-- One file of a name without a slash, all cases. -/
theorem createFileT_home {t : Tree} (hc : t.Closed) {base : Place} (hf : Folder t base) {name : Str} (hs : '/' ∉ name)
    (hn : Char.ofNat 0 ∉ name) (hh : ∀ s, t.look (homeOf base name) ≠ some (.file s)) {pre ext : Str} (text : Str) (hpn : PlainName (pre ++ name ++ ext))
    (hne : homeOf base name ++ [pre ++ name ++ ext] ≠ base) :
    ∃ t1, t1.Closed ∧ (createFileT base name pre ext text t).2 = t1 ∧
      match t.look (homeOf base name ++ [pre ++ name ++ ext]) with
      | none => (createFileT base name pre ext text t).1 = .ok (joinPath base (name ++ c!"/" ++ (pre ++ name ++ ext))) ∧
          ∀ q, t1.look q = madeLook t base (homeOf base name) (homeOf base name ++ [pre ++ name ++ ext]) text q
      | some e => (createFileT base name pre ext text t).1 = .error (match e with | .dir => .osError | .file _ => .value) ∧
          ∀ q, t1.look q = if q = base ∨ q = homeOf base name then some .dir else t.look q := by
  obtain ⟨t1, h1, h2, h3⟩ := mkdirs_home hc hf hs hn hh
  obtain ⟨up, l, hb, hu⟩ := hf.above
  have hbd : t1.look base = some .dir := by rw [h3]; simp
  have hhd : t1.look (homeOf base name) = some .dir := by rw [h3]; simp
  have hr := resolve_home h2 hf.plain hb hbd hs hn hhd hpn
  have hne2 : homeOf base name ++ [pre ++ name ++ ext] ≠ homeOf base name := fun e => by
    have := congrArg List.length e; simp at this
  have hfl : t1.look (homeOf base name ++ [pre ++ name ++ ext]) = t.look (homeOf base name ++ [pre ++ name ++ ext]) := by
    rw [h3, if_neg (by simp only [not_or]; exact ⟨hne, hne2⟩)]
  unfold createFileT
  simp only [h1, Tree.isFile, Tree.touch, hr, hfl]
  cases hl : t.look (homeOf base name ++ [pre ++ name ++ ext]) with
  | some e =>
    cases e with
    | file s => exact ⟨t1, h2, rfl, rfl, h3⟩
    | dir =>
      simp only [Tree.overwrite, hr, hfl, hl]
      exact ⟨t1, h2, rfl, rfl, h3⟩
  | none =>
    have hl1 := hfl.trans hl
    have hput : ∀ s q, Tree.look (putEntry (homeOf base name ++ [pre ++ name ++ ext]) (.file s) t1) q =
        if q = homeOf base name ++ [pre ++ name ++ ext] then some (.file s) else t1.look q := fun s q => look_put (by simp) q _ t1
    have hc2 := closed_put_file h2 hhd (by rw [hl1]; simp) ([] : Str)
    have hr2 : (putEntry (homeOf base name ++ [pre ++ name ++ ext]) (.file []) t1 : Tree).resolve (joinPath base (name ++ c!"/" ++ (pre ++ name ++ ext)))
        = .ok (homeOf base name ++ [pre ++ name ++ ext]) := by
      refine resolve_home hc2 hf.plain hb ?_ hs hn ?_ hpn
      · rw [hput, if_neg (Ne.symm hne)]; exact hbd
      · rw [hput, if_neg (Ne.symm hne2)]; exact hhd
    have hl2 : Tree.look (putEntry (homeOf base name ++ [pre ++ name ++ ext]) (.file []) t1) (homeOf base name ++ [pre ++ name ++ ext]) = some (.file []) := by
      rw [hput]; simp
    simp only [Tree.overwrite, hr2, hl2]
    have hhd2 : Tree.look (putEntry (homeOf base name ++ [pre ++ name ++ ext]) (.file []) t1) (homeOf base name) = some .dir := by
      rw [hput, if_neg (Ne.symm hne2)]; exact hhd
    refine ⟨_, closed_put_file hc2 hhd2 (by rw [hl2]; simp) text, rfl, rfl, fun q => ?_⟩
    rw [look_put (by simp), hput, h3]
    unfold madeLook
    split <;> rfl

end WG
