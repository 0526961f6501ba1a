/-
Lemmas on paths.
-/
import Verif.Spec.Paths
import Verif.Proofs.Names

set_option linter.unusedSimpArgs false

namespace WG

/-! ### Components -/

theorem kept_iff (x : Str) (k : List Str) : Kept x k ↔ k = [x].filter fun x => x ≠ [] ∧ x ≠ c!"." := by
  constructor
  · rintro (_ | _ | ⟨_, h1, h2⟩)
    · rfl
    · rfl
    · simp [h1, h2]
  · rintro rfl
    by_cases h1 : x = []
    · subst h1; exact .empty
    · by_cases h2 : x = c!"."
      · subst h2; exact .dot
      · simp only [List.filter_cons, List.filter_nil, h1, h2, ne_eq, not_false_eq_true, and_self, decide_true, if_true]
        exact .part x h1 h2

theorem pathParts_components {s : Str} {l : List Str} (h : Components s l) : pathParts s = l := by
  induction h with
  | last hx hk => rw [(kept_iff _ _).1 hk, pathParts, splitChar_none hx]
  | more hx hk _ ih => rw [pathParts_append, ih, (kept_iff _ _).1 hk, pathParts, splitChar_none hx]

theorem components_pathParts (n : Nat) : ∀ s : Str, s.length ≤ n → Components s (pathParts s) := by
  induction n with
  | zero =>
    intro s h
    have : s = [] := List.length_eq_zero_iff.1 (by omega)
    subst this
    exact .last (by simp) .empty
  | succ n ih =>
    intro s h
    by_cases hs : '/' ∈ s
    · obtain ⟨a, b, e, ha⟩ := List.eq_append_cons_of_mem hs
      subst e
      rw [pathParts_append]
      refine .more ha ?_ (ih b (by simp at h; omega))
      rw [pathParts, splitChar_none ha]
      exact (kept_iff _ _).2 rfl
    · exact .last hs (by rw [pathParts, splitChar_none hs]; exact (kept_iff _ _).2 rfl)

/-! ### Following a path -/

theorem walk_leads (t : Tree) (p : Place) (cs : List Str) (q : Place) : t.walk p cs = .ok q ↔ Leads t p cs q := by
  constructor
  · intro h
    induction cs generalizing p with
    | nil => simp [Tree.walk] at h; subst h; exact .here _
    | cons c cs ih =>
      simp only [Tree.walk] at h
      cases hl : t.look p with
      | none => simp [hl] at h
      | some e =>
        cases e with
        | file s => simp [hl] at h
        | dir =>
          simp only [hl] at h
          by_cases hc : c = c!".."
          · simp only [hc, if_true] at h
            rw [hc]
            by_cases hp : p = []
            · subst hp; exact .top (ih _ h)
            · have e := List.dropLast_concat_getLast hp
              rw [← e] at hl ⊢
              exact .up hl (ih _ h)
          · simp only [hc, if_false] at h
            exact .down hl hc (ih _ h)
  · intro h
    induction h with
    | here => rfl
    | down hl hc _ ih => simp only [Tree.walk, hl, if_neg hc, ih]
    | up hl _ ih => simp only [Tree.walk, hl, if_true, List.dropLast_concat, ih]
    | top _ ih => simp only [Tree.walk, look_root, if_true, List.dropLast_nil, ih]

theorem leads_append {t : Tree} {p q r : Place} {a b : List Str} (h : Leads t p a q) (h' : Leads t q b r) : Leads t p (a ++ b) r := by
  rw [← walk_leads] at h h' ⊢
  rw [walk_append, h]; exact h'

/-- A walk that fails, fails at something that is no directory. -/
theorem walk_stops (t : Tree) (p : Place) (cs : List Str) (e : PyErr) : t.walk p cs = .error e ↔
    ∃ front c back q, cs = front ++ c :: back ∧ t.walk p front = .ok q ∧
      ((t.look q = none ∧ e = .fileNotFound) ∨ ∃ s, t.look q = some (.file s) ∧ e = .osError) := by
  constructor
  · intro h
    induction cs generalizing p with
    | nil => simp [Tree.walk] at h
    | cons c cs ih =>
      simp only [Tree.walk] at h
      cases hl : t.look p with
      | none =>
        simp only [hl] at h
        exact ⟨[], c, cs, p, rfl, rfl, .inl ⟨hl, by simpa using h.symm⟩⟩
      | some e' =>
        cases e' with
        | file s =>
          simp only [hl] at h
          exact ⟨[], c, cs, p, rfl, rfl, .inr ⟨s, hl, by simpa using h.symm⟩⟩
        | dir =>
          simp only [hl] at h
          obtain ⟨front, c', back, q, h1, h2, h3⟩ := ih _ h
          exact ⟨c :: front, c', back, q, by rw [h1]; rfl, by simp only [Tree.walk, hl, h2], h3⟩
  · rintro ⟨front, c, back, q, rfl, h2, h3⟩
    rw [walk_append, h2]
    rcases h3 with ⟨h, rfl⟩ | ⟨s, h, rfl⟩ <;> simp only [Tree.walk, h]

/-! ### Making directories -/

theorem putAt_put {t : Tree} {q : Place} (hq : q ≠ []) (e : Entry) : PutAt t (putEntry q e t) q e :=
  ⟨by rw [look_put hq]; simp, fun p hp => by rw [look_put hq, if_neg hp]⟩

theorem noNul_iff (p : List Str) : hasNul p = false ↔ NoNul p := hasNul_false

/-- In a tree whose directories reach up to the root, a straight path whose proper beginnings are no
files stops where the directories end. -/
theorem prefix_dir_or_none {t : Tree} {p q : Place} (hf : ∀ q s, q <+: p → t.look q ≠ some (.file s)) (hq : q <+: p) :
    t.look q = some .dir ∨ t.look q = none := by
  cases h : t.look q with
  | none => exact .inr rfl
  | some e => cases e with
    | dir => exact .inl rfl
    | file s => exact absurd h (hf q s hq)

theorem list_end {α : Type} (l : List α) : l = [] ∨ ∃ a x, l = a ++ [x] := by
  rcases List.eq_nil_or_concat l with h | ⟨a, x, h⟩
  · exact .inl h
  · exact .inr ⟨a, x, by simpa using h⟩

theorem straight_ok {t : Tree} {xs : List Str} (hs : Straight xs) : ∀ {at_ q : Place}, t.walk at_ xs = .ok q → q = at_ ++ xs := by
  induction xs with
  | nil => intro at_ q h; simp [Tree.walk] at h; simp [h]
  | cons c cs ih =>
    intro at_ q h
    simp only [Tree.walk] at h
    cases hl : t.look at_ with
    | none => simp [hl] at h
    | some e => cases e with
      | file s => simp [hl] at h
      | dir =>
        simp only [hl, if_neg (hs c (by simp))] at h
        have := ih (fun x hx => hs x (by simp [hx])) h
        rw [this]; simp

theorem prefix_of_append {ys zs p : List Str} {c : Str} (e : p ++ [c] = ys ++ zs) (hz : zs ≠ []) : ys <+: p := by
  rcases list_end zs with h | ⟨zs', z, h⟩
  · exact absurd h hz
  · rw [h, ← List.append_assoc] at e
    exact ⟨zs', (List.append_inj' e rfl).1.symm⟩

/-- A straight path whose proper beginnings are directories leads to its own place. -/
theorem straight_walk {t : Tree} {p : Place} {c : Str} (hs : Straight (p ++ [c])) (hd : ∀ q, q <+: p → t.look q = some .dir) :
    t.walk [] (p ++ [c]) = .ok (p ++ [c]) := by
  have := walk_plain t [] (p ++ [c]) hs (fun ys zs e hz => by rw [List.nil_append]; exact hd ys (prefix_of_append e hz))
  simpa using this

theorem dir_prefixes {t : Tree} (hc : t.Closed) {p q : Place} (hd : t.look p = some .dir) (hq : q <+: p) : t.look q = some .dir := by
  obtain ⟨w, hw⟩ := hq
  by_cases hw0 : w = []
  · rw [hw0, List.append_nil] at hw; rw [hw]; exact hd
  · exact closed_prefix hc w q (by rw [hw, hd]; simp) hw0

theorem straight_missing {t : Tree} {p : Place} {c : Str} (hs : Straight (p ++ [c])) (hf : ∀ q s, q <+: p → t.look q ≠ some (.file s))
    (hn : t.look p = none) : t.walk [] (p ++ [c]) = .error .fileNotFound := by
  have hsp : Straight p := fun x hx => hs x (by simp [hx])
  cases h : t.walk [] (p ++ [c]) with
  | ok q =>
    rw [walk_append] at h
    cases hw : t.walk [] p with
    | error e => simp [hw] at h
    | ok q' =>
      have := straight_ok hsp hw
      rw [hw] at h
      rw [List.nil_append] at this
      subst this
      simp [Tree.walk, hn] at h
  | error e =>
    obtain ⟨front, d, back, q, h1, h2, h3⟩ := (walk_stops _ _ _ _).1 h
    have hp : front <+: p := prefix_of_append h1 (by simp)
    have hfr : Straight front := fun x hx => hs x (by rw [h1]; simp [hx])
    have hq := straight_ok hfr h2
    rw [List.nil_append] at hq
    subst hq
    rcases h3 with ⟨_, rfl⟩ | ⟨s, hx, _⟩
    · rfl
    · exact absurd hx (hf _ s hp)

theorem straight_file {t : Tree} (hc : t.Closed) {p q : Place} {c : Str} {s : Str} (hs : Straight (p ++ [c])) (hq : q <+: p)
    (hf : t.look q = some (.file s)) : t.walk [] (p ++ [c]) = .error .osError := by
  rw [walk_stops]
  obtain ⟨w, rfl⟩ := hq
  have hsq : Straight q := fun x hx => hs x (by simp [hx])
  have hw : t.walk [] q = .ok q := by
    have := walk_plain t [] q hsq (fun ys zs e hz => by
      rw [List.nil_append]
      exact closed_prefix hc zs ys (by rw [← e, hf]; simp) hz)
    simpa using this
  cases w with
  | nil => exact ⟨q, c, [], q, by simp, hw, .inr ⟨s, hf, rfl⟩⟩
  | cons d w => exact ⟨q, d, w ++ [c], q, by simp, hw, .inr ⟨s, hf, rfl⟩⟩

theorem paved_put {t u : Tree} {p : Place} {c : Str} (h : PavedTo t u p) : PavedTo t (putEntry (p ++ [c]) .dir u) (p ++ [c]) := by
  have hne : p ++ [c] ≠ [] := by simp
  constructor
  · intro q hq
    rw [look_put hne]
    by_cases e : q = p ++ [c]
    · rw [if_pos e]
    · rw [if_neg e]
      exact h.1 q ((List.prefix_concat_iff.1 hq).resolve_left e)
  · intro q hq
    have e : q ≠ p ++ [c] := fun e => hq (by rw [e]; exact List.prefix_refl _)
    rw [look_put hne, if_neg e]
    exact h.2 q (fun hp => hq (hp.trans (List.prefix_append _ _)))

theorem mkdirRev_paves (r : List Str) : ∀ (t : Tree), t.Closed → NoNul r.reverse → Straight r.reverse →
    (∀ q s, q <+: r.reverse → t.look q ≠ some (.file s)) → ∃ u, t.mkdirRev r = (.ok (), u) ∧ PavedTo t u r.reverse := by
  induction r with
  | nil =>
    intro t _ _ _ _
    refine ⟨t, rfl, fun q hq => ?_, fun q _ => rfl⟩
    have : q = [] := by simpa using hq
    rw [this]; rfl
  | cons c r ih =>
    intro t hc hn hs hf
    rw [List.reverse_cons] at hn hs hf ⊢
    have hfp : ∀ q s, q <+: r.reverse → t.look q ≠ some (.file s) := fun q s hq => hf q s (hq.trans (List.prefix_append _ _))
    have hnul : hasNul (r.reverse ++ [c]) = false := (noNul_iff _).2 hn
    have hne : r.reverse ++ [c] ≠ [] := by simp
    rcases prefix_dir_or_none hfp (List.prefix_refl _) with hd | hno
    · have hw : t.resolve (r.reverse ++ [c]) = .ok (r.reverse ++ [c]) := by
        rw [resolve_eq hnul]; exact straight_walk hs (fun q hq => dir_prefixes hc hd hq)
      rcases prefix_dir_or_none hf (List.prefix_refl _) with hd2 | hno2
      · refine ⟨t, ?_, fun q hq => dir_prefixes hc hd2 hq, fun q _ => rfl⟩
        simp only [Tree.mkdirRev, List.reverse_cons, Tree.osMkdir, hw, hd2, Tree.isDir, decide_true, and_self, if_true]
      · refine ⟨putEntry (r.reverse ++ [c]) .dir t, ?_, paved_put ⟨fun q hq => dir_prefixes hc hd hq, fun q _ => rfl⟩⟩
        simp only [Tree.mkdirRev, List.reverse_cons, Tree.osMkdir, hw, hno2]
    · have hw : t.resolve (r.reverse ++ [c]) = .error .fileNotFound := by
        rw [resolve_eq hnul]; exact straight_missing hs hfp hno
      obtain ⟨t1, h1, hp⟩ := ih t hc (fun x hx => hn x (by simp [List.mem_reverse.1 hx]))
        (fun x hx => hs x (by simp [List.mem_reverse.1 hx])) hfp
      have hw1 : t1.resolve (r.reverse ++ [c]) = .ok (r.reverse ++ [c]) := by
        rw [resolve_eq hnul]; exact straight_walk hs hp.1
      have hl1 : t1.look (r.reverse ++ [c]) = none := by
        rw [hp.2 _ (fun h => by have := h.length_le; simp at this; omega)]
        cases h : t.look (r.reverse ++ [c]) with
        | none => rfl
        | some e => have := hc r.reverse c (by rw [h]; simp); rw [this] at hno; simp at hno
      refine ⟨putEntry (r.reverse ++ [c]) .dir t1, ?_, paved_put hp⟩
      simp only [Tree.mkdirRev, List.reverse_cons, Tree.osMkdir, hw, h1, Tree.mkdirLast, hw1, hl1]

theorem mkdirRev_file (r : List Str) (t : Tree) (hc : t.Closed) (hn : NoNul r.reverse) (hs : Straight r.reverse) {q : Place} {s : Str}
    (hq : q <+: r.reverse) (hf : t.look q = some (.file s)) : t.mkdirRev r = (.error .osError, t) := by
  cases r with
  | nil =>
    have : q = [] := by simpa using hq
    rw [this, look_root] at hf; simp at hf
  | cons c r =>
    rw [List.reverse_cons] at hn hs hq
    have hnul : hasNul (r.reverse ++ [c]) = false := (noNul_iff _).2 hn
    rcases List.prefix_concat_iff.1 hq with rfl | hqp
    · have hd : t.look r.reverse = some .dir := hc _ _ (by rw [hf]; simp)
      have hw : t.resolve (r.reverse ++ [c]) = .ok (r.reverse ++ [c]) := by
        rw [resolve_eq hnul]; exact straight_walk hs (fun q hq => dir_prefixes hc hd hq)
      simp only [Tree.mkdirRev, List.reverse_cons, Tree.osMkdir, hw, hf, Tree.isDir]
      simp
    · have hw : t.resolve (r.reverse ++ [c]) = .error .osError := by
        rw [resolve_eq hnul]; exact straight_file hc hs hqp hf
      simp only [Tree.mkdirRev, List.reverse_cons, Tree.osMkdir, hw, Tree.isDir]
      simp

theorem walk_keeps {t u : Tree} (h : ∀ a, t.look a = some .dir → u.look a = some .dir) :
    ∀ (p : List Str) (a q : Place), t.walk a p = .ok q → u.walk a p = .ok q
  | [], _, _, e => e
  | c :: cs, a, q, e => by
    unfold Tree.walk at e ⊢
    cases hl : t.look a with
    | none => simp [hl] at e
    | some x =>
      cases x with
      | file s => simp [hl] at e
      | dir =>
        simp only [hl] at e
        simp only [h a hl]
        exact walk_keeps h cs _ q e

/-- After a successful `os.mkdir` the directory is there and nothing is lost. -/
theorem osMkdir_there {t u : Tree} {p : List Str} (h : t.osMkdir p = .ok u) :
    u.isDir p = true ∧ ∀ q e, t.look q = some e → u.look q = some e := by
  unfold Tree.osMkdir at h
  cases hr : t.resolve p with
  | error e => simp [hr] at h
  | ok q =>
    cases hl : t.look q with
    | some e => simp [hr, hl] at h
    | none =>
      simp only [hr, hl, Except.ok.injEq] at h
      subst h
      have hq : q ≠ [] := by
        rintro rfl
        simp [look_root] at hl
      have hk : ∀ a e, t.look a = some e → (putEntry q .dir t).look a = some e := by
        intro a e ha
        have : a ≠ q := by rintro rfl; simp [hl] at ha
        simp only [Tree.look, findEntry_put, this, if_false] at *
        exact ha
      refine ⟨?_, hk⟩
      unfold Tree.resolve at hr
      split at hr
      · simp at hr
      · next hn =>
        have := walk_keeps (fun a ha => hk a _ ha) p [] q hr
        simp [Tree.isDir, Tree.resolve, hn, this, Tree.look, hq, findEntry_put]

theorem mkdirRev_there (t : Tree) : ∀ (r : List Str) (u : Tree), t.mkdirRev r = (.ok (), u) →
    u.isDir r.reverse = true ∧ ∀ q e, t.look q = some e → u.look q = some e
  | [], u, h => by
    simp only [Tree.mkdirRev, Prod.mk.injEq, true_and] at h
    subst h
    exact ⟨by simp [Tree.isDir, Tree.resolve, hasNul, Tree.walk, look_root], fun _ _ h => h⟩
  | c :: r, u, h => by
    unfold Tree.mkdirRev at h
    split at h
    · next t' ht =>
      simp only [Prod.mk.injEq, true_and] at h
      subst h
      exact osMkdir_there ht
    · split at h
      · simp at h
      · next t1 h1 =>
        have k := (mkdirRev_there t r t1 h1).2
        split at h
        · next t2 h2 =>
          simp only [Prod.mk.injEq, true_and] at h
          subst h
          unfold Tree.mkdirLast at h2
          split at h2
          · next t3 h3 =>
            simp only [Except.ok.injEq] at h2
            subst h2
            obtain ⟨g1, g2⟩ := osMkdir_there h3
            exact ⟨g1, fun q e hq => g2 q e (k q e hq)⟩
          · split at h2
            · next hd =>
              simp only [Except.ok.injEq] at h2
              subst h2
              exact ⟨hd.2, k⟩
            · simp at h2
        · simp at h
    · split at h
      · next hd =>
        simp only [Prod.mk.injEq, true_and] at h
        subst h
        exact ⟨hd.2, fun _ _ h => h⟩
      · simp at h

end WG
