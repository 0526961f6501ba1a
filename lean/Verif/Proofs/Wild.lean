/-
The names with `*`, `?` and `[`.
-/
import Verif.Spec.Wild
import Verif.Proofs.Gdbms

set_option linter.unusedSectionVars false
set_option linter.unusedSimpArgs false

namespace WG

theorem anySuffix_iff {f : Str → Bool} {s : Str} : anySuffix f s = true ↔ ∃ t u, s = t ++ u ∧ f u = true := by
  induction s with
  | nil =>
    simp only [anySuffix]
    constructor
    · intro h; exact ⟨[], [], rfl, h⟩
    · rintro ⟨t, u, e, h⟩
      obtain ⟨rfl, rfl⟩ := List.append_eq_nil_iff.1 e.symm
      exact h
  | cons c cs ih =>
    simp only [anySuffix, Bool.or_eq_true, ih]
    constructor
    · rintro (h | ⟨t, u, rfl, h⟩)
      · exact ⟨[], _, rfl, h⟩
      · exact ⟨c :: t, u, rfl, h⟩
    · rintro ⟨t, u, e, h⟩
      cases t with
      | nil => left; simp at e; rw [e]; exact h
      | cons a t =>
        simp only [List.cons_append, List.cons.injEq] at e
        exact .inr ⟨t, u, e.2, h⟩

theorem splitSet_some {cs p : Str} (h : ']' ∉ cs) : splitSet (cs ++ ']' :: p) = some (cs, p) := by
  induction cs with
  | nil => simp [splitSet]
  | cons c cs ih =>
    simp only [List.mem_cons, not_or] at h
    simp [splitSet, Ne.symm h.1, ih h.2]

theorem splitSet_none {p : Str} (h : ']' ∉ p) : splitSet p = none := by
  induction p with
  | nil => rfl
  | cons c cs ih =>
    simp only [List.mem_cons, not_or] at h
    simp [splitSet, Ne.symm h.1, ih h.2]

theorem inSet_plain {c : Char} (h : InSet c) : isPlainSetChar c = true ∧ c ≠ ']' ∧ c ≠ '!' := by
  simp only [InSet, List.mem_cons, List.not_mem_nil, or_false, not_or] at h
  simp [isPlainSetChar, h]

theorem set_split {cs cs' p p' : Str} (h : ']' ∉ cs) (h' : ']' ∉ cs') (e : cs ++ ']' :: p = cs' ++ ']' :: p') : cs = cs' ∧ p = p' := by
  have := splitSet_some (p := p) h
  rw [e, splitSet_some h'] at this
  simp at this
  exact ⟨this.1.symm, this.2.symm⟩

theorem wild_star {p s : Str} : Wild ('*' :: p) s ↔ ∃ t u, s = t ++ u ∧ Wild p u := by
  constructor
  · intro h
    generalize e : '*' :: p = q at h
    cases h with
    | star p' t u h => simp at e; subst e; exact ⟨t, u, rfl, h⟩
    | char c p' u hc h => simp at e; simp [← e.1] at hc
    | _ => simp at e
  · rintro ⟨t, u, rfl, h⟩
    exact .star p t u h

theorem wild_any {p s : Str} : Wild ('?' :: p) s ↔ ∃ c u, s = c :: u ∧ Wild p u := by
  constructor
  · intro h
    generalize e : '?' :: p = q at h
    cases h with
    | any c p' u h => simp at e; subst e; exact ⟨c, u, rfl, h⟩
    | char c p' u hc h => simp at e; simp [← e.1] at hc
    | _ => simp at e
  · rintro ⟨c, u, rfl, h⟩
    exact .any c p u h

theorem wild_char {c : Char} {p s : Str} (hc : c ∉ ['*', '?', '[']) : Wild (c :: p) s ↔ ∃ u, s = c :: u ∧ Wild p u := by
  constructor
  · intro h
    generalize e : c :: p = q at h
    cases h with
    | char c' p' u hc' h => simp at e; obtain ⟨rfl, rfl⟩ := e; exact ⟨u, rfl, h⟩
    | nil => simp at e
    | _ => simp at e; simp [e.1] at hc
  · rintro ⟨u, rfl, h⟩
    exact .char c p u hc h

theorem wild_alone {p s : Str} (hp : ']' ∉ p) : Wild ('[' :: p) s ↔ ∃ u, s = '[' :: u ∧ Wild p u := by
  constructor
  · intro h
    generalize e : '[' :: p = q at h
    cases h with
    | alone p' u _ h => simp at e; subst e; exact ⟨u, rfl, h⟩
    | char c p' u hc h => simp at e; simp [← e.1] at hc
    | set cs c p' u _ _ h => simp at e; simp [e] at hp
    | nset cs c p' u _ _ _ h => simp at e; simp [e] at hp
    | _ => simp at e
  · rintro ⟨u, rfl, h⟩
    exact .alone p u hp h

theorem wild_set {cs p s : Str} (hne : cs ≠ []) (hcs : ∀ c ∈ cs, InSet c) :
    Wild ('[' :: (cs ++ ']' :: p)) s ↔ ∃ c u, s = c :: u ∧ c ∈ cs ∧ Wild p u := by
  have hb : ']' ∉ cs := fun h => (inSet_plain (hcs _ h)).2.1 rfl
  constructor
  · intro h
    generalize e : '[' :: (cs ++ ']' :: p) = q at h
    cases h with
    | set cs' c p' u hcs' hc h =>
      simp only [List.cons.injEq, true_and] at e
      obtain ⟨rfl, rfl⟩ := set_split hb (fun h => (inSet_plain (hcs' _ h)).2.1 rfl) e
      exact ⟨c, u, rfl, hc, h⟩
    | nset cs' c p' u _ _ _ h =>
      simp only [List.cons.injEq, true_and] at e
      cases cs with
      | nil => exact absurd rfl hne
      | cons a cs =>
        simp only [List.cons_append, List.cons.injEq] at e
        exact absurd e.1 (inSet_plain (hcs a (by simp))).2.2
    | alone p' u hp h => simp only [List.cons.injEq, true_and] at e; subst e; simp at hp
    | char c p' u hc h => simp at e; simp [← e.1] at hc
    | _ => simp at e
  · rintro ⟨c, u, rfl, hc, h⟩
    exact .set cs c p u hcs hc h

theorem wild_nset {cs p s : Str} (hne : cs ≠ []) (hcs : ∀ c ∈ cs, InSet c) :
    Wild ('[' :: '!' :: (cs ++ ']' :: p)) s ↔ ∃ c u, s = c :: u ∧ c ∉ cs ∧ Wild p u := by
  have hb : ']' ∉ cs := fun h => (inSet_plain (hcs _ h)).2.1 rfl
  constructor
  · intro h
    generalize e : '[' :: '!' :: (cs ++ ']' :: p) = q at h
    cases h with
    | nset cs' c p' u _ hcs' hc h =>
      simp only [List.cons.injEq, true_and] at e
      obtain ⟨rfl, rfl⟩ := set_split hb (fun h => (inSet_plain (hcs' _ h)).2.1 rfl) e
      exact ⟨c, u, rfl, hc, h⟩
    | set cs' c p' u hcs' hc h =>
      simp only [List.cons.injEq, true_and] at e
      cases cs' with
      | nil => simp at hc
      | cons a cs' =>
        simp only [List.cons_append, List.cons.injEq] at e
        exact absurd e.1.symm (inSet_plain (hcs' a (by simp))).2.2
    | alone p' u hp h => simp only [List.cons.injEq, true_and] at e; subst e; simp at hp
    | char c p' u hc h => simp at e; simp [← e.1] at hc
    | _ => simp at e
  · rintro ⟨c, u, rfl, hc, h⟩
    exact .nset cs c p u hne hcs hc h

theorem toks_wild {p : Str} (h : Readable p) : ∀ n, p.length < n → ∃ ts, globToks n p = some ts ∧ ∀ s, globMatch ts s = true ↔ Wild p s := by
  induction h with
  | nil =>
    intro n hn
    cases n with
    | zero => simp at hn
    | succ n =>
      refine ⟨[], rfl, fun s => ?_⟩
      cases s with
      | nil => simp [globMatch, Wild.nil]
      | cons c s => simp [globMatch]; intro h; cases h
  | char c p hc _ ih =>
    intro n hn
    cases n with
    | zero => simp at hn
    | succ n =>
      obtain ⟨ts, h1, h2⟩ := ih n (by simp at hn; omega)
      by_cases e1 : c = '*'
      · subst e1
        refine ⟨.star :: ts, by simp [globToks, h1], fun s => ?_⟩
        rw [globMatch, anySuffix_iff, wild_star]
        simp [h2]
      by_cases e2 : c = '?'
      · subst e2
        refine ⟨.any :: ts, by simp [globToks, h1], fun s => ?_⟩
        rw [wild_any]
        cases s with
        | nil => simp [globMatch]
        | cons c s => simp only [globMatch, h2, List.cons.injEq]; grind
      · refine ⟨.lit c :: ts, by simp [globToks, h1, e1, e2, hc], fun s => ?_⟩
        rw [wild_char (by simp [e1, e2, hc])]
        cases s with
        | nil => simp [globMatch]
        | cons c' s => simp only [globMatch, Bool.and_eq_true, beq_iff_eq, h2, List.cons.injEq]; grind
  | alone p hp _ ih =>
    intro n hn
    cases n with
    | zero => simp at hn
    | succ n =>
      obtain ⟨ts, h1, h2⟩ := ih n (by simp at hn; omega)
      refine ⟨.lit '[' :: ts, by simp [globToks, h1, splitSet_none hp], fun s => ?_⟩
      rw [wild_alone hp]
      cases s with
      | nil => simp [globMatch]
      | cons c' s => simp only [globMatch, Bool.and_eq_true, beq_iff_eq, h2, List.cons.injEq]; grind
  | set cs p hne hcs _ ih =>
    intro n hn
    cases n with
    | zero => simp at hn
    | succ n =>
      obtain ⟨ts, h1, h2⟩ := ih n (by simp at hn; omega)
      have hb : ']' ∉ cs := fun h => (inSet_plain (hcs _ h)).2.1 rfl
      have hpl : cs.all isPlainSetChar = true := List.all_eq_true.2 fun c hc => (inSet_plain (hcs c hc)).1
      have hx : ∀ cs', cs ≠ '!' :: cs' := by
        rintro cs' rfl
        exact (inSet_plain (hcs '!' (by simp))).2.2 rfl
      refine ⟨.set false cs :: ts, ?_, fun s => ?_⟩
      · simp only [globToks, splitSet_some hb]
        rw [if_neg (by decide), if_neg (by decide), if_pos trivial]
        split
        · exact absurd rfl hne
        · exact absurd rfl (hx [])
        · next cs' _ => exact absurd rfl (hx cs')
        · simp [hpl, h1]
      · rw [wild_set hne hcs]
        cases s with
        | nil => simp [globMatch]
        | cons c' s =>
          simp only [globMatch, Bool.and_eq_true, h2, List.cons.injEq, bne_iff_ne, ne_eq, Bool.not_eq_false, Bool.not_eq_true, List.contains_eq_mem,
            decide_eq_true_eq, decide_eq_false_iff_not]
          grind
  | nset cs p hne hcs _ ih =>
    intro n hn
    cases n with
    | zero => simp at hn
    | succ n =>
      obtain ⟨ts, h1, h2⟩ := ih n (by simp at hn; omega)
      have hb : ']' ∉ '!' :: cs := by
        simp only [List.mem_cons, not_or]
        exact ⟨by decide, fun h => (inSet_plain (hcs _ h)).2.1 rfl⟩
      have hpl : cs.all isPlainSetChar = true := List.all_eq_true.2 fun c hc => (inSet_plain (hcs c hc)).1
      refine ⟨.set true cs :: ts, ?_, fun s => ?_⟩
      · have := splitSet_some (p := p) hb
        simp only [List.cons_append] at this
        simp only [globToks, this]
        rw [if_neg (by decide), if_neg (by decide), if_pos trivial]
        cases cs with
        | nil => exact absurd rfl hne
        | cons a cs => simp [hpl, h1]
      · rw [wild_nset hne hcs]
        cases s with
        | nil => simp [globMatch]
        | cons c' s =>
          simp only [globMatch, Bool.and_eq_true, h2, List.cons.injEq, bne_iff_ne, ne_eq, Bool.not_eq_false, Bool.not_eq_true, List.contains_eq_mem,
            decide_eq_true_eq, decide_eq_false_iff_not]
          grind

theorem hidden_iff (s : Str) : isHidden s = true ↔ s.head? = some '.' := by
  cases s with
  | nil => simp [isHidden]
  | cons c s =>
    by_cases e : c = '.'
    · subst e; simp [isHidden]
    · simp [isHidden, e]

theorem magic_iff (s : Str) : hasMagic s = true ↔ ∃ c ∈ s, c ∈ ['*', '?', '['] := by
  simp [hasMagic, or_assoc]

section
variable [PyRuntime]

theorem globDirs_iff {name : Str} (h : Readable name) (d : Str) : globDirs name d = true ↔ LooksAt name d := by
  unfold globDirs LooksAt
  by_cases hm : hasMagic name = true
  · rw [if_pos hm, if_pos ((magic_iff name).1 hm)]
    obtain ⟨ts, h1, h2⟩ := toks_wild h (name.length + 1) (by omega)
    simp only [fnmatch, h1, Bool.and_eq_true, h2, Bool.or_eq_true, Bool.not_eq_true', hidden_iff, ← Bool.not_eq_true]
    constructor
    · rintro ⟨h3, h4⟩
      exact ⟨h3, fun h => h4.resolve_right fun h' => h' h⟩
    · rintro ⟨h3, h4⟩
      by_cases e : d.head? = some '.'
      · exact ⟨h3, .inl (h4 e)⟩
      · exact ⟨h3, .inr e⟩
  · rw [if_neg hm, if_neg fun h' => hm ((magic_iff name).2 h')]
    simp

/-- The files that a deletion removes. -/
def pickedFiles (fs : FS) (folder name : Str) : List Path :=
  (fs.files.map Prod.fst).filter fun p => decide (p.folder = folder) && globDirs name p.dir && !isHidden p.file

theorem delete_outcome {name folder : Str} {fs : FS} (hd : (folder, name) ∈ fs.dirs) (hn : (fs.files.map Prod.fst).Nodup) :
    (deleteGdbms name folder).run fs =
      if ((without fs (pickedFiles fs folder name)).files.all fun x => ¬ (x.1.folder = folder ∧ x.1.dir = name)) = true then
        (.ok 0, { without fs (pickedFiles fs folder name) with dirs := fs.dirs.filter fun x => x ≠ (folder, name) })
      else (.error .osError, without fs (pickedFiles fs folder name)) := by
  unfold deleteGdbms
  rw [run_bind_ok (show (flagOp (.isDir folder name)).run fs = (.ok true, fs) by simp [flagOp, Prog.run, exec, hd])]
  simp only [not_true_eq_false, if_false]
  rw [run_bind_ok (show Prog.run _ fs = (.ok (pickedFiles fs folder name), fs) by simp only [Prog.run, exec, pickedFiles])]
  rw [run_bind_ok (removeAll_run (ps := pickedFiles fs folder name) (hn.sublist List.filter_sublist) (by
    intro p hp
    exact lookup_some (List.mem_filter.1 hp).1))]
  have hr : (unitOp (.rmdir folder name) .osError).run (without fs (pickedFiles fs folder name)) =
      if ((without fs (pickedFiles fs folder name)).files.all fun x => ¬ (x.1.folder = folder ∧ x.1.dir = name)) = true then
        (.ok (), { without fs (pickedFiles fs folder name) with dirs := fs.dirs.filter fun x => x ≠ (folder, name) })
      else (.error .osError, without fs (pickedFiles fs folder name)) := by
    simp only [unitOp, Prog.run, exec]
    have hd' : (folder, name) ∈ (without fs (pickedFiles fs folder name)).dirs := hd
    by_cases h : ((without fs (pickedFiles fs folder name)).files.all fun x => ¬ (x.1.folder = folder ∧ x.1.dir = name)) = true
    · rw [if_pos ⟨hd', h⟩, if_pos h]; rfl
    · rw [if_neg fun h' => h h'.2, if_neg h]; rfl
  split at hr
  · next h => rw [run_bind_ok hr, if_pos h]; rfl
  · next h => rw [run_bind_err hr, if_neg h]

end

theorem splitSet_inv : ∀ {s cs p : Str}, splitSet s = some (cs, p) → s = cs ++ ']' :: p ∧ ']' ∉ cs
  | [], _, _, h => by simp [splitSet] at h
  | c :: s, cs, p, h => by
    unfold splitSet at h
    split at h
    · next hc =>
      simp only [Option.some.injEq, Prod.mk.injEq] at h
      obtain ⟨rfl, rfl⟩ := h
      exact ⟨by simp [hc], by simp⟩
    · next hc =>
      cases hs : splitSet s with
      | none => simp [hs] at h
      | some x =>
        obtain ⟨a, b⟩ := x
        simp only [hs, Option.map_some, Option.some.injEq, Prod.mk.injEq] at h
        obtain ⟨rfl, rfl⟩ := h
        obtain ⟨h1, h2⟩ := splitSet_inv hs
        exact ⟨by rw [h1]; rfl, by simp only [List.mem_cons, not_or]; exact ⟨fun e => hc e.symm, h2⟩⟩

theorem splitSet_none_inv : ∀ {s : Str}, splitSet s = none → ']' ∉ s
  | [], _ => by simp
  | c :: s, h => by
    unfold splitSet at h
    split at h
    · simp at h
    · next hc =>
      have := splitSet_none_inv (s := s) (by simpa using h)
      simp only [List.mem_cons, not_or]
      exact ⟨fun e => hc e.symm, this⟩

theorem plain_inSet {cs : Str} (h : cs.all isPlainSetChar = true) (hb : ']' ∉ cs) : ∀ c ∈ cs, InSet c := by
  intro c hc
  have h1 := List.all_eq_true.1 h c hc
  have h2 : c ≠ ']' := by rintro rfl; exact hb hc
  simp only [isPlainSetChar, Bool.and_eq_true, bne_iff_ne, ne_eq] at h1
  simp only [InSet, List.mem_cons, List.not_mem_nil, or_false, not_or]
  grind

/-- Only readable patterns are evaluated by the model. -/
theorem toks_readable : ∀ (n : Nat) (p : Str) (ts : List GlobTok), globToks n p = some ts → Readable p
  | 0, _, _, h => by simp [globToks] at h
  | _ + 1, [], _, _ => .nil
  | n + 1, c :: cs, ts, h => by
    have sub : ∀ {q : Str} {x : GlobTok}, (globToks n q).map (x :: ·) = some ts → Readable q := by
      intro q x hq
      cases hg : globToks n q with
      | none => simp [hg] at hq
      | some us => exact toks_readable n q us hg
    unfold globToks at h
    split at h
    · next hc => exact .char c cs (by rw [hc]; decide) (sub h)
    · split at h
      · next hc => exact .char c cs (by rw [hc]; decide) (sub h)
      · split at h
        · next hc =>
          subst hc
          split at h
          · next hs => exact .alone cs (splitSet_none_inv hs) (sub h)
          · next set rest hs =>
            obtain ⟨e, hb⟩ := splitSet_inv hs
            subst e
            split at h
            · simp at h
            · simp at h
            · next set' hne =>
              split at h
              · next ha =>
                have hb' : ']' ∉ set' := fun hm => hb (by simp [hm])
                exact .nset set' rest hne (plain_inSet ha hb') (sub h)
              · simp at h
            · next hne _ _ =>
              split at h
              · next ha => exact .set set rest (by rintro rfl; simp at hne) (plain_inSet ha hb) (sub h)
              · simp at h
        · next hc => exact .char c cs hc (sub h)

end WG
