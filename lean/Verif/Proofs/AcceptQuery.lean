/-
Lemmas: a query of well-formed lines is parsed to what is written.
-/
import Verif.Proofs.AcceptStmt
import Verif.Proofs.Query
import Verif.Model.Query
set_option linter.unusedSectionVars false
set_option linter.unusedSimpArgs false

namespace WG
open Re
variable [PyRuntime]

/-! ### What stands before the opening parentheses -/

/-- For each `(`, the last character before it that is not white space. -/
def opens (cur : Option Char) : Str → List (Option Char)
  | [] => []
  | c :: cs => if c = '(' then cur :: opens (some c) cs else if isSpace c = true then opens cur cs else opens (some c) cs

/-- The last character that is not white space. -/
def lastSolid (cur : Option Char) : Str → Option Char
  | [] => cur
  | c :: cs => if isSpace c = true then lastSolid cur cs else lastSolid (some c) cs

theorem ciSpelling_length : ∀ {kw w : Str}, CISpelling kw w → w.length = kw.length
  | [], [], _ => rfl
  | k :: ks, c :: cs, h => by simp [ciSpelling_length h.2]
  | [], _ :: _, h => h.elim
  | _ :: _, [], h => h.elim

theorem opens_append (cur : Option Char) (u v : Str) : opens cur (u ++ v) = opens cur u ++ opens (lastSolid cur u) v := by
  induction u generalizing cur with
  | nil => rfl
  | cons c cs ih =>
    simp only [List.cons_append, opens, lastSolid]
    by_cases h : c = '('
    · subst h
      simp [ih, sp_lit]
    · by_cases h' : isSpace c = true <;> simp [h, h', ih]

theorem lastSolid_append (cur : Option Char) (u v : Str) : lastSolid cur (u ++ v) = lastSolid (lastSolid cur u) v := by
  induction u generalizing cur with
  | nil => rfl
  | cons c cs ih =>
    simp only [List.cons_append, lastSolid]
    split <;> exact ih _

theorem lastSolid_space {u : Str} (h : u.all isSpace = true) (cur : Option Char) : lastSolid cur u = cur := by
  induction u with
  | nil => rfl
  | cons c cs ih =>
    simp only [List.all_cons, Bool.and_eq_true] at h
    simp [lastSolid, h.1, ih h.2]

theorem lastSolid_end {u sp : Str} {x : Char} (hx : isSpace x = false) (h : sp.all isSpace = true) (cur : Option Char) :
    lastSolid cur (u ++ x :: sp) = some x := by
  rw [lastSolid_append]
  simp [lastSolid, hx, lastSolid_space h]

theorem opens_none {u : Str} (h : '(' ∉ u) (cur : Option Char) : opens cur u = [] := by
  induction u generalizing cur with
  | nil => rfl
  | cons c cs ih =>
    simp only [List.mem_cons, not_or] at h
    have : c ≠ '(' := fun e => h.1 e.symm
    simp [opens, this, ih h.2]

theorem opens_mem {a sp t : Str} {x : Char} (hx : isSpace x = false) (h : sp.all isSpace = true) (cur : Option Char) :
    some x ∈ opens cur (a ++ x :: (sp ++ '(' :: t)) := by
  have e : a ++ x :: (sp ++ '(' :: t) = (a ++ x :: sp) ++ '(' :: t := by simp
  rw [e, opens_append, lastSolid_end hx h]
  simp [opens]

theorem opens_inv {t : Str} {cur : Option Char} {x : Char} (hx : cur = some x → isSpace x = false) (h : some x ∈ opens cur t) :
    isSpace x = false ∧ ((∃ sp b, cur = some x ∧ t = sp ++ '(' :: b ∧ sp.all isSpace = true) ∨
      ∃ a sp b, t = a ++ x :: (sp ++ '(' :: b) ∧ sp.all isSpace = true) := by
  induction t generalizing cur with
  | nil => simp [opens] at h
  | cons c cs ih =>
    have key : ∀ {cur' : Option Char}, (cur' = some x → isSpace x = false) → (cur' = some x → x = c) → some x ∈ opens cur' cs →
        isSpace x = false ∧ ((∃ sp b, cur = some x ∧ c :: cs = sp ++ '(' :: b ∧ sp.all isSpace = true) ∨
          ∃ a sp b, c :: cs = a ++ x :: (sp ++ '(' :: b) ∧ sp.all isSpace = true) := by
      intro cur' h1 h2 h3
      obtain ⟨h4, ⟨sp, b, h5, rfl, h6⟩ | ⟨a, sp, b, rfl, h6⟩⟩ := ih h1 h3
      · exact ⟨h4, .inr ⟨[], sp, b, by simp [h2 h5], h6⟩⟩
      · exact ⟨h4, .inr ⟨c :: a, sp, b, rfl, h6⟩⟩
    simp only [opens] at h
    split at h
    · next e =>
      subst e
      rcases List.mem_cons.1 h with h | h
      · exact ⟨hx h.symm, .inl ⟨[], cs, h.symm, rfl, rfl⟩⟩
      · exact key (fun e => by rw [← Option.some.inj e]; simp [sp_lit]) (fun e => (Option.some.inj e).symm) h
    · split at h
      · next hs =>
        obtain ⟨h4, ⟨sp, b, h5, rfl, h6⟩ | ⟨a, sp, b, rfl, h6⟩⟩ := ih hx h
        · exact ⟨h4, .inl ⟨c :: sp, b, h5, rfl, by simp [hs, h6]⟩⟩
        · exact ⟨h4, .inr ⟨c :: a, sp, b, rfl, h6⟩⟩
      · next hs => exact key (fun e => by rw [← Option.some.inj e]; simpa using hs) (fun e => (Option.some.inj e).symm) h

theorem opens_node {n : NodeText} (h : n.OK) (cur : Option Char) (s : Str) :
    opens cur (n.render ++ s) = cur :: opens (some ')') s := by
  obtain ⟨u, hu⟩ : ∃ u, u = n.sp1 ++ (n.handle ++ (n.sp2 ++ ':' :: (n.sp3 ++ (n.label ++ (n.sp4 ++ n.props.getD []))))) := ⟨_, rfl⟩
  have hno : '(' ∉ u := by
    have hw : ∀ {v : Str}, v.all isWord = true → '(' ∉ v := fun h hc => by
      have := List.all_eq_true.1 h _ hc; simp [wd_lit] at this
    have hs : ∀ {v : Str}, v.all isSpace = true → '(' ∉ v := fun h hc => by
      have := List.all_eq_true.1 h _ hc; simp [sp_lit] at this
    have hp : '(' ∉ n.props.getD [] := by
      cases e : n.props with
      | none => simp
      | some p =>
        intro hc
        have := List.all_eq_true.1 (h.props p e).all _ hc
        simp [isParamChar, isWord, isSpace, isAscii, Char.isAlphanum, Char.isAlpha, Char.isDigit, Char.isUpper, Char.isLower] at this
    rw [hu]
    simp [hs h.sp1, hw h.handle, hs h.sp2, hs h.sp3, hw h.label, hs h.sp4, hp]
  have e : n.render ++ s = ('(' :: (u ++ ')' :: n.sp5)) ++ s := by rw [hu]; simp [NodeText.render]
  rw [e, opens_append, show '(' :: (u ++ ')' :: n.sp5) = ('(' :: u) ++ ')' :: n.sp5 by simp, lastSolid_end sp_lit.2.2.1 h.sp5]
  rw [List.cons_append, opens]
  simp only [if_true]
  rw [opens_none]
  · rfl
  · simp only [List.mem_append, List.mem_cons, not_or]
    refine ⟨hno, by decide, fun hc => ?_⟩
    have := List.all_eq_true.1 h.sp5 _ hc
    simp [sp_lit] at this

theorem opens_rel {r : RelText} (h : r.OK) (cur : Option Char) (s : Str) :
    opens cur (r.render ++ s) = opens (some '-') s ∨ opens cur (r.render ++ s) = opens (some '>') s := by
  have hno : '(' ∉ r.render := by
    simp only [RelText.render, List.mem_append, List.mem_cons, not_or]
    refine ⟨by split <;> simp, by simp, by decide, fun hc => ?_, by decide, by simp, by split <;> simp, fun hc => ?_⟩
    · have := List.all_eq_true.1 (RelText.content_all h) _ hc
      simp [isParamChar, isWord, isSpace, isAscii, Char.isAlphanum, Char.isAlpha, Char.isDigit, Char.isUpper, Char.isLower] at this
    · have := List.all_eq_true.1 h.sp3 _ hc
      simp [sp_lit] at this
  have h1 : isSpace '-' = false := by simp [isSpace, isAscii]
  have h2 : isSpace '>' = false := by simp [isSpace, isAscii]
  rw [opens_append, opens_none hno, List.nil_append]
  have e : ∃ u x, (x = '-' ∨ x = '>') ∧ r.render = u ++ x :: r.sp3 := by
    cases ht : r.toRight with
    | true =>
      exact ⟨_, '>', .inr rfl, by rw [RelText.render, ht]; simp only [if_true]; rw [← List.append_assoc, ← List.cons_append]; simp only [← List.append_assoc, ← List.cons_append]; rw [List.append_assoc]; rfl⟩
    | false =>
      refine ⟨(if r.toLeft then c!"<" else []) ++ (List.replicate (r.dashes1 + 1) '-' ++ '[' :: (r.content ++ ']' ::
        List.replicate r.dashes2 '-')), '-', .inl rfl, ?_⟩
      rw [RelText.render, ht, List.replicate_succ' (n := r.dashes2)]
      simp
  obtain ⟨u, x, hx, e⟩ := e
  rw [e]
  rcases hx with rfl | rfl
  · rw [lastSolid_end h1 h.sp3]; exact .inl rfl
  · rw [lastSolid_end h2 h.sp3]; exact .inr rfl

theorem opens_chain {c : ChainText} (h : c.OK) {cur : Option Char} {s : Str} {o : Option Char} (ho : o ∈ opens cur (c.render ++ s)) :
    o = cur ∨ o = some '-' ∨ o = some '>' ∨ o ∈ opens (some ')') s := by
  have key : ∀ {r : RelText} {n : NodeText} {s : Str} {cur : Option Char}, r.OK → n.OK → o ∈ opens cur (r.render ++ (n.render ++ s)) →
      o = some '-' ∨ o = some '>' ∨ o ∈ opens (some ')') s := by
    intro r n s cur hr hn ho
    rcases opens_rel hr cur (n.render ++ s) with e | e <;>
    · rw [e, opens_node hn] at ho
      rcases List.mem_cons.1 ho with rfl | ho
      · simp
      · simp [ho]
  cases c with
  | one n =>
    rw [ChainText.render, opens_node h] at ho
    rcases List.mem_cons.1 ho with rfl | ho
    · simp
    · simp [ho]
  | two n r m =>
    simp only [ChainText.render, List.append_assoc] at ho
    rw [opens_node h.1] at ho
    rcases List.mem_cons.1 ho with rfl | ho
    · simp
    · exact .inr (key h.2.1 h.2.2 ho)
  | three n r m r' m' =>
    simp only [ChainText.render, List.append_assoc] at ho
    rw [opens_node h.1] at ho
    rcases List.mem_cons.1 ho with rfl | ho
    · simp
    · rcases key h.2.1 h.2.2.1 ho with h' | h' | h'
      · simp [h']
      · simp [h']
      · exact .inr (key h.2.2.2.1 h.2.2.2.2 h')

theorem ChainText.Loose.ok {c : ChainText} (h : c.Loose) : c.OK := by
  cases c with
  | one n => exact h.1
  | two n r m => exact ⟨h.1.1, h.2.1.1, h.2.2.1⟩
  | three n r m r' m' => exact ⟨h.1.1, h.2.1.1, h.2.2.1.1, h.2.2.2.1.1, h.2.2.2.2.1⟩

theorem opens_rest {l : List (Str × ChainText)} (h : ∀ x ∈ l, x.1.all isSpace = true ∧ x.2.OK) {cur : Option Char} {s : Str}
    {o : Option Char} (ho : o ∈ opens cur (renderRest l ++ s)) :
    o = some ',' ∨ o = some '-' ∨ o = some '>' ∨ o ∈ opens (if l = [] then cur else some ')') s := by
  induction l generalizing cur with
  | nil => simpa [renderRest] using Or.inr (Or.inr (Or.inr ho))
  | cons x l ih =>
    obtain ⟨sp, c⟩ := x
    have hx := h (sp, c) (by simp)
    have hc : isSpace ',' = false := by simp [isSpace, isAscii]
    have e : renderRest ((sp, c) :: l) ++ s = ([] ++ ',' :: sp) ++ (c.render ++ (renderRest l ++ s)) := by simp [renderRest]
    rw [e, opens_append, lastSolid_end hc hx.1, opens_none (by
      simp only [List.nil_append, List.mem_cons, not_or]
      refine ⟨by decide, fun hc => ?_⟩
      have := List.all_eq_true.1 hx.1 _ hc
      simp [sp_lit] at this), List.nil_append] at ho
    rcases opens_chain hx.2 ho with h' | h' | h' | h'
    · simp [h']
    · simp [h']
    · simp [h']
    · rcases ih (fun y hy => h y (List.mem_cons_of_mem _ hy)) h' with h' | h' | h' | h'
      · simp [h']
      · simp [h']
      · simp [h']
      · have : (if l = [] then some ')' else some ')') = (some ')' : Option Char) := by split <;> rfl
        rw [this] at h'
        simp [h']

theorem StmtText.LooselyWritten.restOK {up low : Str} {t : StmtText} (h : t.LooselyWritten up low) : ∀ x ∈ t.rest, x.1.all isSpace = true ∧ x.2.OK :=
  fun x hx => ⟨h.rest x hx, (h.chains x.2 (by simp only [StmtText.chains, List.mem_cons]; exact .inr (List.mem_map_of_mem hx))).1.ok⟩

theorem StmtText.LooselyWritten.firstOK {up low : Str} {t : StmtText} (h : t.LooselyWritten up low) : t.first.OK :=
  (h.chains t.first (by simp [StmtText.chains])).1.ok

/-- What stands before the parentheses of a statement: the keyword, arrows and commas. -/
theorem opens_stmt {up low : Str} {t : StmtText} (h : t.LooselyWritten up low) {a : Str} {x : Char} (hk : t.kw = a ++ [x])
    (hx : isSpace x = false) (ha : '(' ∉ t.kw) {cur : Option Char} {s : Str} {o : Option Char} (ho : o ∈ opens cur (t.render ++ s)) :
    o = some x ∨ o = some ',' ∨ o = some '-' ∨ o = some '>' ∨ o ∈ opens (some ';') s := by
  have hsemi : isSpace ';' = false := by simp [isSpace, isAscii]
  have e : t.render ++ s = (a ++ x :: t.sp) ++ (t.first.render ++ (renderRest t.rest ++ (c!";" ++ s))) := by
    rw [StmtText.render, hk]; simp
  have hno : '(' ∉ a ++ x :: t.sp := by
    rw [hk] at ha
    simp only [List.mem_append, List.mem_singleton, not_or] at ha
    simp only [List.mem_append, List.mem_cons, not_or]
    refine ⟨ha.1, ha.2, fun hc => ?_⟩
    have := List.all_eq_true.1 h.sp _ hc
    simp [sp_lit] at this
  rw [e, opens_append, opens_none hno, lastSolid_end hx h.sp, List.nil_append] at ho
  have hend : ∀ cur', o ∈ opens cur' (c!";" ++ s) → o ∈ opens (some ';') s := by
    intro cur' ho
    simpa [opens, hsemi] using ho
  rcases opens_chain h.firstOK ho with h' | h' | h' | h'
  · simp [h']
  · simp [h']
  · simp [h']
  · rcases opens_rest h.restOK h' with h' | h' | h' | h'
    · simp [h']
    · simp [h']
    · simp [h']
    · simp [hend _ h']

/-! ### Lines without the clause -/

theorem ciSpelling_last {ks : Str} {k : Char} {w : Str} (h : CISpelling (ks ++ [k]) w) : ∃ w' x, w = w' ++ [x] ∧ matchCI k x = true := by
  induction ks generalizing w with
  | nil =>
    cases w with
    | nil => simp [CISpelling] at h
    | cons c w =>
      cases w with
      | nil => exact ⟨[], c, rfl, h.1⟩
      | cons d w => simp [CISpelling] at h
  | cons k' ks ih =>
    cases w with
    | nil => simp [CISpelling] at h
    | cons c w =>
      obtain ⟨w', x, rfl, hx⟩ := ih h.2
      exact ⟨c :: w', x, rfl, hx⟩

theorem ciSpelling_avoids {kw w : Str} {c : Char} (hk : ∀ k ∈ kw, matchCI k c = false) (h : CISpelling kw w) : c ∉ w := by
  induction kw generalizing w with
  | nil =>
    cases w with
    | nil => simp
    | cons d w => simp [CISpelling] at h
  | cons k ks ih =>
    cases w with
    | nil => simp
    | cons d w =>
      simp only [List.mem_cons, not_or]
      refine ⟨?_, ih (fun k hk' => hk k (List.mem_cons_of_mem _ hk')) h.2⟩
      rintro rfl
      have := hk k (by simp)
      rw [show matchCI k _ = true from h.1] at this
      simp at this

theorem skip_opens {ks : Str} {k : Char} {l s : Str} (hsp : ∀ x, matchCI k x = true → isSpace x = false)
    (hsemi : ∀ c ∈ ks ++ [k], matchCI c ';' = false) (h : ∀ x, some x ∈ opens none (l ++ c!";") → matchCI k x = false) :
    (clauseAll (ks ++ [k])).finditer ((l ++ c!";") ++ s) = (clauseAll (ks ++ [k])).finditer s := by
  refine finditer_skip fun a b e hb => fails_of fun m hm => ?_
  obtain ⟨w, sp, body, e2, -, hw, hs, -, -⟩ := clauseAll_inv hm
  have hsc : ';' ∉ w ++ (sp ++ ['(']) := by
    simp only [List.mem_append, List.mem_singleton, not_or]
    refine ⟨ciSpelling_avoids hsemi hw, fun hc => ?_, by decide⟩
    have := List.all_eq_true.1 hs _ hc
    simp [isSpace, isAscii] at this
  have hb' : ∃ b', b = b' ++ c!";" := by
    rcases List.eq_nil_or_concat b with rfl | ⟨b', x, rfl⟩
    · simp at hb
    · refine ⟨b', ?_⟩
      simp only [List.concat_eq_append] at e ⊢
      rw [← List.append_assoc] at e
      have := List.append_inj_right' e rfl
      rw [← this]
  obtain ⟨b', rfl⟩ := hb'
  have e3 : (w ++ (sp ++ ['('])) ++ (body ++ c!");" ++ m.2.1) = b' ++ ';' :: s := by
    have : b' ++ c!";" ++ s = b' ++ ';' :: s := by simp
    rw [← this, e2]
    simp [stmtText]
  obtain ⟨u', e4, -⟩ := prefix_before e3 hsc
  obtain ⟨w', x, rfl, hx⟩ := ciSpelling_last hw
  have : some x ∈ opens none (l ++ c!";") := by
    rw [e, e4]
    have e5 : a ++ (w' ++ [x] ++ (sp ++ ['(']) ++ u' ++ c!";") = (a ++ w') ++ x :: (sp ++ '(' :: (u' ++ c!";")) := by simp
    rw [e5]
    exact opens_mem (hsp x hx) hs none
  rw [h x this] at hx
  simp at hx

theorem alts_inv {l : List Re} {s : Str} {m : MRes} (h : m ∈ (alts l).run s) : ∃ r ∈ l, m ∈ r.run s := by
  induction l with
  | nil =>
    obtain ⟨c, _, _, hc, _⟩ := mem_cls_inv h
    simp at hc
  | cons a l ih =>
    cases l with
    | nil => exact ⟨a, by simp, h⟩
    | cons b l =>
      simp only [alts, run, List.mem_append] at h
      rcases h with h | h
      · exact ⟨a, by simp, h⟩
      · obtain ⟨r, hr, hm⟩ := ih h
        exact ⟨r, by simp [hr], hm⟩

theorem picks_perm {α : Type} {l : List α} {p : α × List α} (h : p ∈ picks l) : (p.1 :: p.2).Perm l := by
  induction l generalizing p with
  | nil => simp [picks] at h
  | cons x l ih =>
    simp only [picks, List.mem_cons, List.mem_map] at h
    rcases h with rfl | ⟨q, hq, rfl⟩
    · exact .refl _
    · exact (List.Perm.swap x q.1 q.2).trans ((ih hq).cons x)

theorem perms_perm {α : Type} {n : Nat} {l m : List α} (hn : l.length = n) (h : m ∈ perms n l) : m.Perm l := by
  induction n generalizing l m with
  | zero =>
    simp [perms] at h
    have := List.eq_nil_of_length_eq_zero hn
    subst this h
    exact .refl _
  | succ n ih =>
    simp only [perms, List.mem_flatMap, List.mem_map] at h
    obtain ⟨p, hp, q, hq, rfl⟩ := h
    have h1 := picks_perm hp
    have : p.2.length = n := by have := h1.length_eq; simp at this; omega
    exact ((ih this hq).cons _).trans h1

theorem spelling_none {kw q : Str} (hne : kw ≠ []) (hsp : ∀ k ∈ kw, ∀ x, matchCI k x = true → isSpace x = false)
    (h : ∀ x, some x ∈ opens none q → ∀ k ∈ kw, matchCI k x = false) : (spelling kw).finditer q = [] := by
  rw [finditer_nil_iff]
  rintro pre post rfl
  refine fails_of fun m hm => ?_
  obtain ⟨m1, h1, m2, h2, rfl⟩ := mem_seq_inv hm
  obtain ⟨m3, h3, m4, h4, rfl⟩ := mem_seq_inv h2
  obtain ⟨m5, h5, m6, h6, rfl⟩ := mem_seq_inv h4
  obtain ⟨m3, h3', rfl⟩ := mem_grp_inv h3
  obtain ⟨r, hr, h3''⟩ := alts_inv h3'
  obtain ⟨kw', hkw', rfl⟩ := List.mem_map.1 hr
  have hp := perms_perm rfl hkw'
  have hw := wordCI_mem h3''
  have e1 := run_append h1
  have e3 := run_append h3'
  have e5 := run_append h5
  obtain ⟨cs, e6, rfl⟩ := mem_ch_inv h6
  have hs5 : m5.1.all isSpace = true := by
    rcases mem_optC_inv h5 with ⟨c, cs, _, hc, rfl⟩ | rfl
    · simp [hc]
    · rfl
  rcases List.eq_nil_or_concat kw' with rfl | ⟨ks, k, rfl⟩
  · exact hne hp.symm.eq_nil
  · rw [List.concat_eq_append] at hw hp
    obtain ⟨w', x, ew, hx⟩ := ciSpelling_last hw
    have hk : k ∈ kw := hp.subset (by simp)
    simp only at e1 e3 e5 e6
    have : some x ∈ opens none (pre ++ post) := by
      have e : pre ++ post = (pre ++ (m1.1 ++ w')) ++ x :: (m5.1 ++ '(' :: cs) := by
        rw [← e1, ← e3, ← e5, e6, ew]
        simp
      rw [e]
      exact opens_mem (hsp k hk x hx) hs5 none
    have := h x this k hk
    rw [hx] at this
    simp at this

theorem reportSpelling_none {q : Str} (h : NoAnagram c!"report" q) : reportSpelling.finditer q = [] := by
  rw [finditer_nil_iff]
  rintro pre post rfl
  refine fails_of fun m hm => ?_
  obtain ⟨m0, h0, rfl⟩ := mem_grp_inv hm
  obtain ⟨m1, h1, m2, h2, rfl⟩ := mem_seq_inv h0
  obtain ⟨m3, h3, rfl⟩ := mem_grp_inv h1
  obtain ⟨r, hr, h3'⟩ := alts_inv h3
  obtain ⟨kw', hkw', rfl⟩ := List.mem_map.1 hr
  have e3 := run_append h3
  exact h pre m3.1 m3.2.1 (by rw [← e3]; simp) kw' (perms_perm rfl hkw') (wordCI_mem h3')

/-! ### A statement as the parser sees it -/

theorem chain_ends {c : ChainText} (h : c.last.sp5 = []) : ∃ u, u ≠ [] ∧ c.render = '(' :: (u ++ [')']) := by
  have hn : ∀ {n : NodeText}, n.sp5 = [] → ∃ u, n.render = u ++ [')'] ∧ 1 < u.length ∧ u.head? = some '(' := by
    intro n hn
    refine ⟨'(' :: (n.sp1 ++ (n.handle ++ (n.sp2 ++ ':' :: (n.sp3 ++ (n.label ++ (n.sp4 ++ n.props.getD [])))))), ?_, ?_, rfl⟩
    · simp [NodeText.render, hn]
    · simp; omega
  have key : ∀ {x : Str}, (∃ u, x = u ++ [')'] ∧ 1 < u.length ∧ u.head? = some '(') → ∃ u, u ≠ [] ∧ x = '(' :: (u ++ [')']) := by
    rintro x ⟨u, rfl, hl, hh⟩
    cases u with
    | nil => simp at hh
    | cons c u =>
      simp at hh
      subst hh
      refine ⟨u, ?_, by simp⟩
      rintro rfl
      simp at hl
  apply key
  have hh : ∀ (n : NodeText) (v : Str), (n.render ++ v).head? = some '(' := fun n v => rfl
  cases c with
  | one n => exact hn h
  | two n r m =>
    obtain ⟨u, e, hl, -⟩ := hn (n := m) h
    refine ⟨n.render ++ (r.render ++ u), by simp [ChainText.render, e], by simp; omega, hh n _⟩
  | three n r m r' m' =>
    obtain ⟨u, e, hl, -⟩ := hn (n := m') h
    refine ⟨n.render ++ (r.render ++ (m.render ++ (r'.render ++ u))), by simp [ChainText.render, e], by simp; omega, hh n _⟩

theorem chain_open (c : ChainText) : ∃ u, c.render = '(' :: u := by
  cases c with
  | one n => exact ⟨_, rfl⟩
  | two n r m => exact ⟨_, rfl⟩
  | three n r m r' m' => exact ⟨_, rfl⟩

theorem rest_ends {l : List (Str × ChainText)} (hne : l ≠ []) (h : ∀ x, l.getLast? = some x → x.2.last.sp5 = []) :
    ∃ u, u ≠ [] ∧ renderRest l = u ++ [')'] := by
  induction l with
  | nil => simp at hne
  | cons x l ih =>
    obtain ⟨sp, c⟩ := x
    cases l with
    | nil =>
      obtain ⟨u, hu, e⟩ := chain_ends (h (sp, c) rfl)
      exact ⟨',' :: (sp ++ '(' :: u), by simp, by simp [renderRest, e]⟩
    | cons y l =>
      obtain ⟨u, hu, e⟩ := ih (by simp) fun x hx => h x (by simpa using hx)
      exact ⟨',' :: (sp ++ (c.render ++ u)), by simp, by rw [renderRest, e]; simp⟩

theorem stmt_shape {up low : Str} {t : StmtText} (h : t.LooselyWritten up low) :
    ∃ body, t.render = stmtText t.kw t.sp body ∧ body ≠ [] ∧ t.first.render ++ renderRest t.rest = '(' :: (body ++ [')']) := by
  by_cases hr : t.rest = []
  · obtain ⟨u, hu, e⟩ := chain_ends (h.close t.first (by simp [StmtText.chains, hr]))
    exact ⟨u, by simp [StmtText.render, stmtText, hr, renderRest, e], hu, by simp [hr, renderRest, e]⟩
  · obtain ⟨v, ev⟩ := chain_open t.first
    obtain ⟨u, hu, e⟩ := rest_ends hr fun x hx => h.close x.2 (by
      rw [StmtText.chains, List.getLast?_cons, List.getLast?_map, hx]; rfl)
    exact ⟨v ++ u, by rw [StmtText.render, e, ev]; simp [stmtText], by simp [hu], by rw [e, ev]; simp⟩

theorem stmt_text {up low : Str} {t : StmtText} (h : t.Loose up low) :
    ∃ body, t.render = stmtText t.kw t.sp body ∧ body ≠ [] ∧ '\n' ∉ body := by
  obtain ⟨u, h1, h2, h3⟩ := stmt_shape h.toLooselyWritten
  refine ⟨u, h1, h2, fun hc => h.line ?_⟩
  rw [h3]
  simp [hc]

/-- The patterns of a statement with the texts before them. -/
def StmtText.list (t : StmtText) : List (Str × Str × ChainText) :=
  (t.kw, t.sp, t.first) :: t.rest.map fun x => (c!",", x.1, x.2)

theorem render_list (t : StmtText) : t.render = renderPatterns t.list ++ c!";" := by
  have : ∀ l : List (Str × ChainText), renderPatterns (l.map fun x => (c!",", x.1, x.2)) = renderRest l := by
    intro l
    induction l with
    | nil => rfl
    | cons x l ih => simp [renderPatterns, renderRest, ih]
  simp [StmtText.list, StmtText.render, renderPatterns, this]

theorem stmt_patterns {up low : Str} {t : StmtText} (h : t.Loose up low) (h1 : Idle up) (h2 : Idle low) :
    statementPatterns t.render = t.chains.map ChainText.pattern := by
  have hsemi : Idle c!";" := by simp [Idle, isSpace, isAscii]
  have hcomma : Idle c!"," := by simp [Idle, isSpace, isAscii]
  rw [render_list, statementPatterns_render _ hsemi]
  · simp [StmtText.list, StmtText.chains]
  · refine ⟨fun x hx => ?_, fun x hx => ?_⟩
    · rcases List.mem_cons.1 hx with rfl | hx
      · refine ⟨?_, h.sp, h.firstOK⟩
        rcases h.kw with e | e <;> simp only [e] <;> assumption
      · obtain ⟨y, hy, rfl⟩ := List.mem_map.1 hx
        exact ⟨hcomma, h.restOK y hy⟩
    · obtain ⟨y, hy, rfl⟩ := List.mem_map.1 (show x ∈ t.rest.map _ from hx)
      simp

theorem handles_pattern (c : ChainText) : c.pattern.handleNames = c.handles.filter fun h => !h.isEmpty := by
  have ht : ∀ s : Str, truthy (some s) = !s.isEmpty := by intro s; cases s <;> rfl
  have ha : truthy none = false := rfl
  have key : ∀ l : List Str, (l.filterMap fun s => if truthy (some s) = true then some s else none) = l.filter fun h => !h.isEmpty := by
    intro l
    induction l with
    | nil => rfl
    | cons a l ih =>
      rw [List.filterMap_cons, List.filter_cons, ih, ht]
      cases a <;> rfl
  cases c with
  | one n =>
    have := key [n.handle]
    simpa [ParsedPattern.handleNames, ParsedPattern.parts, ChainText.pattern, ChainText.handles, NodeText.part, PartText.absent,
      List.filterMap_cons, ha] using this
  | two n r m =>
    have := key [n.handle, r.handle, m.handle]
    simpa [ParsedPattern.handleNames, ParsedPattern.parts, ChainText.pattern, ChainText.handles, NodeText.part, RelText.part, PartText.absent,
      List.filterMap_cons, ha] using this
  | three n r m r' m' =>
    have := key [n.handle, r.handle, m.handle, r'.handle, m'.handle]
    simpa [ParsedPattern.handleNames, ParsedPattern.parts, ChainText.pattern, ChainText.handles, NodeText.part, RelText.part, PartText.absent,
      List.filterMap_cons, ha] using this

theorem validate_chain {c : ChainText} (h : (c.handles.filter fun h => !h.isEmpty).Nodup) : c.pattern.validate = .ok c.pattern := by
  rw [ParsedPattern.validate, handles_pattern, if_pos h]

theorem validatePatterns_chains {l : List ChainText} (h : ∀ c ∈ l, (c.handles.filter fun h => !h.isEmpty).Nodup) :
    validatePatterns (l.map ChainText.pattern) = .ok (l.map ChainText.pattern) := by
  induction l with
  | nil => rfl
  | cons c l ih =>
    simp only [List.map_cons, validatePatterns, validate_chain (h c (by simp)), ih fun c' hc => h c' (List.mem_cons_of_mem _ hc)]

theorem make_idle : Idle c!"MAKE" ∧ Idle c!"make" ∧ Idle c!"FIND" ∧ Idle c!"find" := by
  refine ⟨?_, ?_, ?_, ?_⟩ <;> simp [Idle, isSpace, isAscii]

theorem make_mild : c!"MAKE".all mildChar = true ∧ c!"make".all mildChar = true ∧ c!"FIND".all mildChar = true ∧
    c!"find".all mildChar = true := by
  refine ⟨?_, ?_, ?_, ?_⟩ <;> simp [mildChar, plainChar, isSpace, isAscii, isIllegal]

theorem build_make {t : StmtText} (h : t.Loose c!"MAKE" c!"make") :
    buildParsedMake t.render = .ok ⟨t.render, .make, t.chains.map ChainText.pattern⟩ := by
  obtain ⟨body, e, hb, hn⟩ := stmt_text h
  rw [buildParsedMake, stmt_patterns h make_idle.1 make_idle.2.1, validatePatterns_chains fun c hc => (h.chains c hc).2]
  simp only
  rw [if_pos]
  rw [e]
  exact cs_match h.kw h.sp hb hn

theorem build_makes {l : List StmtText} (h : ∀ t ∈ l, t.Loose c!"MAKE" c!"make") :
    buildParsedMakes (l.map StmtText.render) = .ok (l.map fun t => ⟨t.render, .make, t.chains.map ChainText.pattern⟩) := by
  induction l with
  | nil => rfl
  | cons t l ih =>
    simp only [List.map_cons, buildParsedMakes, build_make (h t (by simp)), ih fun t' ht => h t' (List.mem_cons_of_mem _ ht)]

theorem build_find {t : StmtText} (h : t.Loose c!"FIND" c!"find") :
    buildParsedFind t.render = .ok ⟨t.render, .find, t.first.pattern⟩ := by
  obtain ⟨body, e, hb, hn⟩ := stmt_text h
  rw [buildParsedFind, stmt_patterns h make_idle.2.2.1 make_idle.2.2.2]
  simp only [StmtText.chains, List.map_cons]
  rw [validate_chain (h.chains _ (by simp [StmtText.chains])).2]
  simp only
  rw [if_pos]
  rw [e]
  exact cs_match h.kw h.sp hb hn

theorem report_cs {w body : Str} (hw : w = c!"REPORT" ∨ w = c!"report") (hb : body ≠ []) (hn : '\n' ∉ body) :
    (reportAllCS.matchAt (w ++ (body ++ c!";"))).isSome = true := by
  rw [matchAt_isSome]
  have hd : body.all isDot = true := by
    rw [List.all_eq_true]
    intro c hc
    simp only [isDot, bne_iff_ne, ne_eq]
    rintro rfl
    exact hn hc
  have h1 : (w, body ++ c!";", []) ∈ (Re.alt (word c!"REPORT") (word c!"report")).run (w ++ (body ++ c!";")) := by
    simp only [run, List.mem_append]
    rcases hw with rfl | rfl
    · exact .inl (hd_word _ _).mem
    · exact .inr (hd_word _ _).mem
  exact not_fails (mem_grp (mem_seq (mem_grp h1) (mem_seq (mem_plus hd hb _) (hd_ch ';' _).mem)))

/-! ### The lines of a query -/

theorem solid_de : (∀ x, matchCI 'd' x = true → isSpace x = false) ∧ (∀ x, matchCI 'e' x = true → isSpace x = false) := by
  constructor <;> intro x hx <;> simp [matchCI] at hx <;> rcases hx with rfl | rfl <;> simp [isSpace, isAscii]

theorem stmt_semi (t : StmtText) : ∃ l, t.render = l ++ c!";" := ⟨t.kw ++ (t.sp ++ (t.first.render ++ renderRest t.rest)), by simp [StmtText.render]⟩

theorem opens_make {t : StmtText} (h : t.LooselyWritten c!"MAKE" c!"make") {cur : Option Char} {s : Str} {o : Option Char}
    (ho : o ∈ opens cur (t.render ++ s)) :
    o ∈ [some 'E', some 'e', some ',', some '-', some '>'] ∨ o ∈ opens (some ';') s := by
  rcases h.kw with e | e
  · have := opens_stmt h (a := c!"MAK") (x := 'E') (by rw [e]; rfl) (by simp [isSpace, isAscii]) (by rw [e]; decide) ho
    rcases this with rfl | rfl | rfl | rfl | h
    all_goals first | exact .inr h | simp
  · have := opens_stmt h (a := c!"mak") (x := 'e') (by rw [e]; rfl) (by simp [isSpace, isAscii]) (by rw [e]; decide) ho
    rcases this with rfl | rfl | rfl | rfl | h
    all_goals first | exact .inr h | simp

theorem opens_find {t : StmtText} (h : t.LooselyWritten c!"FIND" c!"find") {cur : Option Char} {s : Str} {o : Option Char}
    (ho : o ∈ opens cur (t.render ++ s)) :
    o ∈ [some 'D', some 'd', some ',', some '-', some '>'] ∨ o ∈ opens (some ';') s := by
  rcases h.kw with e | e
  · have := opens_stmt h (a := c!"FIN") (x := 'D') (by rw [e]; rfl) (by simp [isSpace, isAscii]) (by rw [e]; decide) ho
    rcases this with rfl | rfl | rfl | rfl | h
    all_goals first | exact .inr h | simp
  · have := opens_stmt h (a := c!"fin") (x := 'd') (by rw [e]; rfl) (by simp [isSpace, isAscii]) (by rw [e]; decide) ho
    rcases this with rfl | rfl | rfl | rfl | h
    all_goals first | exact .inr h | simp

theorem report_opens {kw body : Str} (h : (LineText.report kw body).Loose) {cur : Option Char} {s : Str} {o : Option Char}
    (ho : o ∈ opens cur ((LineText.report kw body).render ++ s)) :
    (∃ x, o = some x ∧ ∀ k ∈ c!"maked", matchCI k x = false) ∨ o ∈ opens (some ';') s := by
  obtain ⟨h1, -, -, h2⟩ := h
  have hsemi : isSpace ';' = false := by simp [isSpace, isAscii]
  have e : (LineText.report kw body).render ++ s = (kw ++ body) ++ (c!";" ++ s) := by simp [LineText.render]
  rw [e, opens_append] at ho
  rcases List.mem_append.1 ho with ho | ho
  · left
    have hkw : ∃ r kw', kw = r :: kw' ∧ isSpace r = false ∧ r ≠ '(' := by
      rcases h1 with rfl | rfl
      · exact ⟨'R', _, rfl, by simp [isSpace, isAscii], by decide⟩
      · exact ⟨'r', _, rfl, by simp [isSpace, isAscii], by decide⟩
    obtain ⟨r, kw', rfl, hr, hr'⟩ := hkw
    rw [List.cons_append, opens, if_neg hr', if_neg (by simp [hr])] at ho
    have hsome : ∀ {t : Str} {cur : Option Char}, cur.isSome = true → ∀ o ∈ opens cur t, o.isSome = true := by
      intro t
      induction t with
      | nil => simp [opens]
      | cons c cs ih =>
        intro cur hc o ho
        simp only [opens] at ho
        split at ho
        · rcases List.mem_cons.1 ho with rfl | ho
          · exact hc
          · exact ih rfl o ho
        · split at ho
          · exact ih hc o ho
          · exact ih rfl o ho
    obtain ⟨x, rfl⟩ := Option.isSome_iff_exists.1 (hsome rfl o ho)
    refine ⟨x, rfl, ?_⟩
    obtain ⟨h3, ⟨sp, b, h5, h4, h6⟩ | ⟨a, sp, b, h4, h6⟩⟩ := opens_inv (fun e => by rw [← Option.some.inj e]; exact hr) ho
    · rw [Option.some.injEq] at h5
      subst h5
      exact h2 [] r sp b (by rw [List.cons_append, h4]; rfl) h6 h3
    · exact h2 (r :: a) x sp b (by rw [List.cons_append, h4]; rfl) h6 h3
  · right
    simpa [opens, hsemi] using ho

theorem Remark.opens {t : Str} (h : Remark t) (cur : Option Char) : opens cur t = [] := opens_none h.paren.1 cur

theorem skip_stray {kw t s : Str} (hk : ∀ w, CISpelling kw w → '\n' ∉ w) (hn : NoStatement kw t)
    (hl : ∀ a w sp, t = a ++ w ++ sp → sp.all isSpace = true → ¬ CISpelling kw w) (hs : LineEnd s) :
    (clauseAll kw).finditer (t ++ s) = (clauseAll kw).finditer s := by
  refine finditer_skip fun a b e hb => fails_of fun m hm => ?_
  obtain ⟨w, sp, body, e2, -, hw, hsp, hbne, hbn⟩ := clauseAll_inv hm
  have hcut : ∀ {u v x : Str}, '\n' ∉ u → u ++ v = x ++ s → ∃ y, x = u ++ y := by
    intro u v x hu e
    rw [List.append_eq_append_iff] at e
    rcases e with ⟨y, rfl, -⟩ | ⟨y, rfl, e⟩
    · exact ⟨y, rfl⟩
    · rcases hs with rfl | ⟨s', rfl⟩
      · have := List.append_eq_nil_iff.1 e.symm
        exact ⟨[], by simp [this.1]⟩
      · cases y with
        | nil => exact ⟨[], by simp⟩
        | cons c y =>
          simp only [List.cons_append, List.cons.injEq] at e
          simp [← e.1] at hu
  have e3 : w ++ (sp ++ ('(' :: (body ++ c!");") ++ m.2.1)) = b ++ s := by rw [e2]; simp [stmtText]
  obtain ⟨y, rfl⟩ := hcut (hk w hw) e3
  rw [List.append_assoc, List.append_cancel_left_eq, List.append_eq_append_iff] at e3
  rcases e3 with ⟨z, rfl, e4⟩ | ⟨z, rfl, -⟩
  · obtain ⟨z', rfl⟩ := hcut (by simp [hbn]) e4
    exact hn a w sp body z' (by rw [e]; simp [stmtText]) hw hsp hbne hbn
  · refine hl a w y (by rw [e]; simp) ?_ hw
    simp only [List.all_append, Bool.and_eq_true] at hsp
    exact hsp.1

/-- The clauses found on the lines. -/
theorem line_make {x : Line} (h : x.Loose) {s : Str} (hs : LineEnd s) :
    (makeAll.finditer (x.render ++ s)).map Prod.fst = (match x.text with
      | .make t => some t.render
      | _ => none).toList ++ (makeAll.finditer s).map Prod.fst := by
  have hst : KwStart c!"make" := ⟨'m', _, rfl, by decide, by decide⟩
  have hnl : ∀ w, CISpelling c!"make" w → '\n' ∉ w := fun _ h => ciSpelling_noNL (by decide) (by decide) h
  have htail : ∀ {t : Str}, Remark t → makeAll.finditer (t ++ s) = makeAll.finditer s := fun ht => skip_noKeyword hnl ht.make hs
  have hind : ∀ t : Str, makeAll.finditer (x.ind ++ t) = makeAll.finditer t := fun t => skip_indent hst h.ind
  have hskip : ∀ l : Str, (∀ y, some y ∈ opens none (l ++ c!";") → matchCI 'e' y = false) →
      makeAll.finditer (x.ind ++ (l ++ c!";" ++ x.tail) ++ s) = makeAll.finditer s := fun l hl => by
    rw [List.append_assoc, hind, List.append_assoc, ← htail h.tail]
    exact skip_opens (ks := c!"mak") (k := 'e') solid_de.2 (by decide) hl
  have hg := h.text
  unfold Line.render
  cases hx : x.text with
  | make t =>
    rw [hx] at hg
    replace hg : t.Loose _ _ := hg
    obtain ⟨body, e, hb, hn⟩ := stmt_text hg
    simp only [LineText.render]
    rw [e]
    have hq : QLine c!"make" (x.ind ++ (stmtText t.kw t.sp body ++ x.tail)) (some (stmtText t.kw t.sp body)) :=
      .stmt x.ind t.kw t.sp body x.tail h.ind (by rcases hg.kw with e | e <;> rw [e] <;> rfl) hg.sp hb hn
        h.tail.line h.tail.paren.2 h.tail.make
    exact line_clauseAll hst hnl hq hs
  | find t =>
    rw [hx] at hg
    obtain ⟨l, e⟩ := stmt_semi t
    simp only [LineText.render]
    rw [e, hskip l fun y hy => ?_]
    · rfl
    · rw [← e] at hy
      have := opens_find (s := []) hg.toLooselyWritten (by rw [List.append_nil]; exact hy)
      simp [opens] at this
      rcases this with rfl | rfl | rfl | rfl | rfl <;> decide
  | report kw body =>
    rw [hx] at hg
    simp only [LineText.render]
    rw [← List.append_assoc kw, hskip (kw ++ body) fun y hy => ?_]
    · rfl
    · rw [List.append_assoc] at hy
      rcases report_opens (s := []) hg (by rw [List.append_nil]; exact hy) with ⟨z, e, h⟩ | h
      · rw [Option.some.injEq] at e
        subst e
        exact h 'e' (by decide)
      · simp [opens] at h
  | other t =>
    rw [hx] at hg
    simp only [LineText.render]
    rw [List.append_assoc, hind, h.bare t hx, List.append_nil]
    rw [show makeAll.finditer (t ++ s) = makeAll.finditer s from
      skip_stray hnl (Stray.make hg) (fun a w sp e h => (Stray.last hg a w sp e h).1) hs]
    rfl

theorem line_find {x : Line} (h : x.Loose) {s : Str} (hs : LineEnd s) :
    (findAll.finditer (x.render ++ s)).map Prod.fst = (match x.text with
      | .find t => some t.render
      | _ => none).toList ++ (findAll.finditer s).map Prod.fst := by
  have hst : KwStart c!"find" := ⟨'f', _, rfl, by decide, by decide⟩
  have hnl : ∀ w, CISpelling c!"find" w → '\n' ∉ w := fun _ h => ciSpelling_noNL (by decide) (by decide) h
  have htail : ∀ {t : Str}, Remark t → findAll.finditer (t ++ s) = findAll.finditer s := fun ht => skip_noKeyword hnl ht.find hs
  have hind : ∀ t : Str, findAll.finditer (x.ind ++ t) = findAll.finditer t := fun t => skip_indent hst h.ind
  have hskip : ∀ l : Str, (∀ y, some y ∈ opens none (l ++ c!";") → matchCI 'd' y = false) →
      findAll.finditer (x.ind ++ (l ++ c!";" ++ x.tail) ++ s) = findAll.finditer s := fun l hl => by
    rw [List.append_assoc, hind, List.append_assoc, ← htail h.tail]
    exact skip_opens (ks := c!"fin") (k := 'd') solid_de.1 (by decide) hl
  have hg := h.text
  unfold Line.render
  cases hx : x.text with
  | find t =>
    rw [hx] at hg
    replace hg : t.Loose _ _ := hg
    obtain ⟨body, e, hb, hn⟩ := stmt_text hg
    simp only [LineText.render]
    rw [e]
    have hq : QLine c!"find" (x.ind ++ (stmtText t.kw t.sp body ++ x.tail)) (some (stmtText t.kw t.sp body)) :=
      .stmt x.ind t.kw t.sp body x.tail h.ind (by rcases hg.kw with e | e <;> rw [e] <;> rfl) hg.sp hb hn
        h.tail.line h.tail.paren.2 h.tail.find
    exact line_clauseAll hst hnl hq hs
  | make t =>
    rw [hx] at hg
    obtain ⟨l, e⟩ := stmt_semi t
    simp only [LineText.render]
    rw [e, hskip l fun y hy => ?_]
    · rfl
    · rw [← e] at hy
      have := opens_make (s := []) hg.toLooselyWritten (by rw [List.append_nil]; exact hy)
      simp [opens] at this
      rcases this with rfl | rfl | rfl | rfl | rfl <;> decide
  | report kw body =>
    rw [hx] at hg
    simp only [LineText.render]
    rw [← List.append_assoc kw, hskip (kw ++ body) fun y hy => ?_]
    · rfl
    · rw [List.append_assoc] at hy
      rcases report_opens (s := []) hg (by rw [List.append_nil]; exact hy) with ⟨z, e, h⟩ | h
      · rw [Option.some.injEq] at e
        subst e
        exact h 'd' (by decide)
      · simp [opens] at h
  | other t =>
    rw [hx] at hg
    simp only [LineText.render]
    rw [List.append_assoc, hind, h.bare t hx, List.append_nil]
    rw [show findAll.finditer (t ++ s) = findAll.finditer s from
      skip_stray hnl (Stray.find hg) (fun a w sp e h => (Stray.last hg a w sp e h).2) hs]
    rfl

theorem quietParens_of {t : Str} (h : ((opens none t).all fun o => match o with
    | some x => c!"maked".all fun k => !matchCI k x
    | none => true) = true) : QuietParens t := by
  rintro a c sp b rfl hs hc k hk
  have := List.all_eq_true.1 h _ (opens_mem hc hs none)
  rw [sameLetter_eq]
  simpa using List.all_eq_true.1 this k hk

/-- A statement alone on its line. -/
def line (x : LineText) : Line := { text := x }

theorem remark_nil : Remark [] := ⟨by simp, by simp, noKeyword_of (by rfl), noKeyword_of (by rfl)⟩

theorem stray_of {t : Str} (h1 : NoKeyword c!"make" t) (h2 : NoKeyword c!"find" t) : Stray t where
  make a w sp body b e hw _ _ _ := h1 a w (sp ++ '(' :: (body ++ c!");") ++ b) (by rw [e]; simp [stmtText]) hw
  find a w sp body b e hw _ _ _ := h2 a w (sp ++ '(' :: (body ++ c!");") ++ b) (by rw [e]; simp [stmtText]) hw
  last a w sp e _ := ⟨h1 a w sp e, h2 a w sp e⟩

theorem line_good {x : LineText} (h : x.Good) : (line x).Good :=
  ⟨by simp [Indent, line], h, remark_nil, fun _ _ _ => by simp [line], fun _ _ => rfl⟩

theorem indent_open {t : Str} (h : Indent t) : '(' ∉ t := fun hc => by rcases h _ hc with e | e <;> simp at e

/-- Characters that are no letters of `make`. -/
def Quiet (o : Option Char) : Prop := ∃ x, o = some x ∧ ∀ k ∈ c!"make", matchCI k x = false

theorem opens_lines {l : List Line} (h : ∀ x ∈ l, x.Loose) (hm : makesOf l = [])
    (hq : ∀ x ∈ l, ∀ t, x.text = .other t → '(' ∉ t) {cur : Option Char} {o : Option Char}
    (ho : o ∈ opens cur (joinLines (l.map Line.render))) : Quiet o := by
  have step : ∀ {x : Line} {cur : Option Char} {s : Str}, x.Loose → (∀ t, x.text ≠ .make t) → (∀ t, x.text = .other t → '(' ∉ t) → o ∈ opens cur (x.render ++ s) →
      Quiet o ∨ ∃ cur, o ∈ opens cur s := by
    intro x cur s hx hm hp ho
    have htail : ∀ {cur : Option Char}, o ∈ opens cur (x.tail ++ s) → ∃ cur, o ∈ opens cur s := by
      intro cur ho
      rw [opens_append, hx.tail.opens, List.nil_append] at ho
      exact ⟨_, ho⟩
    have hg := hx.text
    rw [Line.render, List.append_assoc, opens_append, opens_none (indent_open hx.ind), List.nil_append, List.append_assoc] at ho
    cases ht : x.text with
    | make t => exact absurd ht (hm t)
    | find t =>
      rw [ht] at hg ho
      rcases opens_find (StmtText.Loose.toLooselyWritten hg) ho with h | h
      · left
        simp at h
        rcases h with rfl | rfl | rfl | rfl | rfl <;> exact ⟨_, rfl, by decide⟩
      · exact .inr (htail h)
    | report kw body =>
      rw [ht] at hg ho
      rcases report_opens hg ho with ⟨y, e, h⟩ | h
      · exact .inl ⟨y, e, fun k hk => h k (by simp at hk ⊢; rcases hk with rfl | rfl | rfl | rfl <;> simp)⟩
      · exact .inr (htail h)
    | other t =>
      rw [ht] at hg ho
      rw [LineText.render, opens_append, opens_none (hp t ht), List.nil_append] at ho
      exact .inr (htail ho)
  induction l generalizing cur with
  | nil => simp [joinLines, opens] at ho
  | cons x l ih =>
    have hx := h x (by simp)
    have hx' : ∀ t, x.text ≠ .make t := by
      intro t e
      simp [makesOf, e] at hm
    have hm' : makesOf l = [] := by
      cases e : x.text with
      | make t => exact absurd e (hx' t)
      | find t => simpa [makesOf, e] using hm
      | report kw body => simpa [makesOf, e] using hm
      | other t => simpa [makesOf, e] using hm
    cases l with
    | nil =>
      simp only [List.map_cons, List.map_nil, joinLines] at ho
      rcases step (s := []) hx hx' (hq x (by simp)) (by rw [List.append_nil]; exact ho) with h | ⟨_, h⟩
      · exact h
      · simp [opens] at h
    | cons y l =>
      simp only [List.map_cons, joinLines] at ho
      rcases step hx hx' (hq x (by simp)) ho with h | ⟨cur', h'⟩
      · exact h
      · have : ∃ cur, o ∈ opens cur (joinLines ((y :: l).map Line.render)) := by
          have e : '\n' :: joinLines ((y :: l).map Line.render) = c!"\n" ++ joinLines ((y :: l).map Line.render) := rfl
          rw [List.map_cons] at e
          rw [e, opens_append, opens_none (by decide)] at h'
          exact ⟨_, h'⟩
        obtain ⟨_, h''⟩ := this
        exact ih (fun x hx => h x (List.mem_cons_of_mem _ hx)) hm' (fun x hx => hq x (List.mem_cons_of_mem _ hx)) h''

theorem make_finditer {l : List Line} (h : ∀ x ∈ l, x.Loose) :
    (makeAll.finditer (joinLines (l.map Line.render))).map Prod.fst = (makesOf l).map StmtText.render := by
  have hk : ∀ w, CISpelling c!"make" w → '\n' ∉ w := fun _ h => ciSpelling_noNL (by decide) (by decide) h
  have := finditer_lines (re := makeAll) (ls := l.map fun x => (x.render, match x.text with
      | .make t => some t.render
      | _ => none)) (fails_lineEnd (by simp) hk (.inl rfl)) (fun s => fails_lineEnd (by simp) hk (.inr ⟨s, rfl⟩))
    (fun y hy s hs => by
      obtain ⟨x, hx, rfl⟩ := List.mem_map.1 hy
      exact line_make (h x hx) hs)
  rw [List.map_map, List.filterMap_map] at this
  simp only [Function.comp_def] at this
  rw [this, makesOf, List.map_filterMap]
  congr 1
  funext x
  cases x.text <;> rfl

theorem find_finditer {l : List Line} (h : ∀ x ∈ l, x.Loose) :
    (findAll.finditer (joinLines (l.map Line.render))).map Prod.fst = (findsOf l).map StmtText.render := by
  have hk : ∀ w, CISpelling c!"find" w → '\n' ∉ w := fun _ h => ciSpelling_noNL (by decide) (by decide) h
  have := finditer_lines (re := findAll) (ls := l.map fun x => (x.render, match x.text with
      | .find t => some t.render
      | _ => none)) (fails_lineEnd (by simp) hk (.inl rfl)) (fun s => fails_lineEnd (by simp) hk (.inr ⟨s, rfl⟩))
    (fun y hy s hs => by
      obtain ⟨x, hx, rfl⟩ := List.mem_map.1 hy
      exact line_find (h x hx) hs)
  rw [List.map_map, List.filterMap_map] at this
  simp only [Function.comp_def] at this
  rw [this, findsOf, List.map_filterMap]
  congr 1
  funext x
  cases x.text <;> rfl

theorem report_finditer {l : List Line} (h : ∀ x ∈ l, x.Loose) (hk : ∀ x ∈ l, NoKeyword c!"report" x.outside) :
    (reportAll.finditer (joinLines (l.map Line.render))).map Prod.fst = reportsOf l := by
  have hnl : ∀ w, CISpelling c!"report" w → '\n' ∉ w := fun w h => ciSpelling_noNL (by decide) (by decide) h
  have := finditer_lines (re := reportAll) (ls := l.map fun x => (x.render, match x.text with
      | .report kw body => some (kw ++ (body ++ c!";"))
      | _ => none)) (fails_lineEnd (by simp) hnl (.inl rfl)) (fun s => fails_lineEnd (by simp) hnl (.inr ⟨s, rfl⟩))
    (fun y hy s hs => by
      obtain ⟨x, hx, rfl⟩ := List.mem_map.1 hy
      have hg := (h x hx).text
      have hk := hk x hx
      have hsk : NoKeyword c!"report" x.render → reportAll.finditer (x.render ++ s) = reportAll.finditer s := fun hk =>
        skip_noKeyword hnl hk hs
      unfold Line.outside at hk
      cases ht : x.text with
      | make t => rw [ht] at hk; rw [hsk hk]; rfl
      | find t => rw [ht] at hk; rw [hsk hk]; rfl
      | other t => rw [ht] at hk; rw [hsk hk]; rfl
      | report kw body =>
        rw [ht] at hk hg
        have := RLine.stmt x.ind kw body x.tail (h x hx).ind (by rcases hg.1 with rfl | rfl <;> rfl) hg.2.1 hg.2.2.1 (h x hx).tail.line
          ((h x hx).semi _ _ ht) hk
        rw [Line.render, ht]
        exact line_reportAll this hs)
  rw [List.map_map, List.filterMap_map] at this
  simp only [Function.comp_def] at this
  rw [this, reportsOf]
  congr 1

theorem mem_makesOf {l : List Line} {t : StmtText} : t ∈ makesOf l ↔ ∃ x ∈ l, x.text = .make t := by
  simp only [makesOf, List.mem_filterMap]
  constructor
  · rintro ⟨x, hx, e⟩
    refine ⟨x, hx, ?_⟩
    cases ht : x.text <;> rw [ht] at e <;> simp at e
    rw [e]
  · rintro ⟨x, hx, e⟩
    exact ⟨x, hx, by rw [e]⟩

theorem mem_findsOf {l : List Line} {t : StmtText} : t ∈ findsOf l ↔ ∃ x ∈ l, x.text = .find t := by
  simp only [findsOf, List.mem_filterMap]
  constructor
  · rintro ⟨x, hx, e⟩
    refine ⟨x, hx, ?_⟩
    cases ht : x.text <;> rw [ht] at e <;> simp at e
    rw [e]
  · rintro ⟨x, hx, e⟩
    exact ⟨x, hx, by rw [e]⟩

theorem mem_reportsOf {l : List Line} {r : Str} (h : r ∈ reportsOf l) :
    ∃ kw body, r = kw ++ (body ++ c!";") ∧ ∃ x ∈ l, x.text = .report kw body := by
  simp only [reportsOf, List.mem_filterMap] at h
  obtain ⟨x, hx, e⟩ := h
  cases ht : x.text <;> rw [ht] at e <;> simp at e
  exact ⟨_, _, e.symm, x, hx, ht⟩

theorem makesOf_loose {l : List Line} (h : ∀ x ∈ l, x.Loose) : ∀ t ∈ makesOf l, t.Loose c!"MAKE" c!"make" := fun t ht => by
  obtain ⟨x, hx, e⟩ := mem_makesOf.1 ht
  have := (h x hx).text
  rw [e] at this
  exact this

theorem findsOf_loose {l : List Line} (h : ∀ x ∈ l, x.Loose) : ∀ t ∈ findsOf l, t.Loose c!"FIND" c!"find" := fun t ht => by
  obtain ⟨x, hx, e⟩ := mem_findsOf.1 ht
  have := (h x hx).text
  rw [e] at this
  exact this

/-- What the MAKE statements become. -/
def parsedMakes (l : List StmtText) : Option (List ParsedMake) :=
  match l with
  | [] => none
  | _ => some (l.map fun t => ⟨t.render, .make, t.chains.map ChainText.pattern⟩)

theorem ChainText.Loose.relsOK {c : ChainText} (h : c.Loose) : ∀ r ∈ c.rels, r.OK := by
  cases c <;> simp only [ChainText.Loose] at h <;> simp [ChainText.rels]
  · exact h.2.1.1
  · exact ⟨h.2.1.1, h.2.2.2.1.1⟩

theorem StmtText.Loose.relsOK {up low : Str} {t : StmtText} (h : t.Loose up low) : ∀ r ∈ t.rels, r.OK := fun r hr => by
  obtain ⟨c, hc, hr⟩ := List.mem_flatMap.1 hr
  exact (h.chains c hc).1.relsOK r hr

theorem validate_stmts {up low : Str} (h1 : up.all mildChar = true) (h2 : low.all mildChar = true) {l : List StmtText}
    (h : ∀ t ∈ l, t.Loose up low) : validateStatement (l.map StmtText.render) = checkRels (l.map StmtText.rels) := by
  have := validate_loose (l := l.map fun t => (t.rels, t.render)) (by
    intro x hx
    obtain ⟨t, ht, rfl⟩ := List.mem_map.1 hx
    exact ⟨accepted_stmt h1 h2 (h t ht), (h t ht).relsOK⟩)
  simpa [Function.comp_def] using this

theorem parseMake_loose {l : List Line} (h : ∀ x ∈ l, x.Loose) (hq : makesOf l = [] → ∀ x ∈ l, ∀ t, x.text = .other t → '(' ∉ t) :
    parseMake (joinLines (l.map Line.render)) = (match checkRels ((makesOf l).map StmtText.rels) with
      | .error e => .error e
      | .ok _ => .ok (parsedMakes (makesOf l))) := by
  have hf := make_finditer h
  by_cases hm : makesOf l = []
  · have hsp : makeSpelling.finditer (joinLines (l.map Line.render)) = [] := by
      refine spelling_none (by simp) ?_ ?_
      · intro k hk x hx
        simp at hk
        rcases hk with rfl | rfl | rfl | rfl <;> simp [matchCI] at hx
        · rcases hx with rfl | rfl <;> simp [isSpace, isAscii]
        · rcases hx with rfl | rfl <;> simp [isSpace, isAscii]
        · rcases hx with (rfl | rfl) | rfl <;> simp [isSpace, isAscii, PyRuntime.uSpace_kelvin]
        · rcases hx with rfl | rfl <;> simp [isSpace, isAscii]
      · intro x hx k hk
        obtain ⟨y, e, h⟩ := opens_lines h hm (hq hm) hx
        rw [Option.some.injEq] at e
        subst e
        exact h k hk
    rw [hm] at hf ⊢
    simp only [List.map_nil] at hf
    simp only [parseMake, extractAllStatements, hf, checkClauseSpelling, hsp, List.isEmpty_nil, if_true, parsedMakes, List.map_nil, checkRels]
  · have he : extractAllStatements (joinLines (l.map Line.render)) .make = .ok (some ((makesOf l).map StmtText.render)) :=
      extract_of_finditer rfl hf (by simpa using hm)
    have hg := makesOf_loose h
    have hv := validate_stmts make_mild.1 make_mild.2.1 hg
    simp only [parseMake, he, hv, build_makes hg]
    cases hc : checkRels ((makesOf l).map StmtText.rels) with
    | error e => rfl
    | ok u =>
      cases hml : makesOf l with
      | nil => exact absurd hml hm
      | cons t ts => rfl

theorem parseFind_loose {l : List Line} {f : StmtText} (h : ∀ x ∈ l, x.Loose) (hf : findsOf l = [f]) :
    parseFind (joinLines (l.map Line.render)) = (match checkRels [f.rels] with
      | .error e => .error e
      | .ok _ => .ok (some ⟨f.render, .find, f.first.pattern⟩)) := by
  have hg : f.Loose c!"FIND" c!"find" := findsOf_loose h f (by simp [hf])
  have he : extractAllStatements (joinLines (l.map Line.render)) .find = .ok (some [f.render]) :=
    extract_of_finditer rfl (by rw [find_finditer h, hf]; rfl) (by simp)
  have hv := validate_stmts (l := [f]) make_mild.2.2.1 make_mild.2.2.2 (by simpa using hg)
  simp only [List.map_cons, List.map_nil] at hv
  simp only [parseFind, he, hv]
  cases hc : checkRels [f.rels] with
  | error e => rfl
  | ok u => simp [build_find hg]

/-- What the REPORT becomes. -/
def parsedReport (l : List Str) : Option ParsedReport := l.head?.map fun r => ⟨r, .report, r⟩

theorem parseReport_text {l : List Line} {f : StmtText} (h : QueryLoose l f) :
    parseReport (joinLines (l.map Line.render)) f.first.pattern.patternHandles = .ok (parsedReport (reportsOf l)) := by
  rcases h.report with ⟨hr, ha⟩ | ⟨r, hr, hh, hk⟩
  · have hf : reportAll.finditer (joinLines (l.map Line.render)) = [] :=
      noReport_nil (noReport_of fun a w b e => ha a w b e _ (.refl _))
    simp only [parseReport, extractAllStatements, hf, List.map_nil, checkClauseSpelling, reportSpelling_none ha, List.isEmpty_nil,
      if_true, hr, parsedReport, List.head?_nil, Option.map_none]
  · have he : extractAllStatements (joinLines (l.map Line.render)) .report = .ok (some [r]) :=
      extract_of_finditer rfl (by rw [report_finditer h.lines hk, hr]) (by simp)
    obtain ⟨kw, body, rfl, x, hl, ht⟩ := mem_reportsOf (l := l) (r := r) (by simp [hr])
    have hg := (h.lines _ hl).text
    rw [ht] at hg
    have hc : checkFindReportHandles f.first.pattern.patternHandles (kw ++ (body ++ c!";")) = .ok () := by
      rw [checkFindReportHandles, if_pos]
      rw [List.all_eq_true]
      intro x hx
      rw [ParsedPattern.patternHandles, handles_pattern] at hx
      exact (isSubstr_iff _ _).2 (hh x (List.mem_filter.1 hx).1)
    have hcs := report_cs hg.1 hg.2.1 hg.2.2.1
    simp [parseReport, he, hc, hcs, hr, parsedReport]

theorem parseQuery_loose {l : List Line} {f : StmtText} (h : QueryLoose l f) :
    parseQueryString (joinLines (l.map Line.render)) = (match checkRels ((makesOf l).map StmtText.rels) with
      | .error e => .error e
      | .ok _ => match checkRels [f.rels] with
        | .error e => .error e
        | .ok _ => .ok ⟨parsedMakes (makesOf l), some ⟨f.render, .find, f.first.pattern⟩, parsedReport (reportsOf l)⟩) := by
  rw [parseQueryString, parseMake_loose h.lines h.quiet, parseFind_loose h.lines h.find]
  cases checkRels ((makesOf l).map StmtText.rels) with
  | error e => rfl
  | ok u =>
    cases checkRels [f.rels] with
    | error e => rfl
    | ok u => simp only [parseReport_text h]

/-! ### Good is loose and proper -/

theorem RelText.Good.loose {r : RelText} (h : r.Good) : r.Loose := ⟨h.1, h.2.1⟩
theorem RelText.Good.proper {r : RelText} (h : r.Good) : r.Proper := h.2.2

theorem ChainText.Good.loose {c : ChainText} (h : c.Good) : c.Loose := by
  cases c with
  | one n => exact h
  | two n r m => exact ⟨h.1, h.2.1.loose, h.2.2⟩
  | three n r m r' m' => exact ⟨h.1, h.2.1.loose, h.2.2.1, h.2.2.2.1.loose, h.2.2.2.2⟩

theorem ChainText.Good.ok {c : ChainText} (h : c.Good) : c.OK := h.loose.ok

theorem ChainText.Good.proper {c : ChainText} (h : c.Good) : ∀ r ∈ c.rels, r.Proper := by
  cases c with
  | one n => simp [ChainText.rels]
  | two n r m => simpa [ChainText.rels] using h.2.1.proper
  | three n r m r' m' => simpa [ChainText.rels] using ⟨h.2.1.proper, h.2.2.2.1.proper⟩

theorem StmtText.Written.loose {up low : Str} {t : StmtText} (h : t.Written up low) : t.LooselyWritten up low :=
  ⟨h.kw, h.sp, h.rest, fun c hc => ⟨(h.chains c hc).1.loose, (h.chains c hc).2⟩, h.close⟩

theorem StmtText.Written.restOK {up low : Str} {t : StmtText} (h : t.Written up low) : ∀ x ∈ t.rest, x.1.all isSpace = true ∧ x.2.OK :=
  h.loose.restOK
theorem StmtText.Written.firstOK {up low : Str} {t : StmtText} (h : t.Written up low) : t.first.OK := h.loose.firstOK

theorem StmtText.Written.proper {up low : Str} {t : StmtText} (h : t.Written up low) : ∀ r ∈ t.rels, r.Proper := fun r hr => by
  obtain ⟨c, hc, hr⟩ := List.mem_flatMap.1 hr
  exact (h.chains c hc).1.proper r hr

theorem StmtText.Good.loose {up low : Str} {t : StmtText} (h : t.Good up low) : t.Loose up low := ⟨h.toWritten.loose, h.line⟩

theorem LineText.Good.loose {x : LineText} (h : x.Good) : x.Loose := by
  cases x with
  | make t => exact StmtText.Good.loose h
  | find t => exact StmtText.Good.loose h
  | report kw body => exact h
  | other t => exact h

theorem Line.Good.loose {x : Line} (h : x.Good) : x.Loose := ⟨h.ind, h.text.loose, h.tail, h.semi, h.bare⟩

theorem QueryGood.loose {l : List Line} {f : StmtText} (h : QueryGood l f) : QueryLoose l f :=
  ⟨fun x hx => (h.lines x hx).loose, h.find, h.quiet, h.report⟩

theorem makesOf_good {l : List Line} (h : ∀ x ∈ l, x.Good) : ∀ t ∈ makesOf l, t.Good c!"MAKE" c!"make" := fun t ht => by
  obtain ⟨x, hx, e⟩ := mem_makesOf.1 ht
  have := (h x hx).text
  rw [e] at this
  exact this

theorem findsOf_goods {l : List Line} (h : ∀ x ∈ l, x.Good) : ∀ t ∈ findsOf l, t.Good c!"FIND" c!"find" := fun t ht => by
  obtain ⟨x, hx, e⟩ := mem_findsOf.1 ht
  have := (h x hx).text
  rw [e] at this
  exact this

theorem checkRels_good {up low : Str} {l : List StmtText} (h : ∀ t ∈ l, t.Good up low) : checkRels (l.map StmtText.rels) = .ok () :=
  checkRels_proper fun rs hrs => by
    obtain ⟨t, ht, rfl⟩ := List.mem_map.1 hrs
    exact (h t ht).toWritten.proper

theorem validate_good {up low : Str} (h1 : up.all mildChar = true) (h2 : low.all mildChar = true) {l : List StmtText}
    (h : ∀ t ∈ l, t.Good up low) : validateStatement (l.map StmtText.render) = .ok () := by
  rw [validate_stmts h1 h2 fun t ht => (h t ht).loose]
  exact checkRels_good h

/-- Every check accepts the text. -/
def Passes (s : Str) : Prop := ∃ rs, Accepted rs s ∧ ∀ r ∈ rs, r.OK ∧ r.Proper

theorem passes_mild {u s : Str} (hu : u.all mildChar = true) (h : Passes s) : Passes (u ++ s) := by
  obtain ⟨rs, h, hr⟩ := h
  exact ⟨rs, accepted_mild hu h, hr⟩

theorem passes_nil : Passes [] := ⟨[], accepted_nil, by simp⟩

theorem passes_stmt_app {up low : Str} (h1 : up.all mildChar = true) (h2 : low.all mildChar = true) {t : StmtText}
    (h : t.Good up low) {s : Str} (hs : Passes s) : Passes (t.render ++ s) := by
  obtain ⟨rs, hs, hr⟩ := hs
  refine ⟨_, accepted_stmt_app h1 h2 h.loose hs, fun r hr' => ?_⟩
  rcases List.mem_append.1 hr' with hr' | hr'
  · exact ⟨h.loose.relsOK r hr', h.toWritten.proper r hr'⟩
  · exact hr r hr'

theorem passes_stmt {up low : Str} (h1 : up.all mildChar = true) (h2 : low.all mildChar = true) {t : StmtText}
    (h : t.Good up low) : Passes t.render := by
  have := passes_stmt_app h1 h2 h passes_nil
  rwa [List.append_nil] at this

theorem validate_passes {s : Str} (h : Passes s) : validateStatement [s] = .ok () := by
  obtain ⟨rs, h, hr⟩ := h
  have := validate_loose (l := [(rs, s)]) (by simpa using ⟨h, fun r hr' => (hr r hr').1⟩)
  simp only [List.map_cons, List.map_nil] at this
  rw [this]
  exact checkRels_proper (by simpa using fun r hr' => (hr r hr').2)

theorem parseMake_text {l : List Line} (h : ∀ x ∈ l, x.Good) (hq : makesOf l = [] → ∀ x ∈ l, ∀ t, x.text = .other t → '(' ∉ t) :
    parseMake (joinLines (l.map Line.render)) = .ok (parsedMakes (makesOf l)) := by
  rw [parseMake_loose (fun x hx => (h x hx).loose) hq, checkRels_good (makesOf_good h)]

theorem parseQuery_text {l : List Line} {f : StmtText} (h : QueryGood l f) :
    parseQueryString (joinLines (l.map Line.render)) =
      .ok ⟨parsedMakes (makesOf l), some ⟨f.render, .find, f.first.pattern⟩, parsedReport (reportsOf l)⟩ := by
  have hf := checkRels_good (l := [f]) (fun t ht => findsOf_goods h.lines t (by rw [h.find]; exact ht))
  simp only [List.map_cons, List.map_nil] at hf
  rw [parseQuery_loose h.loose, checkRels_good (makesOf_good h.lines), hf]

end WG
