/-
Lemmas: a MAKE on several lines is not seen.
-/
import Verif.Proofs.EndToEnd
set_option linter.unusedSectionVars false
set_option linter.unusedSimpArgs false

namespace WG
open Re
variable [PyRuntime]

theorem word_semi {v : Str} (h : v.all isWord = true) : ';' ∉ v := fun hc => by
  have := List.all_eq_true.1 h _ hc
  simp [isWord, isAscii, Char.isAlphanum, Char.isAlpha, Char.isDigit, Char.isUpper, Char.isLower] at this

theorem space_semi {v : Str} (h : v.all isSpace = true) : ';' ∉ v := fun hc => by
  have := List.all_eq_true.1 h _ hc
  simp [isSpace, isAscii] at this

theorem param_semi {v : Str} (h : v.all isParamChar = true) : ';' ∉ v := fun hc => by
  have := List.all_eq_true.1 h _ hc
  simp [isParamChar, isWord, isSpace, isAscii, Char.isAlphanum, Char.isAlpha, Char.isDigit, Char.isUpper, Char.isLower] at this

theorem node_semi {n : NodeText} (h : n.OK) : ';' ∉ n.render := by
  have hp : ';' ∉ n.props.getD [] := by
    cases e : n.props with
    | none => simp
    | some p => exact param_semi (h.props p e).all
  simp [NodeText.render, space_semi h.sp1, word_semi h.handle, space_semi h.sp2, space_semi h.sp3, word_semi h.label, space_semi h.sp4,
    space_semi h.sp5, hp]

theorem rel_semi {r : RelText} (h : r.OK) : ';' ∉ r.render := by
  simp only [RelText.render, List.mem_append, List.mem_cons, not_or]
  exact ⟨by split <;> simp, by simp, by decide, param_semi (RelText.content_all h), by decide, by simp, by split <;> simp, space_semi h.sp3⟩

theorem chain_semi {c : ChainText} (h : c.OK) : ';' ∉ c.render := by
  cases c with
  | one n => exact node_semi h
  | two n r m => simp [ChainText.render, node_semi h.1, rel_semi h.2.1, node_semi h.2.2]
  | three n r m r' m' =>
    simp [ChainText.render, node_semi h.1, rel_semi h.2.1, node_semi h.2.2.1, rel_semi h.2.2.2.1, node_semi h.2.2.2.2]

theorem rest_semi {l : List (Str × ChainText)} (h : ∀ x ∈ l, x.1.all isSpace = true ∧ x.2.OK) : ';' ∉ renderRest l := by
  induction l with
  | nil => simp [renderRest]
  | cons x l ih =>
    have hx := h x (by simp)
    simp [renderRest, space_semi hx.1, chain_semi hx.2, ih fun y hy => h y (List.mem_cons_of_mem _ hy)]

theorem space_open {v : Str} (h : v.all isSpace = true) : '(' ∉ v := fun hc => by
  have := List.all_eq_true.1 h _ hc
  simp [sp_lit] at this

theorem make_open {t : StmtText} (h : t.Written c!"MAKE" c!"make") : '(' ∉ t.kw ++ t.sp := by
  simp only [List.mem_append, not_or]
  exact ⟨by rcases h.kw with e | e <;> rw [e] <;> decide, space_open h.sp⟩

/-- What stands before the parentheses behind the first one. -/
theorem opens_inside {t : StmtText} (h : t.Written c!"MAKE" c!"make") {body : Str} (hb : t.render = stmtText t.kw t.sp body) {x : Char}
    (hx : some x ∈ opens (some '(') (body ++ c!");")) : x = ',' ∨ x = '-' ∨ x = '>' := by
  have e : '(' :: (body ++ c!");") = t.first.render ++ (renderRest t.rest ++ c!";") := by
    rw [StmtText.render, stmtText] at hb
    exact (List.append_cancel_left (List.append_cancel_left hb)).symm
  have hx' : some x ∈ opens none ('(' :: (body ++ c!");")) := by
    rw [opens]
    simp [hx]
  rw [e] at hx'
  rcases opens_chain h.firstOK hx' with h' | h' | h' | h'
  · simp at h'
  · simp at h'; simp [h']
  · simp at h'; simp [h']
  · rcases opens_rest h.restOK h' with h' | h' | h' | h'
    · simp at h'; simp [h']
    · simp at h'; simp [h']
    · simp at h'; simp [h']
    · simp [opens] at h'

theorem split_noMake {t : StmtText} (h : t.Split c!"MAKE" c!"make") : NoStatement c!"make" t.render := by
  obtain ⟨body, e, hb, e2⟩ := stmt_shape h.toWritten.loose
  have hnl : '\n' ∈ body := by
    have := h.lines
    rw [e2] at this
    simpa using this
  have hsemi : ';' ∉ body := by
    have := rest_semi h.restOK
    have h2 := chain_semi h.firstOK
    have h3 : ';' ∉ t.first.render ++ renderRest t.rest := by simp [h2, this]
    rw [e2] at h3
    simp at h3
    exact h3
  intro a w sp body' b e3 hw hsp hb' hn'
  obtain ⟨w', x, rfl, hx⟩ := ciSpelling_last (ks := c!"mak") (k := 'e') hw
  have hxs : isSpace x = false := solid_de.2 x hx
  rw [e] at e3
  have e4 : (t.kw ++ t.sp) ++ '(' :: (body ++ c!");") = (a ++ (w' ++ x :: sp)) ++ '(' :: (body' ++ (c!");" ++ b)) := by
    simpa [stmtText] using e3
  rw [List.append_eq_append_iff] at e4
  rcases e4 with ⟨q, e5, e6⟩ | ⟨q, e5, e6⟩
  · cases q with
    | nil =>
      simp only [List.nil_append, List.cons.injEq, true_and] at e6
      rw [List.append_eq_append_iff] at e6
      rcases e6 with ⟨z, e7, -⟩ | ⟨z, e7, e8⟩
      · exact hn' (by rw [e7]; simp [hnl])
      · match z, e8 with
        | [], _ => exact hn' (by rw [List.append_nil] at e7; rw [← e7]; exact hnl)
        | [_], e8 => simp at e8
        | _ :: _ :: z, e8 =>
          simp only [List.cons_append, List.cons.injEq, List.nil_append] at e8
          rw [e7, ← e8.2.1] at hsemi
          simp at hsemi
    | cons c q =>
      simp only [List.cons_append, List.cons.injEq] at e6
      obtain ⟨rfl, e6⟩ := e6
      have hl : lastSolid (some '(') q = some x := by
        have h1 : lastSolid none (a ++ (w' ++ x :: sp)) = some x := by
          rw [← List.append_assoc]
          exact lastSolid_end hxs hsp none
        rw [e5, lastSolid_append] at h1
        simpa [lastSolid, sp_lit] using h1
      have hm : some x ∈ opens (some '(') (body ++ c!");") := by
        rw [e6, opens_append, hl]
        simp [opens]
      rcases opens_inside h.toWritten e hm with rfl | rfl | rfl <;> simp [matchCI] at hx
  · cases q with
    | nil =>
      simp only [List.nil_append, List.cons.injEq, true_and] at e6
      rw [eq_comm, List.append_eq_append_iff] at e6
      rcases e6 with ⟨z, e7, -⟩ | ⟨z, e7, e8⟩
      · exact hn' (by rw [e7]; simp [hnl])
      · match z, e8 with
        | [], _ => exact hn' (by rw [List.append_nil] at e7; rw [← e7]; exact hnl)
        | [_], e8 => simp at e8
        | _ :: _ :: z, e8 =>
          simp only [List.cons_append, List.cons.injEq, List.nil_append] at e8
          rw [e7, ← e8.2.1] at hsemi
          simp at hsemi
    | cons c q =>
      simp only [List.cons_append, List.cons.injEq] at e6
      have := make_open h.toWritten
      rw [e5, ← e6.1] at this
      simp at this

theorem split_stray {t : StmtText} (h : t.Split c!"MAKE" c!"make") : Stray t.render where
  make := split_noMake h
  find a w sp body b e hw hsp _ _ := by
    obtain ⟨w', x, rfl, hx⟩ := ciSpelling_last (ks := c!"fin") (k := 'd') hw
    have hm : some x ∈ opens none (t.render ++ []) := by
      have e' : t.render = (a ++ w') ++ x :: (sp ++ '(' :: (body ++ (c!");" ++ b))) := by rw [e]; simp [stmtText]
      rw [List.append_nil, e']
      exact opens_mem (solid_de.1 x hx) hsp none
    have := opens_make h.toWritten.loose hm
    simp [opens] at this
    rcases this with rfl | rfl | rfl | rfl | rfl <;> simp [matchCI] at hx
  last a w sp e hsp := by
    obtain ⟨l, e'⟩ := stmt_semi t
    rw [e'] at e
    have key : ∀ {ks : Str} {k : Char}, (∀ c ∈ ks ++ [k], matchCI c ';' = false) → ¬ CISpelling (ks ++ [k]) w := by
      intro ks k hk hw
      have h1 := ciSpelling_avoids hk hw
      obtain ⟨w', x, rfl, -⟩ := ciSpelling_last hw
      rcases List.eq_nil_or_concat sp with rfl | ⟨sp', y, rfl⟩
      · rw [List.append_nil, ← List.append_assoc] at e
        have := List.append_inj_right' e rfl
        simp at this
        simp at h1
        exact h1.2 this
      · rw [List.concat_eq_append, ← List.append_assoc] at e
        have := List.append_inj_right' e rfl
        simp at this
        subst this
        have := space_semi hsp
        simp at this
    exact ⟨key (ks := c!"mak") (k := 'e') (by decide), key (ks := c!"fin") (k := 'd') (by decide)⟩

end WG
