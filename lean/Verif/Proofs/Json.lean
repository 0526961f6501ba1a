/-
JSON values: `json.load` inverts `json.dump` on serialisable values.
-/
import Verif.Proofs.JsonStr

namespace WG

mutual
/-- Serialisable: no `opq` inside, and dict keys are distinct (always true of Python dicts). -/
def Val.Ser {F : Type} : Val F → Prop
  | .opq _ => False
  | .list l => Val.SerList l
  | .dict d => (d.map Prod.fst).Nodup ∧ Val.SerDict d
  | _ => True
/-- All list elements serialisable. -/
def Val.SerList {F : Type} : List (Val F) → Prop
  | [] => True
  | x :: xs => Val.Ser x ∧ Val.SerList xs
/-- All dict values serialisable. -/
def Val.SerDict {F : Type} : List (Str × Val F) → Prop
  | [] => True
  | x :: xs => Val.Ser x.2 ∧ Val.SerDict xs
end

/-- First character of serialised text. -/
def StartOK (t : Str) : Prop :=
  ∃ c r, t = c :: r ∧ isJsonWs c = false ∧ c ≠ ']' ∧ c ≠ '}'

theorem StartOK.append {t : Str} (h : StartOK t) (r : Str) : StartOK (t ++ r) := by
  obtain ⟨c, t', rfl, h⟩ := h; exact ⟨c, t' ++ r, rfl, h⟩

theorem StartOK.skip {t : Str} (h : StartOK t) : skipWs t = t := by
  obtain ⟨c, t', rfl, h, _⟩ := h
  simp [skipWs, h]

theorem StartOK.length {t : Str} (h : StartOK t) : 0 < t.length := by
  obtain ⟨c, t', rfl, _⟩ := h; simp

theorem skipWs_append_ws (w s : Str) (h : w.all isJsonWs = true) : skipWs (w ++ s) = skipWs s := by
  induction w with
  | nil => rfl
  | cons c cs ih =>
    simp at h
    simp only [List.cons_append, skipWs, List.dropWhile_cons, h.1, if_true]
    exact ih (by simpa using h.2)

theorem nl_all_ws (k : Nat) : (nl k).all isJsonWs = true := by
  simp [nl, isJsonWs]

theorem skipWs_nl (k : Nat) (s : Str) : skipWs (nl k ++ s) = skipWs s :=
  skipWs_append_ws _ _ (nl_all_ws k)

theorem Delim.nl_append (k : Nat) (s : Str) : Delim (nl k ++ s) := by
  unfold nl; exact Delim.cons (Or.inr (Or.inl rfl))

theorem natStr_startOK_aux {c : Char} (h : isDig c = true) :
    isJsonWs c = false ∧ c ≠ ']' ∧ c ≠ '}' := by
  have := isDig_toNat h
  refine ⟨?_, ?_, ?_⟩
  · rcases hc : isJsonWs c with _ | _
    · rfl
    · simp [isJsonWs] at hc
      rcases hc with ((hc | hc) | hc) | hc <;> subst hc <;> simp [Char.toNat] at this
  · intro e; subst e; simp [Char.toNat] at this
  · intro e; subst e; simp [Char.toNat] at this

theorem natStr_startOK (n : Nat) : StartOK (natStr n) := by
  obtain ⟨c, r, e, hd, _⟩ := natStr_head n
  exact ⟨c, r, e, natStr_startOK_aux hd⟩

theorem intStr_startOK (i : Int) : StartOK (intStr i) := by
  cases i with
  | ofNat n => exact natStr_startOK n
  | negSucc n => exact ⟨'-', _, rfl, by decide⟩

/-- Characters that may start a number. -/
theorem spanInt_head {s : Str} {p : Str × Str} (h : spanInt s = some p) :
    ∃ c r, s = c :: r ∧ (isDig c = true ∨ (c = '-' ∧ ∀ r', r ≠ 'I' :: r')) := by
  unfold spanInt at h
  split at h
  · next c cs =>
    refine ⟨'-', c :: cs, rfl, Or.inr ⟨rfl, ?_⟩⟩
    intro r' e
    simp at e
    obtain ⟨rfl, rfl⟩ := e
    simp [isDig] at h
  · next c cs _ =>
    refine ⟨c, cs, rfl, Or.inl ?_⟩
    split at h
    · next h0 => subst h0; decide
    · split at h
      · assumption
      · simp at h
  · simp at h

/-- `parseVal` on a number. -/
theorem parseVal_num [PyRuntime] {s : Str} {p : Str × Str} (h : spanInt s = some p) (n : Nat) :
    parseVal (n + 1) s = parseNum s := by
  obtain ⟨c, r, rfl, hc⟩ := spanInt_head h
  rcases hc with hc | ⟨rfl, hc⟩
  · have ht := isDig_toNat hc
    have ne : ∀ d : Char, d.toNat < 48 ∨ 57 < d.toNat → c ≠ d := by
      intro d hd e; subst e; omega
    have h1 := ne '"' (by decide)
    have h2 := ne '{' (by decide)
    have h3 := ne '[' (by decide)
    have h4 := ne 'n' (by decide)
    have h5 := ne 't' (by decide)
    have h6 := ne 'f' (by decide)
    have h7 := ne 'N' (by decide)
    have h8 := ne 'I' (by decide)
    have h9 := ne '-' (by decide)
    simp [parseVal, h1, h2, h3, h4, h5, h6, h7, h8, h9]
  · have : stripPrefix? c!"Infinity" r = none := by
      cases r with
      | nil => rfl
      | cons c r =>
        have : c ≠ 'I' := by intro e; subst e; exact hc r rfl
        have : ('I' == c) = false := by simp [Ne.symm this]
        simp [stripPrefix?, List.isPrefixOf, this]
    simp [parseVal, this]

theorem floatRepr_startOK [PyRuntime] (f : PyRuntime.F) : StartOK (PyRuntime.floatRepr f) := by
  have hj := PyRuntime.floatRepr_json f
  unfold isJsonFloat at hj
  cases hi : spanInt (PyRuntime.floatRepr f) with
  | none => rw [hi] at hj; simp at hj
  | some p =>
    obtain ⟨c, r, e, hc⟩ := spanInt_head hi
    rcases hc with hc | ⟨rfl, hc⟩
    · exact ⟨c, r, e, natStr_startOK_aux hc⟩
    · exact ⟨_, r, e, by decide⟩

theorem floatRepr_spanInt [PyRuntime] (f : PyRuntime.F) :
    ∃ p, spanInt (PyRuntime.floatRepr f) = some p := by
  have hj := PyRuntime.floatRepr_json f
  unfold isJsonFloat at hj
  cases hi : spanInt (PyRuntime.floatRepr f) with
  | none => rw [hi] at hj; simp at hj
  | some p => exact ⟨p, rfl⟩

theorem andThen_true (t : Str) (b : Emitted) : (Emitted.andThen (t, true) b) = (t ++ b.1, b.2) := rfl

theorem encStr_append (key r : Str) : encStr key ++ r = '"' :: (key.flatMap escChar ++ '"' :: r) := by
  simp [encStr]

theorem dictSet_new {α : Type} (k : Str) (v : α) (d : Dict α) (h : k ∉ d.map Prod.fst) :
    dictSet k v d = d ++ [(k, v)] := by
  induction d with
  | nil => rfl
  | cons p d ih =>
    obtain ⟨k', v'⟩ := p
    simp at h
    have h1 : ¬ k' = k := fun e => h.1 e.symm
    simp only [dictSet, if_neg h1, List.cons_append, List.cons.injEq, true_and]
    exact ih (by simpa using h.2)

theorem foldl_dictSet_nodup {α : Type} (l d : Dict α)
    (h : ((d ++ l).map Prod.fst).Nodup) :
    l.foldl (fun d p => dictSet p.1 p.2 d) d = d ++ l := by
  induction l generalizing d with
  | nil => simp
  | cons p l ih =>
    obtain ⟨k, v⟩ := p
    have hk : k ∉ d.map Prod.fst := by
      rw [List.map_append, List.nodup_append] at h
      intro hm
      exact h.2.2 k hm k (by simp) rfl
    rw [List.foldl_cons, dictSet_new k v d hk, ih]
    · simp
    · simpa using h

theorem dictOf_nodup {α : Type} (l : Dict α) (h : (l.map Prod.fst).Nodup) : dictOf l = l := by
  have := foldl_dictSet_nodup l [] (by simpa using h)
  simpa [dictOf] using this

/-- What the round trip says about one value. -/
def ValOK [PyRuntime] (k : Nat) (v : V) : Prop :=
  ∃ t, emit k v = (t, true) ∧ StartOK t ∧
    ∀ rest fuel, Delim rest → (t ++ rest).length ≤ fuel → parseVal fuel (t ++ rest) = some (v, rest)

/-- … about the remaining elements of a list. -/
def ElemsOK [PyRuntime] (k : Nat) (xs : List V) : Prop :=
  ∃ t, emitElems k xs = (t, true) ∧ (∀ j r, Delim (t ++ (nl j ++ r))) ∧
    ∀ j rest fuel v s, (t ++ (nl j ++ ']' :: rest)).length ≤ fuel →
      parseVal fuel s = some (v, t ++ (nl j ++ ']' :: rest)) →
      parseElems (fuel + 1) s = some (v :: xs, rest)

/-- … about the remaining members of a dict. -/
def MembersOK [PyRuntime] (k : Nat) (xs : List (Str × V)) : Prop :=
  ∃ t, emitMembers k xs = (t, true) ∧ (∀ j r, Delim (t ++ (nl j ++ r))) ∧
    ∀ j rest fuel key v s, (t ++ (nl j ++ '}' :: rest)).length ≤ fuel →
      StartOK s →
      parseVal fuel s = some (v, t ++ (nl j ++ '}' :: rest)) →
      parseMembers (fuel + 1) (encStr key ++ ':' :: ' ' :: s) = some ((key, v) :: xs, rest)

theorem StartOK.ne_close {t : Str} (h : StartOK t) : t.head? ≠ some ']' ∧ t.head? ≠ some '}' := by
  obtain ⟨c, r, rfl, _, h1, h2⟩ := h
  simp [h1, h2]

theorem elemsOK_nil [PyRuntime] (k : Nat) : ElemsOK k [] := by
  refine ⟨[], by simp [emitElems, emitText], fun j r => Delim.nl_append j r, ?_⟩
  intro j rest fuel v s _ hv
  have e : skipWs (nl j ++ ']' :: rest) = ']' :: rest := by
    rw [skipWs_nl]; simp [skipWs, isJsonWs]
  simp only [List.nil_append] at hv
  rw [parseElems, hv]
  simp [e]

theorem elemsOK_cons [PyRuntime] (k : Nat) (x : V) (xs : List V)
    (hx : ValOK k x) (hxs : ElemsOK k xs) : ElemsOK k (x :: xs) := by
  obtain ⟨tx, ex, sx, px⟩ := hx
  obtain ⟨t, et, dt, pt⟩ := hxs
  refine ⟨',' :: (nl k ++ (tx ++ t)), ?_, ?_, ?_⟩
  · simp only [emitElems, ex, et, emitText, andThen_true, List.cons_append]
  · intro j r; exact Delim.cons (Or.inl rfl)
  · intro j rest fuel v s hf hv
    have e1 : skipWs (',' :: (nl k ++ (tx ++ t)) ++ (nl j ++ ']' :: rest))
        = ',' :: (nl k ++ (tx ++ (t ++ (nl j ++ ']' :: rest)))) := by
      simp [skipWs, isJsonWs]
    have e2 : skipWs (nl k ++ (tx ++ (t ++ (nl j ++ ']' :: rest)))) =
        tx ++ (t ++ (nl j ++ ']' :: rest)) := by
      rw [skipWs_nl, (sx.append _).skip]
    rw [parseElems, hv]
    simp only [e1]
    simp only [Char.reduceEq, if_false, if_true]
    rw [e2]
    have hl : (tx ++ (t ++ (nl j ++ ']' :: rest))).length + 2 ≤ fuel := by
      simp [nl] at hf ⊢; omega
    obtain ⟨m, rfl⟩ : ∃ m, fuel = m + 1 := ⟨fuel - 1, by omega⟩
    have h1 := px (t ++ (nl j ++ ']' :: rest)) m (dt j _) (by omega)
    have hl2 : (t ++ (nl j ++ ']' :: rest)).length ≤ m := by
      simp at hl ⊢; omega
    rw [pt j rest m x _ hl2 h1]
    rfl

theorem membersOK_nil [PyRuntime] (k : Nat) : MembersOK k [] := by
  refine ⟨[], by simp [emitMembers, emitText], fun j r => Delim.nl_append j r, ?_⟩
  intro j rest fuel key v s _ hs hv
  have e : skipWs (nl j ++ '}' :: rest) = '}' :: rest := by
    rw [skipWs_nl]; simp [skipWs, isJsonWs]
  have e1 : skipWs (':' :: ' ' :: s) = ':' :: ' ' :: s := by simp [skipWs, isJsonWs]
  have e2 : skipWs (' ' :: s) = s := by
    have := hs.skip
    simpa [skipWs, isJsonWs] using this
  simp only [List.nil_append] at hv
  rw [encStr_append]
  simp [parseMembers, scanStr_encStr, e1, e2, hv, e]

theorem membersOK_cons [PyRuntime] (k : Nat) (key' : Str) (x : V) (xs : List (Str × V))
    (hx : ValOK k x) (hxs : MembersOK k xs) : MembersOK k ((key', x) :: xs) := by
  obtain ⟨tx, ex, sx, px⟩ := hx
  obtain ⟨t, et, dt, pt⟩ := hxs
  refine ⟨',' :: (nl k ++ (encStr key' ++ (':' :: ' ' :: (tx ++ t)))), ?_, ?_, ?_⟩
  · simp only [emitMembers, ex, et, emitText, andThen_true, List.cons_append, List.append_assoc,
      List.nil_append]
  · intro j r; exact Delim.cons (Or.inl rfl)
  · intro j rest fuel key v s hf hs hv
    have e1 : skipWs (',' :: (nl k ++ (encStr key' ++ (':' :: ' ' :: (tx ++ t))))
          ++ (nl j ++ '}' :: rest))
        = ',' :: (nl k ++ (encStr key' ++ (':' :: ' ' :: (tx ++ (t ++ (nl j ++ '}' :: rest)))))) := by
      simp [skipWs, isJsonWs]
    have e2 : skipWs (nl k ++ (encStr key' ++ (':' :: ' ' :: (tx ++ (t ++ (nl j ++ '}' :: rest)))))) =
        encStr key' ++ (':' :: ' ' :: (tx ++ (t ++ (nl j ++ '}' :: rest)))) := by
      rw [skipWs_nl, encStr_append]; simp [skipWs, isJsonWs]
    have e3 : skipWs (':' :: ' ' :: s) = ':' :: ' ' :: s := by simp [skipWs, isJsonWs]
    have e4 : skipWs (' ' :: s) = s := by
      have := hs.skip
      simpa [skipWs, isJsonWs] using this
    have hl : (tx ++ (t ++ (nl j ++ '}' :: rest))).length + 2 ≤ fuel := by
      simp [nl] at hf ⊢; omega
    obtain ⟨m, rfl⟩ : ∃ m, fuel = m + 1 := ⟨fuel - 1, by omega⟩
    have h1 := px (t ++ (nl j ++ '}' :: rest)) m (dt j _) (by omega)
    have hl2 : (t ++ (nl j ++ '}' :: rest)).length ≤ m := by
      simp at hl ⊢; omega
    have h2 := pt j rest m key' x _ hl2 (sx.append _) h1
    rw [encStr_append, parseMembers]
    simp only [if_true, scanStr_encStr, e3, e4, hv, e1, e2, h2, Char.reduceEq, if_false]
    rfl

mutual
theorem emit_ok [PyRuntime] (k : Nat) : (v : V) → v.Ser → ValOK k v
  | .none, _ => by
    refine ⟨_, rfl, ⟨_, _, rfl, by decide⟩, ?_⟩
    intro rest fuel _ hf
    obtain ⟨m, rfl⟩ : ∃ m, fuel = m + 1 := ⟨fuel - 1, by simp at hf; omega⟩
    simp [parseVal, stripPrefix?, List.isPrefixOf]
  | .bool true, _ => by
    refine ⟨_, rfl, ⟨_, _, rfl, by decide⟩, ?_⟩
    intro rest fuel _ hf
    obtain ⟨m, rfl⟩ : ∃ m, fuel = m + 1 := ⟨fuel - 1, by simp at hf; omega⟩
    simp [parseVal, stripPrefix?, List.isPrefixOf]
  | .bool false, _ => by
    refine ⟨_, rfl, ⟨_, _, rfl, by decide⟩, ?_⟩
    intro rest fuel _ hf
    obtain ⟨m, rfl⟩ : ∃ m, fuel = m + 1 := ⟨fuel - 1, by simp at hf; omega⟩
    simp [parseVal, stripPrefix?, List.isPrefixOf]
  | .int i, _ => by
    refine ⟨intStr i, rfl, intStr_startOK i, ?_⟩
    intro rest fuel hd hf
    have := (intStr_startOK i).length
    obtain ⟨m, rfl⟩ : ∃ m, fuel = m + 1 := ⟨fuel - 1, by simp at hf; omega⟩
    rw [parseVal_num (spanInt_append _ _ hd (spanInt_intStr i)), parseNum_intStr _ _ hd]
  | .flt (.fin f), _ => by
    refine ⟨PyRuntime.floatRepr f, rfl, floatRepr_startOK f, ?_⟩
    intro rest fuel hd hf
    have := (floatRepr_startOK f).length
    obtain ⟨m, rfl⟩ : ∃ m, fuel = m + 1 := ⟨fuel - 1, by simp at hf; omega⟩
    obtain ⟨p, hp⟩ := floatRepr_spanInt f
    rw [parseVal_num (spanInt_append _ _ hd hp), parseNum_float _ _ hd]
  | .flt (.inf false), _ => by
    refine ⟨_, rfl, ⟨_, _, rfl, by decide⟩, ?_⟩
    intro rest fuel _ hf
    obtain ⟨m, rfl⟩ : ∃ m, fuel = m + 1 := ⟨fuel - 1, by simp [floatText] at hf; omega⟩
    simp [floatText, parseVal, stripPrefix?, List.isPrefixOf]
  | .flt (.inf true), _ => by
    refine ⟨_, rfl, ⟨_, _, rfl, by decide⟩, ?_⟩
    intro rest fuel _ hf
    obtain ⟨m, rfl⟩ : ∃ m, fuel = m + 1 := ⟨fuel - 1, by simp [floatText] at hf; omega⟩
    simp [floatText, parseVal, stripPrefix?, List.isPrefixOf]
  | .flt .nan, _ => by
    refine ⟨_, rfl, ⟨_, _, rfl, by decide⟩, ?_⟩
    intro rest fuel _ hf
    obtain ⟨m, rfl⟩ : ∃ m, fuel = m + 1 := ⟨fuel - 1, by simp [floatText] at hf; omega⟩
    simp [floatText, parseVal, stripPrefix?, List.isPrefixOf]
  | .str s, _ => by
    refine ⟨encStr s, rfl, ⟨_, _, rfl, by decide⟩, ?_⟩
    intro rest fuel _ hf
    obtain ⟨m, rfl⟩ : ∃ m, fuel = m + 1 := ⟨fuel - 1, by simp [encStr] at hf; omega⟩
    rw [encStr_append]
    simp [parseVal, scanStr_encStr]
  | .list [], _ => by
    refine ⟨_, rfl, ⟨_, _, rfl, by decide⟩, ?_⟩
    intro rest fuel _ hf
    obtain ⟨m, rfl⟩ : ∃ m, fuel = m + 1 := ⟨fuel - 1, by simp at hf; omega⟩
    simp [parseVal, skipWs, isJsonWs]
  | .list (x :: xs), h => by
    have hs : Val.Ser x ∧ Val.SerList xs := by simpa [Val.Ser, Val.SerList] using h
    obtain ⟨tx, ex, sx, px⟩ := emit_ok (k + 1) x hs.1
    obtain ⟨t, et, dt, pt⟩ := emitElems_ok (k + 1) xs hs.2
    refine ⟨'[' :: (nl (k + 1) ++ (tx ++ (t ++ (nl k ++ [']'])))), ?_, ⟨_, _, rfl, by decide⟩, ?_⟩
    · simp only [emit, ex, et, emitText, andThen_true, List.cons_append]
    · intro rest fuel hd hf
      have e2 : skipWs (nl (k + 1) ++ (tx ++ (t ++ (nl k ++ ']' :: rest)))) =
          tx ++ (t ++ (nl k ++ ']' :: rest)) := by
        rw [skipWs_nl, (sx.append _).skip]
      have hl : (tx ++ (t ++ (nl k ++ ']' :: rest))).length + 2 ≤ fuel := by
        simp [nl] at hf ⊢; omega
      obtain ⟨m, rfl⟩ : ∃ m, fuel = m + 1 + 1 := ⟨fuel - 2, by omega⟩
      have h1 := px (t ++ (nl k ++ ']' :: rest)) m (dt k _) (by omega)
      have hl2 : (t ++ (nl k ++ ']' :: rest)).length ≤ m := by
        simp at hl ⊢; omega
      have h2 := pt k rest m x _ hl2 h1
      obtain ⟨c, r, e3, _, hc, _⟩ := (sx.append (t ++ (nl k ++ ']' :: rest)))
      simp only [List.cons_append, List.append_assoc, List.nil_append]
      rw [parseVal]
      simp only [Char.reduceEq, if_false, if_true, e2]
      rw [e3]
      simp only [if_neg hc]
      rw [← e3, h2]
      rfl
  | .dict [], _ => by
    refine ⟨_, rfl, ⟨_, _, rfl, by decide⟩, ?_⟩
    intro rest fuel _ hf
    obtain ⟨m, rfl⟩ : ∃ m, fuel = m + 1 := ⟨fuel - 1, by simp at hf; omega⟩
    simp [parseVal, skipWs, isJsonWs]
  | .dict ((key, x) :: xs), h => by
    have hs : (((key, x) :: xs).map Prod.fst).Nodup ∧ Val.Ser x ∧ Val.SerDict xs := by
      simpa [Val.Ser, Val.SerDict] using h
    obtain ⟨tx, ex, sx, px⟩ := emit_ok (k + 1) x hs.2.1
    obtain ⟨t, et, dt, pt⟩ := emitMembers_ok (k + 1) xs hs.2.2
    refine ⟨'{' :: (nl (k + 1) ++ (encStr key ++ (':' :: ' ' :: (tx ++ (t ++ (nl k ++ ['}'])))))),
      ?_, ⟨_, _, rfl, by decide⟩, ?_⟩
    · simp only [emit, ex, et, emitText, andThen_true, List.cons_append, List.append_assoc,
        List.nil_append]
    · intro rest fuel hd hf
      have e2 : skipWs (nl (k + 1) ++ (encStr key ++ (':' :: ' ' :: (tx ++ (t ++ (nl k ++ '}' :: rest)))))) =
          encStr key ++ (':' :: ' ' :: (tx ++ (t ++ (nl k ++ '}' :: rest)))) := by
        rw [skipWs_nl, encStr_append]; simp [skipWs, isJsonWs]
      have hl : (tx ++ (t ++ (nl k ++ '}' :: rest))).length + 2 ≤ fuel := by
        simp [nl] at hf ⊢; omega
      obtain ⟨m, rfl⟩ : ∃ m, fuel = m + 1 + 1 := ⟨fuel - 2, by omega⟩
      have h1 := px (t ++ (nl k ++ '}' :: rest)) m (dt k _) (by omega)
      have hl2 : (t ++ (nl k ++ '}' :: rest)).length ≤ m := by
        simp at hl ⊢; omega
      have h2 := pt k rest m key x _ hl2 (sx.append _) h1
      simp only [List.cons_append, List.append_assoc, List.nil_append]
      rw [parseVal]
      simp only [Char.reduceEq, if_false, if_true, e2]
      rw [encStr_append] at h2 ⊢
      simp only [Char.reduceEq, if_false]
      rw [h2]
      simp [dictOf_nodup _ hs.1]
  | .opq _, h => absurd h (by simp [Val.Ser])
theorem emitElems_ok [PyRuntime] (k : Nat) : (xs : List V) → Val.SerList xs → ElemsOK k xs
  | [], _ => elemsOK_nil k
  | x :: xs, h => elemsOK_cons k x xs (emit_ok k x h.1) (emitElems_ok k xs h.2)
theorem emitMembers_ok [PyRuntime] (k : Nat) :
    (xs : List (Str × V)) → Val.SerDict xs → MembersOK k xs
  | [], _ => membersOK_nil k
  | (key, x) :: xs, h => membersOK_cons k key x xs (emit_ok k x h.1) (emitMembers_ok k xs h.2)
end

/-- The text written for a value (complete if the value is serialisable). -/
def dumpText [PyRuntime] (v : V) : Str := (jsonDump v).1

theorem jsonDump_ser [PyRuntime] (v : V) (h : v.Ser) : jsonDump v = (dumpText v, true) := by
  obtain ⟨t, e, _⟩ := emit_ok 0 v h
  simp [jsonDump, dumpText, e]

theorem dumpText_startOK [PyRuntime] (v : V) (h : v.Ser) : StartOK (dumpText v) := by
  obtain ⟨t, e, s, _⟩ := emit_ok 0 v h
  simpa [jsonDump, dumpText, e] using s

/-- **Round trip**, with trailing white space. -/
theorem jsonLoad_dump_ws [PyRuntime] (v : V) (h : v.Ser) (w : Str) (hw : w.all isJsonWs = true)
    (hd : Delim w) : jsonLoad (dumpText v ++ w) = some v := by
  obtain ⟨t, e, s, p⟩ := emit_ok 0 v h
  have et : dumpText v = t := by simp [jsonDump, dumpText, e]
  rw [et, jsonLoad, (s.append w).skip, p w _ hd (by omega)]
  have : skipWs w = [] := by
    have := skipWs_append_ws w [] hw
    simpa [skipWs] using this
  simp [this]

/-- **Round trip**: loading what was dumped gives the value back. -/
theorem jsonLoad_dump [PyRuntime] (v : V) (h : v.Ser) : jsonLoad (dumpText v) = some v := by
  have := jsonLoad_dump_ws v h [] rfl Delim.nil
  simpa using this

end WG
