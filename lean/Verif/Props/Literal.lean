/-
Property lists: what the names and literals written in braces stand for (C34, C43, C44, C45).
-/
import Verif.Proofs.LiteralInv
import Verif.Spec.Demo

set_option linter.unusedSectionVars false
set_option linter.unusedSimpArgs false

namespace WG
open Re

section
variable [PyRuntime]

/-- **C34 (partial).**  A property list with distinct names, written with any spacing, gives exactly its names and
values, in order.  Values: `null`, `true`, `false`, decimal numbers, `digits.digits`, clean quoted texts, lists of
such.  After the closing brace anything but words may follow (white space, in a statement).  Missing from the full
claim: negative numbers (`C34_violated_negative`) and quoted words such as `'true'` (`C34_violated_word`). -/
theorem C34_literals_parse_partial {l : List (PropText × V)} (h : ∀ x ∈ l, x.1.OK ∧ x.1.lit.Means x.2)
    (hn : (l.map fun x => x.1.name).Nodup) {tail : Str} (ht : tail.all (fun c => !isWord c) = true) :
    getPropertyDict (some (renderProps (l.map Prod.fst) ++ tail)) = .ok (some (l.map fun x => (x.1.name, x.2))) := by
  have e := parse_renderProps h ht
  rw [dictOf_distinct (by rw [List.map_map]; exact hn)] at e
  have hne : (renderProps (l.map Prod.fst) ++ tail).isEmpty = false := rfl
  simp only [getPropertyDict, hne, Bool.false_eq_true, if_false, e]

/-- Every property of the grammar stands for exactly one value, so the theorem above covers them all. -/
theorem C34_every_literal_has_one_value {p : PropText} (h : p.OK) : ∃ v : V, p.lit.Means v ∧ ∀ w : V, p.lit.Means w → w = v := by
  obtain ⟨v, hv⟩ := Lit.means_total h.lit
  have ha : ∀ {a : Atom} {v w : V}, a.Means v → a.Means w → w = v := by
    intro a v w hv hw
    cases a with
    | float d f =>
      obtain ⟨x, hx, rfl⟩ := hv
      obtain ⟨y, hy, rfl⟩ := hw
      rw [hx] at hy
      simp at hy
      rw [hy]
    | _ => simp only [Atom.Means] at hv hw; rw [hv, hw]
  refine ⟨v, hv, fun w hw => ?_⟩
  cases hl : p.lit with
  | atom a => rw [hl] at hv hw; exact ha hv hw
  | list l sp =>
    rw [hl] at hv hw
    obtain ⟨vs, rfl, hv⟩ := hv
    obtain ⟨ws, rfl, hw⟩ := hw
    have : ∀ (l : List (Str × Atom)) (vs ws : List V), ListMeans l vs → ListMeans l ws → ws = vs := by
      intro l
      induction l with
      | nil => intro vs ws h1 h2; simp only [ListMeans] at h1 h2; rw [h1, h2]
      | cons x l ih =>
        rintro _ _ ⟨v, vs, rfl, h1, h2⟩ ⟨w, ws, rfl, h3, h4⟩
        rw [ha h1 h3, ih _ _ h2 h4]
    rw [this l vs ws hv hw]

/-- **C45.**  If names are repeated, the last value of each is stored, once, at the place of its first occurrence
at the latest: the names are those written, without repetition, and a look-up gives the last value. -/
theorem C45_last_one_wins {l : List (PropText × V)} (h : ∀ x ∈ l, x.1.OK ∧ x.1.lit.Means x.2) {tail : Str}
    (ht : tail.all (fun c => !isWord c) = true) :
    ∃ d, getPropertyDict (some (renderProps (l.map Prod.fst) ++ tail)) = .ok (some d) ∧ (keys d).Nodup ∧
      (∀ k, k ∈ keys d ↔ ∃ x ∈ l, x.1.name = k) ∧ ∀ k, dictGet k d = lastValue k (l.map fun x => (x.1.name, x.2)) := by
  have e := parse_renderProps h ht
  have hne : (renderProps (l.map Prod.fst) ++ tail).isEmpty = false := rfl
  refine ⟨_, by simp only [getPropertyDict, hne, Bool.false_eq_true, if_false, e], nodup_dictOf _, fun k => ?_, fun k => dictGet_dictOf _ k⟩
  rw [mem_keys_dictOf]
  simp [keys]

/-- **C45**, for every text: whatever properties are found in a text, a look-up gives the value of the last one
with that name, and no name is stored twice. -/
theorem C45_any_text {s : Str} {d : Dict V} (h : getPropertyDict (some s) = .ok (some d)) :
    ∃ pairs : List (Str × V), (propKV.finditer s).map (fun m => parseOneProp m.2) = pairs.map .ok ∧ (keys d).Nodup ∧
      (∀ k, k ∈ keys d ↔ k ∈ pairs.map Prod.fst) ∧ ∀ k, dictGet k d = lastValue k pairs := by
  rw [getPropertyDict] at h
  split at h
  · simp at h
  · split at h
    · next d' hd =>
      simp only [Except.ok.injEq, Option.some.injEq] at h
      subst h
      obtain ⟨pairs, h1, rfl⟩ := parsePropsLoop_pairs hd
      exact ⟨pairs, h1, nodup_dictOf pairs, fun k => mem_keys_dictOf, fun k => dictGet_dictOf pairs k⟩
    · simp at h

/-- **C43 (partial).**  The text between the quotes is stored verbatim exactly if it is clean: word characters,
white space and `+ ' " @ .` only, no white space or single quote at its ends, in double quotes no double quote at its
ends either, and not one of the seven refused words.  The full claim, that every quoted text is stored verbatim, is
false (`C43_violated`). -/
theorem C43_verbatim_iff_clean_partial {name : Str} (hn : name.all isWord = true) (hn' : name ≠ []) (q : Bool) (s : Str) :
    (∃ d, getPropertyDict (some (quotedProp name q s)) = .ok (some d) ∧ dictGet name d = some (.str s)) ↔ CleanStr q s := by
  have hne : (quotedProp name q s).isEmpty = false := rfl
  constructor
  · rintro ⟨d, hd, hg⟩
    simp only [getPropertyDict, hne, Bool.false_eq_true, if_false] at hd
    split at hd
    · next d' hp =>
      simp only [Except.ok.injEq, Option.some.injEq] at hd
      subst hd
      obtain ⟨val, g, hf, hone⟩ := parseProperties_mem hp (dictGet_some_mem hg)
      obtain ⟨-, -, hs, h1, h2⟩ := found_str hf hone
      obtain ⟨kv, hk⟩ := finditer_quotedProp hn hn' q hs
      rw [parseProperties, hk] at hp
      have hone' : parseOneProp [(gName, name), (gValue, quoteChar q :: (s ++ [quoteChar q])),
          (gString, quoteChar q :: (s ++ [quoteChar q]))] = .ok (name, .str s) := by
        rw [parsePropsLoop] at hp
        split at hp
        · next k v hv =>
          simp only [parsePropsLoop, Except.ok.injEq] at hp
          subst hp
          have := hv
          simp only [dictSet] at hg
          simp only [dictGet] at hg
          split at hg
          · next hkn => simp at hg; subst hg hkn; exact hv
          · simp at hg
        · simp at hp
      have hf' : FoundProp (quotedProp name q s) name (quoteChar q :: (s ++ [quoteChar q])) gString := by
        refine ⟨hn, hn', .str ?_ (by simp), ?_, ?_⟩
        · have hq : isStrChar (quoteChar q) = true := by cases q <;> simp [quoteChar, isStrChar]
          simp only [List.all_cons, List.all_append, List.all_nil, hq, hs, Bool.and_self]
        · intro c hc; simp [quotedProp, hc]
        · intro c hc
          simp only [List.mem_cons, List.mem_append, List.not_mem_nil, or_false] at hc
          rcases hc with hc | hc | hc <;> simp [quotedProp, hc]
      obtain ⟨-, he, -⟩ := found_str hf' hone'
      obtain ⟨e1, e2⟩ := strip_quoted_iff.1 he.symm
      exact ⟨hs, e1, e2, h1, h2⟩
    · simp at hd
  · intro hc
    let p : PropText := ⟨[], name, [], [' '], .atom (.str q s), []⟩
    have hp : p.OK := ⟨rfl, hn, hn', rfl, by simp [p, isSpace, isAscii], hc, rfl, fun _ => rfl⟩
    have := C34_literals_parse_partial (l := [(p, .str s)]) (by simp [hp, p, Lit.Means, Atom.Means]) (by simp) (tail := []) rfl
    refine ⟨_, (by
      have e : quotedProp name q s = renderProps [p] ++ [] := by
        simp [quotedProp, renderProps, commaSep, PropText.render, p, Lit.render, Atom.render]
      rw [e]; exact this), by simp [dictGet, p]⟩

/-- **C44 (partial).**  A list of clean plain literals is stored with exactly these elements, in order.  Missing
from the full claim: texts containing `true`, `false` or `null` are changed (`C44_violated`; exactly how: `C44_lists_exact`), an
empty list is dropped (`C44_violated_empty`). -/
theorem C44_lists_verbatim_partial {name : Str} (hn : name.all isWord = true) (hn' : name ≠ []) {l : List (Str × Atom)} {sp : Str}
    (h : (Lit.list l sp).OK) {vs : List V} (hv : ListMeans l vs) :
    getPropertyDict (some ('{' :: (name ++ (c!": " ++ ((Lit.list l sp).render ++ ['}']))))) = .ok (some [(name, .list vs)]) := by
  let p : PropText := ⟨[], name, [], [' '], .list l sp, []⟩
  have hp : p.OK := ⟨rfl, hn, hn', rfl, by simp [p, isSpace, isAscii], h, rfl, fun _ => rfl⟩
  have := C34_literals_parse_partial (l := [(p, .list vs)])
    (by simp only [List.mem_singleton, forall_eq]; exact ⟨hp, vs, rfl, hv⟩) (by simp) (tail := []) rfl
  have e : '{' :: (name ++ (c!": " ++ ((Lit.list l sp).render ++ ['}']))) = renderProps [p] ++ [] := by
    simp [renderProps, commaSep, PropText.render, p]
  rw [e]
  exact this

/-- A list value, whatever it contains, is stored as a list or refused; it never turns into something else. -/
theorem C44_list_stays_list {s name b : Str} {v : V} (h : FoundProp s name ('[' :: (b ++ [']'])) gList)
    (hp : parseOneProp [(gName, name), (gValue, '[' :: (b ++ [']'])), (gList, '[' :: (b ++ [']']))] = .ok (name, v)) :
    ∃ l, v = .list l := by
  have hs := h.shape
  rcases (parseOneProp_found h hp).2 with ⟨e, -⟩ | ⟨e, -⟩ | ⟨e, -⟩ | ⟨e, -⟩ | ⟨-, hv⟩ | ⟨e, -⟩
  · simp [gNone, gList] at e
  · simp [gBool, gList] at e
  · simp [gFloat, gList] at e
  · simp [gInt, gList] at e
  · generalize hx : '[' :: (b ++ [']']) = x at hs hv
    generalize hg : gList = g' at hs
    cases hs <;> simp [gNone, gBool, gFloat, gInt, gList, gString] at hg
    next hb _ => exact handleList_list hb hv
  · simp [gString, gList] at e

end

/-! ### Concrete cases -/

section
attribute [local instance] demoRuntime

/-- The properties of the example: `{ age: 007, height : 1.80, name: "J. D'Arc", alive: false ,tags: [1, 'x@y.z', true, null]}`. -/
def demoProps : List (PropText × V) :=
  [(⟨c!" ", c!"age", [], c!" ", .atom (.int 2 7), []⟩, .int 7),
   (⟨c!" ", c!"height", c!" ", c!" ", .atom (.float c!"1" c!"80"), []⟩, .flt (.fin ⟨c!"1.80", by decide⟩)),
   (⟨c!" ", c!"name", [], c!" ", .atom (.str true c!"J. D'Arc"), []⟩, .str c!"J. D'Arc"),
   (⟨c!" ", c!"alive", [], c!" ", .atom (.bool false), c!" "⟩, .bool false),
   (⟨[], c!"tags", [], c!" ", .list [([], .int 0 1), (c!" ", .str false c!"x@y.z"), (c!" ", .bool true), (c!" ", .null)] [], []⟩,
     .list [.int 1, .str c!"x@y.z", .bool true, .none])]

theorem demoProps_ok : ∀ x ∈ demoProps, x.1.OK ∧ x.1.lit.Means x.2 := by
  intro x hx
  simp only [demoProps, List.mem_cons, List.not_mem_nil, or_false] at hx
  rcases hx with rfl | rfl | rfl | rfl | rfl
  · exact ⟨⟨by decide, by decide, by decide, by decide, by decide, trivial, by decide, by decide⟩, rfl⟩
  · exact ⟨⟨by decide, by decide, by decide, by decide, by decide, ⟨by decide, by decide, by decide, by decide⟩, by decide, by decide⟩,
      _, rfl, rfl⟩
  · exact ⟨⟨by decide, by decide, by decide, by decide, by decide, ⟨by decide, by decide, by decide, by decide, by decide⟩,
      by decide, by decide⟩, rfl⟩
  · exact ⟨⟨by decide, by decide, by decide, by decide, by decide, trivial, by decide, by decide⟩, rfl⟩
  · refine ⟨⟨by decide, by decide, by decide, by decide, by decide, ⟨?_, by decide, by decide⟩, by decide, by decide⟩,
      _, rfl, _, _, rfl, rfl, _, _, rfl, rfl, _, _, rfl, rfl, _, _, rfl, rfl, rfl⟩
    simp only [List.mem_cons, List.not_mem_nil, or_false]
    rintro y (rfl | rfl | rfl | rfl)
    · exact ⟨by decide, rfl⟩
    · exact ⟨by decide, by decide, by decide, by decide⟩
    · exact ⟨by decide, trivial⟩
    · exact ⟨by decide, trivial⟩

example : String.ofList (renderProps (demoProps.map Prod.fst)) =
    "{ age: 007, height : 1.80, name: \"J. D'Arc\", alive: false ,tags: [1, 'x@y.z', true, null]}" := by decide +kernel

/-- C34: the example is parsed to its five names and values. -/
example : getPropertyDict (some (renderProps (demoProps.map Prod.fst) ++ c!" ")) =
    .ok (some [(c!"age", .int 7), (c!"height", .flt (.fin ⟨c!"1.80", by decide⟩)), (c!"name", .str c!"J. D'Arc"),
      (c!"alive", .bool false), (c!"tags", .list [.int 1, .str c!"x@y.z", .bool true, .none])]) :=
  C34_literals_parse_partial demoProps_ok (by decide) (by decide)

/-- C45: repeated names. -/
example : (getPropertyDict (some c!"{a: 1, b: 2, a: 'x'}")).toOption = some (some [(c!"a", .str c!"x"), (c!"b", .int 2)]) := by
  decide +kernel

example : lastValue c!"a" [(c!"a", .int 1), (c!"b", .int 2), (c!"a", .str c!"x")] = some (.str c!"x" : V) := by decide +kernel

/-- C43: a clean text with double quotes at its ends, in single quotes. -/
example : CleanStr false c!"\"so it's\"" := ⟨by decide, by decide, by decide, by decide, by decide⟩

/-- C34 is violated: a negative number is dropped without a message if it stands directly after the colon, and
refused after white space. -/
theorem C34_violated_negative : getPropertyDict (some c!"{x:-5}") = .ok (some ([] : Dict V)) ∧
    getPropertyDict (some c!"{x: -5}") = (.error .illegalPropertyValue : Except PyErr (Option (Dict V))) := by
  constructor <;> rfl

/-- C34 is violated: a quoted word is refused. -/
theorem C34_violated_word : getPropertyDict (some c!"{x: 'true'}") = (.error .illegalPropertyValue : Except PyErr (Option (Dict V))) := by
  rfl

/-- C34 is violated: what follows the start of a literal is dropped: `nullable` is read as `null`, `3abc` as `3`. -/
theorem C34_violated_prefix : getPropertyDict (some c!"{x: nullable, y: 3abc}") = .ok (some ([(c!"x", .none), (c!"y", .int 3)] : Dict V)) := by
  rfl

/-- C43 is violated: quotes and white space at the ends are lost, and an unexpected character ends the text. -/
theorem C43_violated :
    getPropertyDict (some c!"{x: \" a \", y: \"'tis\", z: \"a-b\"}") =
      .ok (some ([(c!"x", .str c!"a"), (c!"y", .str c!"tis"), (c!"z", .str c!"a")] : Dict V)) := by
  rfl

/-- C44 is violated: words inside the elements are changed. -/
theorem C44_violated : getPropertyDict (some c!"{x: ['is true', 'nullable']}") =
    .ok (some ([(c!"x", .list [.str c!"is True", .str c!"Noneable"])] : Dict V)) := by
  rfl

/-- C44 is violated: the empty list is dropped directly after the colon, and refused after white space. -/
theorem C44_violated_empty : getPropertyDict (some c!"{x:[], y: 1}") = .ok (some ([(c!"y", .int 1)] : Dict V)) ∧
    getPropertyDict (some c!"{x: [], y: 1}") = (.error .illegalPropertyValue : Except PyErr (Option (Dict V))) := by
  constructor <;> rfl

/-- C44: a list with texts, numbers and keywords. -/
example : getPropertyDict (some c!"{x: [ 'true north' , 1.5]}") =
    .ok (some ([(c!"x", .list [.str c!"True north", .flt (.fin ⟨c!"1.5", by decide⟩)])] : Dict V)) := by rfl

end
end WG
