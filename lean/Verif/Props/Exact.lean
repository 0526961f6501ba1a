/-
What the code does in every case, for claims that it violates: C40, C41, C52, C57 and C61.
-/
import Verif.Spec.Report
import Verif.Props.Gdbms
import Verif.Props.Query
import Verif.Proofs.AcceptQuery

set_option linter.unusedSectionVars false
set_option linter.unusedSimpArgs false

namespace WG
open Re

/-! ### C61 -/

theorem sorted_index {l : List Str} (hs : l.Pairwise (· ≤ ·)) (hn : l.Nodup) {i : Nat} {x : Str} (h : l[i]? = some x) :
    (l.filter fun y => decide (y < x)).length = i := by
  induction l generalizing i with
  | nil => simp at h
  | cons y l ih =>
    rw [List.pairwise_cons] at hs
    rw [List.nodup_cons] at hn
    cases i with
    | zero =>
      simp only [List.getElem?_cons_zero, Option.some.injEq] at h
      subst h
      have : ∀ z ∈ y :: l, ¬ (decide (z < y) = true) := by
        intro z hz
        rcases List.mem_cons.1 hz with rfl | hz
        · simp [List.lt_irrefl]
        · have := hs.1 z hz
          simpa using this
      rw [List.filter_eq_nil_iff.2 this]
      rfl
    | succ i =>
      simp only [List.getElem?_cons_succ] at h
      have hx : x ∈ l := List.mem_of_getElem? h
      have hlt : y < x := by
        rcases List.le_iff_lt_or_eq.1 (hs.1 x hx) with h | h
        · exact h
        · exact absurd (h ▸ hx) hn.1
      rw [List.filter_cons, if_pos (by simpa using hlt), List.length_cons, ih hs.2 hn.2 h]

/-- C61, every folder: the menu gives the letter number `i` to the GDBMS that has exactly `i` GDBMSs with smaller
names in its folder, if `i` is less than 26; the others are not offered. -/
theorem C61_letter (fs : FS) (folder : Str) (h : folder ∈ fs.folders) (hn : fs.dirs.Nodup)
    (hex : ∃ name, (folder, name) ∈ fs.dirs ∧ name ∉ notGdbms) :
    ∃ menu, (getAndDisplayAvailableDbms folder).run fs = (.ok (some menu), fs) ∧
      ∀ letter name, dictGet letter menu = some name ↔
        (folder, name) ∈ fs.dirs ∧ name ∉ notGdbms ∧ ∃ i, i < 26 ∧ letter = [Char.ofNat (65 + i)] ∧
          (fs.dirs.filter fun x => x.1 = folder ∧ x.2 ∉ notGdbms ∧ x.2 < name).length = i := by
  have hne : menuNames fs folder ≠ [] := by
    obtain ⟨name, h1, h2⟩ := hex
    have : name ∈ menuNames fs folder := mem_menuNames.2 ⟨h1, by simpa [notGdbms] using h2⟩
    intro e; rw [e] at this; simp at this
  have hs : (menuNames fs folder).Pairwise (· ≤ ·) := sortStrs_sorted _
  have hnd := menuNames_nodup (folder := folder) hn
  have hcount : ∀ name, ((menuNames fs folder).filter fun y => decide (y < name)).length =
      (fs.dirs.filter fun x => x.1 = folder ∧ x.2 ∉ notGdbms ∧ x.2 < name).length := by
    intro name
    rw [menuNames, ((sortStrs_perm _).filter _).length_eq, List.filter_filter, List.filter_map, List.length_map,
      List.filter_filter]
    congr 1
    refine List.filter_congr fun x _ => ?_
    by_cases e : x.1 = folder <;> by_cases e2 : x.2 < name <;> simp [e, e2, menuSkips, notGdbms]
  refine ⟨_, by rw [menu_run h, if_neg hne], fun letter name => ⟨fun hg => ?_, ?_⟩⟩
  · obtain ⟨i, h1, h2, h3⟩ := menu_get_index hg
    have hm := mem_menuNames.1 (List.mem_of_getElem? h1)
    exact ⟨hm.1, by simpa [notGdbms] using hm.2, i, h2, h3, by rw [← hcount, sorted_index hs hnd h1]⟩
  · rintro ⟨h1, h2, i, h3, rfl, h4⟩
    have hm : name ∈ menuNames fs folder := mem_menuNames.2 ⟨h1, by simpa [notGdbms] using h2⟩
    obtain ⟨j, hj, e⟩ := List.mem_iff_getElem.1 hm
    have hj' : (menuNames fs folder)[j]? = some name := by rw [List.getElem?_eq_getElem hj, e]
    have : j = i := by rw [← h4, ← hcount, sorted_index hs hnd hj']
    subst this
    refine dictGet_of_mem (menuOf_nodup _) ?_
    simp only [menuOf, List.mem_map]
    refine ⟨(Char.ofNat (65 + j), name), ?_, rfl⟩
    refine List.mem_iff_getElem.2 ⟨j, by rw [List.length_zip, upper_length]; omega, ?_⟩
    rw [List.getElem_zip]
    have h1 := upper_get j (by omega)
    rw [List.getElem?_eq_getElem (by rw [upper_length]; omega)] at h1
    simp at h1
    rw [h1, e]

/-- C61: a GDBMS is offered iff fewer than 26 GDBMSs in its folder have smaller names. -/
theorem C61_offered_iff (fs : FS) (folder : Str) (h : folder ∈ fs.folders) (hn : fs.dirs.Nodup) (name : Str)
    (hd : (folder, name) ∈ fs.dirs) (hg : name ∉ notGdbms) :
    ∃ menu, (getAndDisplayAvailableDbms folder).run fs = (.ok (some menu), fs) ∧
      ((∃ letter, dictGet letter menu = some name) ↔
        (fs.dirs.filter fun x => x.1 = folder ∧ x.2 ∉ notGdbms ∧ x.2 < name).length < 26) := by
  obtain ⟨menu, h1, h2⟩ := C61_letter fs folder h hn ⟨name, hd, hg⟩
  refine ⟨menu, h1, ?_⟩
  constructor
  · rintro ⟨l, hl⟩
    obtain ⟨-, -, i, hi, -, e⟩ := (h2 l name).1 hl
    omega
  · intro hl
    exact ⟨_, (h2 _ name).2 ⟨hd, hg, _, hl, rfl, rfl⟩⟩

/-! ### C57 -/

/-- C57, every disk: what the creation of a GDBMS returns and leaves, decided by what the folder holds under that
name: the failures with an existing index or counter file leave the new database file (and in the last case the new
index file) behind. -/
theorem C57_creation_outcome (fs : FS) (folder name : Str) :
    ∃ fs', (getNewGdbmsFilePaths name folder).run fs =
        (if (folder, name) ∉ fs.dirs ∧ (folder, name) ∈ fs.plain then .error .osError
         else if fs.get (dbPath folder name) = none ∧ fs.get (idxPath folder name) = none ∧ fs.get (wnPath folder name) = none
           then .ok (gdbmsPath folder name)
         else .error .value, fs') ∧
      (∀ x, x ∈ fs'.dirs ↔ x ∈ fs.dirs ∨ x = (folder, name) ∧ (folder, name) ∉ fs.plain) ∧
      ∀ p, fs'.get p =
        if (folder, name) ∉ fs.dirs ∧ (folder, name) ∈ fs.plain then fs.get p
        else if fs.get (dbPath folder name) ≠ none then fs.get p
        else if p = dbPath folder name then some c!"{}"
        else if fs.get (idxPath folder name) ≠ none then fs.get p
        else if p = idxPath folder name then some c!"{\"node_relationships\": {}, \"node_labels\": [], \"relationship_names\": []}"
        else if fs.get (wnPath folder name) ≠ none then fs.get p
        else if p = wnPath folder name then some c!"0"
        else fs.get p := by
  obtain ⟨n1, n2, n3⟩ := gdbms_ne folder name
  have hdirs : ∀ x, CanMkdir fs folder name →
      (x ∈ (withDir fs folder name).dirs ↔ x ∈ fs.dirs ∨ x = (folder, name) ∧ (folder, name) ∉ fs.plain) := by
    intro x hc
    constructor
    · intro hx
      rcases withDir_dirs hx with hx | hx
      · exact .inl hx
      · rcases hc with hc | hc
        · exact .inl (hx ▸ hc)
        · exact .inr ⟨hx, hc⟩
    · rintro (hx | ⟨rfl, hx⟩)
      · exact withDir_dirs_mono hx
      · exact withDir_mem hc
  by_cases hb : (folder, name) ∉ fs.dirs ∧ (folder, name) ∈ fs.plain
  · refine ⟨fs, ?_, fun x => ?_, fun p => ?_⟩
    · rw [create_blocked (by simpa [CanMkdir] using hb), if_pos hb]
    · constructor
      · exact .inl
      · rintro (h | ⟨-, h⟩)
        · exact h
        · exact absurd hb.2 h
    · rw [if_pos hb]
  · have hc : CanMkdir fs folder name := by
      unfold CanMkdir
      by_cases h1 : (folder, name) ∈ fs.dirs
      · exact .inl h1
      · exact .inr fun h2 => hb ⟨h1, h2⟩
    simp only [if_neg hb]
    by_cases h1 : fs.get (dbPath folder name) = none
    · by_cases h2 : fs.get (idxPath folder name) = none
      · by_cases h3 : fs.get (wnPath folder name) = none
        · rw [create_new hc h1 h2 h3]
          refine ⟨_, Prod.ext (by simp [h1, h2, h3]) rfl, fun x => hdirs x hc, fun p => ?_⟩
          by_cases e3 : p = wnPath folder name
          · subst e3; simp [FS.get_set_self, Ne.symm n2, Ne.symm n3, h1, h2, h3]
          · rw [FS.get_set_ne (Ne.symm e3)]
            by_cases e2 : p = idxPath folder name
            · subst e2; simp [FS.get_set_self, Ne.symm n1, h1, h2, newIndexText]
            · rw [FS.get_set_ne (Ne.symm e2)]
              by_cases e1 : p = dbPath folder name
              · subst e1; simp [FS.get_set_self, h1]
              · rw [FS.get_set_ne (Ne.symm e1), withDir_get]; simp [e1, e2, e3, h1, h2, h3]
        · rw [create_wn_taken hc h1 h2 h3]
          refine ⟨_, Prod.ext (by simp [h1, h2, h3]) rfl, fun x => hdirs x hc, fun p => ?_⟩
          by_cases e2 : p = idxPath folder name
          · subst e2; simp [FS.get_set_self, Ne.symm n1, h1, h2, newIndexText]
          · rw [FS.get_set_ne (Ne.symm e2)]
            by_cases e1 : p = dbPath folder name
            · subst e1; simp [FS.get_set_self, h1]
            · rw [FS.get_set_ne (Ne.symm e1), withDir_get]; simp [e1, e2, h1, h2, h3]
      · rw [create_idx_taken hc h1 h2]
        refine ⟨_, Prod.ext (by simp [h1, h2]) rfl, fun x => hdirs x hc, fun p => ?_⟩
        by_cases e1 : p = dbPath folder name
        · subst e1; simp [FS.get_set_self, h1]
        · rw [FS.get_set_ne (Ne.symm e1), withDir_get]; simp [e1, h1, h2]
    · rw [create_db_taken hc h1]
      exact ⟨_, Prod.ext (by simp [h1]) rfl, fun x => hdirs x hc, fun p => by simp [h1]⟩

/-! ### C52 -/

section
variable [PyRuntime]

/-- C52, nodes without properties of their own: criteria that demand a property make FIND raise AttributeError; criteria that only
exclude properties are taken over. -/
theorem C52_without_properties (pf : ParsedFind) (c : Criteria) (label h : Str) (yn : CriteriaYesNo)
    (hc : pf.clause = .find) (h1 : OneNode pf.pattern) (hl : pf.pattern.left.label = some label)
    (hp : getPropertyDict pf.pattern.left.props = .ok none) (hh : pf.pattern.left.handle = some h)
    (hy : dictGet h c = some yn) (hn : (keys yn.no).Nodup) :
    (yn.yes ≠ [] → processParsedFind pf (some c) = .error .attribute) ∧
    (yn.yes = [] → ∃ f, processParsedFind pf (some c) = .ok f ∧ f.left.yes = none ∧ f.left.label = label ∧
      ∀ k, dictGet k f.left.no = dictGet k yn.no) := by
  rw [process_oneNode hc h1]
  simp only [findNode, hp, hl, mkFindNode, addCriteriaNode, addYesNo, criteriaGet, hh, hy]
  constructor
  · intro e
    have : yn.yes.isEmpty = false := by simpa using e
    simp [this]
  · intro e
    simp only [e, List.isEmpty_nil, if_true]
    refine ⟨_, rfl, rfl, rfl, fun k => ?_⟩
    rw [dictGet_update hn]
    cases dictGet k yn.no <;> rfl

theorem mem_keys_update {d e : Dict V} {k : Str} (h : k ∈ keys d ∨ k ∈ keys e) : k ∈ keys (dictUpdate d e) := by
  induction e generalizing d with
  | nil => simpa [dictUpdate, keys] using h
  | cons x e ih =>
    show k ∈ keys (dictUpdate (dictSet x.1 x.2 d) e)
    apply ih
    rcases h with h | h
    · exact .inl (by rw [keys_dictSet]; split <;> simp [h])
    · simp only [keys, List.map_cons, List.mem_cons] at h
      rcases h with h | h
      · exact .inl (by rw [keys_dictSet, h]; split <;> simp_all)
      · exact .inr h

theorem addYesNo_keeps {c : Criteria} {handle : Option Str} {d : Dict V} {no no' : Dict V} {yes' : Option (Dict V)}
    (h : addYesNo c handle (some d) no = .ok (yes', no')) : ∃ e, yes' = some e ∧ ∀ k ∈ keys d, k ∈ keys e := by
  unfold addYesNo at h
  split at h
  · simp at h; exact ⟨d, h.1.symm, fun _ hk => hk⟩
  · split at h
    · simp at h; exact ⟨d, h.1.symm, fun _ hk => hk⟩
    · simp at h; exact ⟨_, h.1.symm, fun _ hk => mem_keys_update (.inl hk)⟩

/-- C52 fails for every pattern with more than one node: with CRITERIA, FIND either raises, or the criteria name the handle
of the middle node and the right node is asked for properties called `props_dict_yes_match` and `props_dict_no_match`,
which nobody wrote.  In particular it raises whenever the left node has no properties or the criteria do not mention the
middle node. -/
theorem C52_several_nodes (pf : ParsedFind) (c : Criteria) (hm : truthy pf.pattern.middle.text = true) (f : FindPre)
    (h : processParsedFind pf (some c) = .ok f) :
    (∃ d, getPropertyDict pf.pattern.left.props = .ok (some d)) ∧
    (∃ m, pf.pattern.middle.handle = some m ∧ m ∈ keys c) ∧
    ∃ r yes, f.right = some r ∧ r.yes = some yes ∧ c!"props_dict_yes_match" ∈ keys yes ∧ c!"props_dict_no_match" ∈ keys yes := by
  unfold processParsedFind at h
  split at h
  · simp at h
  split at h
  · simp at h
  next l hl =>
  split at h
  · simp at h
  next f1 hf1 =>
  split at h
  · simp at h
  next f2 hf2 =>
  split at h
  · simp at h
  next f3 hf3 =>
  unfold findRight at hf2
  rw [if_pos hm] at hf2
  split at hf2
  · simp at hf2
  next props hprops =>
  split at hf2
  · simp at hf2
  next props' hu =>
  unfold updateWithModel at hu
  simp only at hu
  split at hu
  · simp at hu
  next d =>
  split at hu
  · simp at hu
  next yn hyn =>
  simp only [Except.ok.injEq] at hu
  subst hu
  split at hf2
  · simp at hf2
  next n hn =>
  split at hf2
  · simp at hf2
  next r hr =>
  simp only [Except.ok.injEq] at hf2
  have hnyes : ∃ l, n = { label := l, handle := pf.pattern.middle.handle, yes := some (dictUpdate d
      [(c!"props_dict_yes_match", .dict yn.yes), (c!"props_dict_no_match", .dict yn.no)]), no := [], rels := [] } := by
    unfold mkFindNode at hn
    split at hn
    · simp at hn
    · simp at hn; exact ⟨_, hn.symm⟩
  obtain ⟨lab, rfl⟩ := hnyes
  have hryes : ∃ e, r.yes = some e ∧ c!"props_dict_yes_match" ∈ keys e ∧ c!"props_dict_no_match" ∈ keys e := by
    unfold addCriteriaNode at hr
    simp only at hr
    split at hr
    · simp at hr
    next yes' no' ha =>
    simp only [Except.ok.injEq] at hr
    obtain ⟨e, rfl, he⟩ := addYesNo_keeps ha
    refine ⟨e, by rw [← hr], he _ (mem_keys_update (.inr (by simp [keys]))), he _ (mem_keys_update (.inr (by simp [keys])))⟩
  have hr2 : f2.right = some r := by rw [← hf2]
  have hr3 : ∃ r', f3.right = some r' ∧ r'.yes = r.yes := by
    unfold findLM at hf3
    split at hf3
    · split at hf3
      · simp at hf3
      split at hf3
      · simp at hf3
      · simp at hf3; exact ⟨r, by rw [← hf3]; exact hr2, rfl⟩
      · split at hf3
        · simp at hf3
        · simp at hf3; exact ⟨r, by rw [← hf3]; exact hr2, rfl⟩
    · simp at hf3; exact ⟨r, by rw [← hf3]; exact hr2, rfl⟩
  obtain ⟨r3, hr3, hy3⟩ := hr3
  have hr4 : ∃ r', f.right = some r' ∧ r'.yes = r.yes := by
    unfold findMR at h
    split at h
    · split at h
      · simp at h
      split at h
      · simp at h
      · split at h
        · simp at h
        · simp at h; exact ⟨r3, by rw [← h]; exact hr3, hy3⟩
      · rw [hr3] at h
        simp at h
        exact ⟨r3.addRel _, by rw [← h], hy3⟩
    · simp at h; exact ⟨r3, by rw [← h]; exact hr3, hy3⟩
  obtain ⟨r4, hr4, hy4⟩ := hr4
  obtain ⟨e, he, k1, k2⟩ := hryes
  refine ⟨⟨d, hprops⟩, ?_, r4, e, hr4, by rw [hy4, he], k1, k2⟩
  cases hmh : pf.pattern.middle.handle with
  | none => rw [hmh] at hyn; simp [criteriaGet] at hyn
  | some m =>
    rw [hmh] at hyn
    simp only [criteriaGet] at hyn
    refine ⟨m, rfl, Classical.byContradiction fun hk => ?_⟩
    rw [dictGet_none_iff.2 hk] at hyn
    simp at hyn

end

/-! ### C41 -/

section
variable [PyRuntime]

theorem optC_short {s : Str} {m : MRes} (h : m ∈ (optC isSpace).run s) : m.1.length ≤ 1 ∧ m.1.all isSpace = true := by
  rcases mem_optC_inv h with ⟨c, cs, _, hc, rfl⟩ | rfl
  · simp [hc]
  · simp

theorem oneSpace_of {sp : Str} (h1 : sp.length ≤ 1) (h2 : sp.all isSpace = true) : OneSpace sp := by
  cases sp with
  | nil => exact .inl rfl
  | cons c cs =>
    cases cs with
    | nil => exact .inr ⟨c, by simpa using h2, rfl⟩
    | cons d ds => simp at h1

theorem spelling_iff (kw q : Str) : (spelling kw).finditer q ≠ [] ↔ LooksMisspelt kw q := by
  constructor
  · intro h
    refine Classical.byContradiction fun hno => h ?_
    rw [finditer_nil_iff]
    rintro pre post rfl
    refine fails_of fun m hm => hno ?_
    obtain ⟨m1, h1, m2, h2, rfl⟩ := mem_seq_inv hm
    obtain ⟨m3, h3, m4, h4, rfl⟩ := mem_seq_inv h2
    obtain ⟨m5, h5, m6, h6, rfl⟩ := mem_seq_inv h4
    obtain ⟨m3, h3', rfl⟩ := mem_grp_inv h3
    obtain ⟨r, hr, h3''⟩ := alts_inv h3'
    obtain ⟨kw', hkw', rfl⟩ := List.mem_map.1 hr
    have e1 := run_append h1
    have e3 := run_append h3'
    have e5 := run_append h5
    obtain ⟨cs, e6, rfl⟩ := mem_ch_inv h6
    obtain ⟨l5, a5⟩ := optC_short h5
    simp only at e1 e3 e5 e6
    exact ⟨pre ++ m1.1, m3.1, m5.1, cs, kw', by rw [← e1, ← e3, ← e5, e6]; simp, perms_perm rfl hkw', wordCI_mem h3'', l5, a5⟩
  · rintro ⟨a, w, sp, b, kw', rfl, hp, hw, l, al⟩
    have h1 : (w, sp ++ '(' :: b, []) ∈ (alts ((perms kw.length kw).map wordCI)).run (w ++ (sp ++ '(' :: b)) :=
      mem_alts (List.mem_map.2 ⟨_, perms_mem rfl hp, rfl⟩) (hd_wordCI hw _).mem
    exact finditer_ne_nil (not_fails (mem_seq (mem_optC_none _) (mem_seq (mem_grp h1)
      (mem_seq (mem_oneSpace (oneSpace_of l al) _) (hd_ch '(' b).mem))))

theorem reportSpelling_iff (q : Str) : reportSpelling.finditer q ≠ [] ↔ LooksMisspeltReport q := by
  constructor
  · intro h
    refine Classical.byContradiction fun hno => h ?_
    rw [finditer_nil_iff]
    rintro pre post rfl
    refine fails_of fun m hm => hno ?_
    obtain ⟨m0, h0, rfl⟩ := mem_grp_inv hm
    obtain ⟨m1, h1, m2, h2, rfl⟩ := mem_seq_inv h0
    obtain ⟨m3, h3, rfl⟩ := mem_grp_inv h1
    obtain ⟨r, hr, h3'⟩ := alts_inv h3
    obtain ⟨kw', hkw', rfl⟩ := List.mem_map.1 hr
    have e3 := run_append h3
    obtain ⟨m7, h7, m8, h8, rfl⟩ := mem_seq_inv h2
    obtain ⟨e7, hd, hne, _⟩ := mem_plus_inv h7
    obtain ⟨cs, e9, rfl⟩ := mem_ch_inv h8
    simp only at *
    exact ⟨pre, m3.1, m7.1, cs, kw', by rw [← e3, ← e7, e9], perms_perm rfl hkw', wordCI_mem h3', hne, noNL_of_all hd⟩
  · rintro ⟨a, w, body, b, kw', rfl, hp, hw, hb, hn⟩
    have h1 : (w, body ++ ';' :: b, []) ∈ (alts ((perms 6 c!"report").map wordCI)).run (w ++ (body ++ ';' :: b)) :=
      mem_alts (List.mem_map.2 ⟨_, perms_mem rfl hp, rfl⟩) (hd_wordCI hw _).mem
    have h2 : body.all isDot = true := by
      rw [List.all_eq_true]
      intro c hc
      simp only [isDot, bne_iff_ne, ne_eq]
      rintro rfl
      exact hn hc
    exact finditer_ne_nil (not_fails (mem_grp (mem_seq (mem_grp h1) (mem_seq (mem_plus h2 hb _) (hd_ch ';' b).mem))))

/-- C41, every query without a MAKE statement: ClauseSyntaxError exactly if the letters of the keyword stand before a parenthesis;
otherwise the query counts as one without MAKE. -/
theorem C41_make_exact (q : Str) (hno : NoStatement c!"make" q) :
    (LooksMisspelt c!"make" q → parseMake q = .error .clauseSyntax) ∧ (¬ LooksMisspelt c!"make" q → parseMake q = .ok none) := by
  have h1 : parseMake q = if (makeSpelling.finditer q).isEmpty then .ok none else .error .clauseSyntax := by
    have : extractAllStatements q .make = if (makeSpelling.finditer q).isEmpty then .ok none else .error .clauseSyntax := by
      rw [extract_def]
      simp only [clauseRe, show makeAll.finditer q = [] from noStatement_nil hno, List.map_nil, checkClauseSpelling]
      cases (makeSpelling.finditer q).isEmpty <;> rfl
    unfold parseMake
    rw [this]
    cases (makeSpelling.finditer q).isEmpty <;> rfl
  rw [h1, ← spelling_iff]
  show ((makeSpelling.finditer q ≠ [] → _) ∧ (¬ makeSpelling.finditer q ≠ [] → _))
  cases makeSpelling.finditer q <;> simp

/-- C41, every query without a FIND statement. -/
theorem C41_find_exact (q : Str) (hno : NoStatement c!"find" q) :
    (LooksMisspelt c!"find" q → parseFind q = .error .clauseSyntax) ∧ (¬ LooksMisspelt c!"find" q → parseFind q = .ok none) := by
  have h1 : parseFind q = if (findSpelling.finditer q).isEmpty then .ok none else .error .clauseSyntax := by
    have : extractAllStatements q .find = if (findSpelling.finditer q).isEmpty then .ok none else .error .clauseSyntax := by
      rw [extract_def]
      simp only [clauseRe, show findAll.finditer q = [] from noStatement_nil hno, List.map_nil, checkClauseSpelling]
      cases (findSpelling.finditer q).isEmpty <;> rfl
    unfold parseFind
    rw [this]
    cases (findSpelling.finditer q).isEmpty <;> rfl
  rw [h1, ← spelling_iff]
  show ((findSpelling.finditer q ≠ [] → _) ∧ (¬ findSpelling.finditer q ≠ [] → _))
  cases findSpelling.finditer q <;> simp

/-- C41, every query without a REPORT statement. -/
theorem C41_report_exact (q : Str) (hno : NoReport q) (hs : List Str) :
    (LooksMisspeltReport q → parseReport q hs = .error .clauseSyntax) ∧
    (¬ LooksMisspeltReport q → parseReport q hs = .ok none) := by
  have h1 : parseReport q hs = if (reportSpelling.finditer q).isEmpty then .ok none else .error .clauseSyntax := by
    have : extractAllStatements q .report = if (reportSpelling.finditer q).isEmpty then .ok none else .error .clauseSyntax := by
      rw [extract_def]
      simp only [clauseRe, noReport_nil hno, List.map_nil, checkClauseSpelling]
      cases (reportSpelling.finditer q).isEmpty <;> rfl
    unfold parseReport
    rw [this]
    cases (reportSpelling.finditer q).isEmpty <;> rfl
  rw [h1, ← reportSpelling_iff]
  cases reportSpelling.finditer q <;> simp

/-! ### C40 -/

/-- C40, every query with one REPORT statement and every list of handles: it is accepted iff every handle stands somewhere in
the text of the statement and the keyword is written all in upper or all in lower case. -/
theorem C40_report_accepted_iff (q s : Str) (hs : List Str) (h : extractAllStatements q .report = .ok (some [s])) :
    ((∃ r, parseReport q hs = .ok (some r)) ↔ (∀ x ∈ hs, x <:+: s) ∧ (c!"REPORT" <+: s ∨ c!"report" <+: s)) ∧
    (parseReport q hs = .error .findReportHandle ↔ ∃ x ∈ hs, ¬ x <:+: s) := by
  have hrun : parseReport q hs = if (hs.all fun x => isSubstr x s) then
      (if (reportAllCS.matchAt s).isSome then .ok (some { rawStatement := s, clause := .report, extracted := s }) else .error .validation)
      else .error .findReportHandle := by
    unfold parseReport
    rw [h]
    simp only [ne_eq, not_true_eq_false, if_false, checkFindReportHandles]
    cases hs.all fun x => isSubstr x s <;> rfl
  have hall : (hs.all fun x => isSubstr x s) = true ↔ ∀ x ∈ hs, x <:+: s := by
    rw [List.all_eq_true]
    exact ⟨fun h x hx => (isSubstr_iff _ _).1 (h x hx), fun h x hx => (isSubstr_iff _ _).2 (h x hx)⟩
  have hcs : (reportAllCS.matchAt s).isSome = true ↔ (c!"REPORT" <+: s ∨ c!"report" <+: s) := by
    constructor
    · intro hm
      rw [matchAt_isSome] at hm
      refine Classical.byContradiction fun hno => hm (fails_of fun m hm => hno ?_)
      obtain ⟨m0, h0, rfl⟩ := mem_grp_inv hm
      obtain ⟨m1, h1, m2, h2, rfl⟩ := mem_seq_inv h0
      obtain ⟨m3, h3, rfl⟩ := mem_grp_inv h1
      have e := run_append h3
      simp only [run, List.mem_append] at h3
      rcases h3 with h3 | h3
      · exact .inl ⟨m3.2.1, by rw [← e, word_mem h3]⟩
      · exact .inr ⟨m3.2.1, by rw [← e, word_mem h3]⟩
    · intro hp
      rw [extract_def] at h
      simp only [clauseRe] at h
      split at h
      · next s' ss' hf =>
        simp only [Except.ok.injEq, Option.some.injEq, List.cons.injEq] at h
        obtain ⟨rfl, rfl⟩ := h
        have : ∃ x ∈ reportAll.finditer q, x.1 = s' := by
          have : s' ∈ (reportAll.finditer q).map Prod.fst := by rw [hf]; simp
          simpa using this
        obtain ⟨x, hx, rfl⟩ := this
        obtain ⟨pre, post, _, h2⟩ := finditer_sound hx
        obtain ⟨w, body, _, e, h1, h3, h4⟩ := reportAll_inv h2
        have hl : w.length = 6 := by have := ciSpelling_length h1; simpa using this
        rw [e] at hp ⊢
        have hw : w = c!"REPORT" ∨ w = c!"report" := by
          rcases hp with hp | hp
          · exact .inl ((List.prefix_of_prefix_length_le hp ⟨_, rfl⟩ (by simp [hl])).eq_of_length (by simp [hl])).symm
          · exact .inr ((List.prefix_of_prefix_length_le hp ⟨_, rfl⟩ (by simp [hl])).eq_of_length (by simp [hl])).symm
        exact report_cs hw h3 h4
      · split at h <;> simp at h
  rw [hrun, ← hall, ← hcs]
  constructor
  · cases hs.all fun x => isSubstr x s <;> cases (reportAllCS.matchAt s).isSome <;> simp
  · rw [show (∃ x ∈ hs, ¬ x <:+: s) ↔ ¬ ((hs.all fun x => isSubstr x s) = true) by
      rw [hall]; simp only [Classical.not_forall]; simp]
    cases hs.all fun x => isSubstr x s <;> cases (reportAllCS.matchAt s).isSome <;> simp
end

/-! ### Instances -/

section
attribute [local instance] demoRuntime

/-- C61: the folder with `a[b]` and `ab`: `ab` has one smaller name and gets `B`. -/
example : ∃ menu, (getAndDisplayAvailableDbms DBMS_FOLDER).run demoMagic = (.ok (some menu), demoMagic) ∧
    dictGet c!"B" menu = some c!"ab" ∧ dictGet c!"A" menu ≠ some c!"ab" := by
  obtain ⟨menu, h1, h2⟩ := C61_letter demoMagic DBMS_FOLDER (by decide) (by decide) ⟨c!"ab", by decide, by decide⟩
  refine ⟨menu, h1, (h2 _ _).2 ⟨by decide, by decide, 1, by decide, by decide, by decide +kernel⟩, fun h => ?_⟩
  obtain ⟨-, -, i, -, e, e'⟩ := (h2 _ _).1 h
  have : i = 1 := by rw [← e']; decide +kernel
  subst this
  exact absurd e (by decide)

/-- C61: of 27 GDBMSs the last one is not offered, the one before is. -/
example : ∃ menu, (getAndDisplayAvailableDbms DBMS_FOLDER).run demoMany = (.ok (some menu), demoMany) ∧
    ¬ ∃ letter, dictGet letter menu = some c!"g{" := by
  obtain ⟨menu, h1, h2⟩ := C61_offered_iff demoMany DBMS_FOLDER (by decide) (by decide +kernel) c!"g{" (by decide +kernel) (by decide)
  exact ⟨menu, h1, fun h => absurd (h2.1 h) (by decide +kernel)⟩
example : ∃ menu, (getAndDisplayAvailableDbms DBMS_FOLDER).run demoMany = (.ok (some menu), demoMany) ∧
    ∃ letter, dictGet letter menu = some c!"gz" := by
  obtain ⟨menu, h1, h2⟩ := C61_offered_iff demoMany DBMS_FOLDER (by decide) (by decide +kernel) c!"gz" (by decide +kernel) (by decide)
  exact ⟨menu, h1, h2.2 (by decide +kernel)⟩

/-- C57: an index file is there already: an error, and a new database file. -/
example : ∃ fs', (getNewGdbmsFilePaths c!"ab" DBMS_FOLDER).run demoStale = (.error .value, fs') ∧
    demoStale.get (dbPath DBMS_FOLDER c!"ab") = none ∧ fs'.get (dbPath DBMS_FOLDER c!"ab") = some c!"{}" ∧
    fs'.get (wnPath DBMS_FOLDER c!"ab") = none := by
  obtain ⟨fs', h1, h2, h3⟩ := C57_creation_outcome demoStale DBMS_FOLDER c!"ab"
  exact ⟨fs', by rw [h1, if_neg (by decide +kernel), if_neg (by decide +kernel)], by decide +kernel, by rw [h3]; decide +kernel, by rw [h3]; decide +kernel⟩

/-- C52: a node without properties, with criteria that demand one and with criteria that only exclude. -/
example : processParsedFind (demoFind { demoSingle with left := ⟨some c!"(a:A)", some c!"a", some c!"A", none⟩ })
    (some demoCriteria) = .error .attribute :=
  (C52_without_properties _ demoCriteria c!"A" c!"a" ⟨[(c!"x", .int 7)], [(c!"z", .int 8)]⟩ rfl ⟨rfl, rfl, rfl, rfl⟩ rfl rfl rfl rfl
    (by decide)).1 (by decide)
example : ∃ f, processParsedFind (demoFind { demoSingle with left := ⟨some c!"(a:A)", some c!"a", some c!"A", none⟩ })
    (some [(c!"a", ⟨[], [(c!"z", .int 8)]⟩)]) = .ok f ∧ dictGet c!"z" f.left.no = some (.int 8) := by
  obtain ⟨f, h1, _, _, h2⟩ := (C52_without_properties (demoFind { demoSingle with
    left := ⟨some c!"(a:A)", some c!"a", some c!"A", none⟩ }) [(c!"a", ⟨[], [(c!"z", .int 8)]⟩)] c!"A" c!"a" ⟨[], [(c!"z", .int 8)]⟩ rfl
    ⟨rfl, rfl, rfl, rfl⟩ rfl rfl rfl rfl (by decide)).2 rfl
  exact ⟨f, h1, by rw [h2]; rfl⟩

/-- C52: a pattern of three nodes whose middle handle the criteria name. -/
example : ∃ f r yes, processParsedFind (demoFind { demoHandles with middle := ⟨some c!"(b:B{x: 1})", some c!"b", some c!"B", some c!"{x: 1}"⟩ }) (some [(c!"b", ⟨[(c!"x", .int 7)], []⟩)]) = .ok f ∧
    f.right = some r ∧ r.yes = some yes ∧ c!"props_dict_yes_match" ∈ keys yes := by
  have h : (match processParsedFind (demoFind { demoHandles with middle := ⟨some c!"(b:B{x: 1})", some c!"b", some c!"B", some c!"{x: 1}"⟩ }) (some [(c!"b", ⟨[(c!"x", .int 7)], []⟩)]) with
    | .ok _ => true
    | _ => false) = true := by decide +kernel
  split at h
  · next f hf =>
    obtain ⟨_, _, r, yes, h1, h2, h3, _⟩ := C52_several_nodes _ _ (by decide) f hf
    exact ⟨f, r, yes, hf, h1, h2, h3⟩
  · simp at h

/-- C41: a misspelt MAKE; a word that is not MAKE's; a misspelt REPORT. -/
example : parseMake c!"FIND (a:A); mkAe (b:B);" = .error .clauseSyntax :=
  (C41_make_exact _ (noStatement_of (noKeyword_of_search (by decide +kernel)))).1
    ⟨c!"FIND (a:A); ", c!"mkAe", c!" ", c!"b:B);", c!"mkae", rfl, by decide, by simp [CISpelling, sameLetter], by decide, by decide⟩
example : parseFind c!"FIN(a:A);" = .ok none :=
  (C41_find_exact _ (noStatement_of (noKeyword_of_search (by decide +kernel)))).2 (by
    rw [← spelling_iff]; decide +kernel)
example : parseReport c!"FIND(b:B);\nROPERT b;" [c!"b"] = .error .clauseSyntax :=
  (C41_report_exact _ (noReport_of (noKeyword_of_search (by decide +kernel))) _).1
    ⟨c!"FIND(b:B);\n", c!"ROPERT", c!" b", c!"", c!"ropert", rfl, by decide, by simp [CISpelling, sameLetter], by decide, by decide⟩

/-- C40: the handle `p` stands in the keyword; the handle `b` does not stand in the statement; a keyword of mixed case. -/
example : ∃ r, parseReport c!"FIND (p:A);\nreport (x);" [c!"p"] = .ok (some r) :=
  (C40_report_accepted_iff _ c!"report (x);" _ (by decide +kernel)).1.2 ⟨by simp; exact ⟨c!"re", c!"ort (x);", rfl⟩, .inr ⟨c!" (x);", rfl⟩⟩
example : parseReport c!"FIND (b:A);\nREPORT (x);" [c!"b"] = .error .findReportHandle :=
  (C40_report_accepted_iff _ c!"REPORT (x);" _ (by decide +kernel)).2.2 ⟨c!"b", by simp, by rw [← isSubstr_iff]; decide⟩
end

end WG
