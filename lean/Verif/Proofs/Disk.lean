/-
Lemmas for C109: the lists of `Py/Files` behave as sets and maps.
-/
import Verif.Spec.Disk
import Verif.Proofs.Files
import Verif.Proofs.Gdbms

namespace WG

theorem disk_set (fs : FS) (p : Path) (s : Str) : (fs.set p s).disk = fs.disk.put p (some s) := by
  ext q x
  · rfl
  · rfl
  · rfl
  · simp only [FS.disk, Disk.put]
    by_cases h : q = p
    · subst h; simp
    · simp [h, FS.get_set_ne (Ne.symm h)]

theorem overlay_written (old : Str) (pos : Nat) (s : Str) : WrittenAt old pos s (overlay old pos s) := by
  have l1 : (old.take pos ++ List.replicate (pos - old.length) (Char.ofNat 0)).length = pos := by simp; omega
  refine ⟨?_, ?_, ?_, ?_⟩
  · simp [overlay]; omega
  · intro i hi
    rw [overlay, List.append_assoc, List.getElem?_append_right (by omega), l1, List.getElem?_append_left (by omega)]
    congr 1
    omega
  · intro i h1 h2
    rcases h1 with h1 | h1
    · rw [overlay, List.append_assoc, List.append_assoc, List.getElem?_append_left (by simp; omega), List.getElem?_take_of_lt h1]
    · rw [overlay, List.append_assoc, List.getElem?_append_right (by omega), l1, List.getElem?_append_right (by omega), List.getElem?_drop]
      congr 1
      omega
  · intro i h1 h2
    rw [overlay, List.append_assoc, List.getElem?_append_left (by omega), List.getElem?_append_right (by simp; omega),
      List.getElem?_replicate_of_lt (by simp; omega)]

theorem written_unique {old s a b : Str} {pos : Nat} (ha : WrittenAt old pos s a) (hb : WrittenAt old pos s b) : a = b := by
  obtain ⟨a0, a1, a2, a3⟩ := ha
  obtain ⟨b0, b1, b2, b3⟩ := hb
  apply List.ext_getElem?
  intro i
  by_cases h1 : pos ≤ i ∧ i < pos + s.length
  · have : i = pos + (i - pos) := by omega
    rw [this, a1 _ (by omega), b1 _ (by omega)]
  · by_cases h2 : i < old.length
    · rw [a2 i (by omega) h2, b2 i (by omega) h2]
    · by_cases h3 : i < pos
      · rw [a3 i (by omega) h3, b3 i (by omega) h3]
      · rw [List.getElem?_eq_none (by omega), List.getElem?_eq_none (by omega)]

theorem take_cut (old : Str) (len : Nat) : CutAt old len (old.take len) := by
  refine ⟨old.drop len, (List.take_append_drop ..).symm, ?_⟩
  by_cases h : len ≤ old.length
  · left; simp [h]
  · right; simp; omega

theorem cut_unique {old a : Str} {len : Nat} (h : CutAt old len a) : a = old.take len := by
  obtain ⟨r, rfl, h | ⟨rfl, h⟩⟩ := h
  · simp [← h]
  · simp [List.take_of_length_le (Nat.le_of_lt h)]

theorem mem_files_iff {fs : FS} {p : Path} : p ∈ fs.files.map Prod.fst ↔ ∃ s, fs.get p = some s := by
  constructor
  · intro h
    exact Option.isSome_iff_exists.1 (lookup_some h)
  · rintro ⟨s, hs⟩
    apply Classical.byContradiction
    intro h
    have : fs.get p = none := lookup_none h
    rw [this] at hs
    cases hs

theorem isHidden_iff {s : Str} : isHidden s = true ↔ DotName s := by
  unfold isHidden DotName
  split
  · simp
  · next h =>
    simp only [Bool.false_eq_true, false_iff, not_exists]
    intro r hr
    exact h r hr

theorem exec_call (op : Op) (fs : FS) : Call op fs.disk (exec op fs).1 (exec op fs).2.disk := by
  cases op with
  | read p =>
    simp only [exec]
    cases h : fs.get p with
    | some s => exact .read h
    | none => exact .readFail h
  | openW p =>
    simp only [exec]
    split
    · next h => rw [disk_set]; exact .openW h
    · next h => exact .openWFail h
  | write p pos s =>
    simp only [exec]
    cases h : fs.get p with
    | some old => simp only [disk_set]; exact .write h (overlay_written ..)
    | none => exact .writeFail h
  | truncate p len =>
    simp only [exec]
    cases h : fs.get p with
    | some old => simp only [disk_set]; exact .truncate h (take_cut ..)
    | none => exact .truncateFail h
  | isFile p => exact .isFile Option.isSome_iff_exists
  | isDir f d => exact .isDir decide_eq_true_iff
  | mkdir f d =>
    simp only [exec]
    split
    · next h => exact .mkdirThere h
    · next h =>
      split
      · next h' => exact .mkdirFail h h'
      · next h' =>
        have := Call.mkdir (d := fs.disk) (f := f) (n := d) h h'
        refine Eq.subst (motive := fun x => Call _ _ _ x) ?_ this
        ext g m
        · simp only [FS.disk]
          split
          · next hf =>
            constructor
            · rintro (h | rfl)
              · exact h
              · exact hf
            · exact .inl
          · simp
        · simp [FS.disk]
        · rfl
        · rfl
  | touch p =>
    simp only [exec]
    split
    · next h =>
      cases h' : fs.get p with
      | some s => exact .touchThere h h'
      | none =>
        simp only [Option.isSome_none, Bool.false_eq_true, if_false, disk_set]
        exact .touch h h'
    · next h => exact .touchFail h
  | listDirs f =>
    simp only [exec]
    split
    · next h =>
      refine .listDirs h fun n => ?_
      simp [FS.disk]
    · next h => exact .listDirsFail h
  | listFiles f sel =>
    refine .listFiles fun p => ?_
    rw [List.mem_filter, mem_files_iff, ← isHidden_iff]
    simp [FS.disk, and_assoc]
  | remove p =>
    simp only [exec]
    cases h : fs.get p with
    | some s =>
      simp only [Option.isSome_some, if_true]
      have := Call.remove (d := fs.disk) (p := p) (s := s) h
      refine Eq.subst (motive := fun x => Call _ _ _ x) ?_ this
      ext q x
      · rfl
      · rfl
      · rfl
      · simp only [FS.disk, Disk.put]
        by_cases hq : q = p
        · subst hq
          have : FS.get { fs with files := fs.files.filter fun x => x.1 ≠ q } q = none := lookup_none (by simp)
          simp only [if_true, this]
        · have : FS.get { fs with files := fs.files.filter fun x => x.1 ≠ p } q = fs.get q := lookup_filter_keep _ (by simp [hq])
          simp only [hq, if_false, this]
    | none => exact .removeFail h
  | rmdir f d =>
    have hall : (fs.files.all fun x => ¬ (x.1.folder = f ∧ x.1.dir = d)) = true ↔ ∀ p : Path, p.folder = f → p.dir = d → fs.get p = none := by
      rw [List.all_eq_true]
      constructor
      · intro h p h1 h2
        apply lookup_none
        intro hp
        obtain ⟨x, hx, rfl⟩ := List.mem_map.1 hp
        have := h x hx
        simp [h1, h2] at this
      · intro h x hx
        simp only [decide_eq_true_eq]
        rintro ⟨h1, h2⟩
        have := h x.1 h1 h2
        obtain ⟨s, hs⟩ := mem_files_iff.1 (List.mem_map_of_mem (f := Prod.fst) hx)
        rw [this] at hs
        cases hs
    simp only [exec]
    split
    · next h =>
      have := Call.rmdir (d := fs.disk) (f := f) (n := d) h.1 (hall.1 h.2)
      refine Eq.subst (motive := fun x => Call _ _ _ x) ?_ this
      ext g m
      · rfl
      · simp only [FS.disk, List.mem_filter, decide_eq_true_eq, ne_eq, Prod.mk.injEq]
      · rfl
      · rfl
    · next h =>
      refine .rmdirFail fun hd => ?_
      apply Classical.byContradiction
      intro hn
      refine h ⟨hd, hall.2 fun p h1 h2 => ?_⟩
      cases ht : fs.get p with
      | none => rfl
      | some s => exact absurd ⟨p, h1, h2, s, ht⟩ hn

theorem call_one {op : Op} {d d1 d2 : Disk} {r1 r2 : Resp} (h1 : Call op d r1 d1) (h2 : Call op d r2 d2) : SameAnswer r1 r2 ∧ d1 = d2 := by
  cases h1 <;> cases h2 <;>
    first
    | exact ⟨.same _, rfl⟩
    | contradiction
    | (simp_all; done)
    | skip
  case read.read h _ h' => rw [h] at h'; cases h'; exact ⟨.same _, rfl⟩
  case write.write w h _ _ w' h' => rw [h] at h'; cases h'; rw [written_unique w w']; exact ⟨.same _, rfl⟩
  case truncate.truncate w h _ _ w' h' => rw [h] at h'; cases h'; rw [cut_unique w, cut_unique w']; exact ⟨.same _, rfl⟩
  case isFile.isFile h _ h' => rw [Bool.eq_iff_iff.2 (h.trans h'.symm)]; exact ⟨.same _, rfl⟩
  case isDir.isDir h _ h' => rw [Bool.eq_iff_iff.2 (h.trans h'.symm)]; exact ⟨.same _, rfl⟩
  case listDirs.listDirs h _ _ h' => exact ⟨.names fun x => (h x).trans (h' x).symm, rfl⟩
  case listFiles.listFiles h _ h' => exact ⟨.paths fun x => (h x).trans (h' x).symm, rfl⟩
  case rmdir.rmdirFail h w h' =>
    obtain ⟨p, a, b, s, e⟩ := h' h
    rw [w p a b] at e
    cases e
  case rmdirFail.rmdir h' h w =>
    obtain ⟨p, a, b, s, e⟩ := h' h
    rw [w p a b] at e
    cases e

theorem call_possible {op : Op} {d d' : Disk} {r : Resp} (h : Call op d r d') (hd : Possible d) : Possible d' := by
  have put : ∀ {p : Path} {s : Option Str}, (s.isSome = true → d.dir p.folder p.dir) → Possible (d.put p s) := by
    intro p s hp
    refine ⟨hd.dirs, hd.plains, ?_, hd.apart⟩
    intro q t hq
    simp only [Disk.put] at hq
    split at hq
    · next e => subst e; subst hq; exact hp rfl
    · exact hd.texts q t hq
  cases h with
  | openW h => exact put fun _ => h
  | write h _ => exact put fun _ => hd.texts _ _ h
  | truncate h _ => exact put fun _ => hd.texts _ _ h
  | touch h _ => exact put fun _ => h
  | remove h => exact put fun h => by cases h
  | mkdir h1 h2 =>
    refine ⟨?_, ?_, ?_, ?_⟩
    · rintro g m (h | ⟨rfl, rfl⟩)
      · exact .inl (hd.dirs g m h)
      · exact .inr rfl
    · intro g m h
      exact .inl (hd.plains g m h)
    · intro p s h
      exact .inl (hd.texts p s h)
    · rintro g m ⟨h | ⟨rfl, rfl⟩, h'⟩
      · exact hd.apart g m ⟨h, h'⟩
      · exact h2 h'
  | rmdir h1 h2 =>
    refine ⟨?_, hd.plains, ?_, ?_⟩
    · intro g m h
      exact hd.dirs g m h.1
    · intro p s h
      refine ⟨hd.texts p s h, ?_⟩
      rintro ⟨a, b⟩
      have h : d.text p = some s := h
      rw [h2 p a b] at h
      cases h
    · rintro g m ⟨h, h'⟩
      exact hd.apart g m ⟨h.1, h'⟩
  | _ => exact hd

theorem insertFile_keys (p : Path) (s : Str) (l : List (Path × Str)) :
    (insertFile p s l).map Prod.fst = if p ∈ l.map Prod.fst then l.map Prod.fst else l.map Prod.fst ++ [p] := by
  induction l with
  | nil => simp [insertFile]
  | cons x l ih =>
    obtain ⟨q, t⟩ := x
    simp only [insertFile]
    by_cases e : q = p
    · simp [e]
    · simp only [e, if_false, List.map_cons, ih, List.mem_cons, Ne.symm e, false_or]
      split <;> simp

theorem set_once {fs : FS} (h : Once fs) (p : Path) (s : Str) : Once (fs.set p s) := by
  refine ⟨h.folders, h.dirs, h.plain, ?_⟩
  simp only [FS.set, insertFile_keys]
  split
  · exact h.files
  · next hp =>
    rw [List.nodup_append]
    refine ⟨h.files, by simp, ?_⟩
    intro a ha b hb
    simp only [List.mem_singleton] at hb
    rintro rfl
    exact hp (hb ▸ ha)

theorem exec_once (op : Op) {fs : FS} (h : Once fs) : Once (exec op fs).2 := by
  cases op with
  | read p => simp only [exec]; split <;> exact h
  | openW p =>
    simp only [exec]
    split
    · exact set_once h _ _
    · exact h
  | write p pos s =>
    simp only [exec]
    split
    · exact set_once h _ _
    · exact h
  | truncate p len =>
    simp only [exec]
    split
    · exact set_once h _ _
    · exact h
  | isFile p => exact h
  | isDir f d => exact h
  | mkdir f d =>
    have snoc : ∀ {α : Type} {l : List α} {a : α}, l.Nodup → a ∉ l → (l ++ [a]).Nodup := by
      intro α l a hl ha
      rw [List.nodup_append]
      refine ⟨hl, by simp, ?_⟩
      intro x hx y hy
      simp only [List.mem_singleton] at hy
      rintro rfl
      exact ha (hy ▸ hx)
    simp only [exec]
    split
    · exact h
    · next hd =>
      split
      · exact h
      · refine ⟨?_, snoc h.dirs hd, h.plain, h.files⟩
        simp only
        split
        · exact h.folders
        · next hf => exact snoc h.folders hf
  | touch p =>
    simp only [exec]
    split
    · simp only
      split
      · exact h
      · exact set_once h _ _
    · exact h
  | listDirs f => simp only [exec]; split <;> exact h
  | listFiles f sel => exact h
  | remove p =>
    simp only [exec]
    split
    · exact ⟨h.folders, h.dirs, h.plain, (List.filter_sublist.map _).nodup h.files⟩
    · exact h
  | rmdir f d =>
    simp only [exec]
    split
    · exact ⟨h.folders, h.dirs.filter _, h.plain, h.files⟩
    · exact h

end WG
