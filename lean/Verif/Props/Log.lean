/-
C101: the log tells what was done, and in the shell it tells of every FIND that was answered without its index.
-/
import Verif.Proofs.LogSeen
import Verif.Props.Usable
import Verif.Proofs.LiteralInv
import Verif.Proofs.Durable
import Verif.Proofs.Gdbms
set_option linter.unusedSectionVars false
set_option linter.unusedSimpArgs false

namespace WG
section
variable [PyRuntime]

/-! ### Helpers -/

theorem Lg.Agrees.both {α : Type} {s : Lg α} {p : Prog α} (h : s.Agrees p) {fs fs' : FS} {r : Except PyErr α} {out : List LogEntry}
    (e : s.prog.run fs = (.ok (r, out), fs')) : p.run fs = (r, fs') ∧ s.logs fs = out := by
  have h' := h fs
  rw [e] at h'
  simp only [Prod.mk.injEq, Except.ok.injEq] at h'
  exact ⟨Prod.ext h'.1.1.symm h'.2.symm, h'.1.2.symm⟩

attribute [local simp] logInfo logDebug logException lg_bind_prog lg_try_prog run_bind lg_lift_run lg_put_run lg_raise_run lg_pure_run
  prog_pure_run run_liftE told noted warned

/-! ### Logging changes nothing -/

/-- C101: logging changes nothing; the program with its log has the outcome and the effect of the program without. -/
theorem C101_same (env : Env) (inputs : List Str) : (startWiggleShellL env inputs).Agrees (startWiggleShell env inputs) :=
  agreesL_start env inputs

/-- C101, the same for the functions that can be called from elsewhere. -/
theorem C101_same_functions (env : Env) (p : Path) (b : Bool) (n : Int) (items : List (Str × V)) (name : Str) (ms : List ParsedMake) (g : GPath)
    (f : ParsedFind) (c : Option Criteria) :
    (loadDatabaseL p).Agrees (loadDatabase p) ∧ (addItemToDatabaseL p items).Agrees (addItemToDatabase p items) ∧
      (wipeDatabaseL p b).Agrees (wipeDatabase p b) ∧ (loadIndexSetL p name).Agrees (loadIndexSet p name) ∧
      (wipeIndexSetL p name b).Agrees (wipeIndexSet p name b) ∧ (loadNodeRelationshipsIndexL p).Agrees (loadNodeRelationshipsIndex p) ∧
      (wipeNodeRelationshipsIndexL p b).Agrees (wipeNodeRelationshipsIndex p b) ∧
      (getCurrentWiggleNumberL p).Agrees (getCurrentWiggleNumber p) ∧ (updateWiggleNumberL p n).Agrees (updateWiggleNumber p n) ∧
      (makeL env ms g).Agrees (make env ms g) ∧ (findL f g c).Agrees (find f g c) :=
  ⟨agreesL_loadDatabase p, agreesL_add p items, agreesL_wipeDatabase p b, agreesL_loadIndexSet p name, agreesL_wipeIndexSet p name b,
    agreesL_loadNodeRel p, agreesL_wipeNodeRel p b, agreesL_counter p, agreesL_update p n, agreesL_make env ms g, agreesL_find f g c⟩

/-! ### The storage functions -/

/-- C101: adding records says that they were added, and how many, exactly if they were; it says that it is writing exactly if the file
could be read. -/
theorem C101_add (p : Path) (items : List (Str × V)) (fs : FS) :
    (∃ fs', (addItemToDatabase p items).run fs = (.ok true, fs') ∧ (addItemToDatabaseL p items).logs fs =
        [told c!"writing to db", told (c!"Successfully added " ++ natStr items.length ++ c!" records to the database.")]) ∨
      (∃ v e fs', IsJson fs p v ∧ (addItemToDatabase p items).run fs = (.error e, fs') ∧
        (addItemToDatabaseL p items).logs fs = [told c!"writing to db"]) ∨
      ∃ e, (∀ v, ¬ IsJson fs p v) ∧ (addItemToDatabase p items).run fs = (.error e, fs) ∧ (addItemToDatabaseL p items).logs fs = [] := by
  have ag := agreesL_add p items
  unfold addItemToDatabaseL at *
  cases h1 : fs.get p with
  | none =>
    refine .inr (.inr ⟨.fileNotFound, ?_, ag.both (by simp [run_readFile_none h1])⟩)
    rintro v ⟨t, h, -⟩
    rw [h1] at h
    cases h
  | some t =>
    cases h2 : jsonLoad t with
    | none =>
      refine .inr (.inr ⟨.jsonDecode, ?_, ag.both (by simp [run_readFile_some h1, loads_none h2])⟩)
      rintro v ⟨t', h, h'⟩
      rw [h1] at h
      cases h
      rw [h2] at h'
      cases h'
    | some v =>
      cases h3 : addLoop v items with
      | error e => exact .inr (.inl ⟨v, e, fs, ⟨t, h1, h2⟩, ag.both (by simp [run_readFile_some h1, loads_some h2, h3])⟩)
      | ok w =>
        cases h4 : (dumpTo p 0 w).run fs with
        | mk r fs' =>
          cases r with
          | error e => exact .inr (.inl ⟨v, e, fs', ⟨t, h1, h2⟩, ag.both (by simp [run_readFile_some h1, loads_some h2, h3, h4])⟩)
          | ok n => exact .inl ⟨fs', ag.both (by simp [run_readFile_some h1, loads_some h2, h3, h4])⟩

/-- C101: loading the database says whether it could be read.  A file that is not JSON is called empty (C09). -/
theorem C101_load_database (p : Path) (fs : FS) :
    (∃ v, IsJson fs p v ∧ (loadDatabase p).run fs = (.ok v, fs) ∧
        (loadDatabaseL p).logs fs = [told c!"Attempting to loading database", told c!"Successfully loaded database"]) ∨
      (Unreadable fs p ∧ (loadDatabase p).run fs = (.ok (.dict []), fs) ∧
        (loadDatabaseL p).logs fs = [told c!"Attempting to loading database", warned c!"Empty database, returning a new one"]) ∨
      (fs.get p = none ∧ (loadDatabase p).run fs = (.error .fileNotFound, fs) ∧
        (loadDatabaseL p).logs fs = [told c!"Attempting to loading database"]) := by
  have ag := agreesL_loadDatabase p
  unfold loadDatabaseL at *
  cases h1 : fs.get p with
  | none => exact .inr (.inr ⟨rfl, ag.both (by simp [run_readFile_none h1])⟩)
  | some t =>
    cases h2 : jsonLoad t with
    | none => exact .inr (.inl ⟨⟨t, h1, h2⟩, ag.both (by simp [run_readFile_some h1, loads_none h2])⟩)
    | some v => exact .inl ⟨v, ⟨t, h1, h2⟩, ag.both (by simp [run_readFile_some h1, loads_some h2])⟩

/-- C101: loading an index of labels or names.  The second case is the one where it says that it succeeded and raises. -/
theorem C101_load_set (p : Path) (name : Str) (fs : FS) :
    (∃ v s, HasEntry fs p name v ∧ Settable v ∧ (loadIndexSet p name).run fs = (.ok s, fs) ∧ (loadIndexSetL p name).logs fs =
        [told (c!"Attempting to loading " ++ name ++ c!" indexes"), told (c!"Successfully loaded " ++ name ++ c!" index")]) ∨
      (∃ v, HasEntry fs p name v ∧ ¬ Settable v ∧ (loadIndexSet p name).run fs = (.error .type, fs) ∧ (loadIndexSetL p name).logs fs =
        [told (c!"Attempting to loading " ++ name ++ c!" indexes"), told (c!"Successfully loaded " ++ name ++ c!" index")]) ∨
      (Unreadable fs p ∧ (loadIndexSet p name).run fs = (.ok [], fs) ∧ (loadIndexSetL p name).logs fs =
        [told (c!"Attempting to loading " ++ name ++ c!" indexes"), warned (c!"Empty " ++ name ++ c!" indexes, returning a new one")]) ∨
      ∃ e, NoEntry fs p name e ∧ e ≠ .jsonDecode ∧ (loadIndexSet p name).run fs = (.error e, fs) ∧
        (loadIndexSetL p name).logs fs = [told (c!"Attempting to loading " ++ name ++ c!" indexes")] := by
  have ag := agreesL_loadIndexSet p name
  unfold loadIndexSetL at *
  cases h1 : fs.get p with
  | none => exact .inr (.inr (.inr ⟨_, .file _ (.missing h1), by simp, ag.both (by simp [run_readFile_none h1])⟩))
  | some t =>
    cases h2 : jsonLoad t with
    | none => exact .inr (.inr (.inl ⟨⟨t, h1, h2⟩, ag.both (by simp [run_readFile_some h1, loads_none h2])⟩))
    | some v =>
      by_cases hd : ∃ d, v = .dict d
      · obtain ⟨d, rfl⟩ := hd
        cases h3 : dictGet name d with
        | none =>
          refine .inr (.inr (.inr ⟨_, .key d ⟨t, h1, h2⟩ (dictGet_none_iff.1 h3), by simp, ag.both ?_⟩))
          simp [run_readFile_some h1, loads_some h2, getItem, h3]
        | some w =>
          by_cases hs : Settable w
          · obtain ⟨s, h4, -⟩ := pySet_settable hs
            refine .inl ⟨w, s, ⟨d, ⟨t, h1, h2⟩, h3⟩, hs, ag.both ?_⟩
            simp [run_readFile_some h1, loads_some h2, getItem, h3, h4]
          · refine .inr (.inl ⟨w, ⟨d, ⟨t, h1, h2⟩, h3⟩, hs, ag.both ?_⟩)
            simp [run_readFile_some h1, loads_some h2, getItem, h3, pySet_not hs]
      · refine .inr (.inr (.inr ⟨.type, .file _ (.other v ⟨t, h1, h2⟩ fun d e => hd ⟨d, e⟩), by simp, ag.both ?_⟩))
        have hg : getItem v name = .error .type := by
          cases v <;> first | rfl | exact absurd ⟨_, rfl⟩ hd
        simp [run_readFile_some h1, loads_some h2, hg]

/-- C101: loading the index of relationships; in the second case it says that it succeeded and raises. -/
theorem C101_load_relationships (p : Path) (fs : FS) :
    (∃ v s, HasEntry fs p c!"node_relationships" v ∧ (loadNodeRelationshipsIndex p).run fs = (.ok s, fs) ∧
        (loadNodeRelationshipsIndexL p).logs fs =
          [told c!"Attempting to loading Relationship indexes", told c!"Successfully loaded node_relationships index"]) ∨
      (∃ v e, HasEntry fs p c!"node_relationships" v ∧ (loadNodeRelationshipsIndex p).run fs = (.error e, fs) ∧
        (loadNodeRelationshipsIndexL p).logs fs =
          [told c!"Attempting to loading Relationship indexes", told c!"Successfully loaded node_relationships index"]) ∨
      (Unreadable fs p ∧ (loadNodeRelationshipsIndex p).run fs = (.ok [], fs) ∧ (loadNodeRelationshipsIndexL p).logs fs =
        [told c!"Attempting to loading Relationship indexes", warned c!"Empty relationship indexes, returning a new one"]) ∨
      ∃ e, NoEntry fs p c!"node_relationships" e ∧ e ≠ .jsonDecode ∧ (loadNodeRelationshipsIndex p).run fs = (.error e, fs) ∧
        (loadNodeRelationshipsIndexL p).logs fs = [told c!"Attempting to loading Relationship indexes"] := by
  have ag := agreesL_loadNodeRel p
  unfold loadNodeRelationshipsIndexL at *
  cases h1 : fs.get p with
  | none => exact .inr (.inr (.inr ⟨_, .file _ (.missing h1), by simp, ag.both (by simp [run_readFile_none h1])⟩))
  | some t =>
    cases h2 : jsonLoad t with
    | none => exact .inr (.inr (.inl ⟨⟨t, h1, h2⟩, ag.both (by simp [run_readFile_some h1, loads_none h2])⟩))
    | some v =>
      by_cases hd : ∃ d, v = .dict d
      · obtain ⟨d, rfl⟩ := hd
        cases h3 : dictGet c!"node_relationships" d with
        | none =>
          refine .inr (.inr (.inr ⟨_, .key d ⟨t, h1, h2⟩ (dictGet_none_iff.1 h3), by simp, ag.both ?_⟩))
          simp [run_readFile_some h1, loads_some h2, getItem, NODE_RELATIONSHIPS_INDEX_NAME, h3]
        | some w =>
          by_cases hw : ∃ r, w = .dict r
          · obtain ⟨r, rfl⟩ := hw
            cases h4 : jsonToDict r with
            | ok s =>
              refine .inl ⟨_, s, ⟨d, ⟨t, h1, h2⟩, h3⟩, ag.both ?_⟩
              simp [run_readFile_some h1, loads_some h2, getItem, NODE_RELATIONSHIPS_INDEX_NAME, h3, h4]
            | error e =>
              refine .inr (.inl ⟨_, e, ⟨d, ⟨t, h1, h2⟩, h3⟩, ag.both ?_⟩)
              have he : e ≠ .jsonDecode := by
                rintro rfl
                clear ag h3
                induction r with
                | nil => cases h4
                | cons x r ih =>
                  unfold jsonToDict at h4
                  by_cases hs : Settable x.2
                  · obtain ⟨s, h5, -⟩ := pySet_settable hs
                    rw [h5] at h4
                    simp only at h4
                    split at h4
                    · next h6 => cases h4; exact ih h6
                    · cases h4
                  · rw [pySet_not hs] at h4
                    cases h4
              simp [run_readFile_some h1, loads_some h2, getItem, NODE_RELATIONSHIPS_INDEX_NAME, h3, h4, he]
          · refine .inr (.inl ⟨_, .attribute, ⟨d, ⟨t, h1, h2⟩, h3⟩, ag.both ?_⟩)
            cases w <;> first
              | exact absurd ⟨_, rfl⟩ hw
              | simp [run_readFile_some h1, loads_some h2, getItem, NODE_RELATIONSHIPS_INDEX_NAME, h3]
      · refine .inr (.inr (.inr ⟨.type, .file _ (.other v ⟨t, h1, h2⟩ fun d e => hd ⟨d, e⟩), by simp, ag.both ?_⟩))
        have hg : getItem v NODE_RELATIONSHIPS_INDEX_NAME = .error .type := by
          cases v <;> first | rfl | exact absurd ⟨_, rfl⟩ hd
        simp [run_readFile_some h1, loads_some h2, hg]

/-- C101: wiping says that something was dropped exactly if it was, and that it was not exactly if it was not confirmed. -/
theorem C101_wipe_database (p : Path) (b : Bool) (fs : FS) :
    (b = false ∧ (wipeDatabase p b).run fs = (.ok false, fs) ∧
        (wipeDatabaseL p b).logs fs = [noted c!"Did not drop database as im_sure=False"]) ∨
      (b = true ∧ ∃ fs', (wipeDatabase p b).run fs = (.ok true, fs') ∧
        (wipeDatabaseL p b).logs fs = [told c!"Dropping database", told c!"Database successfully dropped."]) ∨
      (b = true ∧ ∃ e fs', (wipeDatabase p b).run fs = (.error e, fs') ∧ (wipeDatabaseL p b).logs fs = [told c!"Dropping database"]) := by
  have ag := agreesL_wipeDatabase p b
  unfold wipeDatabaseL at *
  cases b with
  | false => exact .inl ⟨rfl, ag.both (by simp)⟩
  | true =>
    cases h1 : (unitOp (.openW p) .fileNotFound).run fs with
    | mk r1 fs1 =>
      cases r1 with
      | error e => exact .inr (.inr ⟨rfl, e, fs1, ag.both (by simp [h1])⟩)
      | ok _ =>
        cases h2 : (dumpTo p 0 (.dict [])).run fs1 with
        | mk r2 fs2 =>
          cases r2 with
          | error e => exact .inr (.inr ⟨rfl, e, fs2, ag.both (by simp [h1, h2])⟩)
          | ok n =>
            cases h3 : (unitOp (.truncate p n) .osError).run fs2 with
            | mk r3 fs3 =>
              cases r3 with
              | error e => exact .inr (.inr ⟨rfl, e, fs3, ag.both (by simp [h1, h2, h3])⟩)
              | ok _ => exact .inr (.inl ⟨rfl, fs3, ag.both (by simp [h1, h2, h3])⟩)

/-- C101: wiping an index of labels or names.  When it is not confirmed, the entry speaks of relationship indexes whatever index it is. -/
theorem C101_wipe_set (p : Path) (name : Str) (b : Bool) (fs : FS) :
    (b = false ∧ (wipeIndexSet p name b).run fs = (.ok false, fs) ∧
        (wipeIndexSetL p name b).logs fs = [noted c!"Did not drop relationship indexes as im_sure=False"]) ∨
      (b = true ∧ ∃ fs', (wipeIndexSet p name b).run fs = (.ok true, fs') ∧
        (wipeIndexSetL p name b).logs fs = [told (c!"Dropping " ++ name ++ c!" indexes"), told (name ++ c!" successfully dropped.")]) ∨
      (b = true ∧ ∃ e fs', (wipeIndexSet p name b).run fs = (.error e, fs') ∧
        (wipeIndexSetL p name b).logs fs = [told (c!"Dropping " ++ name ++ c!" indexes")]) := by
  have ag := agreesL_wipeIndexSet p name b
  unfold wipeIndexSetL at *
  cases b with
  | false => exact .inl ⟨rfl, ag.both (by simp)⟩
  | true =>
    cases h1 : (readFile p).run fs with
    | mk r1 fs1 =>
      cases r1 with
      | error e => exact .inr (.inr ⟨rfl, e, fs1, ag.both (by simp [h1])⟩)
      | ok t =>
        cases h2 : loads t with
        | error e => exact .inr (.inr ⟨rfl, e, fs1, ag.both (by simp [h1, h2])⟩)
        | ok v =>
          cases h3 : setItem v name (.list []) with
          | error e => exact .inr (.inr ⟨rfl, e, fs1, ag.both (by simp [h1, h2, h3])⟩)
          | ok w =>
            cases h4 : (dumpTo p 0 w).run fs1 with
            | mk r2 fs2 =>
              cases r2 with
              | error e => exact .inr (.inr ⟨rfl, e, fs2, ag.both (by simp [h1, h2, h3, h4])⟩)
              | ok n =>
                cases h5 : (unitOp (.truncate p n) .osError).run fs2 with
                | mk r3 fs3 =>
                  cases r3 with
                  | error e => exact .inr (.inr ⟨rfl, e, fs3, ag.both (by simp [h1, h2, h3, h4, h5])⟩)
                  | ok _ => exact .inr (.inl ⟨rfl, fs3, ag.both (by simp [h1, h2, h3, h4, h5])⟩)

/-- C101: wiping the index of relationships. -/
theorem C101_wipe_relationships (p : Path) (b : Bool) (fs : FS) :
    (b = false ∧ (wipeNodeRelationshipsIndex p b).run fs = (.ok false, fs) ∧
        (wipeNodeRelationshipsIndexL p b).logs fs = [noted c!"Did not drop relationship indexes as im_sure=False"]) ∨
      (b = true ∧ ∃ fs', (wipeNodeRelationshipsIndex p b).run fs = (.ok true, fs') ∧ (wipeNodeRelationshipsIndexL p b).logs fs =
        [told c!"Dropping relationship indexes", told c!"Relationship indexes successfully dropped."]) ∨
      (b = true ∧ ∃ e fs', (wipeNodeRelationshipsIndex p b).run fs = (.error e, fs') ∧
        (wipeNodeRelationshipsIndexL p b).logs fs = [told c!"Dropping relationship indexes"]) := by
  have ag := agreesL_wipeNodeRel p b
  unfold wipeNodeRelationshipsIndexL at *
  cases b with
  | false => exact .inl ⟨rfl, ag.both (by simp)⟩
  | true =>
    cases h1 : (readFile p).run fs with
    | mk r1 fs1 =>
      cases r1 with
      | error e => exact .inr (.inr ⟨rfl, e, fs1, ag.both (by simp [h1])⟩)
      | ok t =>
        cases h2 : loads t with
        | error e => exact .inr (.inr ⟨rfl, e, fs1, ag.both (by simp [h1, h2])⟩)
        | ok v =>
          cases h3 : setItem v NODE_RELATIONSHIPS_INDEX_NAME (.dict []) with
          | error e => exact .inr (.inr ⟨rfl, e, fs1, ag.both (by simp [h1, h2, h3])⟩)
          | ok w =>
            cases h4 : (dumpTo p 0 w).run fs1 with
            | mk r2 fs2 =>
              cases r2 with
              | error e => exact .inr (.inr ⟨rfl, e, fs2, ag.both (by simp [h1, h2, h3, h4])⟩)
              | ok n =>
                cases h5 : (unitOp (.truncate p n) .osError).run fs2 with
                | mk r3 fs3 =>
                  cases r3 with
                  | error e => exact .inr (.inr ⟨rfl, e, fs3, ag.both (by simp [h1, h2, h3, h4, h5])⟩)
                  | ok _ => exact .inr (.inl ⟨rfl, fs3, ag.both (by simp [h1, h2, h3, h4, h5])⟩)

/-- C101: reading the counter says which number was found exactly if one was. -/
theorem C101_counter (p : Path) (fs : FS) :
    (∃ s n, fs.get p = some s ∧ pyInt s = some n ∧ (getCurrentWiggleNumber p).run fs = (.ok n, fs) ∧ (getCurrentWiggleNumberL p).logs fs =
        [noted c!"Attempting getting WiggleNumber", noted c!"Wiggle number found, casting to int",
          told (c!"Successfully got Wiggle number was " ++ intStr n)]) ∨
      ∃ e, CounterFault fs p e ∧ (getCurrentWiggleNumber p).run fs = (.error e, fs) ∧ (getCurrentWiggleNumberL p).logs fs =
        noted c!"Attempting getting WiggleNumber" :: if e = .value then [noted c!"Wiggle number found, casting to int"] else [] := by
  have ag := agreesL_counter p
  unfold getCurrentWiggleNumberL at *
  cases h1 : fs.get p with
  | none => exact .inr ⟨_, .missing h1, ag.both (by simp [run_readFile_none h1])⟩
  | some s =>
    by_cases hs : s = []
    · subst hs
      exact .inr ⟨_, .empty h1, ag.both (by simp [run_readFile_some h1])⟩
    · have hs' : s.isEmpty = false := by simpa using hs
      cases h2 : pyInt s with
      | none => exact .inr ⟨_, .noNumber s h1 hs h2, ag.both (by simp [run_readFile_some h1, hs', hs, h2])⟩
      | some n => exact .inl ⟨s, n, rfl, h2, ag.both (by simp [run_readFile_some h1, hs', hs, h2])⟩

/-- C101: writing the counter says that it succeeded exactly if it did. -/
theorem C101_update (p : Path) (n : Int) (fs : FS) :
    (∃ fs', (updateWiggleNumber p n).run fs = (.ok n, fs') ∧ (updateWiggleNumberL p n).logs fs =
        [noted c!"Updating state for WiggleNumber", noted c!"Successfully updated state for WiggleNumber"]) ∨
      ∃ e fs', (updateWiggleNumber p n).run fs = (.error e, fs') ∧
        (updateWiggleNumberL p n).logs fs = [noted c!"Updating state for WiggleNumber"] := by
  have ag := agreesL_update p n
  unfold updateWiggleNumberL at *
  cases h1 : (unitOp (.openW p) .fileNotFound).run fs with
  | mk r1 fs1 =>
    cases r1 with
    | error e => exact .inr ⟨e, fs1, ag.both (by simp [h1])⟩
    | ok _ =>
      cases h2 : (unitOp (.write p 0 (intStr n)) .osError).run fs1 with
      | mk r2 fs2 =>
        cases r2 with
        | error e => exact .inr ⟨e, fs2, ag.both (by simp [h1, h2])⟩
        | ok _ => exact .inl ⟨fs2, ag.both (by simp [h1, h2])⟩

/-! ### Values of properties -/

theorem handleType_logged {value : Str} {caps : Caps} {v : V} (h : handleExtracted value caps = .ok v) (fs : FS) :
    ((handleExtractedL value caps).logs fs = [] ∧ v = .none) ∨
      ∃ t, Described v t ∧ (handleExtractedL value caps).logs fs = [⟨.debug, t, some v⟩] := by
  unfold handleExtracted at h
  unfold handleExtractedL
  cases ht : extractedType caps with
  | error e => rw [ht] at h; cases h
  | ok t =>
    rw [ht] at h
    cases t <;> simp only at h
    · left
      refine ⟨by simp [Lg.logs, handleTypeL], ?_⟩
      unfold handleNull at h
      split at h
      · cases h; rfl
      · cases h
    all_goals
      right
      refine ⟨_, ?_, by simp [Lg.logs, handleTypeL, loggedValue, logValue, h]; rfl⟩
    · unfold handleBool at h
      split at h
      · next e => cases h; rw [e]; exact .yes
      · split at h
        · next e => cases h; rw [e]; exact .no
        · cases h
    · unfold handleFloat at h
      split at h
      · cases h
      · split at h
        · next e => cases h; exact .float _ _ e
        · cases h
    · unfold handleInt at h
      split at h
      · cases h
      · split at h
        · next e => cases h; exact .int _ _ e
        · cases h
    · unfold handleList at h
      split at h
      · next e => cases h; exact .list _ _ e
      all_goals cases h
    · unfold handleString at h
      split at h
      · cases h
      · split at h
        · cases h
        · cases h; exact .str _

theorem parseProps_logged {ms : List (Str × Caps)} {d d' : Dict V} (h : parsePropsLoop ms d = .ok d') (fs : FS) :
    ∃ kvs : List (Str × V), d' = kvs.foldl (fun d p => dictSet p.1 p.2 d) d ∧
      ValuesLogged (kvs.map Prod.snd) ((parsePropsLoopL ms d).logs fs) := by
  induction ms generalizing d with
  | nil =>
    simp only [parsePropsLoop, Except.ok.injEq] at h
    exact ⟨[], h.symm, .nil⟩
  | cons m ms ih =>
    rw [parsePropsLoop] at h
    split at h
    · next k v hm =>
      obtain ⟨kvs, h1, h2⟩ := ih h
      refine ⟨(k, v) :: kvs, h1, ?_⟩
      unfold parsePropsLoopL
      rw [logs_bind (does_parseOneProp _) (k := fun kv => liftE (parsePropsLoop ms (dictSet kv.1 kv.2 d)))
        (fun kv => does_parsePropsLoop ms _), run_liftE, hm]
      simp only [List.map_cons]
      unfold parseOneProp at hm
      unfold parseOnePropL
      split at hm
      · next name value h3 h4 =>
        split at hm
        · cases hm
        · next h5 =>
          split at hm
          · next w h6 =>
            cases hm
            simp only [h3, h4, if_neg h5]
            rw [logs_bind_silent (does_handleExtracted value m.2) (k := fun v => pure (k, v)) (fun _ => Lg.agrees_pure _) fun _ _ => rfl]
            rcases handleType_logged h6 fs with ⟨h7, rfl⟩ | ⟨t, h7, h8⟩
            · rw [h7]
              exact .null _ _ h2
            · rw [h8]
              exact .value _ _ _ _ h7 h2
          · cases hm
      · cases hm
    · cases h

/-- C101: for properties that are accepted the log has one entry per value, with the text, the kind and the value, in the order in
which they are written; only `null` is left out. -/
theorem C101_values (s : Str) (d : Dict V) (h : getPropertyDict (some s) = .ok (some d)) (fs : FS) :
    ∃ kvs : List (Str × V), d = dictOf kvs ∧ ValuesLogged (kvs.map Prod.snd) ((getPropertyDictL (some s)).logs fs) := by
  simp only [getPropertyDict] at h
  simp only [getPropertyDictL]
  split at h
  · cases h
  · next he =>
    rw [if_neg he]
    unfold parseProperties at h
    cases hp : parsePropsLoop (propKV.finditer s) [] with
    | error e => rw [hp] at h; cases h
    | ok d' =>
      rw [hp] at h
      cases h
      obtain ⟨kvs, h1, h2⟩ := parseProps_logged hp fs
      refine ⟨kvs, h1, ?_⟩
      rw [logs_bind_silent (does_parsePropsLoop _ _) (k := fun d => pure (some d)) (fun _ => Lg.agrees_pure _) fun _ _ => rfl]
      exact h2

/-! ### What is seen in the shell -/

theorem find_unreadable {f : ParsedFind} {fp : FindPre} {g : GPath} {fs : FS} (hf : processParsedFind f none = .ok fp)
    (h : Unreadable fs g.idx) : (find f g none).run fs = (.ok .noResults, fs) := by
  obtain ⟨t, h1, h2⟩ := h
  have hl : ∀ name, (loadIndexSet g.idx name).run fs = (.ok [], fs) := fun name => by
    rcases C101_load_set g.idx name fs with ⟨v, s, ⟨d, hd, _⟩, _⟩ | ⟨v, ⟨d, hd, _⟩, _⟩ | ⟨_, h, _⟩ | ⟨e, he, hj, _⟩
    · exact absurd ⟨t, h1, h2⟩ (not_unreadable hd)
    · exact absurd ⟨t, h1, h2⟩ (not_unreadable hd)
    · exact h
    · exfalso
      cases he with
      | file _ hn =>
        cases hn with
        | missing hn => rw [h1] at hn; cases hn
        | broken _ => exact hj rfl
        | other v hn _ => exact not_unreadable hn ⟨t, h1, h2⟩
      | key d hd _ => exact not_unreadable hd ⟨t, h1, h2⟩
  have hs : (findShortCircuit fp g).run fs = (.ok false, fs) := by
    unfold findShortCircuit loadNodeLabelsIndex loadRelationshipNamesIndex
    rw [run_bind, hl]
    simp only
    rw [run_bind, hl]
    simp only
    rw [if_pos (by simp [nodeLabelIsInIndex])]
    rfl
  unfold find
  rw [run_bind, hf, run_liftE]
  simp only
  rw [run_bind, hs]
  rfl

/-- C101: in the shell one query shows the two warnings exactly if it ends normally although the index file is not JSON. -/
theorem C101_shell_query (env : Env) (q : Str) (g : GPath) (fs : FS) (hd : g.db ≠ g.idx) (hw : g.wn ≠ g.idx) :
    (((query env q g).run fs).1 = .ok true ∧ Unreadable fs g.idx ∧ visible SHELL_LEVEL ((queryL env q g).logs fs) = indexWarnings) ∨
      (¬ (((query env q g).run fs).1 = .ok true ∧ Unreadable fs g.idx) ∧ visible SHELL_LEVEL ((queryL env q g).logs fs) = []) := by
  rw [query_seen, query_run]
  cases hp : parseQueryString q with
  | error e => exact .inr ⟨by simp, rfl⟩
  | ok p =>
    obtain ⟨f, hf⟩ := parse_find hp
    simp only [hf]
    rw [execute_run hf]
    cases hm : (executeMakes env g p.make).run fs with
    | mk r fs1 =>
      cases r with
      | error e => exact .inr ⟨by simp, rfl⟩
      | ok b =>
        simp only
        rw [find_seen]
        have hsame : Unreadable fs g.idx → Unreadable fs1 g.idx := by
          intro hu
          unfold executeMakes at hm
          split at hm
          · next m ms _ =>
            obtain ⟨e, he⟩ := (make_unreadable (env := env) (m :: ms) hd hu).1
            rw [hm] at he
            cases he
          · cases hm
            exact hu
        have hback : Unreadable fs1 g.idx → Unreadable fs g.idx := by
          intro hu
          unfold executeMakes at hm
          split at hm
          · exact absurd hu (make_ok_readable hw hm)
          · cases hm
            exact hu
        cases hq : processParsedFind f none with
        | error e =>
          refine .inr ⟨?_, rfl⟩
          have : (find f g none).run fs1 = (.error e, fs1) := by
            unfold find
            rw [run_bind, hq, run_liftE]
          rw [this]
          simp
        | ok fp =>
          simp only
          by_cases hu : Unreadable fs1 g.idx
          · rw [find_unreadable hq hu]
            exact .inl ⟨rfl, hback hu, (shortCircuit_seen fp g fs1).1 hu⟩
          · exact .inr ⟨fun h => hu (hsame h.2), (shortCircuit_seen fp g fs1).2 hu⟩

theorem query_true {env : Env} {q : Str} {g : GPath} {fs fs' : FS} {b : Bool} (h : (query env q g).run fs = (.ok b, fs')) : b = true := by
  rw [query_run] at h
  split at h
  · cases h
  · split at h <;> cases h
    rfl

theorem shellL_logs (env : Env) (g : GPath) (q : Str) (rest : List Str) (fs : FS) (hq : q ≠ c!"q") (hh : isSubstr c!"help" (lower q) ≠ true) :
    (shellLoopL env g (q :: rest)).logs fs =
      (queryL env q g).logs fs ++ (shellLoopL env g rest).logs ((query env q g).run fs).2 := by
  have ag := agreesL_query env q g fs
  have ag' := agreesL_shell env g rest ((query env q g).run fs).2
  conv => lhs; unfold shellLoopL
  rw [if_neg hq, if_neg hh]
  cases h1 : (query env q g).run fs with
  | mk r fs1 =>
    rw [h1] at ag ag'
    cases h2 : (shellLoop env g rest).run fs1 with
    | mk r2 fs2 =>
      simp only [h2] at ag'
      cases r <;> cases r2 <;> simp only at ag ag' <;> (conv => lhs; unfold Lg.logs) <;> simp [ag, ag']

theorem shellL_help (env : Env) (g : GPath) (q : Str) (rest : List Str) (fs : FS) (hq : q ≠ c!"q") (hh : isSubstr c!"help" (lower q) = true) :
    (shellLoopL env g (q :: rest)).logs fs = (shellLoopL env g rest).logs fs := by
  conv => lhs; unfold shellLoopL
  rw [if_neg hq, if_pos hh]
  exact logs_bind_silent (agreesL_shell env g rest) (k := fun l => pure (.help :: l)) (fun _ => Lg.agrees_pure _) (fun _ _ => rfl) fs

/-- C101: what the user of the shell sees of the log, whatever is typed. -/
theorem C101_shell_session (env : Env) (g : GPath) (inputs : List Str) (fs : FS) (hd : g.db ≠ g.idx) (hw : g.wn ≠ g.idx) :
    SeenLog env g fs inputs (visible SHELL_LEVEL ((shellLoopL env g inputs).logs fs)) := by
  induction inputs generalizing fs with
  | nil => exact .idle fs
  | cons q rest ih =>
    by_cases hq : q = c!"q"
    · subst hq
      exact .quit fs rest
    · by_cases hh : isSubstr c!"help" (lower q) = true
      · rw [shellL_help env g q rest fs hq hh]
        exact .help fs q rest _ hq ((isSubstr_iff _ _).1 hh) (ih fs)
      · have hn : ¬ AsksHelp q := fun h => hh ((isSubstr_iff _ _).2 h)
        rw [shellL_logs env g q rest fs hq hh, visible_append]
        cases hr : (query env q g).run fs with
        | mk r fs' =>
          rcases C101_shell_query env q g fs hd hw with ⟨h1, h2, h3⟩ | ⟨h1, h3⟩
          · rw [hr] at h1
            cases h1
            rw [h3]
            exact .warn fs fs' q rest _ hq hn h2 hr (ih fs')
          · rw [h3, List.nil_append]
            cases r with
            | error e => exact .failed fs fs' q rest _ e hq hn hr (ih fs')
            | ok b =>
              have hb := query_true hr
              refine .fine fs fs' q rest _ b hq hn (fun hu => h1 ⟨?_, hu⟩) hr (ih fs')
              rw [hr, hb]

/-- C101: as long as nothing is typed that breaks the GDBMS (C69), nothing of the log is seen. -/
theorem C101_silent_while_usable (env : Env) (g : GPath) (inputs : List Str) (fs : FS) (h : Usable fs g)
    (hq : ∀ q ∈ inputs, q ≠ c!"q" → ¬ AsksHelp q → ∀ ms, Makes q ms → ¬ Poison ms) : visible SHELL_LEVEL ((shellLoopL env g inputs).logs fs) = [] := by
  have hd : g.db ≠ g.idx ∧ g.wn ≠ g.idx := by
    obtain ⟨d, labels, names, rels, n, hh, -⟩ := h
    exact ⟨hh.db_idx, fun e => hh.idx_wn e.symm⟩
  have hs := C101_shell_session env g inputs fs hd.1 hd.2
  generalize visible SHELL_LEVEL ((shellLoopL env g inputs).logs fs) = out at hs
  induction hs with
  | idle => rfl
  | quit => rfl
  | help fs q rest out _ _ _ ih => exact ih h fun q hm => hq q (List.mem_cons_of_mem _ hm)
  | warn fs fs' q rest out _ _ hu _ _ _ =>
    exfalso
    obtain ⟨d, labels, names, rels, n, hh, -⟩ := h
    obtain ⟨D, hD, -⟩ := hh.idx
    exact not_unreadable hD hu
  | failed fs fs' q rest out e h0 hn hr _ ih =>
    refine ih ?_ fun q hm => hq q (List.mem_cons_of_mem _ hm)
    have := C69_stays_usable_partial env q g fs h (hq q (by simp) h0 hn)
    rwa [hr] at this
  | fine fs fs' q rest out b h0 hn _ hr _ ih =>
    refine ih ?_ fun q hm => hq q (List.mem_cons_of_mem _ hm)
    have := C69_stays_usable_partial env q g fs h (hq q (by simp) h0 hn)
    rwa [hr] at this

/-- C101: once the index file is not JSON it stays so, and the user sees the two warnings with every query that ends normally and
nothing else of the log. -/
theorem C101_warned_when_broken (env : Env) (g : GPath) (inputs : List Str) (fs fs' : FS) (log : List Event) (h : Unreadable fs g.idx)
    (hr : (shellLoop env g inputs).run fs = (.ok log, fs')) (hd : g.db ≠ g.idx) (hw : g.wn ≠ g.idx) :
    visible SHELL_LEVEL ((shellLoopL env g inputs).logs fs) = (List.replicate (log.count .done) indexWarnings).flatten ∧
      Unreadable fs' g.idx := by
  obtain ⟨log', fs'', h1, hs⟩ := C53_shell_survives env g inputs fs
  rw [hr] at h1
  cases h1
  clear hr
  have stays : ∀ q fs, Unreadable fs g.idx → Unreadable ((query env q g).run fs).2 g.idx := by
    intro q fs h
    rcases query_cases env q g fs with ⟨ms, _, h2, -⟩ | ⟨-, h2⟩
    · rw [h2]
      exact (make_unreadable ms hd h).2
    · rwa [h2]
  induction hs with
  | idle => exact ⟨rfl, h⟩
  | quit => exact ⟨rfl, h⟩
  | help fs fs' q rest log hh _ ih =>
    have hq : q ≠ c!"q" := by
      rintro rfl
      have := hh.length_le
      have hl : List.length (lower c!"q") = 1 := rfl
      simp only [hl, List.length_cons, List.length_nil] at this
      omega
    rw [shellL_help env g q rest fs hq ((isSubstr_iff _ _).2 hh), List.count_cons_of_ne (by simp)]
    exact ih h
  | done fs fs1 fs' q b rest log hq hh hr _ ih =>
    have hu := stays q fs h
    rw [hr] at hu
    rw [shellL_logs env g q rest fs hq fun k => hh ((isSubstr_iff _ _).1 k), visible_append, hr, List.count_cons_self, List.replicate_succ,
      List.flatten_cons, (ih hu).1]
    rcases C101_shell_query env q g fs hd hw with ⟨-, -, h3⟩ | ⟨h1, -⟩
    · exact ⟨by rw [h3], (ih hu).2⟩
    · exact absurd ⟨by rw [hr, query_true hr], h⟩ h1
  | failed fs fs1 fs' q e rest log hq hh hr _ ih =>
    have hu := stays q fs h
    rw [hr] at hu
    rw [shellL_logs env g q rest fs hq fun k => hh ((isSubstr_iff _ _).1 k), visible_append, hr, List.count_cons_of_ne (by simp),
      (ih hu).1]
    rcases C101_shell_query env q g fs hd hw with ⟨h1, -⟩ | ⟨-, h3⟩
    · rw [hr] at h1
      cases h1
    · exact ⟨by rw [h3, List.nil_append], (ih hu).2⟩

/-- C101: choosing or making a GDBMS logs nothing; the log is that of the queries behind it. -/
theorem C101_start (env : Env) (inputs : List Str) (fs : FS) :
    (startWiggleShellL env inputs).logs fs = match (selectGdbms inputs).run fs with
      | (.ok (some (g, rest)), fs') => (shellLoopL env g rest).logs fs'
      | _ => [] := by
  unfold startWiggleShellL
  rw [logs_bind (Lg.agrees_lift _) (k := fun sel => match sel with
    | none => pure none
    | some (g, rest) => shellLoop env g rest >>= fun l => pure (some l)) (fun sel => by
      cases sel with
      | none => exact Lg.agrees_pure _
      | some x => exact Lg.agrees_bind (agreesL_shell _ _ _) fun _ => Lg.agrees_pure _), logs_lift, List.nil_append]
  cases (selectGdbms inputs).run fs with
  | mk r fs' =>
    cases r with
    | error e => rfl
    | ok sel =>
      cases sel with
      | none => rfl
      | some x => exact logs_bind_silent (agreesL_shell env x.1 x.2) (k := fun l => pure (some l)) (fun _ => Lg.agrees_pure _) (fun _ _ => rfl) fs'

/-- C101 for the whole program, on any disk: nothing of the log is seen until a GDBMS is chosen; then what `C101_shell_session` says, the
three files of a GDBMS being different ones. -/
theorem C101_program (env : Env) (inputs : List Str) (fs : FS) :
    (visible SHELL_LEVEL ((startWiggleShellL env inputs).logs fs) = [] ∧
        ∀ g rest fs', (selectGdbms inputs).run fs ≠ (.ok (some (g, rest)), fs')) ∨
      ∃ g used rest fs', inputs = used ++ rest ∧ (selectGdbms inputs).run fs = (.ok (some (g, rest)), fs') ∧
        SeenLog env g fs' rest (visible SHELL_LEVEL ((startWiggleShellL env inputs).logs fs)) := by
  rw [C101_start]
  cases hr : (selectGdbms inputs).run fs with
  | mk r fs' =>
    cases r with
    | error e => exact .inl ⟨rfl, by simp⟩
    | ok sel =>
      cases sel with
      | none => exact .inl ⟨rfl, by simp⟩
      | some x =>
        obtain ⟨⟨name, hn⟩, used, hu⟩ := (returns_select inputs).run hr x.1 x.2 rfl
        refine .inr ⟨x.1, used, x.2, fs', hu, rfl, C101_shell_session _ _ _ _ ?_ ?_⟩ <;> rw [hn]
        · exact (gdbms_ne DBMS_FOLDER name).1
        · exact (gdbms_ne DBMS_FOLDER name).2.2.symm

end
section
attribute [local instance] demoRuntime

/-- C101 is violated: it is logged that an index was loaded although loading it raises; a database that is broken is called empty; and
who does not wipe the index of labels is told that the indexes of relationships were not dropped. -/
theorem C101_violated :
    (∃ fs : FS, ((loadIndexSet demoG.idx c!"node_labels").run fs).1 = .error .type ∧
      told c!"Successfully loaded node_labels index" ∈ (loadIndexSetL demoG.idx c!"node_labels").logs fs) ∧
    (∃ fs : FS, fs.get demoG.db = some c!"{\"1\": 5" ∧ (loadDatabaseL demoG.db).logs fs =
      [told c!"Attempting to loading database", warned c!"Empty database, returning a new one"]) ∧
    ∃ fs : FS, (wipeIndexSetL demoG.idx c!"node_labels" false).logs fs =
      [noted c!"Did not drop relationship indexes as im_sure=False"] := by
  refine ⟨⟨demoFS c!"{}" c!"{\"node_labels\": 3}" c!"0", ?_⟩, ⟨demoFS c!"{\"1\": 5" [] [], rfl, ?_⟩, demoFresh, ?_⟩
  · decide +kernel
  · decide +kernel
  · decide +kernel

/-- C101: two records are added. -/
example : (addItemToDatabaseL demoG.db demoRecords).logs demoFresh =
    [told c!"writing to db", told c!"Successfully added 2 records to the database."] := by
  decide +kernel

/-- C101: the values of `{a: 5, b: null, c: "x"}`. -/
example : ((getPropertyDictL (some c!"{a: 5, b: null, c: \"x\"}")).logs demoFresh).map (·.text) =
    [c!"5 was determined to be an int: ", c!"x was determined to be a string: "] := by
  decide +kernel

/-- C101: the query that breaks a new GDBMS shows its exception and nothing of the log; after it FIND shows the two warnings. -/
example : visible SHELL_LEVEL ((shellLoopL demoEnv demoG [eLonely, c!"FIND (c:Man);", c!"help", c!"FIND (c:Man)", c!"FIND (d:Man);"]).logs demoFresh) =
    indexWarnings ++ indexWarnings := by
  decide +kernel

/-- C101: an index file that is empty; a MAKE fails and warns of nothing, the two FINDs warn. -/
example : ∃ log fs', (shellLoop demoEnv demoG [c!"FIND (c:Man);", eLonely, c!"FIND (d:Man);", c!"q"]).run (demoFS c!"{}" [] c!"0") = (.ok log, fs') ∧
    visible SHELL_LEVEL ((shellLoopL demoEnv demoG [c!"FIND (c:Man);", eLonely, c!"FIND (d:Man);", c!"q"]).logs (demoFS c!"{}" [] c!"0")) =
      (List.replicate (log.count .done) indexWarnings).flatten ∧ Unreadable fs' demoG.idx := by
  obtain ⟨log, fs', h, -⟩ := C53_shell_survives demoEnv demoG [c!"FIND (c:Man);", eLonely, c!"FIND (d:Man);", c!"q"] (demoFS c!"{}" [] c!"0")
  exact ⟨log, fs', h, C101_warned_when_broken _ _ _ _ _ _ ⟨[], rfl, by decide +kernel⟩ h (by decide) (by decide)⟩

/-- C101: on a new GDBMS two texts that fail and a query that is executed show nothing of the log. -/
example : visible SHELL_LEVEL ((shellLoopL demoEnv demoG [qSyntax, c!"hello", eTyped.render]).logs demoFresh) = [] := by
  refine C101_silent_while_usable _ _ _ _ demoFresh_usable ?_
  simp only [List.mem_cons, List.not_mem_nil, or_false, forall_eq_or_imp, forall_eq]
  refine ⟨fun _ _ ms h => absurd h (not_makes (by decide +kernel) ms), fun _ _ ms h => absurd h (not_makes (by decide +kernel) ms),
    fun _ _ ms h hp => ?_⟩
  obtain ⟨⟨e, h1⟩, -⟩ := C69_poison_breaks demoEnv _ demoG demoFresh ms demoFresh_usable h hp
  obtain ⟨fs', _, _, _, _, h2, -⟩ := C67_typed_query_partial eTyped_runnable demoEnv demoG demoFresh [] [] [] [] 0 demoFresh_healthy
    (below_nil 0)
  rw [h2] at h1
  simp at h1

/-- C101: a counter that is no number. -/
example : (getCurrentWiggleNumberL demoG.wn).logs (demoFS c!"{}" [] c!"x") =
    [noted c!"Attempting getting WiggleNumber", noted c!"Wiggle number found, casting to int"] := by
  decide +kernel

/-- C101: a GDBMS is made, broken by a MAKE of one node, and asked. -/
example : visible SHELL_LEVEL ((startWiggleShellL demoEnv [c!"n", c!"mine", eLonely, c!"FIND (c:Man);", c!"q"]).logs
    { folders := [c!"dbms"], dirs := [], plain := [], files := [] }) = indexWarnings := by
  decide +kernel

end
end WG
