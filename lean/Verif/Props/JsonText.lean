/-
C105: a file is read exactly if it is the JSON text (the integer) it should be, and as what it stands for.
-/
import Verif.Proofs.JsonText
import Verif.Proofs.Storage
import Verif.Spec.Storage
import Verif.Spec.DemoFS
import Verif.Model.Props
set_option linter.unusedSectionVars false

namespace WG

section
variable [PyRuntime]

/-- C105: a text is read as `v` exactly if it is a JSON text for `v`. -/
theorem C105_json (s : Str) (v : V) : loads s = .ok v ↔ JsonFile v s := by
  rw [← jsonLoad_iff, loads]
  cases jsonLoad s <;> simp

/-- C105: the only error is that the text is no JSON text. -/
theorem C105_not_json (s : Str) (e : PyErr) : loads s = .error e ↔ e = .jsonDecode ∧ ∀ v, ¬ JsonFile v s := by
  simp only [← jsonLoad_iff, loads]
  cases jsonLoad s <;> simp [eq_comm]

/-- C105: no text is a JSON text for two values. -/
theorem C105_one_value (s : Str) (v v' : V) (h : JsonFile v s) (h' : JsonFile v' s) : v = v' := by
  rw [← jsonLoad_iff] at h h'
  rw [h] at h'
  exact Option.some.inj h'

/-- C105: what is written is a JSON text for the value written. -/
theorem C105_written (v : V) (hw : v.WF) (h : (jsonDump v).2 = true) : JsonFile v (jsonDump v).1 :=
  jsonLoad_iff.1 (jsonLoad_dump v ((jsonDump_complete hw).1 h))

/-- C105: what the theorems about files say, said without the reader. -/
theorem C105_holds (fs : FS) (p : Path) (d : Dict V) : Holds fs p d ↔ ∃ text, fs.get p = some text ∧ JsonFile (.dict d) text := by
  simp only [Holds, jsonLoad_iff]

/-- C105: a file is unreadable exactly if it is no JSON text. -/
theorem C105_unreadable (fs : FS) (p : Path) : Unreadable fs p ↔ ∃ text, fs.get p = some text ∧ ∀ v, ¬ JsonFile v text := by
  simp only [Unreadable, ← jsonLoad_iff]
  constructor
  · rintro ⟨t, h1, h2⟩
    exact ⟨t, h1, by simp [h2]⟩
  · rintro ⟨t, h1, h2⟩
    exact ⟨t, h1, Option.eq_none_iff_forall_ne_some.2 h2⟩

/-- C105: `load_database` gives the value of the text, and of anything else the empty one. -/
theorem C105_load_database (p : Path) (fs : FS) (text : Str) (h : fs.get p = some text) :
    (∀ v, JsonFile v text → (loadDatabase p).run fs = (.ok v, fs)) ∧
    ((∀ v, ¬ JsonFile v text) → (loadDatabase p).run fs = (.ok (.dict []), fs)) := by
  refine ⟨fun v hv => run_loadDatabase_some h (jsonLoad_iff.2 hv), fun hn => run_loadDatabase_bad h ?_⟩
  exact Option.eq_none_iff_forall_ne_some.2 fun v hv => hn v (jsonLoad_iff.1 hv)

/-- C105: adding nodes fails as at a file that is no JSON text exactly if it is none, and then changes nothing. -/
theorem C105_add_to_database (p : Path) (items : Dict V) (fs : FS) (text : Str) (h : fs.get p = some text) :
    (((addItemToDatabase p items).run fs).1 = .error .jsonDecode ↔ ∀ v, ¬ JsonFile v text) ∧
    ((∀ v, ¬ JsonFile v text) → (addItemToDatabase p items).run fs = (.error .jsonDecode, fs)) := by
  have hbad : (∀ v, ¬ JsonFile v text) → (addItemToDatabase p items).run fs = (.error .jsonDecode, fs) := fun hn =>
    run_add_bad h (Option.eq_none_iff_forall_ne_some.2 fun v hv => hn v (jsonLoad_iff.1 hv))
  refine ⟨⟨?_, fun hn => by rw [hbad hn]⟩, hbad⟩
  · intro he v hv
    rw [← jsonLoad_iff] at hv
    unfold addItemToDatabase at he
    rw [run_bind_ok (run_readFile_some h), loads_some hv, run_bind_ok (show (liftE (Except.ok v)).run fs = (.ok v, fs) from rfl)] at he
    cases hl : addLoop v items with
    | error e =>
      rw [hl] at he
      rw [run_bind_err (show (liftE (Except.error e : Except PyErr V)).run fs = (.error e, fs) from rfl)] at he
      have : e = .jsonDecode := by simpa using he
      rw [this] at hl
      exact addLoop_not_decode _ _ hl
    | ok v' =>
      rw [hl] at he
      have hd := run_dumpTo (pos := 0) (v := v') h
      cases hx : (jsonDump v').2 with
      | true =>
        rw [hx] at hd
        have : ((dumpTo p 0 v' >>= fun _ => pure true).run fs).1 = .ok true := by rw [run_bind_ok hd]; rfl
        exact absurd (this.symm.trans he) (by simp)
      | false =>
        rw [hx] at hd
        have : ((dumpTo p 0 v' >>= fun _ => (pure true : Prog Bool)).run fs).1 = .error .type := by rw [run_bind_err hd]
        exact absurd (this.symm.trans he) (by simp)

/-- C105: the counter is read as `n` exactly if it is an integer text for `n`; an empty file and any other text are refused. -/
theorem C105_counter (p : Path) (fs : FS) (text : Str) (h : fs.get p = some text) :
    (∀ n, IntText n text → (getCurrentWiggleNumber p).run fs = (.ok n, fs)) ∧
    (text = [] → (getCurrentWiggleNumber p).run fs = (.error .exception, fs)) ∧
    (text ≠ [] → (∀ n, ¬ IntText n text) → (getCurrentWiggleNumber p).run fs = (.error .value, fs)) := by
  refine ⟨fun n hn => ?_, ?_, fun h1 h2 => ?_⟩
  · have := pyInt_iff.2 hn
    rw [run_getCurrentWiggleNumber h, this]
    cases text with
    | nil => cases this
    | cons c t => rfl
  · rintro rfl
    rw [run_getCurrentWiggleNumber h]
    rfl
  · have : pyInt text = none := Option.eq_none_iff_forall_ne_some.2 fun n hn => h2 n (pyInt_iff.1 hn)
    rw [run_getCurrentWiggleNumber h, this]
    cases text with
    | nil => exact absurd rfl h1
    | cons c t => rfl

/-- C105: the counter that is written is an integer text for it. -/
theorem C105_counter_written (n : Int) : IntText n (intStr n) := pyInt_iff.1 (pyInt_intStr n)

/-- C105: no text is an integer text for two numbers. -/
theorem C105_one_number (s : Str) (n n' : Int) (h : IntText n s) (h' : IntText n' s) : n = n' := by
  rw [← pyInt_iff] at h h'
  rw [h] at h'
  exact Option.some.inj h'

/-- C105: the value of an integer property. -/
theorem C105_int_property (s : Str) (v : V) : handleInt s = .ok v ↔ ∃ n, v = .int n ∧ IntText n s := by
  by_cases hd : '.' ∈ s
  · simp only [handleInt, hd, if_true]
    constructor
    · intro h; cases h
    · rintro ⟨n, -, h⟩
      exact absurd hd (intText_no_dot h)
  · simp only [← pyInt_iff, handleInt]
    cases pyInt s <;> simp [hd, eq_comm]

/-! ### Examples -/

/-- A database file with a comment is no JSON text, with a blank behind it it is one. -/
example : JsonFile (.dict [(c!"a", .list [.int (-12), .none])]) c!"{ \"\\u0061\" : [-12,\n null ]}\n " := by
  rw [← jsonLoad_iff]
  rfl

example : JsonFile (.dict [(c!"a", .none)]) c!"{\"a\":null}\n" := by
  refine ⟨[], c!"{\"a\":null}", c!"\n", b0, ?_, .object (l := [(c!"a", .none)]) (t := c!"\"a\":null") ?_ ?_, rfl⟩
  · intro c hc
    simp at hc
    simp [hc]
  · exact .lastMember (w := []) (k' := c!"a") (w1 := []) (w2 := []) (t := c!"null") (w' := [])
      (.plain (by decide) (by decide) (by decide) .nil) .null b0 b0 b0 b0
  · exact dictOf_collects _

/-- A trailing comma, a leading zero, a name without quotation marks, a text cut short. -/
example : (∀ v, ¬ JsonFile v c!"[1,]") ∧ (∀ v, ¬ JsonFile v c!"[01]") ∧ (∀ v, ¬ JsonFile v c!"{a: 1}") ∧ (∀ v, ¬ JsonFile v c!"{\"a\": 1") := by
  refine ⟨fun v hv => ?_, fun v hv => ?_, fun v hv => ?_, fun v hv => ?_⟩ <;> rw [← jsonLoad_iff] at hv <;> cases hv

/-- Of two members with the same name the last one counts, at the place of the first. -/
example : JsonFile (.dict [(c!"a", .int 3), (c!"b", .int 2)]) c!"{\"a\": 1, \"b\": 2, \"a\": 3}" := by
  rw [← jsonLoad_iff]
  rfl

/-- A counter. -/
example : IntText (-1204) c!" -1_204\n" ∧ (∀ n, ¬ IntText n c!"12__04") ∧ (∀ n, ¬ IntText n c!"12.") := by
  simp only [← pyInt_iff]
  refine ⟨rfl, fun n h => ?_, fun n h => ?_⟩ <;> cases h

end

end WG
