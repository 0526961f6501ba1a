/-
C101: which entries of the log reach the file and the screen, for every level of the logger.
-/
import Verif.Model.Log
import Verif.Spec.DemoFS

namespace WG

/-- `Reaches l k`: with the level `l` of the logger an entry of level `k` is written.  From the documentation of
`logging`: messages less severe than the level are ignored; DEBUG, INFO, WARNING, ERROR are of increasing severity. -/
inductive Reaches : Level → Level → Prop where
  | debug (k : Level) : Reaches .debug k
  | info : Reaches .info .info
  | infoWarning : Reaches .info .warning
  | warning : Reaches .warning .warning
  | error (l : Level) : Reaches l .error

section
variable [PyRuntime]

/-- C101: exactly the entries that are severe enough are written, in their order. -/
theorem C101_visible (l : Level) (es : List LogEntry) :
    (visible l es).Sublist es ∧ (∀ e, e ∈ visible l es ↔ e ∈ es ∧ Reaches l e.level) ∧
      ∀ e, Reaches l e.level → (visible l es).count e = es.count e := by
  have key : ∀ k : Level, decide (l.num ≤ k.num) = true ↔ Reaches l k := by
    intro k
    constructor
    · intro h
      cases l <;> cases k <;> first | exact .debug _ | exact .error _ | exact .info | exact .infoWarning | exact .warning | simp [Level.num] at h
    · intro h
      cases h with
      | debug k => cases k <;> decide
      | error => cases l <;> decide
      | _ => decide
  refine ⟨List.filter_sublist, fun e => ?_, fun e h => ?_⟩
  · simp only [visible, List.mem_filter, key]
  · simp only [visible]
    exact List.count_filter ((key _).2 h)

/-- C101: outside the shell, where no module has changed the level, every entry is written. -/
theorem C101_all_visible (es : List LogEntry) : visible LOGGER_LEVEL es = es := by
  refine List.filter_eq_self.2 fun e _ => ?_
  cases e.level <;> decide

end

section
attribute [local instance] demoRuntime

/-- C101: a warning and an error are seen in the shell, an information is not. -/
example : visible SHELL_LEVEL [⟨.info, c!"a", none⟩, ⟨.warning, c!"b", none⟩, ⟨.error, c!"c", none⟩] =
    [⟨.warning, c!"b", none⟩, ⟨.error, c!"c", none⟩] := by decide

end
end WG
