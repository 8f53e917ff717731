import Mathlib.Data.EReal.Basic
import Verif.Model.StudyNan

/-! # Specification: values of trials as extended real numbers -/

namespace FastVPINNs.Spec

/-- The extended real number a floating-point number stands for; NaN stands for none. -/
noncomputable def asEReal : XNum → Option EReal
  | .fin x => some (x : EReal)
  | .inf true => some ⊥
  | .inf false => some ⊤
  | .nan => none

/-- The value of a stored trial as an extended real number; none for a failed trial. -/
noncomputable def score (t : XStoredTrial) : Option EReal := t.value.bind asEReal

/-- `new` are the trials of a run after the trials `earlier`: `n` of them with consecutive numbers, at points of the search
space, and each is stored with a value its objective can return, or as failed if this value is NaN. -/
structure TrialsOf (value : ℕ → SearchPoint → Except PyErr XNum → Prop) (earlier new : List XStoredTrial) (n : ℕ) :
    Prop where
  numbers : (new.map XStoredTrial.number).Perm (List.range' earlier.length n)
  space : ∀ t ∈ new, t.params.InSpace
  values : ∀ t ∈ new, ∃ v, value t.number t.params (.ok v) ∧ score t = asEReal v

end FastVPINNs.Spec
