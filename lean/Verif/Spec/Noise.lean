import Mathlib.Analysis.SpecialFunctions.Pow.NNReal

/-! # C110: losses for two sets of data -/

namespace FastVPINNs.Spec

/-- The losses of every candidate in `S` for two sets of data: they are computed without an error for both or for
neither, and their square roots differ by at most `E`. -/
def RootsWithin {ι : Type*} (S : Set ι) (runs runs' : ι → ℝ → Prop) (E : ℝ) : Prop :=
  ∀ x ∈ S, ((∃ v, runs x v) ↔ ∃ v, runs' x v) ∧ ∀ v v', runs x v → runs' x v' → |√v - √v'| ≤ E

end FastVPINNs.Spec
