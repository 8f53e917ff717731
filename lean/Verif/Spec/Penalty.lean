import Mathlib.Data.Real.Basic

/-! # C108: what is meant by the best of several candidates, and by a trade-off -/

namespace FastVPINNs.Spec

/-- A candidate whose loss is at most `δ` above the losses of all candidates in `S`.  `runs x v`: the loss
of candidate `x` is computed without an error and is `v`. -/
def NearlyBest {ι : Type*} (S : Set ι) (runs : ι → ℝ → Prop) (δ : ℝ) (x : ι) : Prop :=
  x ∈ S ∧ ∃ v, runs x v ∧ ∀ y ∈ S, ∀ w, runs y w → v ≤ w + δ

/-- Boundary losses `b₁`, `b₂` and the other losses `q₁`, `q₂` of candidates that are best up to `δ₁`, `δ₂`
for the weights `β₁ < β₂`: the larger weight does not give the larger boundary loss, and (for `β₁ ≥ 0`) not the
smaller rest, up to the tolerances. -/
def TradeOff (β₁ β₂ δ₁ δ₂ b₁ b₂ q₁ q₂ : ℝ) : Prop :=
  b₂ ≤ b₁ + (δ₁ + δ₂) / (β₂ - β₁) ∧ (0 ≤ β₁ → q₁ ≤ q₂ + δ₁ + β₁ * ((δ₁ + δ₂) / (β₂ - β₁)))

end FastVPINNs.Spec
