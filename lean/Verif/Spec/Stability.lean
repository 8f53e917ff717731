import Verif.Spec.Integral
import Mathlib.Analysis.Calculus.FDeriv.Basic
import Mathlib.Topology.Instances.Real.Lemmas

/-! # Specification: how far a solution moves when the right-hand side does -/

namespace FastVPINNs.Spec

/-- The values `s z` for `z` in `Ω` lie in an interval of length `X`. -/
def Width (Ω : Set (ℝ × ℝ)) (s : ℝ × ℝ → ℝ) (X : ℝ) : Prop := ∃ x₀, ∀ z ∈ Ω, x₀ ≤ s z ∧ s z ≤ x₀ + X

/-- The factors `A` for the equation `-e Δu + b·∇u + r u = f` on `Ω`: the square of the width divided by `2 e`,
the width divided by the convection in the same direction, and `1 / r`. -/
def StabilityFactor (Ω : Set (ℝ × ℝ)) (e : ℝ) (b : ℝ × ℝ) (r A : ℝ) : Prop :=
  (∃ X, Width Ω Prod.fst X ∧ (A = X ^ 2 / (2 * e) ∨ (b.1 ≠ 0 ∧ A = X / |b.1|))) ∨
  (∃ Y, Width Ω Prod.snd Y ∧ (A = Y ^ 2 / (2 * e) ∨ (b.2 ≠ 0 ∧ A = Y / |b.2|))) ∨
  (0 < r ∧ A = 1 / r)

/-- On every cell the density of the defect `ρ` on the reference square is within `τ` of a polynomial of degree
less than `N` in each variable. -/
def DensityNear (cells : List (Fin 4 → ℝ × ℝ)) (N : ℕ) (ρ : ℝ → ℝ → ℝ) (τ : ℝ) : Prop :=
  ∀ c ∈ cells, ∃ P, IsPolynomial (fun i j => i < N ∧ j < N) P ∧ ∀ p ∈ refSquare,
    |jacobianDet (bilinearImage c) p * ρ (bilinearImage c p).1 (bilinearImage c p).2 - P p| ≤ τ

end FastVPINNs.Spec
