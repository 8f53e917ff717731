import Verif.Spec.Plane
import Verif.Spec.Polynomial
import Verif.Spec.Rectangle
import Verif.Spec.TestFunction
import Mathlib.MeasureTheory.Integral.Bochner.Set
import Mathlib.MeasureTheory.Measure.Lebesgue.Basic

/-! # Specification: integrals over cells -/

namespace FastVPINNs.Spec

open MeasureTheory

/-- The cell as a set: the convex hull of its vertices. -/
def cellSet (c : Fin 4 → ℝ × ℝ) : Set (ℝ × ℝ) := convexHull ℝ (Set.range c)

/-- The union of the cells. -/
def meshSet (cells : List (Fin 4 → ℝ × ℝ)) : Set (ℝ × ℝ) := {z | ∃ c ∈ cells, z ∈ cellSet c}

/-- Cells at different positions of the list do not overlap: their interiors are disjoint. -/
def NoOverlap (cells : List (Fin 4 → ℝ × ℝ)) : Prop :=
  ∀ (k l : ℕ) (c d : Fin 4 → ℝ × ℝ), k ≠ l → cells[k]? = some c → cells[l]? = some d →
    Disjoint (interior (cellSet c)) (interior (cellSet d))

/-- `g` is polynomial of a degree that a rule of the given degree integrates exactly on the cell `c`:
total degree `m` with `m + 1` at most the degree of the rule; on parallelograms `m` suffices; on
rectangles the degree `m` in each variable. -/
def IntegrandHandled (degree : ℕ) (c : Fin 4 → ℝ × ℝ) (g : ℝ × ℝ → ℝ) : Prop :=
  (∃ m, IsPolynomial (fun i j => i + j ≤ m) g ∧ m + 1 ≤ degree) ∨
  (IsParallelogram c ∧ ∃ m, IsPolynomial (fun i j => i + j ≤ m) g ∧ m ≤ degree) ∨
  ((∃ a b p q, c = rectangle a b p q) ∧ ∃ m, IsPolynomial (fun i j => i ≤ m ∧ j ≤ m) g ∧ m ≤ degree)

/-- The integrand of the weak form of `-∇·(a∇u) + b·∇u + r u = f`, tested with `ψ`. -/
noncomputable def weakIntegrand (a u : ℝ × ℝ → ℝ) (b : ℝ × ℝ) (r : ℝ) (f : ℝ → ℝ → ℝ) (ψ : ℝ × ℝ → ℝ)
    (z : ℝ × ℝ) : ℝ :=
  a z * (dx u z * dx ψ z + dy u z * dy ψ z) + (b.1 * dx u z + b.2 * dy u z + r * u z) * ψ z
    - f z.1 z.2 * ψ z

/-- The weak form over `K`. -/
noncomputable def weakIntegral (K : Set (ℝ × ℝ)) (a u : ℝ × ℝ → ℝ) (b : ℝ × ℝ) (r : ℝ) (f : ℝ → ℝ → ℝ)
    (ψ : ℝ × ℝ → ℝ) : ℝ :=
  ∫ z in K, weakIntegrand a u b r f ψ z

/-- Transported from the cell `c` to the (open) reference square with the bilinear map, `g` differs by at
most `δ` from a polynomial of degree at most `d` in each variable. -/
def NearPolynomial (d : ℕ) (c : Fin 4 → ℝ × ℝ) (g : ℝ × ℝ → ℝ) (δ : ℝ) : Prop :=
  ∃ P, IsPolynomial (fun i j => i ≤ d ∧ j ≤ d) P ∧ ∀ ξ ∈ Set.Ioo (-1 : ℝ) 1, ∀ η ∈ Set.Ioo (-1 : ℝ) 1,
    |jacobianDet (bilinearImage c) (ξ, η) * g (bilinearImage c (ξ, η)) - P (ξ, η)| ≤ δ

/-- `u` is continuously differentiable on `K`: it and its two partial derivatives are continuous. -/
structure SmoothOn (K : Set (ℝ × ℝ)) (u : ℝ × ℝ → ℝ) : Prop where
  val : ContinuousOn u K
  dx : ContinuousOn (dx u) K
  dy : ContinuousOn (dy u) K

end FastVPINNs.Spec
