import Verif.Model.Geometry
import Verif.Model.Train
import Mathlib.MeasureTheory.Integral.IntervalIntegral.Basic

/-! # Mean square errors over the sides of a rectangle -/

namespace FastVPINNs.Spec

open MeasureTheory

/-- The point of side `a` - 0 bottom, 1 right, 2 top, 3 left - at parameter `t` from 0 to 1. -/
def sidePoint (x y : ℝ × ℝ) (a : Fin 4) (t : ℝ) : ℝ × ℝ :=
  match a with
  | 0 => (x.1 + t * (x.2 - x.1), y.1)
  | 1 => (x.2, y.1 + t * (y.2 - y.1))
  | 2 => (x.1 + t * (x.2 - x.1), y.2)
  | 3 => (x.1, y.1 + t * (y.2 - y.1))

/-- What `lhs(1, n)` of pyDOE returns: one number in each of the `n` intervals `[i/n, (i+1)/n)`, in any order. -/
def IsStratified {n : ℕ} (s : Fin n → ℝ) : Prop :=
  ∃ π : Equiv.Perm (Fin n), ∀ k, (π k : ℝ) / n ≤ s k ∧ s k < ((π k : ℝ) + 1) / n

/-- The squared error of `u` with respect to the boundary value `g` along side `a`. -/
def sideError (x y : ℝ × ℝ) (u : ℝ × ℝ → ℝ) (g : ℝ → ℝ → ℝ) (a : Fin 4) (t : ℝ) : ℝ :=
  (u (sidePoint x y a t) - g (sidePoint x y a t).1 (sidePoint x y a t).2) ^ 2

/-- Its mean over the side. -/
noncomputable def sideMean (x y : ℝ × ℝ) (u : ℝ × ℝ → ℝ) (g : ℝ → ℝ → ℝ) (a : Fin 4) : ℝ :=
  ∫ t in (0 : ℝ)..1, sideError x y u g a t

/-- The length of side `a`. -/
def sideLength (x y : ℝ × ℝ) (a : Fin 4) : ℝ :=
  match a with
  | 0 | 2 => x.2 - x.1
  | 1 | 3 => y.2 - y.1

/-- The mean over the whole boundary, with respect to its length. -/
noncomputable def boundaryMean (x y : ℝ × ℝ) (u : ℝ × ℝ → ℝ) (g : Fin 4 → ℝ → ℝ → ℝ) : ℝ :=
  (∑ a, sideLength x y a * sideMean x y u (g a) a) / ∑ a, sideLength x y a

/-- `bdv` is what the data handler returns as boundary data for a mesh of the rectangle with `nb` boundary points, drawn
as in `smp`, and the boundary functions `dict`. -/
def IsBoundaryData (x y : ℝ × ℝ) (nb : ℕ) (smp : Fin 4 → Fin (nb / 4) → ℝ) (dict : List (ℤ × (ℝ → ℝ → ℝ)))
    (bdv : List (ℝ × ℝ) × List ℝ) : Prop :=
  ∃ (ext : QuadRoutines) (G : Geometry2D) (nx ny : ℕ) (s : FESettings) (f : ℝ → ℝ → ℝ) (plot : Bool) (nq : ℕ)
    (S S' : Fespace2D (ℝ → ℝ → ℝ) ℝ (s.feOrder.toNat ^ 2) nq) (D : DataHandler2D (s.feOrder.toNat ^ 2) nq),
    let mesh := generateQuadMeshInternal G x y nx ny nb smp
    fespace2D ext mesh.meshPoints mesh.cells mesh.bdDict s dict f plot = .ok ⟨nq, S⟩ ∧
    dataHandler2D S true = .ok (D, S') ∧ getDirichletInput S' = .ok bdv

end FastVPINNs.Spec
