import Verif.Model.Common
import Mathlib.LinearAlgebra.Matrix.NonsingularInverse
import Mathlib.Data.Fin.VecNotation

/-!
# `fastvpinns/FE/quad_affine.py` and `fastvpinns/FE/quad_bilinear.py`
-/

namespace FastVPINNs

/-- `co_ordinates`: the four vertices of a cell, array of shape `(4, 2)`. -/
abbrev Quad := Fin 4 → ℝ × ℝ

/-- `fastvpinns/FE/fe_transformation_2d.py` (abstract class `FETransforamtion2D`): the methods of a
reference transformation.  `originalFromRef` and `jacobian` act entrywise on arrays and are given
at one point; the derivative methods take arrays of shape `(n_test, n_points)`. -/
structure FETransformation2D where
  originalFromRef : ℝ → ℝ → ℝ × ℝ
  jacobian : ℝ → ℝ → ℝ
  origFromRefDerivative : {nt q : ℕ} → (refGradx refGrady : Fin nt → Fin q → ℝ) →
    (xi eta : Fin q → ℝ) → (Fin nt → Fin q → ℝ) × (Fin nt → Fin q → ℝ)
  origFromRefSecondDerivative : {nt q : ℕ} → (gradxxRef gradxyRef gradyyRef : Fin nt → Fin q → ℝ) →
    (xi eta : Fin q → ℝ) →
    Except PyErr ((Fin nt → Fin q → ℝ) × (Fin nt → Fin q → ℝ) × (Fin nt → Fin q → ℝ))

namespace QuadBilinear

/-! ### `set_cell` (`quad_bilinear.py:37-66`), one definition per attribute. -/

/-- `quad_bilinear.py:58`. -/
noncomputable def xc0 (c : Quad) : ℝ := ((c 0).1 + (c 1).1 + (c 2).1 + (c 3).1) * 0.25
/-- `quad_bilinear.py:59`. -/
noncomputable def xc1 (c : Quad) : ℝ := (-(c 0).1 + (c 1).1 + (c 2).1 - (c 3).1) * 0.25
/-- `quad_bilinear.py:60`. -/
noncomputable def xc2 (c : Quad) : ℝ := (-(c 0).1 - (c 1).1 + (c 2).1 + (c 3).1) * 0.25
/-- `quad_bilinear.py:61`. -/
noncomputable def xc3 (c : Quad) : ℝ := ((c 0).1 - (c 1).1 + (c 2).1 - (c 3).1) * 0.25
/-- `quad_bilinear.py:63`. -/
noncomputable def yc0 (c : Quad) : ℝ := ((c 0).2 + (c 1).2 + (c 2).2 + (c 3).2) * 0.25
/-- `quad_bilinear.py:64`. -/
noncomputable def yc1 (c : Quad) : ℝ := (-(c 0).2 + (c 1).2 + (c 2).2 - (c 3).2) * 0.25
/-- `quad_bilinear.py:65`. -/
noncomputable def yc2 (c : Quad) : ℝ := (-(c 0).2 - (c 1).2 + (c 2).2 + (c 3).2) * 0.25
/-- `quad_bilinear.py:66`. -/
noncomputable def yc3 (c : Quad) : ℝ := ((c 0).2 - (c 1).2 + (c 2).2 - (c 3).2) * 0.25

/-- `quad_bilinear.py:68-83` (`get_original_from_ref`). -/
noncomputable def getOriginalFromRef (c : Quad) (xi eta : ℝ) : ℝ × ℝ :=
  (xc0 c + xc1 c * xi + xc2 c * eta + xc3 c * xi * eta,
   yc0 c + yc1 c * xi + yc2 c * eta + yc3 c * xi * eta)

/-- `quad_bilinear.py:85-101` (`get_jacobian`). -/
noncomputable def getJacobian (c : Quad) (xi eta : ℝ) : ℝ :=
  |(xc1 c + xc3 c * eta) * (yc2 c + yc3 c * xi) - (xc2 c + xc3 c * xi) * (yc1 c + yc3 c * eta)|

/-- `quad_bilinear.py:103-139` (`get_orig_from_ref_derivative`).  A vanishing denominator gives
`inf`/`nan` in numpy; here it gives `0`; theorems assume it is non-zero. -/
noncomputable def getOrigFromRefDerivative (c : Quad) {nt q : ℕ}
    (refGradx refGrady : Fin nt → Fin q → ℝ) (xi eta : Fin q → ℝ) :
    (Fin nt → Fin q → ℝ) × (Fin nt → Fin q → ℝ) :=
  let recDetjk : Fin q → ℝ := fun p =>
    1 / ((xc1 c + xc3 c * eta p) * (yc2 c + yc3 c * xi p)
      - (xc2 c + xc3 c * xi p) * (yc1 c + yc3 c * eta p))
  (fun j p =>
    ((yc2 c + yc3 c * xi p) * refGradx j p - (yc1 c + yc3 c * eta p) * refGrady j p) * recDetjk p,
   fun j p =>
    (-(xc2 c + xc3 c * xi p) * refGradx j p + (xc1 c + xc3 c * eta p) * refGrady j p) * recDetjk p)

/-- `quad_bilinear.py:141-160` (`get_orig_from_ref_second_derivative`): returns its arguments. -/
def getOrigFromRefSecondDerivative (_c : Quad) {nt q : ℕ}
    (gradxxRef gradxyRef gradyyRef : Fin nt → Fin q → ℝ) (_xi _eta : Fin q → ℝ) :
    Except PyErr ((Fin nt → Fin q → ℝ) × (Fin nt → Fin q → ℝ) × (Fin nt → Fin q → ℝ)) :=
  .ok (gradxxRef, gradxyRef, gradyyRef)

end QuadBilinear

/-- `quad_bilinear.py:18-160` (class `QuadBilinear`). -/
noncomputable def quadBilinear (c : Quad) : FETransformation2D where
  originalFromRef := QuadBilinear.getOriginalFromRef c
  jacobian := QuadBilinear.getJacobian c
  origFromRefDerivative := QuadBilinear.getOrigFromRefDerivative c
  origFromRefSecondDerivative := QuadBilinear.getOrigFromRefSecondDerivative c

namespace QuadAffin

/-! ### `set_cell` (`quad_affine.py:39-67`), one definition per attribute. -/

/-- `quad_affine.py:61`. -/
noncomputable def xc0 (c : Quad) : ℝ := ((c 1).1 + (c 3).1) * 0.5
/-- `quad_affine.py:62`. -/
noncomputable def xc1 (c : Quad) : ℝ := ((c 1).1 - (c 0).1) * 0.5
/-- `quad_affine.py:63`. -/
noncomputable def xc2 (c : Quad) : ℝ := ((c 3).1 - (c 0).1) * 0.5
/-- `quad_affine.py:65`. -/
noncomputable def yc0 (c : Quad) : ℝ := ((c 1).2 + (c 3).2) * 0.5
/-- `quad_affine.py:66`. -/
noncomputable def yc1 (c : Quad) : ℝ := ((c 1).2 - (c 0).2) * 0.5
/-- `quad_affine.py:67`. -/
noncomputable def yc2 (c : Quad) : ℝ := ((c 3).2 - (c 0).2) * 0.5

/-- `quad_affine.py:69-81` (`get_original_from_ref`). -/
noncomputable def getOriginalFromRef (c : Quad) (xi eta : ℝ) : ℝ × ℝ :=
  (xc0 c + xc1 c * xi + xc2 c * eta, yc0 c + yc1 c * xi + yc2 c * eta)

/-- `quad_affine.py:95` (attribute `detjk`). -/
noncomputable def detjk (c : Quad) : ℝ := xc1 c * yc2 c - xc2 c * yc1 c

/-- `quad_affine.py:83-98` (`get_jacobian`).  The scalar it returns is broadcast over the points
(`FE2D_Cell.py:153-155, 230`). -/
noncomputable def getJacobian (c : Quad) (_xi _eta : ℝ) : ℝ := |detjk c|

/-- `quad_affine.py:100-123` (`get_orig_from_ref_derivative`), with `rec_detjk = 1 / detjk` from
line 96.  A vanishing `detjk` gives `inf`/`nan` in numpy; theorems assume it is non-zero. -/
noncomputable def getOrigFromRefDerivative (c : Quad) {nt q : ℕ}
    (refGradx refGrady : Fin nt → Fin q → ℝ) (_xi _eta : Fin q → ℝ) :
    (Fin nt → Fin q → ℝ) × (Fin nt → Fin q → ℝ) :=
  let recDetjk := 1 / detjk c
  (fun j p => (yc2 c * refGradx j p - yc1 c * refGrady j p) * recDetjk,
   fun j p => (-xc2 c * refGradx j p + xc1 c * refGrady j p) * recDetjk)

/-- `quad_affine.py:143-155` (`GeoData`). -/
noncomputable def geoData (c : Quad) : Matrix (Fin 3) (Fin 3) ℝ :=
  !![xc1 c * xc1 c, 2 * xc1 c * yc1 c, yc1 c * yc1 c;
     xc1 c * xc2 c, yc1 c * xc2 c + xc1 c * yc2 c, yc1 c * yc2 c;
     xc2 c * xc2 c, 2 * xc2 c * yc2 c, yc2 c * yc2 c]

open Classical in
/-- `quad_affine.py:125-174` (`get_orig_from_ref_second_derivative`).  `np.linalg.solve(G, I)` is the
inverse matrix and raises `LinAlgError` when `G` is singular. -/
noncomputable def getOrigFromRefSecondDerivative (c : Quad) {nt q : ℕ}
    (gradxxRef gradxyRef gradyyRef : Fin nt → Fin q → ℝ) (_xi _eta : Fin q → ℝ) :
    Except PyErr ((Fin nt → Fin q → ℝ) × (Fin nt → Fin q → ℝ) × (Fin nt → Fin q → ℝ)) :=
  if (geoData c).det = 0 then .error .linAlgError
  else
    let solution := (geoData c)⁻¹
    .ok (fun j p => solution 0 0 * gradxxRef j p + solution 0 1 * gradxyRef j p
            + solution 0 2 * gradyyRef j p,
         fun j p => solution 1 0 * gradxxRef j p + solution 1 1 * gradxyRef j p
            + solution 1 2 * gradyyRef j p,
         fun j p => solution 2 0 * gradxxRef j p + solution 2 1 * gradxyRef j p
            + solution 2 2 * gradyyRef j p)

end QuadAffin

/-- `quad_affine.py:18-174` (class `QuadAffin`). -/
noncomputable def quadAffin (c : Quad) : FETransformation2D where
  originalFromRef := QuadAffin.getOriginalFromRef c
  jacobian := QuadAffin.getJacobian c
  origFromRefDerivative := QuadAffin.getOrigFromRefDerivative c
  origFromRefSecondDerivative := QuadAffin.getOrigFromRefSecondDerivative c

end FastVPINNs
