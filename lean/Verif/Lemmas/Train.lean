import Verif.Spec.Training
import Verif.Lemmas.Physics
import Mathlib.Analysis.Calculus.Deriv.Add

/-! # Lemmas about the training steps -/

namespace FastVPINNs

open Spec

variable {nc nt nq nIn nBd dout : ℕ}

lemma reshapeCells_ok {n : ℕ} (nCells : ℤ) (v : Fin n → ℝ) (h1 : nCells = nc) (h2 : n = nc * nq) :
    ∃ w, reshapeCells nc nq nCells v = .ok w ∧
      ∀ c q (r : Fin n), r.val = c.val * nq + q.val → w c q = v r := by
  have h : nCells * nq = n ∧ nCells = nc := ⟨by rw [h1, h2]; push_cast; ring, h1⟩
  refine ⟨_, by rw [reshapeCells, dif_pos h], fun c q r hr => ?_⟩
  exact congrArg v (Fin.ext hr.symm)

lemma reshapeCells_error {n : ℕ} (nCells : ℤ) (v : Fin n → ℝ) (h : ¬ (nCells = nc ∧ n = nc * nq)) :
    reshapeCells nc nq nCells v = .error .valueError := by
  rw [reshapeCells, dif_neg]
  rintro ⟨h1, h2⟩
  refine h ⟨h2, ?_⟩
  rw [h2] at h1
  exact_mod_cast h1.symm

/-- The index of point `q` of cell `c`. -/
def rowIndex (hrows : nIn = nc * nq) (c : Fin nc) (q : Fin nq) : Fin nIn :=
  ⟨c.val * nq + q.val, by
    rw [hrows]
    calc c.val * nq + q.val < c.val * nq + nq := by omega
      _ = (c.val + 1) * nq := by ring
      _ ≤ nc * nq := Nat.mul_le_mul_right _ c.isLt⟩

/-- The sum over a batch, with one row moved, changes like that row only. -/
lemma sum_update {n : ℕ} (u : ℝ × ℝ → ℝ) (X : Fin n → ℝ × ℝ) (r : Fin n) (z : ℝ × ℝ) :
    ∑ i, u (Function.update X r z i) = (∑ i ∈ Finset.univ.erase r, u (X i)) + u z := by
  rw [← Finset.sum_erase_add _ _ (Finset.mem_univ r), Function.update_self]
  congr 1
  refine Finset.sum_congr rfl fun i hi => ?_
  rw [Function.update_of_ne (Finset.ne_of_mem_erase hi)]

/-- The gradient recorded by the tape for a row-wise scalar function is its gradient at each row. -/
lemma tapeGradient_rows {n : ℕ} {ι : Type} [Fintype ι] (e : ι ≃ Fin n)
    (target : (Fin n → ℝ × ℝ) → ι → ℝ) (u : ℝ × ℝ → ℝ) (h : ∀ X i, target X i = u (X (e i)))
    (X : Fin n → ℝ × ℝ) (r : Fin n) :
    tapeGradient target X r = (dx u (X r), dy u (X r)) := by
  have hs : ∀ Y : Fin n → ℝ × ℝ, ∑ i, target Y i = ∑ i, u (Y i) := by
    intro Y
    rw [← Equiv.sum_comp e fun i => u (Y i)]
    exact Finset.sum_congr rfl fun i _ => h Y i
  unfold tapeGradient
  simp only [hs, sum_update, dx, dy]
  rw [deriv_const_add, deriv_const_add]

/-- What `train_step` passes on for a network that treats the rows independently: the values and the
derivatives at the quadrature points. -/
lemma predictions_eq (M : ModelData nc nt nq nIn nBd) (net : Network 1)
    (u : Fin 1 → ℝ × ℝ → ℝ) (hu : RowWise net u) (pt : Fin nc → Fin nq → ℝ × ℝ) (hM : Shaped M pt) :
    reshapeCells nc nq M.nCells (fun r => (tapeGradient (ι := Fin nIn × Fin 1)
        (fun X i => net _ X i.1 i.2) M.inputTensor r).1) = .ok (fun c q => dx (u 0) (pt c q)) ∧
    reshapeCells nc nq M.nCells (fun r => (tapeGradient (ι := Fin nIn × Fin 1)
        (fun X i => net _ X i.1 i.2) M.inputTensor r).2) = .ok (fun c q => dy (u 0) (pt c q)) ∧
    reshapeCells nc nq M.nCells (flatten (net _ M.inputTensor)) = .ok (fun c q => u 0 (pt c q)) := by
  have hgrad : tapeGradient (ι := Fin nIn × Fin 1) (fun X i => net _ X i.1 i.2) M.inputTensor
      = fun r => (dx (u 0) (M.inputTensor r), dy (u 0) (M.inputTensor r)) := by
    funext r
    refine tapeGradient_rows (Equiv.prodUnique (Fin nIn) (Fin 1)) _ (u 0) (fun X i => ?_) _ r
    rw [hu]
    have : i.2 = 0 := Subsingleton.elim _ _
    rw [this]
    rfl
  have hflat : ∀ r : Fin (nIn * 1), flatten (net _ M.inputTensor) r
      = u 0 (M.inputTensor ⟨r.val, by have := r.isLt; omega⟩) := by
    intro r
    unfold flatten
    rw [hu]
    have h1 : r.modNat = 0 := Subsingleton.elim _ _
    have h2 : r.divNat = ⟨r.val, by have := r.isLt; omega⟩ := Fin.ext (by simp)
    rw [h1, h2]
  simp only [hgrad]
  obtain ⟨gx, hgx, hgx'⟩ := reshapeCells_ok (nc := nc) (nq := nq) M.nCells
    (fun r => dx (u 0) (M.inputTensor r)) hM.cells hM.rows
  obtain ⟨gy, hgy, hgy'⟩ := reshapeCells_ok (nc := nc) (nq := nq) M.nCells
    (fun r => dy (u 0) (M.inputTensor r)) hM.cells hM.rows
  obtain ⟨v, hv, hv'⟩ := reshapeCells_ok (nc := nc) (nq := nq) M.nCells
    (flatten (net _ M.inputTensor)) hM.cells (by rw [mul_one]; exact hM.rows)
  rw [hgx, hgy, hv]
  have e1 : gx = fun c q => dx (u 0) (pt c q) := by
    funext c q
    rw [hgx' c q (rowIndex hM.rows c q) rfl, hM.point c q (rowIndex hM.rows c q) rfl]
  have e2 : gy = fun c q => dy (u 0) (pt c q) := by
    funext c q
    rw [hgy' c q (rowIndex hM.rows c q) rfl, hM.point c q (rowIndex hM.rows c q) rfl]
  have e3 : v = fun c q => u 0 (pt c q) := by
    funext c q
    rw [hv' c q ⟨(rowIndex hM.rows c q).val, by have := (rowIndex hM.rows c q).isLt; omega⟩ rfl, hflat]
    exact congrArg (u 0) (hM.point c q (rowIndex hM.rows c q) rfl)
  rw [e1, e2, e3]
  exact ⟨rfl, rfl, rfl⟩

lemma cellsResidual_eq (L : LossFunction nc nt nq) (M : ModelData nc nt nq nIn nBd) (net : Network 1)
    (u : Fin 1 → ℝ × ℝ → ℝ) (hu : RowWise net u) (pt : Fin nc → Fin nq → ℝ × ℝ) (hM : Shaped M pt)
    (p : ParamDict) (extra : List (String × LossArg nc nt nq)) :
    cellsResidual L M net p extra = L.call (lossKwargs M (fun c q => u 0 (pt c q))
      (fun c q => dx (u 0) (pt c q)) (fun c q => dy (u 0) (pt c q)) p ++ extra) := by
  obtain ⟨h1, h2, h3⟩ := predictions_eq M net u hu pt hM
  unfold cellsResidual
  simp only [h1, h2, h3]

lemma forward_call {kind : LossKind} (hk : kind.forward) (M : ModelData nc nt nq nIn nBd)
    (u ux uy : Fin nc → Fin nq → ℝ) (p : ParamDict) :
    (lossOf kind nc nt nq).call (lossKwargs M u ux uy p ++ [])
      = runLoss kind M.preMultiplierVal M.preMultiplierGradX M.preMultiplierGradY u ux uy M.forceMatrix
          p none [] := by
  rcases hk with rfl | rfl | rfl <;> rfl

lemma meanSquareError_eq {n : ℕ} (pred : Fin n → Fin dout → ℝ) (actual : Fin n → ℝ) (j : Fin dout) :
    meanSquareError pred actual j = meanSq fun i => pred i j - actual i := by
  rw [meanSquareError, meanSquare0_eq]

end FastVPINNs
