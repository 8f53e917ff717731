import Verif.Lemmas.BoundaryMean
import Verif.Spec.Training
import Verif.Lemmas.GaussExists
import Verif.Props.Constructor
import Verif.Props.DataHandler
import Verif.Props.Geometry

/-! # C119: the boundary loss and the error on the boundary

The boundary points of the internal mesh are drawn by Latin hypercube sampling, one point per stratum, the same number on
every side. -/

namespace FastVPINNs

open Spec MeasureTheory

/-- The mean square boundary error over the drawn points, by sides. -/
lemma boundary_rows_eq {x y : ℝ × ℝ} {nb : ℕ} {smp : Fin 4 → Fin (nb / 4) → ℝ}
    {dict : List (ℤ × (ℝ → ℝ → ℝ))} {g : Fin 4 → ℝ → ℝ → ℝ}
    (hg : ∀ a : Fin 4, dict.lookup (1000 + (a : ℕ) : ℤ) = some (g a)) {bdv : List (ℝ × ℝ) × List ℝ}
    (hb : IsBoundaryData x y nb smp dict bdv) (u : ℝ × ℝ → ℝ) :
    bdv.1.length = 4 * (nb / 4) ∧
    (∑ i : Fin bdv.1.length, (u (bdv.1.get i) - bdv.2.getD i.val 0) ^ 2) / (bdv.1.length : ℝ)
      = (∑ a, ∑ k, sideError x y u (g a) a (smp a k)) / (4 * ((nb / 4 : ℕ) : ℝ)) := by
  obtain ⟨ext, G, nx, ny, s, f, plot, nq, S, S', D, h1, h2, h3⟩ := hb
  rw [dataHandler_dirichlet h2, dirichlet_values h1, Except.ok.injEq] at h3
  subst h3
  have hlen : ((taggedPoints (internalBoundary x y nb smp)).map Prod.snd).length = 4 * (nb / 4) := by
    simp [taggedPoints, internalBoundary]
    omega
  refine ⟨hlen, ?_⟩
  have hsum := sum_rows (taggedPoints (internalBoundary x y nb smp)) Prod.snd
    (fun r => ((dict.lookup r.1).getD fun _ _ => 0) r.2.1 r.2.2) (fun p v => (u p - v) ^ 2)
  rw [boundary_loss_sides x y nb smp dict g hg u] at hsum
  have hl : (((taggedPoints (internalBoundary x y nb smp)).map Prod.snd).length : ℝ) = 4 * ((nb / 4 : ℕ) : ℝ) := by
    rw [hlen]
    push_cast
    ring
  rw [← hsum, ← hl]
  rfl

/-- The boundary loss of the three models. -/
lemma boundary_loss_models {bdv : List (ℝ × ℝ) × List ℝ} (u : ℝ × ℝ → ℝ) (v : ℝ)
    (hv : (∑ i : Fin bdv.1.length, (u (bdv.1.get i) - bdv.2.getD i.val 0) ^ 2) / (bdv.1.length : ℝ) = v)
    {nt nq : ℕ} (D : DataHandler2D nt nq) (nCells : ℕ) (L : LossFunction D.nCells nt nq) (beta : ℝ) (p : ParamDict) :
    (∀ (net : Network 1), RowWise net (fun _ => u) → ∀ out,
      trainStepDense L (modelDataOf D bdv nCells) net beta p = .ok out → out.lossDirichlet 0 = v) ∧
    (∀ (net : Network 1), RowWise net (fun _ => u) → ∀ (nS : ℕ) (sp : Fin nS → ℝ × ℝ) (sv : Fin nS → ℝ) ip out,
      trainStepInverse L (modelDataOf D bdv nCells) sp sv ip net beta p = .ok out → out.lossDirichlet 0 = v) ∧
    ∀ (net : Network 2) (k : ℝ × ℝ → ℝ), RowWise net (fun j => if j = 0 then u else k) →
      ∀ (nS : ℕ) (sp : Fin nS → ℝ × ℝ) (sv : Fin nS → ℝ) out,
      trainStepInverseDomain L (modelDataOf D bdv nCells) sp sv net beta p = .ok out → out.lossDirichlet 0 = v := by
  subst hv
  refine ⟨fun net hu out h => ?_, fun net hu nS sp sv ip out h => ?_, fun net k hu nS sp sv out h => ?_⟩
  · unfold trainStepDense at h
    simp only at h
    split at h
    · cases h
    rw [← Except.ok.inj h]
    simp only [meanSquareError, meanSquare0, hu _ _ _ _]
    congr 1
  · unfold trainStepInverse at h
    simp only at h
    split at h
    · cases h
    rw [← Except.ok.inj h]
    simp only [meanSquareError, meanSquare0, hu _ _ _ _]
    congr 1
  · unfold trainStepInverseDomain at h
    rw [dif_pos (by norm_num)] at h
    simp only at h
    split at h
    · split at h
      · cases h
      rw [← Except.ok.inj h]
      simp only [meanSquareError, meanSquare0, hu _ _ _ _]
      congr 1
    all_goals cases h

/-- The mean square boundary error over the drawn points is close to the mean of the sides. -/
lemma sides_close {x y : ℝ × ℝ} {n : ℕ} (hn : 0 < n) {smp : Fin 4 → Fin n → ℝ}
    (hs : ∀ a, IsStratified (smp a)) (g : Fin 4 → ℝ → ℝ → ℝ) (u : ℝ × ℝ → ℝ)
    (hc : ∀ a, ContinuousOn (sideError x y u (g a) a) (Set.Icc 0 1)) (ε : ℝ)
    (hosc : ∀ a, ∀ t ∈ Set.Icc (0 : ℝ) 1, ∀ t' ∈ Set.Icc (0 : ℝ) 1, |t - t'| ≤ 1 / n →
      |sideError x y u (g a) a t - sideError x y u (g a) a t'| ≤ ε) :
    |(∑ a, ∑ k, sideError x y u (g a) a (smp a k)) / (4 * (n : ℝ)) - (∑ a, sideMean x y u (g a) a) / 4| ≤ ε := by
  have hside : ∀ a, |(∑ k, sideError x y u (g a) a (smp a k)) / (n : ℝ) - sideMean x y u (g a) a| ≤ ε :=
    fun a => stratified_mean hn (smp a) (hs a) _ (hc a) ε (hosc a)
  rw [show (∑ a, ∑ k, sideError x y u (g a) a (smp a k)) / (4 * (n : ℝ)) - (∑ a, sideMean x y u (g a) a) / 4
    = (∑ a, ((∑ k, sideError x y u (g a) a (smp a k)) / (n : ℝ) - sideMean x y u (g a) a)) / 4 by
      rw [Finset.sum_sub_distrib, ← Finset.sum_div, sub_div, div_div, mul_comm (4 : ℝ)]]
  rw [abs_div, abs_of_pos (by norm_num : (0 : ℝ) < 4), div_le_iff₀ (by norm_num)]
  refine (Finset.abs_sum_le_sum_abs _ _).trans ((Finset.sum_le_sum fun a _ => hside a).trans ?_)
  simp [mul_comm]

/-- **C119** (boundary loss).  On a rectangle with `nb ≥ 4` boundary points, for every outcome of the Latin hypercube
sampling: in a training step of each of the three models with a boundary loss, that loss differs from the mean of the
mean square boundary errors of the four sides by at most the oscillation of the squared error over the `nb / 4`-th part
of a side.  There is one row per drawn point, `4 * (nb / 4)` in all. -/
theorem C119_boundary_loss {x y : ℝ × ℝ} {nb : ℕ} (hnb : 4 ≤ nb) {smp : Fin 4 → Fin (nb / 4) → ℝ}
    (hs : ∀ a, IsStratified (smp a)) {dict : List (ℤ × (ℝ → ℝ → ℝ))} {g : Fin 4 → ℝ → ℝ → ℝ}
    (hg : ∀ a : Fin 4, dict.lookup (1000 + (a : ℕ) : ℤ) = some (g a)) {bdv : List (ℝ × ℝ) × List ℝ}
    (hb : IsBoundaryData x y nb smp dict bdv) (u : ℝ × ℝ → ℝ)
    (hc : ∀ a, ContinuousOn (sideError x y u (g a) a) (Set.Icc 0 1)) (ε : ℝ)
    (hosc : ∀ a, ∀ t ∈ Set.Icc (0 : ℝ) 1, ∀ t' ∈ Set.Icc (0 : ℝ) 1, |t - t'| ≤ 1 / (nb / 4 : ℕ) →
      |sideError x y u (g a) a t - sideError x y u (g a) a t'| ≤ ε)
    {nt nq : ℕ} (D : DataHandler2D nt nq) (nCells : ℕ) (L : LossFunction D.nCells nt nq) (beta : ℝ) (p : ParamDict) :
    bdv.1.length = 4 * (nb / 4) ∧
    (∀ (net : Network 1), RowWise net (fun _ => u) → ∀ out,
      trainStepDense L (modelDataOf D bdv nCells) net beta p = .ok out →
      |out.lossDirichlet 0 - (∑ a, sideMean x y u (g a) a) / 4| ≤ ε) ∧
    (∀ (net : Network 1), RowWise net (fun _ => u) → ∀ (nS : ℕ) (sp : Fin nS → ℝ × ℝ) (sv : Fin nS → ℝ) ip out,
      trainStepInverse L (modelDataOf D bdv nCells) sp sv ip net beta p = .ok out →
      |out.lossDirichlet 0 - (∑ a, sideMean x y u (g a) a) / 4| ≤ ε) ∧
    ∀ (net : Network 2) (k : ℝ × ℝ → ℝ), RowWise net (fun j => if j = 0 then u else k) →
      ∀ (nS : ℕ) (sp : Fin nS → ℝ × ℝ) (sv : Fin nS → ℝ) out,
      trainStepInverseDomain L (modelDataOf D bdv nCells) sp sv net beta p = .ok out →
      |out.lossDirichlet 0 - (∑ a, sideMean x y u (g a) a) / 4| ≤ ε := by
  obtain ⟨hlen, heq⟩ := boundary_rows_eq hg hb u
  have hclose := sides_close (by omega) hs g u hc ε hosc
  obtain ⟨m1, m2, m3⟩ := boundary_loss_models u _ heq D nCells L beta p
  refine ⟨hlen, fun net hu out h => ?_, fun net hu nS sp sv ip out h => ?_, fun net k hu nS sp sv out h => ?_⟩
  · rwa [m1 net hu out h]
  · rwa [m2 net hu nS sp sv ip out h]
  · rwa [m3 net k hu nS sp sv out h]

/-- Every parameter is within the length of a stratum of a drawn one. -/
lemma stratified_near {n : ℕ} (hn : 0 < n) {s : Fin n → ℝ} (hs : IsStratified s) {t : ℝ} (ht : t ∈ Set.Icc (0 : ℝ) 1) :
    ∃ k, s k ∈ Set.Icc (0 : ℝ) 1 ∧ |t - s k| ≤ 1 / n := by
  obtain ⟨π, hπ⟩ := hs
  have hn' : (0 : ℝ) < n := by exact_mod_cast hn
  obtain ⟨i, hi1, hi2⟩ : ∃ i : Fin n, (i : ℝ) / n ≤ t ∧ t ≤ ((i : ℝ) + 1) / n := by
    rcases eq_or_lt_of_le ht.2 with h1 | h1
    · refine ⟨⟨n - 1, by omega⟩, ?_, ?_⟩
      · rw [h1, div_le_one hn', Nat.cast_le]
        exact Nat.sub_le _ _
      · rw [h1, le_div_iff₀ hn', one_mul]
        have : n = n - 1 + 1 := by omega
        exact_mod_cast this.le
    · have hfl : ⌊t * n⌋₊ < n := (Nat.floor_lt (mul_nonneg ht.1 hn'.le)).2 (by nlinarith)
      refine ⟨⟨⌊t * n⌋₊, hfl⟩, ?_, ?_⟩
      · rw [div_le_iff₀ hn']
        exact Nat.floor_le (mul_nonneg ht.1 hn'.le)
      · rw [le_div_iff₀ hn']
        exact (Nat.lt_floor_add_one _).le
  obtain ⟨h1, h2⟩ := hπ (π.symm i)
  rw [Equiv.apply_symm_apply] at h1 h2
  have h3 : ((i : ℝ) + 1) / n = i / n + 1 / n := add_div _ _ _
  have h4 : ((i : ℝ) + 1) / n ≤ 1 := by
    rw [div_le_one hn']
    exact_mod_cast i.isLt
  have h5 : (0 : ℝ) ≤ (i : ℝ) / n := by positivity
  refine ⟨π.symm i, ⟨h5.trans h1, h2.le.trans h4⟩, ?_⟩
  rw [abs_le]
  constructor <;> linarith

/-- **C119** (certificate).  For every draw, the boundary loss bounds the boundary error at every point of every side, not
only at the drawn ones: by the root of the loss times the number of drawn points, plus the oscillation of the error over
the `nb / 4`-th part of a side. -/
theorem C119_certificate {x y : ℝ × ℝ} {nb : ℕ} (hnb : 4 ≤ nb) {smp : Fin 4 → Fin (nb / 4) → ℝ}
    (hs : ∀ a, IsStratified (smp a)) {dict : List (ℤ × (ℝ → ℝ → ℝ))} {g : Fin 4 → ℝ → ℝ → ℝ}
    (hg : ∀ a : Fin 4, dict.lookup (1000 + (a : ℕ) : ℤ) = some (g a)) {bdv : List (ℝ × ℝ) × List ℝ}
    (hb : IsBoundaryData x y nb smp dict bdv) (u : ℝ × ℝ → ℝ) (ω : ℝ)
    (hosc : ∀ a, ∀ t ∈ Set.Icc (0 : ℝ) 1, ∀ t' ∈ Set.Icc (0 : ℝ) 1, |t - t'| ≤ 1 / (nb / 4 : ℕ) →
      |(u (sidePoint x y a t) - g a (sidePoint x y a t).1 (sidePoint x y a t).2)
        - (u (sidePoint x y a t') - g a (sidePoint x y a t').1 (sidePoint x y a t').2)| ≤ ω)
    {nt nq : ℕ} (D : DataHandler2D nt nq) (nCells : ℕ) (L : LossFunction D.nCells nt nq) (beta : ℝ) (p : ParamDict)
    (a : Fin 4) (t : ℝ) (ht : t ∈ Set.Icc (0 : ℝ) 1) :
    (∀ (net : Network 1), RowWise net (fun _ => u) → ∀ out,
      trainStepDense L (modelDataOf D bdv nCells) net beta p = .ok out →
      |u (sidePoint x y a t) - g a (sidePoint x y a t).1 (sidePoint x y a t).2|
        ≤ √(4 * (nb / 4 : ℕ) * out.lossDirichlet 0) + ω) ∧
    (∀ (net : Network 1), RowWise net (fun _ => u) → ∀ (nS : ℕ) (sp : Fin nS → ℝ × ℝ) (sv : Fin nS → ℝ) ip out,
      trainStepInverse L (modelDataOf D bdv nCells) sp sv ip net beta p = .ok out →
      |u (sidePoint x y a t) - g a (sidePoint x y a t).1 (sidePoint x y a t).2|
        ≤ √(4 * (nb / 4 : ℕ) * out.lossDirichlet 0) + ω) ∧
    ∀ (net : Network 2) (k : ℝ × ℝ → ℝ), RowWise net (fun j => if j = 0 then u else k) →
      ∀ (nS : ℕ) (sp : Fin nS → ℝ × ℝ) (sv : Fin nS → ℝ) out,
      trainStepInverseDomain L (modelDataOf D bdv nCells) sp sv net beta p = .ok out →
      |u (sidePoint x y a t) - g a (sidePoint x y a t).1 (sidePoint x y a t).2|
        ≤ √(4 * (nb / 4 : ℕ) * out.lossDirichlet 0) + ω := by
  obtain ⟨-, heq⟩ := boundary_rows_eq hg hb u
  obtain ⟨m1, m2, m3⟩ := boundary_loss_models u _ heq D nCells L beta p
  have hn : 0 < nb / 4 := by omega
  have hn' : (0 : ℝ) < ((nb / 4 : ℕ) : ℝ) := by exact_mod_cast hn
  have key : |u (sidePoint x y a t) - g a (sidePoint x y a t).1 (sidePoint x y a t).2|
      ≤ √(4 * (nb / 4 : ℕ) * ((∑ a, ∑ k, sideError x y u (g a) a (smp a k)) / (4 * ((nb / 4 : ℕ) : ℝ)))) + ω := by
    rw [mul_div_cancel₀ _ (by positivity)]
    obtain ⟨k, hk, hnear⟩ := stratified_near hn (hs a) ht
    have h1 := hosc a t ht (smp a k) hk hnear
    have hpos : ∀ a k, 0 ≤ sideError x y u (g a) a (smp a k) := fun a k => sq_nonneg _
    have h2 : sideError x y u (g a) a (smp a k) ≤ ∑ a, ∑ k, sideError x y u (g a) a (smp a k) :=
      (Finset.single_le_sum (f := fun k => sideError x y u (g a) a (smp a k)) (fun k _ => hpos a k)
        (Finset.mem_univ k)).trans
        (Finset.single_le_sum (f := fun a => ∑ k, sideError x y u (g a) a (smp a k))
          (fun a _ => Finset.sum_nonneg fun k _ => hpos a k) (Finset.mem_univ a))
    have h3 := Real.abs_le_sqrt h2
    have h4 := abs_sub_abs_le_abs_sub (u (sidePoint x y a t) - g a (sidePoint x y a t).1 (sidePoint x y a t).2)
      (u (sidePoint x y a (smp a k)) - g a (sidePoint x y a (smp a k)).1 (sidePoint x y a (smp a k)).2)
    linarith
  refine ⟨fun net hu out h => ?_, fun net hu nS sp sv ip out h => ?_, fun net k hu nS sp sv out h => ?_⟩
  · rwa [m1 net hu out h]
  · rwa [m2 net hu nS sp sv ip out h]
  · rwa [m3 net k hu nS sp sv out h]

/-- **C119** (more boundary points).  If network and boundary functions are continuous, the boundary loss is as close as
wanted to the mean over the four sides for all sufficiently many boundary points, whatever the draws; the number needed
depends on network, boundary functions and rectangle only. -/
theorem C119_converges (x y : ℝ × ℝ) (u : ℝ × ℝ → ℝ) (hu : Continuous u) (g : Fin 4 → ℝ → ℝ → ℝ)
    (hg : ∀ a, Continuous fun p : ℝ × ℝ => g a p.1 p.2) (ε : ℝ) (hε : 0 < ε) :
    ∃ N, ∀ nb ≥ N, ∀ (smp : Fin 4 → Fin (nb / 4) → ℝ), (∀ a, IsStratified (smp a)) →
      ∀ (dict : List (ℤ × (ℝ → ℝ → ℝ))), (∀ a : Fin 4, dict.lookup (1000 + (a : ℕ) : ℤ) = some (g a)) →
      ∀ bdv, IsBoundaryData x y nb smp dict bdv →
      ∀ (nt nq : ℕ) (D : DataHandler2D nt nq) (nCells : ℕ) (L : LossFunction D.nCells nt nq) (beta : ℝ) (p : ParamDict),
        (∀ (net : Network 1), RowWise net (fun _ => u) → ∀ out,
          trainStepDense L (modelDataOf D bdv nCells) net beta p = .ok out →
          |out.lossDirichlet 0 - (∑ a, sideMean x y u (g a) a) / 4| ≤ ε) ∧
        (∀ (net : Network 1), RowWise net (fun _ => u) → ∀ (nS : ℕ) (sp : Fin nS → ℝ × ℝ) (sv : Fin nS → ℝ) ip out,
          trainStepInverse L (modelDataOf D bdv nCells) sp sv ip net beta p = .ok out →
          |out.lossDirichlet 0 - (∑ a, sideMean x y u (g a) a) / 4| ≤ ε) ∧
        ∀ (net : Network 2) (k : ℝ × ℝ → ℝ), RowWise net (fun j => if j = 0 then u else k) →
          ∀ (nS : ℕ) (sp : Fin nS → ℝ × ℝ) (sv : Fin nS → ℝ) out,
          trainStepInverseDomain L (modelDataOf D bdv nCells) sp sv net beta p = .ok out →
          |out.lossDirichlet 0 - (∑ a, sideMean x y u (g a) a) / 4| ≤ ε := by
  have hside : ∀ a, Continuous (sidePoint x y a) := by
    intro a
    fin_cases a <;> unfold sidePoint <;> fun_prop
  have hcont : ∀ a, Continuous (sideError x y u (g a) a) := fun a =>
    ((hu.comp (hside a)).sub ((hg a).comp (hside a))).pow 2
  have huc : ∀ a, ∃ δ > 0, ∀ t ∈ Set.Icc (0 : ℝ) 1, ∀ t' ∈ Set.Icc (0 : ℝ) 1, |t - t'| < δ →
      |sideError x y u (g a) a t - sideError x y u (g a) a t'| ≤ ε := by
    intro a
    obtain ⟨δ, hδ, h⟩ := Metric.uniformContinuousOn_iff.1
      (isCompact_Icc.uniformContinuousOn_of_continuous (hcont a).continuousOn) ε hε
    exact ⟨δ, hδ, fun t ht t' ht' htt => (h t ht t' ht' htt).le⟩
  choose δ hδ hosc using huc
  obtain ⟨d, hd, hdle⟩ : ∃ d > 0, ∀ a, d ≤ δ a :=
    ⟨Finset.univ.inf' Finset.univ_nonempty δ, by simp [Finset.lt_inf'_iff, hδ], fun a =>
      Finset.inf'_le _ (Finset.mem_univ a)⟩
  obtain ⟨m, hm⟩ := exists_nat_gt (1 / d)
  refine ⟨4 * (m + 1), fun nb hnb smp hs dict hgd bdv hb nt nq D nCells L beta p => ?_⟩
  have hq : m + 1 ≤ nb / 4 := by omega
  have hlt : 1 / ((nb / 4 : ℕ) : ℝ) < d := by
    have h1 : (m : ℝ) + 1 ≤ ((nb / 4 : ℕ) : ℝ) := by exact_mod_cast hq
    have h2 : 1 / d < ((nb / 4 : ℕ) : ℝ) := by linarith
    have h3 : (0 : ℝ) < ((nb / 4 : ℕ) : ℝ) := (by positivity : (0 : ℝ) < 1 / d).trans h2
    rw [div_lt_iff₀ h3]
    rwa [div_lt_iff₀ hd, mul_comm] at h2
  exact (C119_boundary_loss (by omega) hs hgd hb u (fun a => (hcont a).continuousOn) ε
    (fun a t ht t' ht' htt => hosc a t ht t' ht' ((htt.trans_lt hlt).trans_le (hdle a))) D nCells L beta p).2

/-- When the mean of the side means is the mean over the boundary. -/
lemma sides_mean_iff (x y : ℝ × ℝ) (hx : x.1 < x.2) (hy : y.1 < y.2) (u : ℝ × ℝ → ℝ) (g : Fin 4 → ℝ → ℝ → ℝ) :
    (∑ a, sideMean x y u (g a) a) / 4 = boundaryMean x y u g ↔
      x.2 - x.1 = y.2 - y.1 ∨
      sideMean x y u (g 0) 0 + sideMean x y u (g 2) 2 = sideMean x y u (g 1) 1 + sideMean x y u (g 3) 3 := by
  unfold boundaryMean
  simp only [Fin.sum_univ_four, sideLength]
  generalize sideMean x y u (g 0) 0 = a
  generalize sideMean x y u (g 1) 1 = b
  generalize sideMean x y u (g 2) 2 = c
  generalize sideMean x y u (g 3) 3 = d
  have h1 : 0 < x.2 - x.1 := by linarith
  have h2 : 0 < y.2 - y.1 := by linarith
  generalize x.2 - x.1 = p at h1 ⊢
  generalize y.2 - y.1 = q at h2 ⊢
  rw [div_eq_div_iff (by norm_num) (by positivity)]
  rw [← sub_eq_zero, show (a + b + c + d) * (p + q + p + q) - (p * a + q * b + p * c + q * d) * 4
    = -2 * ((p - q) * ((a + c) - (b + d))) by ring]
  rw [mul_eq_zero, or_iff_right (by norm_num), mul_eq_zero, sub_eq_zero, sub_eq_zero]

/-- For every draw on every rectangle there are boundary data. -/
lemma boundaryData_exists (x y : ℝ × ℝ) (hx : x.1 < x.2) (hy : y.1 < y.2) (nb : ℕ) (smp : Fin 4 → Fin (nb / 4) → ℝ)
    (dict : List (ℤ × (ℝ → ℝ → ℝ))) (g : Fin 4 → ℝ → ℝ → ℝ)
    (hg : ∀ a : Fin 4, dict.lookup (1000 + (a : ℕ) : ℤ) = some (g a)) (ext : QuadRoutines) :
    ∃ bdv, IsBoundaryData x y nb smp dict bdv := by
  let G : Geometry2D := ⟨"quadrilateral", "internal", 10, 10, false, none, none⟩
  obtain ⟨nq, S, h⟩ := (C63_constructor ext (generateQuadMeshInternal G x y 2 1 nb smp).meshPoints
    (generateQuadMeshInternal G x y 2 1 nb smp).cells (generateQuadMeshInternal G x y 2 1 nb smp).bdDict
    ⟨"quadrilateral", 2, "legendre", 3, "gauss-legendre", "bilinear"⟩ dict fun _ _ : ℝ => (1 : ℝ)).2 ⟨rfl, by
      refine List.ne_nil_of_length_pos ?_
      rw [(C02_internal_cells G x y hx hy 2 1 nb smp).1]
      norm_num, by decide, by simp [supportedFeType], by decide, Or.inl rfl, Or.inl rfl, by
      intro e he _
      simp only [generateQuadMeshInternal, internalBoundary, List.mem_cons, List.not_mem_nil, or_false] at he
      rcases he with rfl | rfl | rfl | rfl
      exacts [⟨_, hg 0⟩, ⟨_, hg 1⟩, ⟨_, hg 2⟩, ⟨_, hg 3⟩]⟩
  obtain ⟨-, D, S', hD, -⟩ := C41_layout ext _ _ _ _ _ _ _ S h
  exact ⟨_, ext, G, 2, 1, _, _, _, nq, S, S', D, h, hD, (dataHandler_dirichlet hD).trans (dirichlet_values h)⟩

/-- A training step on the data of a draw returns. -/
lemma poisson_step_returns {nt nq : ℕ} (D : DataHandler2D nt nq) (bdv : List (ℝ × ℝ) × List ℝ) (u : ℝ × ℝ → ℝ) (beta : ℝ) :
    ∃ out, trainStepDense (lossPoisson D.nCells nt nq) (modelDataOf D bdv D.nCells)
      (fun _ X i _ => u (X i) : Network 1) beta (some [("eps", 1)]) = .ok out := by
  simp [trainStepDense, cellsResidual, reshapeCells, LossFunction.call, lossPoisson, lossKwargs, bindKwargs, modelDataOf,
    commonParams, mapE, List.lookup, pdeLossPoisson, paramGet]

/-- Every number of strata has a draw. -/
lemma stratified_exists (n : ℕ) : IsStratified fun k : Fin n => (k.val : ℝ) / n := by
  refine ⟨Equiv.refl _, fun k => ⟨le_rfl, ?_⟩⟩
  have : (0 : ℝ) < n := by exact_mod_cast k.pos
  simp only [Equiv.refl_apply]
  gcongr
  linarith

/-- **C119** (sides count alike).  For continuous network and boundary functions, the boundary loss of `DenseModel` tends
to the mean over the whole boundary, as the number of boundary points grows, exactly if the rectangle is a square or the
errors on the horizontal and on the vertical sides have the same mean: a short side counts as much as a long one. -/
theorem C119_sides (x y : ℝ × ℝ) (hx : x.1 < x.2) (hy : y.1 < y.2) (u : ℝ × ℝ → ℝ) (hu : Continuous u)
    (g : Fin 4 → ℝ → ℝ → ℝ) (hg : ∀ a, Continuous fun p : ℝ × ℝ => g a p.1 p.2) :
    (∀ ε > 0, ∃ N, ∀ nb ≥ N, ∀ (smp : Fin 4 → Fin (nb / 4) → ℝ), (∀ a, IsStratified (smp a)) →
      ∀ (dict : List (ℤ × (ℝ → ℝ → ℝ))), (∀ a : Fin 4, dict.lookup (1000 + (a : ℕ) : ℤ) = some (g a)) →
      ∀ bdv, IsBoundaryData x y nb smp dict bdv →
      ∀ (nt nq : ℕ) (D : DataHandler2D nt nq) (nCells : ℕ) (L : LossFunction D.nCells nt nq) (beta : ℝ) (p : ParamDict)
        (net : Network 1), RowWise net (fun _ => u) → ∀ out,
        trainStepDense L (modelDataOf D bdv nCells) net beta p = .ok out →
        |out.lossDirichlet 0 - boundaryMean x y u g| ≤ ε) ↔
      x.2 - x.1 = y.2 - y.1 ∨
      sideMean x y u (g 0) 0 + sideMean x y u (g 2) 2 = sideMean x y u (g 1) 1 + sideMean x y u (g 3) 3 := by
  rw [← sides_mean_iff x y hx hy u g]
  constructor
  · intro h
    by_contra hne
    have hpos : 0 < |(∑ a, sideMean x y u (g a) a) / 4 - boundaryMean x y u g| := abs_pos.2 (sub_ne_zero.2 hne)
    obtain ⟨N, hN⟩ := h (|(∑ a, sideMean x y u (g a) a) / 4 - boundaryMean x y u g| / 3) (by positivity)
    obtain ⟨N', hN'⟩ := C119_converges x y u hu g hg (|(∑ a, sideMean x y u (g a) a) / 4 - boundaryMean x y u g| / 3)
      (by positivity)
    obtain ⟨ext, -, -⟩ := quadRoutines_exist
    let nb := max N N'
    have hs : ∀ _a : Fin 4, IsStratified fun k : Fin (nb / 4) => (k.val : ℝ) / (nb / 4 : ℕ) := fun _ =>
      stratified_exists _
    have hd : ∀ a : Fin 4, ((List.finRange 4).map fun a : Fin 4 => ((1000 + (a : ℕ) : ℤ), g a)).lookup (1000 + (a : ℕ) : ℤ)
        = some (g a) := by
      intro a
      fin_cases a <;> rfl
    obtain ⟨bdv, hb⟩ := boundaryData_exists x y hx hy nb (fun _ k => (k.val : ℝ) / (nb / 4 : ℕ)) _ g hd ext
    obtain ⟨-, -, -, -, s, -, -, nq, -, -, D, -⟩ := id hb
    obtain ⟨out, ho⟩ := poisson_step_returns D bdv u 1
    have h1 := hN nb (le_max_left _ _) _ hs _ hd bdv hb _ _ D _ _ _ _ _ (fun _ _ _ _ => rfl) out ho
    have h2 := (hN' nb (le_max_right _ _) _ hs _ hd bdv hb _ _ D _ _ _ _).1 _ (fun _ _ _ _ => rfl) out ho
    have h3 := abs_sub_le ((∑ a, sideMean x y u (g a) a) / 4) (out.lossDirichlet 0) (boundaryMean x y u g)
    rw [abs_sub_comm _ (out.lossDirichlet 0)] at h3
    linarith
  · intro he ε hε
    obtain ⟨N, hN⟩ := C119_converges x y u hu g hg ε hε
    refine ⟨N, fun nb hnb smp hs dict hd bdv hb nt nq D nCells L beta p net hnet out ho => ?_⟩
    rw [← he]
    exact (hN nb hnb smp hs dict hd bdv hb nt nq D nCells L beta p).1 net hnet out ho

/-- C119 on the rectangle of sides 3 and 1 with nine boundary points, two per side, for `u = x` and boundary value 0: the
mean squares of the sides are 3, 9, 3 and 0, so that the loss tends to 15/4, whereas the mean over the boundary is 27/8.
There are boundary data. -/
example (ext : QuadRoutines) :
    (∃ smp : Fin 4 → Fin (9 / 4) → ℝ, (∀ a, IsStratified (smp a)) ∧
      ∃ bdv, IsBoundaryData (0, 3) (0, 1) 9 smp ((List.finRange 4).map fun a => ((1000 + (a : ℕ) : ℤ), fun _ _ => 0)) bdv) ∧
    (∑ a, sideMean (0, 3) (0, 1) (fun q => q.1) (fun _ _ => 0) a) / 4 = 15 / 4 ∧
    boundaryMean (0, 3) (0, 1) (fun q => q.1) (fun _ _ _ => 0) = 27 / 8 := by
  have h0 : ∀ t : ℝ, (0 + t * (3 - 0) - 0) ^ 2 = 9 * t ^ 2 := fun t => by ring
  refine ⟨⟨fun _ k => (k.val : ℝ) / 2, fun a => ⟨Equiv.refl _, fun k => ⟨le_rfl, ?_⟩⟩, ?_⟩, ?_, ?_⟩
  · simp only [Equiv.refl_apply]
    norm_num
    linarith
  · refine boundaryData_exists _ _ (by norm_num) (by norm_num) _ _ _ (fun _ _ _ => 0) (fun a => ?_) ext
    fin_cases a <;> rfl
  · simp only [Fin.sum_univ_four, sideMean, sideError, sidePoint, h0]
    norm_num
  · simp only [boundaryMean, Fin.sum_univ_four, sideMean, sideError, sidePoint, sideLength, h0]
    norm_num

/-- C119: training steps on the data of a draw, with the loss of the library, return. -/
example (nt nq : ℕ) (D : DataHandler2D nt nq) (bdv : List (ℝ × ℝ) × List ℝ) (beta : ℝ) :
    RowWise (fun _ X i _ => (X i).1 : Network 1) (fun _ q => q.1) ∧
    ∃ out, trainStepDense (lossPoisson D.nCells nt nq) (modelDataOf D bdv D.nCells)
      (fun _ X i _ => (X i).1 : Network 1) beta (some [("eps", 1)]) = .ok out := by
  exact ⟨fun _ _ _ _ => rfl, poisson_step_returns D bdv (fun q => q.1) beta⟩

/-- C119 in the same case: the squared error is continuous and its oscillation over half a side is at most 9, that of the
error at most 3/2. -/
example : (∀ a, ContinuousOn (sideError (0, 3) (0, 1) (fun q => q.1) (fun _ _ => 0) a) (Set.Icc 0 1)) ∧
    (∀ a, ∀ t ∈ Set.Icc (0 : ℝ) 1, ∀ t' ∈ Set.Icc (0 : ℝ) 1, |t - t'| ≤ 1 / (9 / 4 : ℕ) →
      |sideError (0, 3) (0, 1) (fun q => q.1) (fun _ _ => 0) a t
        - sideError (0, 3) (0, 1) (fun q => q.1) (fun _ _ => 0) a t'| ≤ 9) ∧
    ∀ a, ∀ t ∈ Set.Icc (0 : ℝ) 1, ∀ t' ∈ Set.Icc (0 : ℝ) 1, |t - t'| ≤ 1 / (9 / 4 : ℕ) →
      |((sidePoint (0, 3) (0, 1) a t).1 - 0) - ((sidePoint (0, 3) (0, 1) a t').1 - 0)| ≤ 3 / 2 := by
  refine ⟨fun a => ?_, fun a t ht t' ht' h => ?_, fun a t ht t' ht' h => ?_⟩
  · fin_cases a <;> unfold sideError sidePoint <;> fun_prop
  · obtain ⟨h1, h2⟩ := ht
    obtain ⟨h3, h4⟩ := ht'
    fin_cases a <;> simp only [sideError, sidePoint] <;> rw [abs_le] <;> constructor <;> nlinarith
  · norm_num at h
    rw [abs_le] at h
    fin_cases a <;> simp only [sidePoint] <;> rw [abs_le] <;> constructor <;> linarith

end FastVPINNs
