import Verif.Spec.BoundaryMean
import Verif.Props.Examples
import Mathlib.MeasureTheory.Integral.IntervalIntegral.Basic

/-! # Lemmas for C119 -/

namespace FastVPINNs

open Spec MeasureTheory

/-- The mean over one point per stratum is within the oscillation over a stratum of the integral. -/
lemma stratified_mean {n : ℕ} (hn : 0 < n) (s : Fin n → ℝ) (hs : IsStratified s) (e : ℝ → ℝ)
    (he : ContinuousOn e (Set.Icc 0 1)) (ε : ℝ)
    (hosc : ∀ t ∈ Set.Icc (0 : ℝ) 1, ∀ t' ∈ Set.Icc (0 : ℝ) 1, |t - t'| ≤ 1 / n → |e t - e t'| ≤ ε) :
    |(∑ k, e (s k)) / n - ∫ t in (0 : ℝ)..1, e t| ≤ ε := by
  obtain ⟨π, hπ⟩ := hs
  have hn' : (0 : ℝ) < n := by exact_mod_cast hn
  set a : ℕ → ℝ := fun i => (i : ℝ) / n with ha
  have ha01 : ∀ i ≤ n, a i ∈ Set.Icc (0 : ℝ) 1 := by
    intro i hi
    have : (i : ℝ) ≤ n := by exact_mod_cast hi
    exact ⟨by positivity, by rw [ha]; simp only; rw [div_le_one hn']; exact this⟩
  have hsub : ∀ i < n, Set.uIcc (a i) (a (i + 1)) ⊆ Set.Icc (0 : ℝ) 1 := by
    intro i hi
    exact Set.uIcc_subset_Icc (ha01 i hi.le) (ha01 (i + 1) hi)
  have hint : ∀ i < n, IntervalIntegrable e volume (a i) (a (i + 1)) := fun i hi =>
    (he.mono (hsub i hi)).intervalIntegrable
  have hsum : ∫ t in (0 : ℝ)..1, e t = ∑ i : Fin n, ∫ t in a i..a (i + 1), e t := by
    rw [Fin.sum_univ_eq_sum_range (fun i => ∫ t in a i..a (i + 1), e t) n,
      intervalIntegral.sum_integral_adjacent_intervals hint]
    simp [ha, hn'.ne']
  have hperm : ∑ k, e (s k) = ∑ i, e (s (π.symm i)) := (Equiv.sum_comp π.symm fun k => e (s k)).symm
  have hstep : ∀ i : Fin n, a (i + 1) - a i = 1 / n := by
    intro i
    simp only [ha]
    push_cast
    field_simp
    ring
  rw [hsum, hperm, Finset.sum_div, ← Finset.sum_sub_distrib]
  refine (Finset.abs_sum_le_sum_abs _ _).trans ?_
  have key : ∀ i : Fin n, |e (s (π.symm i)) / n - ∫ t in a i..a (i + 1), e t| ≤ ε * (1 / n) := by
    intro i
    have hlo := (hπ (π.symm i)).1
    have hhi := (hπ (π.symm i)).2
    rw [Equiv.apply_symm_apply] at hlo hhi
    have hle : a i ≤ a (i + 1) := by
      have := hstep i
      have : (0 : ℝ) ≤ 1 / n := by positivity
      linarith
    have h1 : e (s (π.symm i)) / n = ∫ _ in a i..a (i + 1), e (s (π.symm i)) := by
      rw [intervalIntegral.integral_const, hstep, smul_eq_mul]
      ring
    rw [h1, ← intervalIntegral.integral_sub intervalIntegrable_const (hint i i.2), ← Real.norm_eq_abs]
    have := intervalIntegral.norm_integral_le_of_norm_le_const (a := a i) (b := a (i + 1)) (C := ε)
      (f := fun t => e (s (π.symm i)) - e t) ?_
    · rwa [hstep, abs_of_nonneg (by positivity)] at this
    · intro t ht
      rw [Set.uIoc_of_le hle] at ht
      have hup : a (i + 1) = ((i : ℝ) + 1) / n := by simp only [ha]; push_cast; rfl
      have hsi : s (π.symm i) ∈ Set.Icc (a i) (a (i + 1)) := ⟨hlo, by rw [hup]; exact hhi.le⟩
      have hst : t ∈ Set.Icc (a i) (a (i + 1)) := ⟨ht.1.le, ht.2⟩
      have hin : ∀ z ∈ Set.Icc (a i) (a (i + 1)), z ∈ Set.Icc (0 : ℝ) 1 := fun z hz =>
        ⟨(ha01 i i.2.le).1.trans hz.1, hz.2.trans (ha01 (i + 1) i.2).2⟩
      refine hosc _ (hin _ hsi) _ (hin _ hst) ?_
      rw [← hstep i, abs_le]
      constructor <;> linarith [hsi.1, hsi.2, hst.1, hst.2]
  refine (Finset.sum_le_sum fun i _ => key i).trans ?_
  rw [Finset.sum_const, Finset.card_univ, Fintype.card_fin, nsmul_eq_mul]
  rw [show (n : ℝ) * (ε * (1 / n)) = ε by field_simp]

/-- The boundary data of a space, with the function of each tag. -/
lemma dirichlet_values {ext : QuadRoutines} {mp : List (ℝ × ℝ)} {cells : List Quad} {bd : BdDict}
    {s : FESettings} {dict : List (ℤ × (ℝ → ℝ → ℝ))} {f : ℝ → ℝ → ℝ} {plot : Bool} {nq : ℕ}
    {S : Fespace2D (ℝ → ℝ → ℝ) ℝ (s.feOrder.toNat ^ 2) nq}
    (h : fespace2D ext mp cells bd s dict f plot = .ok ⟨nq, S⟩) :
    getDirichletInput S = .ok ((taggedPoints bd).map Prod.snd,
      (taggedPoints bd).map fun r => ((dict.lookup r.1).getD fun _ _ => 0) r.2.1 r.2.2) := by
  obtain ⟨h1, -, -⟩ := C37_dirichlet_data ext mp cells bd s dict f plot
  have hall := (fespace_conditions ext mp _ bd s dict f h).2.2.2.2.2.2.2
  obtain ⟨px, py, hgen, hpx, hpy⟩ := h1 hall
  obtain ⟨-, -, -, -, -, e1, e2, -⟩ := fespace_ok h
  rw [getDirichletInput, e1, e2, hgen, hpx]
  refine congrArg (fun v => Except.ok (_, v)) ?_
  clear hgen hpx
  generalize taggedPoints bd = l at hpy ⊢
  induction hpy with
  | nil => rfl
  | cons hr _ ih =>
    obtain ⟨g, hg, rfl⟩ := hr
    rw [List.map_cons, ← ih, hg]
    rfl

section
variable {V : Type} {nt nq : ℕ}

lemma dataLoop_boundary : ∀ (is : List ℕ) {S : Fespace2D (ℝ → ℝ → ℝ) V nt nq} (out : List (CellTensors nt nq))
    {r : List (CellTensors nt nq) × Fespace2D (ℝ → ℝ → ℝ) V nt nq},
    dataLoop is S out = .ok r → r.2.boundaryPoints = S.boundaryPoints ∧ r.2.boundFunctionDict = S.boundFunctionDict
  | [], _, _, _, h => by
    simp only [dataLoop, Except.ok.injEq] at h
    rw [← h]
    exact ⟨rfl, rfl⟩
  | i :: is, S, out, r, h => by
    unfold dataLoop at h
    rcases hS : cellTensors S i with e | ⟨t, S₁⟩
    · rw [hS] at h; cases h
    · rw [hS] at h
      have hS' : S₁.boundaryPoints = S.boundaryPoints ∧ S₁.boundFunctionDict = S.boundFunctionDict := by
        unfold cellTensors Fespace2D.getShapeFunctionVal Fespace2D.getShapeFunctionGradX
          Fespace2D.getShapeFunctionGradY Fespace2D.getQuadratureActualCoordinates
          Fespace2D.getForcingFunctionValues at hS
        rcases hc : S.cellAt i with e | c
        · rw [hc] at hS; cases hS
        · simp only [hc, Except.ok.injEq, Prod.mk.injEq] at hS
          rw [← hS.2]
          exact ⟨rfl, rfl⟩
      rw [← hS'.1, ← hS'.2]
      exact dataLoop_boundary is _ h

lemma dataHandler_dirichlet {S S' : Fespace2D (ℝ → ℝ → ℝ) ℝ nt nq} {isTf : Bool} {D : DataHandler2D nt nq}
    (h : dataHandler2D S isTf = .ok (D, S')) : getDirichletInput S' = getDirichletInput S := by
  unfold dataHandler2D at h
  cases isTf
  · cases h
  · simp only [if_true] at h
    rcases hS : dataLoop (List.range S.nCells) S [] with e | ⟨t, S₁⟩
    · rw [hS] at h; cases h
    · rw [hS] at h
      simp only [Except.ok.injEq, Prod.mk.injEq] at h
      rw [← h.2]
      unfold getDirichletInput
      rw [(dataLoop_boundary _ _ hS).1, (dataLoop_boundary _ _ hS).2]

end

/-- A sum over the rows of two lists of the same origin. -/
lemma sum_rows {α : Type} (l : List α) (p : α → ℝ × ℝ) (v : α → ℝ) (F : ℝ × ℝ → ℝ → ℝ) :
    ∑ i : Fin (l.map p).length, F ((l.map p).get i) ((l.map v).getD i.val 0) = (l.map fun r => F (p r) (v r)).sum := by
  rw [← List.sum_ofFn]
  congr 1
  apply List.ext_getElem
  · simp
  · intro i h1 h2
    simp [List.getD]

/-- The boundary loss on the rectangle in terms of the sides. -/
lemma boundary_loss_sides (x y : ℝ × ℝ) (nb : ℕ) (smp : Fin 4 → Fin (nb / 4) → ℝ) (dict : List (ℤ × (ℝ → ℝ → ℝ)))
    (g : Fin 4 → ℝ → ℝ → ℝ) (hg : ∀ a : Fin 4, dict.lookup (1000 + (a : ℕ) : ℤ) = some (g a)) (u : ℝ × ℝ → ℝ) :
    ((taggedPoints (internalBoundary x y nb smp)).map fun r =>
      (u r.2 - ((dict.lookup r.1).getD fun _ _ => 0) r.2.1 r.2.2) ^ 2).sum
      = ∑ a, ∑ k, sideError x y u (g a) a (smp a k) := by
  have h0 := hg 0
  have h1 := hg 1
  have h2 := hg 2
  have h3 := hg 3
  norm_num at h0 h1 h2 h3
  have ht : ∀ (s : Fin (nb / 4) → ℝ) (a b : ℝ) (k : Fin (nb / 4)), tempBdFunc s a b k = a + s k * (b - a) :=
    fun s a b k => by unfold tempBdFunc; ring
  simp only [taggedPoints, internalBoundary, List.flatMap_cons, List.flatMap_nil, List.append_nil, List.map_append,
    List.sum_append, List.map_ofFn, List.sum_ofFn, Function.comp, h0, h1, h2, h3, Option.getD_some,
    Fin.sum_univ_four, sideError, sidePoint, ht, add_assoc]

end FastVPINNs
