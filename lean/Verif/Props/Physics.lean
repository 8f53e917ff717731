import Verif.Lemmas.Lookup
import Verif.Lemmas.Physics
import Verif.Model.Train
import Mathlib.Tactic.FinCases

/-! # C43–C45, C49: the loss functions -/

namespace FastVPINNs

open Spec

section
variable {nc nt nq : ℕ} (V GX GY : Fin nc → Fin nt → Fin nq → ℝ) (u ux uy : Fin nc → Fin nq → ℝ)
  (F : Fin nt → Fin nc → ℝ) (p ip : ParamDict) (coeffs : List (Fin nc → Fin nq → ℝ))

/-- **C43.**  Whenever a loss function returns, every entry is the mean square of the tested residuals of
its cell; hence it is not negative, and it is zero exactly when all residuals of the cell are zero. -/
theorem C43_nonneg_zero (kind : LossKind) (hnt : nt ≠ 0) (loss : Fin nc → ℝ)
    (h : runLoss kind V GX GY u ux uy F p ip coeffs = .ok loss) :
    ∃ a b r, Coefficients kind p ip coeffs a b r ∧ ∀ c,
      loss c = meanSq (testedResidual V GX GY u ux uy F a b r c) ∧ 0 ≤ loss c ∧
      (loss c = 0 ↔ ∀ t, testedResidual V GX GY u ux uy F a b r c t = 0) := by
  obtain ⟨a, b, r, hc, rfl⟩ := (runLoss_ok_iff _ _ _ _ _ _ _ _ _ _ _ _).1 h
  exact ⟨a, b, r, hc, fun c => ⟨rfl, meanSq_nonneg _, meanSq_eq_zero hnt _⟩⟩

/-- **C43** (when a loss function returns).  A loss function returns exactly when the dictionaries have
the parameters it needs. -/
theorem C43_returns (kind : LossKind) :
    (∃ loss, runLoss kind V GX GY u ux uy F p ip coeffs = .ok loss) ↔
      ∃ a b r, Coefficients kind p ip coeffs a b r := by
  constructor
  · rintro ⟨loss, h⟩
    obtain ⟨a, b, r, hc, -⟩ := (runLoss_ok_iff _ _ _ _ _ _ _ _ _ _ _ _).1 h
    exact ⟨a, b, r, hc⟩
  · rintro ⟨a, b, r, hc⟩
    exact ⟨_, (runLoss_ok_iff _ _ _ _ _ _ _ _ _ _ _ _).2 ⟨a, b, r, hc, rfl⟩⟩

/-- C43 on one cell with one test function and two points: residual `3·(1·2+1·4) - 5 = 13`. -/
example : runLoss .poisson (nc := 1) (nt := 1) (nq := 2) (fun _ _ _ => 0) (fun _ _ _ => 1)
    (fun _ _ _ => 0) (fun _ _ => 0) (fun _ q => if q = 0 then 2 else 4) (fun _ _ => 7) (fun _ _ => 5)
    (some [("eps", 3)]) none [] = .ok fun _ => 169 := by
  rw [runLoss_ok_iff]
  refine ⟨_, _, _, ⟨3, ⟨_, rfl, rfl⟩, rfl, rfl, rfl⟩, ?_⟩
  funext c
  simp [meanSq, testedResidual, Fin.sum_univ_two]
  norm_num

/-- **C44** (convection-diffusion and Poisson).  Without convection and reaction the convection-diffusion
loss is the Poisson loss. -/
theorem C44_cd2d_poisson (eps : ℝ) (he : HasParam p "eps" eps) (hx : HasParam p "b_x" 0)
    (hy : HasParam p "b_y" 0) (hc : HasParam p "c" 0) :
    pdeLossCd2d V GX GY u ux uy F p = pdeLossPoisson V GX GY u ux uy F p := by
  have h1 := (runLoss_ok_iff .cd2d V GX GY u ux uy F p none [] _).2
    ⟨_, (0, 0), 0, ⟨eps, he, rfl, hx, hy, hc⟩, rfl⟩
  have h2 := (runLoss_ok_iff .poisson V GX GY u ux uy F p none [] _).2
    ⟨_, _, _, ⟨eps, he, rfl, rfl, rfl⟩, rfl⟩
  exact h1.trans h2.symm

/-- **C44** (Helmholtz and convection-diffusion).  The Helmholtz loss with `eps`, `k` is the
convection-diffusion loss with `-eps`, no convection and reaction `k²`. -/
theorem C44_helmholtz_cd2d (eps k : ℝ) (p' : ParamDict) (he : HasParam p "eps" eps)
    (hk : HasParam p "k" k) (he' : HasParam p' "eps" (-eps)) (hx : HasParam p' "b_x" 0)
    (hy : HasParam p' "b_y" 0) (hc : HasParam p' "c" (k ^ 2)) :
    pdeLossHelmholtz V GX GY u ux uy F p = pdeLossCd2d V GX GY u ux uy F p' := by
  have h1 := (runLoss_ok_iff .cd2d V GX GY u ux uy F p' none [] _).2
    ⟨_, (0, 0), k ^ 2, ⟨-eps, he', rfl, hx, hy, hc⟩, rfl⟩
  have h2 := (runLoss_ok_iff .helmholtz V GX GY u ux uy F p none [] _).2
    ⟨_, _, _, ⟨eps, k, he, hk, rfl, rfl, rfl⟩, rfl⟩
  rw [← pow_two] at h2
  exact h2.trans h1.symm

/-- **C44** (inverse Poisson).  Whatever the bilinear parameters, the inverse Poisson loss is the Poisson
loss at the inverse parameters. -/
theorem C44_poisson_inverse : pdeLossPoissonInverse V GX GY u ux uy F p ip
    = pdeLossPoisson V GX GY u ux uy F ip := rfl

/-- **C44** (inverse convection-diffusion).  The inverse convection-diffusion loss is the forward loss
with the same convection and reaction and with `eps` taken from the inverse parameters. -/
theorem C44_cd2d_inverse (p' : ParamDict) (eps bx b2 c : ℝ) (he : HasParam ip "eps" eps)
    (hx : HasParam p "b_x" bx) (hy : HasParam p "b_y" b2) (hc : HasParam p "c" c)
    (he' : HasParam p' "eps" eps) (hx' : HasParam p' "b_x" bx) (hy' : HasParam p' "b_y" b2)
    (hc' : HasParam p' "c" c) :
    pdeLossCd2dInverse V GX GY u ux uy F p ip = pdeLossCd2d V GX GY u ux uy F p' := by
  have h1 := (runLoss_ok_iff .cd2dInverse V GX GY u ux uy F p ip [] _).2
    ⟨_, (bx, b2), c, ⟨eps, he, rfl, hx, hy, hc⟩, rfl⟩
  have h2 := (runLoss_ok_iff .cd2d V GX GY u ux uy F p' none [] _).2
    ⟨_, (bx, b2), c, ⟨eps, he', rfl, hx', hy', hc'⟩, rfl⟩
  exact h1.trans h2.symm

/-- **C44** (space-dependent coefficient).  When the predicted coefficient is the constant `eps`, the
loss of the domain-inverse problem is the forward loss. -/
theorem C44_cd2d_inverse_domain (eps bx b2 c : ℝ) (rest : List (Fin nc → Fin nq → ℝ))
    (he : HasParam p "eps" eps) (hx : HasParam p "b_x" bx) (hy : HasParam p "b_y" b2)
    (hc : HasParam p "c" c) :
    pdeLossCd2dInverseDomain V GX GY u ux uy F p ((fun _ _ => eps) :: rest)
      = pdeLossCd2d V GX GY u ux uy F p := by
  have h1 := (runLoss_ok_iff .cd2dInverseDomain V GX GY u ux uy F p none ((fun _ _ => eps) :: rest) _).2
    ⟨_, (bx, b2), c, ⟨rfl, hx, hy, hc⟩, rfl⟩
  have h2 := (runLoss_ok_iff .cd2d V GX GY u ux uy F p none [] _).2
    ⟨_, (bx, b2), c, ⟨eps, he, rfl, hx, hy, hc⟩, rfl⟩
  exact h1.trans h2.symm

/-- The hypotheses of C44 are met by the dictionaries of a typical run. -/
example : HasParam (some [("eps", 0.1), ("b_x", 0), ("b_y", 0), ("c", 0), ("k", 2)]) "b_y" 0 ∧
    HasParam (some [("eps", -0.1), ("b_x", 0), ("b_y", 0), ("c", 2 ^ 2)]) "c" (2 ^ 2) :=
  ⟨⟨_, rfl, rfl⟩, ⟨_, rfl, rfl⟩⟩

end

section
variable {nc nt nq nc' : ℕ} (V GX GY : Fin nc → Fin nt → Fin nq → ℝ) (u ux uy : Fin nc → Fin nq → ℝ)
  (F : Fin nt → Fin nc → ℝ) (p ip : ParamDict) (coeffs : List (Fin nc → Fin nq → ℝ))
  (m : Fin nc' → Fin nc) (τ : Fin nc' → Equiv.Perm (Fin nt)) (ρ : Fin nc' → Equiv.Perm (Fin nq))

/-- **C45.**  Take the data of selected cells `m c` (in any order, any number), and renumber in each cell
the test functions and the quadrature points in any way.  Then the loss of cell `c` is the old loss of
cell `m c`.  (A one-cell selection says that a loss depends on the data of its cell only.) -/
theorem C45_local (kind : LossKind) (loss : Fin nc → ℝ)
    (h : runLoss kind V GX GY u ux uy F p ip coeffs = .ok loss) :
    runLoss kind (fun c t q => V (m c) (τ c t) (ρ c q)) (fun c t q => GX (m c) (τ c t) (ρ c q))
      (fun c t q => GY (m c) (τ c t) (ρ c q)) (fun c q => u (m c) (ρ c q)) (fun c q => ux (m c) (ρ c q))
      (fun c q => uy (m c) (ρ c q)) (fun t c => F (τ c t) (m c)) p ip
      (coeffs.map fun k c q => k (m c) (ρ c q)) = .ok fun c => loss (m c) := by
  obtain ⟨a, b, r, hc, rfl⟩ := (runLoss_ok_iff _ _ _ _ _ _ _ _ _ _ _ _).1 h
  rw [runLoss_ok_iff]
  refine ⟨fun c q => a (m c) (ρ c q), b, r, ?_, ?_⟩
  · cases kind with
    | poisson => obtain ⟨eps, h1, rfl, h3, h4⟩ := hc; exact ⟨eps, h1, rfl, h3, h4⟩
    | cd2d => obtain ⟨eps, h1, rfl, h3⟩ := hc; exact ⟨eps, h1, rfl, h3⟩
    | helmholtz => obtain ⟨eps, k, h1, h2, rfl, h3⟩ := hc; exact ⟨eps, k, h1, h2, rfl, h3⟩
    | poissonInverse => obtain ⟨eps, h1, rfl, h3, h4⟩ := hc; exact ⟨eps, h1, rfl, h3, h4⟩
    | cd2dInverse => obtain ⟨eps, h1, rfl, h3⟩ := hc; exact ⟨eps, h1, rfl, h3⟩
    | cd2dInverseDomain =>
      obtain ⟨h1, h3⟩ := hc
      exact ⟨by rw [List.head?_map, h1]; rfl, h3⟩
  · funext c
    refine (meanSq_perm (testedResidual V GX GY u ux uy F a b r (m c)) (τ c)).symm.trans ?_
    refine congrArg meanSq (funext fun t => ?_)
    unfold testedResidual
    refine congrArg (· - F (τ c t) (m c)) ?_
    exact (Equiv.sum_comp (ρ c) fun q =>
      a (m c) q * (ux (m c) q * GX (m c) (τ c t) q + uy (m c) q * GY (m c) (τ c t) q)
        + (b.1 * ux (m c) q + b.2 * uy (m c) q + r * u (m c) q) * V (m c) (τ c t) q).symm

/-- **C45** (total).  The sum of the losses does not depend on the numbering of cells, test functions and
quadrature points. -/
theorem C45_total (kind : LossKind) (π : Equiv.Perm (Fin nc)) (τ : Fin nc → Equiv.Perm (Fin nt))
    (ρ : Fin nc → Equiv.Perm (Fin nq)) (loss : Fin nc → ℝ)
    (h : runLoss kind V GX GY u ux uy F p ip coeffs = .ok loss) :
    ∃ loss', runLoss kind (fun c t q => V (π c) (τ c t) (ρ c q))
      (fun c t q => GX (π c) (τ c t) (ρ c q)) (fun c t q => GY (π c) (τ c t) (ρ c q))
      (fun c q => u (π c) (ρ c q)) (fun c q => ux (π c) (ρ c q)) (fun c q => uy (π c) (ρ c q))
      (fun t c => F (τ c t) (π c)) p ip (coeffs.map fun k c q => k (π c) (ρ c q)) = .ok loss' ∧
      ∑ c, loss' c = ∑ c, loss c :=
  ⟨_, C45_local V GX GY u ux uy F p ip coeffs π τ ρ kind loss h, Equiv.sum_comp π loss⟩

end

/-- C45 applies to the loss of the example for C43. -/
example : ∃ loss, runLoss .helmholtz (nc := 2) (nt := 1) (nq := 2) (fun c _ _ => c.val) (fun _ _ _ => 1)
    (fun _ _ _ => 0) (fun _ _ => 0) (fun _ _ => 7) (fun _ _ => 7) (fun _ _ => 5)
    (some [("eps", 3), ("k", 1)]) none [] = .ok loss := by
  rw [C43_returns]
  exact ⟨_, _, _, 3, 1, ⟨_, rfl, rfl⟩, ⟨_, rfl, rfl⟩, rfl, rfl, rfl⟩

/-! ## C49 -/

section
variable {nc nt nq nIn nBd : ℕ} (M : ModelData nc nt nq nIn nBd) (u ux uy : Fin nc → Fin nq → ℝ)
  (p ip : ParamDict) (k : Fin nc → Fin nq → ℝ)

/-- **C49** (`DenseModel`, `DenseModel_Hard`).  With the keywords used by these models the three forward
losses receive exactly the tensors of the model; the three inverse losses raise `TypeError`. -/
theorem C49_forward :
    (lossPoisson nc nt nq).call (lossKwargs M u ux uy p)
      = pdeLossPoisson M.preMultiplierVal M.preMultiplierGradX M.preMultiplierGradY u ux uy M.forceMatrix p ∧
    (lossCd2d nc nt nq).call (lossKwargs M u ux uy p)
      = pdeLossCd2d M.preMultiplierVal M.preMultiplierGradX M.preMultiplierGradY u ux uy M.forceMatrix p ∧
    (lossHelmholtz nc nt nq).call (lossKwargs M u ux uy p)
      = pdeLossHelmholtz M.preMultiplierVal M.preMultiplierGradX M.preMultiplierGradY u ux uy
          M.forceMatrix p ∧
    (lossPoissonInverse nc nt nq).call (lossKwargs M u ux uy p) = .error .typeError ∧
    (lossCd2dInverse nc nt nq).call (lossKwargs M u ux uy p) = .error .typeError ∧
    (lossCd2dInverseDomain nc nt nq).call (lossKwargs M u ux uy p) = .error .typeError :=
  ⟨rfl, rfl, rfl, rfl, rfl, rfl⟩

/-- **C49** (`DenseModel_Inverse`).  Of the six losses only `pde_loss_poisson_inverse` can be used; in
particular the loss of `cd2d_inverse.py`, written for this model, raises `TypeError`. -/
theorem C49_inverse :
    (lossPoissonInverse nc nt nq).call
        (lossKwargs M u ux uy p ++ [("inverse_params_dict", .params ip)])
      = pdeLossPoissonInverse M.preMultiplierVal M.preMultiplierGradX M.preMultiplierGradY u ux uy
          M.forceMatrix p ip ∧
    ∀ L ∈ [lossPoisson nc nt nq, lossCd2d nc nt nq, lossHelmholtz nc nt nq, lossCd2dInverse nc nt nq,
        lossCd2dInverseDomain nc nt nq],
      L.call (lossKwargs M u ux uy p ++ [("inverse_params_dict", .params ip)]) = .error .typeError := by
  refine ⟨rfl, ?_⟩
  simp only [List.mem_cons, List.not_mem_nil, or_false, forall_eq_or_imp, forall_eq]
  exact ⟨rfl, rfl, rfl, rfl, rfl⟩

/-- **C49** (`DenseModel_Inverse_Domain`).  Only `pde_loss_cd2d_inverse_domain` can be used. -/
theorem C49_inverse_domain :
    (lossCd2dInverseDomain nc nt nq).call
        (lossKwargs M u ux uy p ++ [("inverse_params_list", .preds [k])])
      = pdeLossCd2dInverseDomain M.preMultiplierVal M.preMultiplierGradX M.preMultiplierGradY u ux uy
          M.forceMatrix p [k] ∧
    ∀ L ∈ [lossPoisson nc nt nq, lossCd2d nc nt nq, lossHelmholtz nc nt nq, lossPoissonInverse nc nt nq,
        lossCd2dInverse nc nt nq],
      L.call (lossKwargs M u ux uy p ++ [("inverse_params_list", .preds [k])]) = .error .typeError := by
  refine ⟨rfl, ?_⟩
  simp only [List.mem_cons, List.not_mem_nil, or_false, forall_eq_or_imp, forall_eq]
  exact ⟨rfl, rfl, rfl, rfl, rfl⟩

/-- The arguments that all loss functions have in common, by name. -/
def namedArgs (V GX GY : Fin nc → Fin nt → Fin nq → ℝ) (u ux uy : Fin nc → Fin nq → ℝ) (F : Fin nt → Fin nc → ℝ) :
    List (String × LossArg nc nt nq) :=
  [("test_shape_val_mat", .mat V), ("test_grad_x_mat", .mat GX), ("test_grad_y_mat", .mat GY), ("pred_nn", .pred u),
    ("pred_grad_x_nn", .pred ux), ("pred_grad_y_nn", .pred uy), ("forcing_function", .force F)]

/-- **C49** (own keywords).  Called directly with the names of its own parameters, every loss function computes with
the arguments under these names. -/
theorem C49_own_keywords (V GX GY : Fin nc → Fin nt → Fin nq → ℝ) (u ux uy : Fin nc → Fin nq → ℝ)
    (F : Fin nt → Fin nc → ℝ) (p ip : ParamDict) (cs : List (Fin nc → Fin nq → ℝ)) :
    (lossPoisson nc nt nq).call (namedArgs V GX GY u ux uy F ++ [("bilinear_params", .params p)])
      = pdeLossPoisson V GX GY u ux uy F p ∧
    (lossCd2d nc nt nq).call (namedArgs V GX GY u ux uy F ++ [("bilinear_params", .params p)])
      = pdeLossCd2d V GX GY u ux uy F p ∧
    (lossHelmholtz nc nt nq).call (namedArgs V GX GY u ux uy F ++ [("bilinear_params", .params p)])
      = pdeLossHelmholtz V GX GY u ux uy F p ∧
    (lossPoissonInverse nc nt nq).call (namedArgs V GX GY u ux uy F
        ++ [("bilinear_params", .params p), ("inverse_params_dict", .params ip)])
      = pdeLossPoissonInverse V GX GY u ux uy F p ip ∧
    (lossCd2dInverse nc nt nq).call (namedArgs V GX GY u ux uy F
        ++ [("bilinear_params_dict", .params p), ("inverse_param_dict", .params ip)])
      = pdeLossCd2dInverse V GX GY u ux uy F p ip ∧
    (lossCd2dInverseDomain nc nt nq).call (namedArgs V GX GY u ux uy F
        ++ [("bilinear_params", .params p), ("inverse_params_list", .preds cs)])
      = pdeLossCd2dInverseDomain V GX GY u ux uy F p cs :=
  ⟨rfl, rfl, rfl, rfl, rfl, rfl⟩

/-- **C49** (order of keywords).  The order in which the arguments are written does not matter. -/
theorem C49_keyword_order (L : LossFunction nc nt nq) (kw kw' : List (String × LossArg nc nt nq)) (h : kw.Perm kw')
    (hn : (kw.map Prod.fst).Nodup) : L.call kw' = L.call kw := by
  have h1 : (kw'.any fun k => !((L.params.map fun n => (n, (none : Option (LossArg nc nt nq)))).any fun p => p.1 == k.1))
      = kw.any fun k => !((L.params.map fun n => (n, (none : Option (LossArg nc nt nq)))).any fun p => p.1 == k.1) := by
    rw [Bool.eq_iff_iff, List.any_eq_true, List.any_eq_true]
    exact ⟨fun ⟨x, hx, e⟩ => ⟨x, h.mem_iff.2 hx, e⟩, fun ⟨x, hx, e⟩ => ⟨x, h.mem_iff.1 hx, e⟩⟩
  unfold LossFunction.call bindKwargs
  rw [h1]
  simp only [lookup_perm h hn]

/-- Two keywords in the other order: the hypotheses of `C49_keyword_order` hold. -/
example (p ip : ParamDict) :
    (lossCd2dInverse 1 1 1).call [("inverse_param_dict", .params ip), ("bilinear_params_dict", .params p)]
      = (lossCd2dInverse 1 1 1).call [("bilinear_params_dict", .params p), ("inverse_param_dict", .params ip)] :=
  C49_keyword_order _ _ _ (List.Perm.swap _ _ _) (by simp)

end

end FastVPINNs
