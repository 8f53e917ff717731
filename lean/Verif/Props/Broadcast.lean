import Verif.Spec.Broadcast
import Verif.Lemmas.Broadcast
import Verif.Props.Physics
import Verif.Props.Constructor
import Verif.Props.DataHandler

/-! # C105: TensorFlow's broadcasting never hides a wrong number of cells -/

namespace FastVPINNs

open Spec

section
variable {nc nt nq nBd dout : ℕ} (M : ModelData nc nt nq (nc * nq) nBd)

/-- The reshape of TensorFlow and the one of the exact model have the same result. -/
theorem tfReshape_same {n : ℕ} (d : ℤ) (v : Fin n → ℝ) (hq : 0 < nq) (hd : d ≠ -1 ∨ n = nc * nq)
    (hc : cellsMeant d nc = nc) :
    (∃ A w, tfReshape n (entries1 v) d nq = .ok A ∧ reshapeCells nc nq (cellsMeant d nc) v = .ok w ∧ A.Is w) ∨
    (tfReshape n (entries1 v) d nq = .error .valueError ∧
      reshapeCells nc nq (cellsMeant d nc) v = .error .valueError) := by
  by_cases hn : nc * nq = n
  · have : ∃ w, reshapeCells nc nq (cellsMeant d nc) v = .ok w := by
      unfold reshapeCells
      rw [dif_pos ⟨by rw [hc]; exact_mod_cast hn, hc⟩]
      exact ⟨_, rfl⟩
    obtain ⟨w, hw⟩ := this
    obtain ⟨A, hA, hAw⟩ := tfReshape_ok d v hw hq
    exact .inl ⟨A, w, hA, hw, hAw⟩
  · have hd' : d ≠ -1 := hd.resolve_right fun e => hn e.symm
    refine .inr ⟨?_, ?_⟩
    · have hc' : d = nc := by rwa [cellsMeant, if_neg hd'] at hc
      unfold tfReshape
      rw [if_neg hd', if_neg]
      rintro ⟨-, h⟩
      rw [hc'] at h
      exact hn (by exact_mod_cast h)
    · unfold reshapeCells
      rw [dif_neg]
      rintro ⟨h, -⟩
      rw [hc] at h
      exact hn (by exact_mod_cast h)

theorem reshapeCells_wrong {n : ℕ} (d : ℤ) (v : Fin n → ℝ) (hc : d ≠ nc) :
    reshapeCells nc nq d v = .error .valueError := by
  unfold reshapeCells
  rw [dif_neg fun h => hc h.2]

theorem cellsMeant_wrong {d : ℤ} (h : cellsMeant d nc ≠ nc) : d ≠ -1 ∧ d ≠ nc := by
  unfold cellsMeant at h
  split at h
  · exact absurd rfl h
  · exact ⟨‹_›, h⟩

theorem ofExact_is :
    (TModelData.ofExact M).preMultiplierVal.Is M.preMultiplierVal ∧
    (TModelData.ofExact M).preMultiplierGradX.Is M.preMultiplierGradX ∧
    (TModelData.ofExact M).preMultiplierGradY.Is M.preMultiplierGradY ∧
    (TModelData.ofExact M).forceMatrix.Is M.forceMatrix :=
  ⟨⟨rfl, rfl, rfl, fun c t q => by simp [TModelData.ofExact]⟩, ⟨rfl, rfl, rfl, fun c t q => by simp [TModelData.ofExact]⟩,
    ⟨rfl, rfl, rfl, fun c t q => by simp [TModelData.ofExact]⟩, outputMat_is _⟩

theorem tCellsResidual_same (net : Network dout) (p : ParamDict) (hq : 0 < nq) (hd : M.nCells ≠ -1 ∨ dout = 1)
    (T : TLoss) (L : LossFunction nc nt nq) (extra : List (String × LossArg nc nt nq))
    (hTL : ∀ (u ux uy : TMat) (u' ux' uy' : Fin nc → Fin nq → ℝ), u.Is u' → ux.Is ux' → uy.Is uy' →
      SameVec (T (TModelData.ofExact M).preMultiplierVal (TModelData.ofExact M).preMultiplierGradX
        (TModelData.ofExact M).preMultiplierGradY u ux uy (TModelData.ofExact M).forceMatrix p)
        (L.call (lossKwargs { M with nCells := cellsMeant M.nCells nc } u' ux' uy' p ++ extra))) :
    SameVec (tCellsResidual T (TModelData.ofExact M) net p)
      (cellsResidual L { M with nCells := cellsMeant M.nCells nc } net p extra) := by
  have e : tCellsResidual T (TModelData.ofExact M) net p =
      (tfReshape (nc * nq) (entries1 fun r => (tapeGradient (ι := Fin (nc * nq) × Fin dout)
        (fun X i => net _ X i.1 i.2) M.inputTensor r).1) M.nCells nq).bind fun gx =>
      (tfReshape (nc * nq) (entries1 fun r => (tapeGradient (ι := Fin (nc * nq) × Fin dout)
        (fun X i => net _ X i.1 i.2) M.inputTensor r).2) M.nCells nq).bind fun gy =>
      (tfReshape (nc * nq * dout) (entries1 (flatten (net _ M.inputTensor))) M.nCells nq).bind fun v =>
      T (TModelData.ofExact M).preMultiplierVal (TModelData.ofExact M).preMultiplierGradX
        (TModelData.ofExact M).preMultiplierGradY v gx gy (TModelData.ofExact M).forceMatrix p := rfl
  rw [e]
  unfold cellsResidual
  dsimp only
  by_cases hc : cellsMeant M.nCells nc = nc
  · have hval := tfReshape_same (nc := nc) (nq := nq) M.nCells
      (flatten (net _ M.inputTensor)) hq (hd.imp_right fun h => by rw [h, Nat.mul_one]) hc
    have hx := tfReshape_same (nc := nc) (nq := nq) M.nCells (fun r => (tapeGradient (ι := Fin (nc * nq) × Fin dout)
      (fun X i => net _ X i.1 i.2) M.inputTensor r).1) hq (.inr rfl) hc
    have hy := tfReshape_same (nc := nc) (nq := nq) M.nCells (fun r => (tapeGradient (ι := Fin (nc * nq) × Fin dout)
      (fun X i => net _ X i.1 i.2) M.inputTensor r).2) hq (.inr rfl) hc
    rcases hx with ⟨gx, gx', ex, ex', ix⟩ | ⟨ex, ex'⟩
    · rcases hy with ⟨gy, gy', ey, ey', iy⟩ | ⟨ey, ey'⟩
      · rcases hval with ⟨v, v', ev, ev', iv⟩ | ⟨ev, ev'⟩
        · rw [ex, ey, ev, ex', ey', ev']
          exact hTL v gx gy v' gx' gy' iv ix iy
        · rw [ex, ey, ev, ex', ey', ev']
          rfl
      · rw [ex, ey, ex', ey']
        rfl
    · rw [ex, ex']
      rfl
  · obtain ⟨h1, h2⟩ := cellsMeant_wrong hc
    rw [tfReshape_error (nc := nc) M.nCells _ rfl hq h1 h2, reshapeCells_wrong _ _ hc]
    rfl

theorem tMeanSquareError_same {n k : ℕ} {A B : TMat} {f : Fin n → Fin k → ℝ} {a : Fin n → ℝ} (hA : A.Is f)
    (hB : B.Is fun r (_ : Fin 1) => a r) :
    ∃ v, tMeanSquareError A B = .ok v ∧ v.Is (meanSquareError f a) := by
  obtain ⟨a1, a2, a3⟩ := hA
  obtain ⟨b1, b2, b3⟩ := hB
  have hz : ∃ C, A.zip (· - ·) B = .ok C ∧ C.Is fun r j => f r j - a r := by
    unfold TMat.zip
    have hk : bcastDim k 1 = .ok k := by
      unfold bcastDim
      by_cases h : k = 1 <;> simp [h]
    rw [a1, b1, a2, b2, bcastDim_self, hk]
    refine ⟨_, rfl, rfl, rfl, fun i j => ?_⟩
    have : bcastIdx 1 j = (0 : Fin 1).val := by simp [bcastIdx]
    simp only [bcastIdx_fin, a3, this, b3]
  obtain ⟨C, e, i⟩ := hz
  refine ⟨_, by simp only [tMeanSquareError, TMat.sub, e, bind, Except.bind], i.meanSquare0⟩

/-- `DenseModel.train_step` with TensorFlow's rules for shapes: for the tensors of one finite element space and any
value of `n_cells` the result is that of the exact model, in which a wrong number of cells is an error and `-1` means
the number of cells (for `-1` the network must have one output).  For each of the three loss functions of forward
problems. -/
theorem C105_dense (hq : 0 < nq) (net : Network dout) (hd : M.nCells ≠ -1 ∨ dout = 1) (beta : ℝ) (p : ParamDict) :
    ∀ P ∈ [(lossPoisson nc nt nq, tLossPoisson), (lossCd2d nc nt nq, tLossCd2d), (lossHelmholtz nc nt nq, tLossHelmholtz)],
      SameResult denseOut (tTrainStepDense P.2 (TModelData.ofExact M) net beta p)
        (trainStepDense P.1 { M with nCells := cellsMeant M.nCells nc } net beta p) ∧
      SameResult hardOut (tTrainStepHard P.2 (TModelData.ofExact M) net beta p)
        (trainStepHard P.1 { M with nCells := cellsMeant M.nCells nc } net beta p) := by
  obtain ⟨hV, hX, hY, hF⟩ := ofExact_is M
  intro P hP
  have key : SameVec (tCellsResidual P.2 (TModelData.ofExact M) net p)
      (cellsResidual P.1 { M with nCells := cellsMeant M.nCells nc } net p []) := by
    refine tCellsResidual_same M net p hq hd P.2 P.1 [] fun u ux uy u' ux' uy' hu hux huy => ?_
    have hc := C49_forward { M with nCells := cellsMeant M.nCells nc } u' ux' uy' p
    rw [List.append_nil]
    simp only [List.mem_cons, List.not_mem_nil, or_false] at hP
    rcases hP with rfl | rfl | rfl
    · dsimp only; rw [hc.1]; exact sameVec_poisson hX hY hux huy hF p
    · dsimp only; rw [hc.2.1]; exact sameVec_cd2d hV hX hY hu hux huy hF p
    · dsimp only; rw [hc.2.2.1]; exact sameVec_helmholtz hV hX hY hu hux huy hF p
  obtain ⟨b, eb, ib⟩ := tMeanSquareError_same (outputMat_is (net _ M.dirichletInput))
    (outputMat_is fun r (_ : Fin 1) => M.dirichletActual r)
  unfold tTrainStepDense trainStepDense tTrainStepHard trainStepHard
  cases hr : cellsResidual P.1 { M with nCells := cellsMeant M.nCells nc } net p [] with
  | error e =>
    rw [hr] at key
    have key' : tCellsResidual P.2 (TModelData.ofExact M) net p = .error e := key
    simp only [key', bind, Except.bind, SameResult, and_self]
  | ok r =>
    rw [hr] at key
    obtain ⟨v, ev, iv⟩ := key
    simp only [ev, bind, Except.bind, SameResult]
    refine ⟨?_, ?_⟩
    · have eb' : tMeanSquareError (outputMat (net (TModelData.ofExact M).nBd (TModelData.ofExact M).dirichletInput))
          (TModelData.ofExact M).dirichletActual = .ok b := eb
      rw [eb']
      simp only [denseOut, ib.toList, iv.sum, List.map_ofFn]
      rfl
    · rw [iv.sum]
      rfl

/-- The same for `DenseModel_Inverse.train_step` with `pde_loss_poisson_inverse`; the sensor values are a column. -/
theorem C105_inverse {nS : ℕ} (hq : 0 < nq) (net : Network dout) (hd : M.nCells ≠ -1 ∨ dout = 1)
    (sp : Fin nS → ℝ × ℝ) (sv : Fin nS → ℝ) (beta : ℝ) (p ip : ParamDict) :
    SameResult inverseOut
      (tTrainStepInverse (tLossPoissonInverse ip) (TModelData.ofExact M) sp (outputMat fun r (_ : Fin 1) => sv r) net
        beta p)
      (trainStepInverse (lossPoissonInverse nc nt nq) { M with nCells := cellsMeant M.nCells nc } sp sv ip net beta
        p) := by
  obtain ⟨hV, hX, hY, hF⟩ := ofExact_is M
  have key : SameVec (tCellsResidual (tLossPoissonInverse ip) (TModelData.ofExact M) net p)
      (cellsResidual (lossPoissonInverse nc nt nq) { M with nCells := cellsMeant M.nCells nc } net p
        [("inverse_params_dict", .params ip)]) := by
    refine tCellsResidual_same M net p hq hd _ _ _ fun u ux uy u' ux' uy' hu hux huy => ?_
    rw [(C49_inverse { M with nCells := cellsMeant M.nCells nc } u' ux' uy' p ip).1]
    exact sameVec_poissonInverse hX hY hux huy hF p ip
  obtain ⟨b, eb, ib⟩ := tMeanSquareError_same (outputMat_is (net _ M.dirichletInput))
    (outputMat_is fun r (_ : Fin 1) => M.dirichletActual r)
  obtain ⟨s, es, is⟩ := tMeanSquareError_same (outputMat_is (net _ sp)) (outputMat_is fun r (_ : Fin 1) => sv r)
  have eb' : tMeanSquareError (outputMat (net (TModelData.ofExact M).nBd (TModelData.ofExact M).dirichletInput))
      (TModelData.ofExact M).dirichletActual = .ok b := eb
  unfold tTrainStepInverse trainStepInverse
  cases hr : cellsResidual (lossPoissonInverse nc nt nq) { M with nCells := cellsMeant M.nCells nc } net p
      [("inverse_params_dict", .params ip)] with
  | error e =>
    rw [hr] at key
    have key' : tCellsResidual (tLossPoissonInverse ip) (TModelData.ofExact M) net p = .error e := key
    simp only [key', bind, Except.bind, SameResult]
  | ok r =>
    rw [hr] at key
    obtain ⟨v, ev, iv⟩ := key
    simp only [ev, eb', es, bind, Except.bind, SameResult, tTotalLoss]
    obtain ⟨t, et, it⟩ := ib.zip (fun b s => 0.0 + v.sum + beta * b + 10 * s) is
    rw [et]
    simp only [inverseOut, ib.toList, is.toList, it.toList, iv.sum]

/-- The same for `DenseModel_Inverse_Domain.train_step` with `pde_loss_cd2d_inverse_domain`, for every number of
outputs and every value of `n_cells`. -/
theorem C105_inverse_domain {nS : ℕ} (hq : 0 < nq) (net : Network dout)
    (sp : Fin nS → ℝ × ℝ) (sv : Fin nS → ℝ) (beta : ℝ) (p : ParamDict) :
    SameResult inverseOut
      (tTrainStepInverseDomain (TModelData.ofExact M) sp (outputMat fun r (_ : Fin 1) => sv r) net beta p)
      (trainStepInverseDomain (lossCd2dInverseDomain nc nt nq) { M with nCells := cellsMeant M.nCells nc } sp sv net beta
        p) := by
  obtain ⟨hV, hX, hY, hF⟩ := ofExact_is M
  unfold trainStepInverseDomain
  by_cases h2 : 2 ≤ dout
  case neg => rw [dif_neg h2]; simp only [tTrainStepInverseDomain, dif_neg h2, SameResult]
  have e : tTrainStepInverseDomain (TModelData.ofExact M) sp (outputMat fun r (_ : Fin 1) => sv r) net beta p =
      (tfReshape (nc * nq) (entries1 fun r => (tapeGradient (ι := Fin (nc * nq))
        (fun X r => net _ X r ⟨0, by omega⟩) M.inputTensor r).1) M.nCells nq).bind fun gx =>
      (tfReshape (nc * nq) (entries1 fun r => (tapeGradient (ι := Fin (nc * nq))
        (fun X r => net _ X r ⟨0, by omega⟩) M.inputTensor r).2) M.nCells nq).bind fun gy =>
      (tfReshape (nc * nq) (entries1 fun r => net _ M.inputTensor r ⟨0, by omega⟩) M.nCells nq).bind fun v =>
      (tfReshape (nc * nq) (entries1 fun r => net _ M.inputTensor r ⟨1, by omega⟩) M.nCells nq).bind fun k =>
      (tLossCd2dInverseDomain k (TModelData.ofExact M).preMultiplierVal (TModelData.ofExact M).preMultiplierGradX
        (TModelData.ofExact M).preMultiplierGradY v gx gy (TModelData.ofExact M).forceMatrix p).bind fun residuals =>
      (tMeanSquareError (outputMat fun r (_ : Fin 1) => net _ M.dirichletInput r ⟨0, by omega⟩)
        (outputMat fun r (_ : Fin 1) => M.dirichletActual r)).bind fun boundary =>
      (tMeanSquareError (outputMat fun r (_ : Fin 1) => net _ sp r ⟨0, by omega⟩)
        (outputMat fun r (_ : Fin 1) => sv r)).bind fun sensor =>
      (tTotalLoss (0.0 + residuals.sum) beta boundary sensor).bind fun total =>
      .ok ⟨0.0 + residuals.sum, boundary.toList, total.toList, sensor.toList⟩ := by
    unfold tTrainStepInverseDomain
    rw [dif_pos h2]
    rfl
  rw [e, dif_pos h2]
  dsimp only
  by_cases hc : cellsMeant M.nCells nc = nc
  · have hval := tfReshape_same (nc := nc) (nq := nq) M.nCells
      (fun r => net _ M.inputTensor r ⟨0, by omega⟩) hq (.inr rfl) hc
    have hk := tfReshape_same (nc := nc) (nq := nq) M.nCells
      (fun r => net _ M.inputTensor r ⟨1, by omega⟩) hq (.inr rfl) hc
    have hx := tfReshape_same (nc := nc) (nq := nq) M.nCells (fun r => (tapeGradient (ι := Fin (nc * nq))
        (fun X r => net _ X r ⟨0, by omega⟩) M.inputTensor r).1) hq (.inr rfl) hc
    have hy := tfReshape_same (nc := nc) (nq := nq) M.nCells (fun r => (tapeGradient (ι := Fin (nc * nq))
        (fun X r => net _ X r ⟨0, by omega⟩) M.inputTensor r).2) hq (.inr rfl) hc
    rcases hx with ⟨gx, gx', ex, ex', ix⟩ | ⟨ex, ex'⟩
    case inr => rw [ex, ex']; rfl
    rcases hy with ⟨gy, gy', ey, ey', iy⟩ | ⟨ey, ey'⟩
    case inr => rw [ex, ey, ex', ey']; rfl
    rcases hval with ⟨v, v', ev, ev', iv⟩ | ⟨ev, ev'⟩
    case inr => rw [ex, ey, ev, ex', ey', ev']; rfl
    rcases hk with ⟨k, k', ek, ek', ik⟩ | ⟨ek, ek'⟩
    case inr => rw [ex, ey, ev, ek, ex', ey', ev', ek']; rfl
    rw [ex, ey, ev, ek, ex', ey', ev', ek']
    dsimp only [Except.bind]
    rw [(C49_inverse_domain { M with nCells := cellsMeant M.nCells nc } v' gx' gy' p k').1]
    have key := sameVec_domain hV hX hY iv ix iy hF ik p
    cases hr : pdeLossCd2dInverseDomain M.preMultiplierVal M.preMultiplierGradX M.preMultiplierGradY v' gx' gy'
        M.forceMatrix p [k'] with
    | error e =>
      rw [hr] at key
      have key' : tLossCd2dInverseDomain k _ _ _ v gx gy _ p = .error e := key
      rw [key']
      rfl
    | ok r =>
      rw [hr] at key
      obtain ⟨w, ew, iw⟩ := key
      obtain ⟨b, eb, ib⟩ := tMeanSquareError_same
        (outputMat_is fun r (_ : Fin 1) => net _ M.dirichletInput r ⟨0, by omega⟩)
        (outputMat_is fun r (_ : Fin 1) => M.dirichletActual r)
      obtain ⟨s, es, is⟩ := tMeanSquareError_same (outputMat_is fun r (_ : Fin 1) => net _ sp r ⟨0, by omega⟩)
        (outputMat_is fun r (_ : Fin 1) => sv r)
      obtain ⟨t, et, it⟩ := ib.zip (fun b s => 0.0 + w.sum + beta * b + 10 * s) is
      rw [ew]
      dsimp only
      rw [eb]
      dsimp only
      rw [es]
      dsimp only [tTotalLoss]
      rw [et]
      simp only [SameResult, inverseOut, ib.toList, is.toList, it.toList, iw.sum]
  · obtain ⟨h1, h2'⟩ := cellsMeant_wrong hc
    rw [tfReshape_error (nc := nc) M.nCells _ rfl hq h1 h2', reshapeCells_wrong _ _ hc]
    rfl

end

/-- The tensors of a data handler and any value `z` of `n_cells`: the steps of `DenseModel` and `DenseModel_Hard` are
those of the exact model if `z` is the number of cells of the mesh or `-1`; every other value is a `ValueError`. -/
theorem C105_api {V : Type} (ext : QuadRoutines) (mp : List (ℝ × ℝ)) (cells : List Quad)
    (bd : List (ℤ × List (ℝ × ℝ))) (s : FESettings) (dict : List (ℤ × (ℝ → ℝ → V))) (f : ℝ → ℝ → ℝ) {nq : ℕ}
    (S S' : Fespace2D (ℝ → ℝ → ℝ) V (s.feOrder.toNat ^ 2) nq) (D : DataHandler2D (s.feOrder.toNat ^ 2) nq)
    (h : fespace2D ext mp cells bd s dict f false = .ok ⟨nq, S⟩) (hD : dataHandler2D S true = .ok (D, S'))
    (bdv : List (ℝ × ℝ) × List ℝ) (z : ℤ) (net : Network 1) (beta : ℝ) (p : ParamDict) :
    ∀ P ∈ [(lossPoisson D.nCells (s.feOrder.toNat ^ 2) nq, tLossPoisson), (lossCd2d _ _ _, tLossCd2d),
        (lossHelmholtz _ _ _, tLossHelmholtz)],
      (z = cells.length ∨ z = -1 →
        SameResult denseOut
          (tTrainStepDense P.2 (.ofExact { modelDataOf D bdv S.nCells with nCells := z }) net beta p)
          (trainStepDense P.1 (modelDataOf D bdv S.nCells) net beta p) ∧
        SameResult hardOut
          (tTrainStepHard P.2 (.ofExact { modelDataOf D bdv S.nCells with nCells := z }) net beta p)
          (trainStepHard P.1 (modelDataOf D bdv S.nCells) net beta p)) ∧
      (z ≠ cells.length → z ≠ -1 →
        tTrainStepDense P.2 (.ofExact { modelDataOf D bdv S.nCells with nCells := z }) net beta p
          = .error .valueError ∧
        tTrainStepHard P.2 (.ofExact { modelDataOf D bdv S.nCells with nCells := z }) net beta p
          = .error .valueError) := by
  have hn : S.nCells = cells.length := (fespace_ok h).2.2.2.2.1
  have hDn : D.nCells = cells.length := by
    obtain ⟨-, D₁, S₁, e, e2, -⟩ := C41_layout ext mp cells bd s dict f false S h
    rw [hD] at e
    cases e
    exact e2
  have hq : 0 < nq := by
    have h1 := ((C36_total_dofs ext mp cells bd s dict f false).1 nq S h).1
    have h2 := ((C63_constructor ext mp cells bd s dict f).1 ⟨nq, S, h⟩).2.2.2.2.1.1
    have : (0 : ℤ) < nq := by rw [h1]; positivity
    exact_mod_cast this
  intro P hP
  have key := C105_dense { modelDataOf D bdv S.nCells with nCells := z } hq net (.inr rfl) beta p P hP
  refine ⟨fun hz => ?_, fun hz hz' => ?_⟩
  · have hc : cellsMeant z D.nCells = S.nCells := by
      unfold cellsMeant
      rcases hz with rfl | rfl
      · rw [if_neg (by omega), hn]
      · rw [if_pos rfl, hDn, hn]
    dsimp only at key
    rw [hc] at key
    exact key
  · have hc : cellsMeant z D.nCells ≠ D.nCells := by
      unfold cellsMeant
      rw [if_neg hz', hDn]
      exact hz
    have e : cellsResidual P.1 { modelDataOf D bdv S.nCells with nCells := cellsMeant z D.nCells } net p []
        = .error .valueError := by
      unfold cellsResidual
      dsimp only
      rw [reshapeCells_wrong _ _ hc]
    dsimp only at key
    simp only [trainStepDense, trainStepHard, e] at key
    exact key

/-! ## Tensors put together by hand -/

theorem bcastDim_ok {a b n : ℕ} : bcastDim a b = .ok n ↔ DimsFit a b ∧ n = joint a b := by
  unfold bcastDim DimsFit joint
  split_ifs <;> simp_all <;> omega

theorem exceptBind_ok {α β : Type} {x : Except PyErr α} {g : α → Except PyErr β} {y : β} :
    x.bind g = .ok y ↔ ∃ a, x = .ok a ∧ g a = .ok y := by
  cases x <;> simp [Except.bind]

theorem zip_ok {op : ℝ → ℝ → ℝ} {A B C : TMat} (h : A.zip op B = .ok C) :
    DimsFit A.rows B.rows ∧ DimsFit A.cols B.cols ∧ C.rows = joint A.rows B.rows ∧ C.cols = joint A.cols B.cols := by
  unfold TMat.zip at h
  cases h1 : bcastDim A.rows B.rows with
  | error e => rw [h1] at h; exact absurd h (by cases bcastDim A.cols B.cols <;> simp)
  | ok m =>
    cases h2 : bcastDim A.cols B.cols with
    | error e => rw [h1, h2] at h; exact absurd h (by simp)
    | ok n =>
      rw [h1, h2] at h
      cases h
      exact ⟨(bcastDim_ok.1 h1).1, (bcastDim_ok.1 h2).1, (bcastDim_ok.1 h1).2, (bcastDim_ok.1 h2).2⟩

theorem zip_fit (op : ℝ → ℝ → ℝ) {A B : TMat} (h1 : DimsFit A.rows B.rows) (h2 : DimsFit A.cols B.cols) :
    ∃ C, A.zip op B = .ok C ∧ C.rows = joint A.rows B.rows ∧ C.cols = joint A.cols B.cols := by
  unfold TMat.zip
  rw [bcastDim_ok.2 ⟨h1, rfl⟩, bcastDim_ok.2 ⟨h2, rfl⟩]
  exact ⟨_, rfl, rfl, rfl⟩

theorem matvecT_ok {A : TCells} {v C : TMat} (h : A.matvecT v = .ok C) :
    A.cols = v.cols ∧ DimsFit A.cells v.rows ∧ C.rows = A.rows ∧ C.cols = joint A.cells v.rows := by
  unfold TCells.matvecT TCells.matvec at h
  by_cases hq : A.cols = v.cols
  · rw [if_pos hq] at h
    cases h1 : bcastDim A.cells v.rows with
    | error e => rw [h1] at h; exact absurd h (by simp)
    | ok n =>
      rw [h1] at h
      cases h
      exact ⟨hq, (bcastDim_ok.1 h1).1, rfl, (bcastDim_ok.1 h1).2⟩
  · rw [if_neg hq] at h
    exact absurd h (by simp)

theorem matvecT_fit {A : TCells} {v : TMat} (hq : A.cols = v.cols) (h : DimsFit A.cells v.rows) :
    ∃ C, A.matvecT v = .ok C ∧ C.rows = A.rows ∧ C.cols = joint A.cells v.rows := by
  unfold TCells.matvecT TCells.matvec
  rw [if_pos hq, bcastDim_ok.2 ⟨h, rfl⟩]
  exact ⟨_, rfl, rfl, rfl⟩

theorem tfReshape_shape {n q : ℕ} {v : ℕ → ℝ} {d : ℤ} {A : TMat} (h : tfReshape n v d q = .ok A) :
    A.cols = q ∧ n = A.rows * q ∧ (d = A.rows ∨ d = -1) := by
  unfold tfReshape at h
  by_cases hd : d = -1
  · rw [if_pos hd] at h
    split at h
    case isFalse => exact absurd h (by simp)
    case isTrue hc =>
      cases h
      exact ⟨rfl, (Nat.div_mul_cancel hc.2).symm, .inr hd⟩
  · rw [if_neg hd] at h
    split at h
    case isFalse => exact absurd h (by simp)
    case isTrue hc =>
      cases h
      refine ⟨rfl, ?_, .inl (Int.toNat_of_nonneg hc.1).symm⟩
      have := hc.2
      rw [← Int.toNat_of_nonneg hc.1] at this
      exact_mod_cast this.symm

theorem tfReshape_fit {n q k : ℕ} (v : ℕ → ℝ) {d : ℤ} (hq : 0 < q) (hn : n = k * q) (hd : d = k ∨ d = -1) :
    ∃ A, tfReshape n v d q = .ok A ∧ A.rows = k ∧ A.cols = q := by
  unfold tfReshape
  rcases hd with rfl | rfl
  · rw [if_neg (by omega), if_pos ⟨by omega, by rw [hn]; push_cast; rfl⟩]
    exact ⟨_, rfl, by simp, rfl⟩
  · rw [if_pos rfl, if_pos ⟨by omega, Dvd.intro_left k hn.symm⟩]
    exact ⟨_, rfl, by rw [hn]; exact Nat.mul_div_cancel k hq, rfl⟩

theorem joint_eq {a b : ℕ} (ha : a ≠ 1) : joint a b = a := if_neg ha

/-- When the step of `DenseModel` with the Poisson loss gets through its PDE part, for a network with one output: the
points are `k` cells full, `n_cells` is `k` or `-1`, and test functions, points and force matrix fit together up to
broadcasting. -/
theorem C105_poisson_accepts {nc nt nq : ℕ} (M : TModelData) (hM : SameShapes M nc nt nq) (hq : 0 < nq)
    (net : Network 1) (p : ParamDict) (eps : ℝ) (hp : paramGet p "eps" = .ok eps) :
    (∃ v, tCellsResidual tLossPoisson M net p = .ok v) ↔
      ∃ k, M.nIn = k * nq ∧ (M.nCells = k ∨ M.nCells = -1) ∧ DimsFit nc k ∧ DimsFit nt M.forceMatrix.rows ∧
        DimsFit (joint nc k) M.forceMatrix.cols := by
  obtain ⟨⟨v1, v2, v3⟩, ⟨x1, x2, x3⟩, y1, y2, y3⟩ := hM
  have hself : ∀ a, DimsFit a a := fun a => .inl rfl
  have hj : ∀ a, joint a a = a := fun a => by unfold joint; split <;> simp_all
  constructor
  · rintro ⟨v, hv⟩
    obtain ⟨gx, ex, hv⟩ := exceptBind_ok.1 hv
    obtain ⟨gy, ey, hv⟩ := exceptBind_ok.1 hv
    obtain ⟨u, eu, hv⟩ := exceptBind_ok.1 hv
    obtain ⟨dX, e1, hv⟩ := exceptBind_ok.1 hv
    obtain ⟨dY, e2, hv⟩ := exceptBind_ok.1 hv
    obtain ⟨eps', e3, hv⟩ := exceptBind_ok.1 hv
    obtain ⟨d, e4, hv⟩ := exceptBind_ok.1 hv
    obtain ⟨r, e5, -⟩ := exceptBind_ok.1 hv
    rw [x3] at ex
    rw [y3] at ey
    obtain ⟨cx, nx, hx⟩ := tfReshape_shape ex
    obtain ⟨cy, ny, hy⟩ := tfReshape_shape ey
    have hrows : gy.rows = gx.rows := Nat.eq_of_mul_eq_mul_right hq (ny.symm.trans nx)
    obtain ⟨-, f1, r1, c1⟩ := matvecT_ok e1
    obtain ⟨-, f2, r2, c2⟩ := matvecT_ok e2
    obtain ⟨-, -, r3, c3⟩ := zip_ok e4
    obtain ⟨f4, f5, -, -⟩ := zip_ok e5
    have hd1 : d.rows = nt := by rw [r3, r1, r2, x2, y2, hj]
    have hd2 : d.cols = joint nc gx.rows := by rw [c3, c1, c2, x1, y1, hrows, hj]
    refine ⟨gx.rows, nx, hx, x1 ▸ f1, ?_, ?_⟩
    · rw [← hd1]; exact f4
    · rw [← hd2]; exact f5
  · rintro ⟨k, hn, hk, h1, h2, h3⟩
    obtain ⟨gx, ex, rx, cx⟩ := tfReshape_fit (entries1 fun r => (tapeGradient (ι := Fin M.nIn × Fin 1)
      (fun X i => net _ X i.1 i.2) M.inputTensor r).1) hq hn hk
    obtain ⟨gy, ey, ry, cy⟩ := tfReshape_fit (entries1 fun r => (tapeGradient (ι := Fin M.nIn × Fin 1)
      (fun X i => net _ X i.1 i.2) M.inputTensor r).2) hq hn hk
    obtain ⟨u, eu, -, -⟩ := tfReshape_fit (entries1 (flatten (net _ M.inputTensor))) hq
      ((Nat.mul_one _).trans hn) hk
    obtain ⟨dX, e1, r1, c1⟩ := matvecT_fit (A := M.preMultiplierGradX) (v := gx) (by rw [x3, cx]) (by rw [x1, rx]; exact h1)
    obtain ⟨dY, e2, r2, c2⟩ := matvecT_fit (A := M.preMultiplierGradY) (v := gy) (by rw [y3, cy]) (by rw [y1, ry]; exact h1)
    obtain ⟨d, e4, r4, c4⟩ := zip_fit (· + ·) (A := dX) (B := dY) (by rw [r1, r2, x2, y2]; exact hself _)
      (by rw [c1, c2, x1, y1, rx, ry]; exact hself _)
    obtain ⟨r, e5, -, -⟩ := zip_fit (· - ·) (A := d.map (eps * ·)) (B := M.forceMatrix)
      (by show DimsFit d.rows _; rw [r4, r1, r2, x2, y2, hj]; exact h2)
      (by show DimsFit d.cols _; rw [c4, c1, c2, x1, y1, rx, ry, hj]; exact h3)
    refine ⟨r.meanSquare0, exceptBind_ok.2 ⟨gx, by rw [x3]; exact ex, exceptBind_ok.2 ⟨gy, by rw [y3]; exact ey,
      exceptBind_ok.2 ⟨u, by rw [v3]; exact eu, exceptBind_ok.2 ⟨dX, e1, exceptBind_ok.2 ⟨dY, e2,
      exceptBind_ok.2 ⟨eps, hp, exceptBind_ok.2 ⟨d, e4, exceptBind_ok.2 ⟨r, e5, rfl⟩⟩⟩⟩⟩⟩⟩⟩⟩

/-- Sums of tensors keep the shape of the first one unless it has a dimension 1. -/
theorem add_keeps {A B C : TMat} (h : A.add B = .ok C) (h1 : A.rows ≠ 1) (h2 : A.cols ≠ 1) :
    C.rows = A.rows ∧ C.cols = A.cols := by
  obtain ⟨-, -, r, c⟩ := zip_ok h
  exact ⟨by rw [r, joint_eq h1], by rw [c, joint_eq h2]⟩

/-- If a step of `DenseModel` returns, and there are several cells, several test functions, more points than one cell
has, a force matrix with several rows and columns and a column of several boundary values for several boundary points,
then all shapes agree.  For the three loss functions of forward problems. -/
theorem C105_detects {nc nt nq dout : ℕ} (M : TModelData) (hM : SameShapes M nc nt nq)
    (hnc : nc ≠ 1) (hnt : nt ≠ 1) (hin : M.nIn ≠ nq) (hfr : M.forceMatrix.rows ≠ 1) (hfc : M.forceMatrix.cols ≠ 1)
    (hb : M.nBd ≠ 1) (hbr : M.dirichletActual.rows ≠ 1)
    (net : Network dout) (beta : ℝ) (p : ParamDict) (out : TTrainOut) :
    ∀ T ∈ [tLossPoisson, tLossCd2d, tLossHelmholtz], tTrainStepDense T M net beta p = .ok out →
      M.nIn = nc * nq ∧ (M.nCells = nc ∨ M.nCells = -1) ∧ M.forceMatrix.rows = nt ∧ M.forceMatrix.cols = nc ∧
      M.dirichletActual.rows = M.nBd := by
  obtain ⟨⟨v1, v2, v3⟩, ⟨x1, x2, x3⟩, y1, y2, y3⟩ := hM
  intro T hT hv
  obtain ⟨res, hv, hbd⟩ := exceptBind_ok.1 hv
  obtain ⟨b, eb, -⟩ := exceptBind_ok.1 hbd
  obtain ⟨db, eb, -⟩ := exceptBind_ok.1 eb
  obtain ⟨fb, -, -, -⟩ := zip_ok eb
  have hrows : M.dirichletActual.rows = M.nBd := by
    rcases fb with h | h | h
    · exact h.symm
    · exact absurd h hb
    · exact absurd h hbr
  obtain ⟨gx, ex, hv⟩ := exceptBind_ok.1 hv
  obtain ⟨gy, ey, hv⟩ := exceptBind_ok.1 hv
  obtain ⟨u, eu, hv⟩ := exceptBind_ok.1 hv
  rw [x3] at ex
  obtain ⟨cx, nx, hx⟩ := tfReshape_shape ex
  have hk1 : gx.rows ≠ 1 := fun e => hin (by rw [nx, e, Nat.one_mul])
  have start : ∀ dX, M.preMultiplierGradX.matvecT gx = .ok dX → gx.rows = nc ∧ dX.rows = nt ∧ dX.cols = nc := by
    intro dX e1
    obtain ⟨-, f1, r1, c1⟩ := matvecT_ok e1
    rw [x1] at f1 c1
    rw [x2] at r1
    refine ⟨?_, r1, by rw [c1, joint_eq hnc]⟩
    rcases f1 with h | h | h
    · exact h.symm
    · exact absurd h hnc
    · exact absurd h hk1
  have finish : ∀ d r : TMat, d.rows = nt → d.cols = nc → d.sub M.forceMatrix = .ok r →
      M.forceMatrix.rows = nt ∧ M.forceMatrix.cols = nc := by
    intro d r h1 h2 h3
    obtain ⟨f1, f2, -, -⟩ := zip_ok h3
    rw [h1] at f1
    rw [h2] at f2
    refine ⟨?_, ?_⟩
    · rcases f1 with h | h | h
      · exact h.symm
      · exact absurd h hnt
      · exact absurd h hfr
    · rcases f2 with h | h | h
      · exact h.symm
      · exact absurd h hnc
      · exact absurd h hfc
  have conclude : gx.rows = nc → M.forceMatrix.rows = nt ∧ M.forceMatrix.cols = nc →
      M.nIn = nc * nq ∧ (M.nCells = nc ∨ M.nCells = -1) ∧ M.forceMatrix.rows = nt ∧ M.forceMatrix.cols = nc ∧
      M.dirichletActual.rows = M.nBd := fun h1 h2 => ⟨by rw [nx, h1], by rw [h1] at hx; exact hx, h2.1, h2.2, hrows⟩
  simp only [List.mem_cons, List.not_mem_nil, or_false] at hT
  rcases hT with rfl | rfl | rfl
  · obtain ⟨dX, e1, hv⟩ := exceptBind_ok.1 hv
    obtain ⟨dY, -, hv⟩ := exceptBind_ok.1 hv
    obtain ⟨eps', -, hv⟩ := exceptBind_ok.1 hv
    obtain ⟨d, e4, hv⟩ := exceptBind_ok.1 hv
    obtain ⟨r, e5, -⟩ := exceptBind_ok.1 hv
    obtain ⟨s1, s2, s3⟩ := start dX e1
    obtain ⟨t1, t2⟩ := add_keeps e4 (by rw [s2]; exact hnt) (by rw [s3]; exact hnc)
    exact conclude s1 (finish (d.map (eps' * ·)) r (t1.trans s2) (t2.trans s3) e5)
  · obtain ⟨dX, e1, hv⟩ := exceptBind_ok.1 hv
    obtain ⟨dY, -, hv⟩ := exceptBind_ok.1 hv
    obtain ⟨eps', -, hv⟩ := exceptBind_ok.1 hv
    obtain ⟨d, e4, hv⟩ := exceptBind_ok.1 hv
    obtain ⟨cX, -, hv⟩ := exceptBind_ok.1 hv
    obtain ⟨cY, -, hv⟩ := exceptBind_ok.1 hv
    obtain ⟨bx, -, hv⟩ := exceptBind_ok.1 hv
    obtain ⟨by_, -, hv⟩ := exceptBind_ok.1 hv
    obtain ⟨cv, -, hv⟩ := exceptBind_ok.1 hv
    obtain ⟨cc, -, hv⟩ := exceptBind_ok.1 hv
    obtain ⟨cu, -, hv⟩ := exceptBind_ok.1 hv
    obtain ⟨w1, e5, hv⟩ := exceptBind_ok.1 hv
    obtain ⟨w2, e6, hv⟩ := exceptBind_ok.1 hv
    obtain ⟨r, e7, -⟩ := exceptBind_ok.1 hv
    obtain ⟨s1, s2, s3⟩ := start dX e1
    obtain ⟨t1, t2⟩ := add_keeps e4 (by rw [s2]; exact hnt) (by rw [s3]; exact hnc)
    have a1 : (d.map (eps' * ·)).rows = nt := t1.trans s2
    have a2 : (d.map (eps' * ·)).cols = nc := t2.trans s3
    obtain ⟨t3, t4⟩ := add_keeps e5 (by rw [a1]; exact hnt) (by rw [a2]; exact hnc)
    rw [a1] at t3
    rw [a2] at t4
    obtain ⟨t5, t6⟩ := add_keeps e6 (by rw [t3]; exact hnt) (by rw [t4]; exact hnc)
    exact conclude s1 (finish w2 r (t5.trans t3) (t6.trans t4) e7)
  · obtain ⟨dX, e1, hv⟩ := exceptBind_ok.1 hv
    obtain ⟨dY, -, hv⟩ := exceptBind_ok.1 hv
    obtain ⟨eps', -, hv⟩ := exceptBind_ok.1 hv
    obtain ⟨d, e4, hv⟩ := exceptBind_ok.1 hv
    obtain ⟨kk, -, hv⟩ := exceptBind_ok.1 hv
    obtain ⟨cu, -, hv⟩ := exceptBind_ok.1 hv
    obtain ⟨w1, e5, hv⟩ := exceptBind_ok.1 hv
    obtain ⟨r, e7, -⟩ := exceptBind_ok.1 hv
    obtain ⟨s1, s2, s3⟩ := start dX e1
    obtain ⟨t1, t2⟩ := add_keeps e4 (by rw [s2]; exact hnt) (by rw [s3]; exact hnc)
    have a1 : ((d.map (eps' * ·)).map (-1.0 * ·)).rows = nt := t1.trans s2
    have a2 : ((d.map (eps' * ·)).map (-1.0 * ·)).cols = nc := t2.trans s3
    obtain ⟨t3, t4⟩ := add_keeps e5 (by rw [a1]; exact hnt) (by rw [a2]; exact hnc)
    exact conclude s1 (finish w1 r (t3.trans a1) (t4.trans a2) e7)

/-- A tensor of boundary values without the reshape to a column (rank 1, that is one row) is accepted silently: the
boundary loss then has one entry per boundary value, which compares that value with the predictions at all points. -/
theorem C105_flat_boundary {n : ℕ} (f : Fin n → ℝ) (a : Fin n → ℝ) :
    ∃ v, tMeanSquareError (outputMat fun r (_ : Fin 1) => f r) (outputMat fun (_ : Fin 1) r => a r) = .ok v ∧
      v.toList = List.ofFn fun j => (∑ i, (f i - a j) ^ 2) / n := by
  have hd : bcastDim n 1 = .ok n := by
    unfold bcastDim
    by_cases h : n = 1 <;> simp [h]
  have hd' : bcastDim 1 n = .ok n := by
    unfold bcastDim
    by_cases h : n = 1 <;> simp [h, eq_comm]
  have hz : ∃ C, (outputMat fun r (_ : Fin 1) => f r).zip (· - ·) (outputMat fun (_ : Fin 1) r => a r) = .ok C ∧
      C.Is fun i j => f i - a j := by
    unfold TMat.zip
    simp only [outputMat, hd, hd']
    refine ⟨_, rfl, rfl, rfl, fun i j => ?_⟩
    have h0 : ∀ k, bcastIdx 1 k = 0 := fun k => by simp [bcastIdx]
    simp only [bcastIdx_fin, h0, i.isLt, j.isLt, Nat.zero_lt_one, and_self, dite_true]
  obtain ⟨C, e, i⟩ := hz
  exact ⟨_, by simp only [tMeanSquareError, TMat.sub, e, bind, Except.bind], i.meanSquare0.toList⟩

/-! ## Concrete cases -/

/-- Two cells with one test function and two points per cell, one boundary point. -/
def broadcastDemo (z : ℤ) : ModelData 2 1 2 (2 * 2) 1 where
  preMultiplierVal := fun _ _ _ => 1
  preMultiplierGradX := fun c _ q => c + q
  preMultiplierGradY := fun _ _ _ => 2
  forceMatrix := fun _ c => c
  inputTensor := fun r => (r, 0)
  dirichletInput := fun _ => (0, 0)
  dirichletActual := fun _ => 0
  nCells := z

/-- `n_cells = 4` for two cells is an error, also with TensorFlow's rules. -/
example (net : Network 1) : tTrainStepDense tLossPoisson (.ofExact (broadcastDemo 4)) net 10 (some [("eps", 1)])
    = .error .valueError := by
  have h := (C105_dense (broadcastDemo 4) (by norm_num) net (.inr rfl) 10 (some [("eps", 1)])
    (lossPoisson 2 1 2, tLossPoisson) (by simp)).1
  have e : cellsResidual (lossPoisson 2 1 2) { broadcastDemo 4 with nCells := cellsMeant 4 2 } net
      (some [("eps", 1)]) [] = .error .valueError := by
    unfold cellsResidual
    dsimp only
    rw [reshapeCells_wrong _ _ (by simp [cellsMeant])]
  simp only [trainStepDense] at h
  have e2 : (broadcastDemo 4).nCells = 4 := rfl
  rw [e2] at h
  rw [e] at h
  exact h

/-- Points of one cell only for two cells of test functions: accepted silently (the points are used for both cells). -/
example (net : Network 1) : ∃ v, tCellsResidual tLossPoisson
    { TModelData.ofExact (broadcastDemo 1) with nIn := 2, inputTensor := fun r => (r, 0) } net (some [("eps", 1)])
      = .ok v :=
  (C105_poisson_accepts _ (nc := 2) (nt := 1) (nq := 2) ⟨⟨rfl, rfl, rfl⟩, ⟨rfl, rfl, rfl⟩, rfl, rfl, rfl⟩ (by norm_num)
    net (some [("eps", 1)]) 1 (by simp [paramGet])).2
    ⟨1, rfl, .inl rfl, .inr (.inr rfl), .inl rfl, .inl (by simp [joint]; rfl)⟩

/-- Points of three cells for two cells of test functions: rejected. -/
example (net : Network 1) (z : ℤ) : ¬ ∃ v, tCellsResidual tLossPoisson
    { TModelData.ofExact (broadcastDemo z) with nIn := 6, inputTensor := fun r => (r, 0) } net (some [("eps", 1)])
      = .ok v := by
  rw [C105_poisson_accepts _ (nc := 2) (nt := 1) (nq := 2) ⟨⟨rfl, rfl, rfl⟩, ⟨rfl, rfl, rfl⟩, rfl, rfl, rfl⟩ (by norm_num)
    net (some [("eps", 1)]) 1 (by simp [paramGet])]
  rintro ⟨k, h1, -, h2, -⟩
  have h1' : 6 = k * 2 := h1
  unfold DimsFit at h2
  omega

/-- Consistent data with two cells, two test functions and two boundary points meet the hypotheses of
`C105_detects`. -/
example : ∃ (M : TModelData), SameShapes M 2 2 2 ∧ M.nIn ≠ 2 ∧ M.forceMatrix.rows ≠ 1 ∧ M.forceMatrix.cols ≠ 1 ∧
    M.nBd ≠ 1 ∧ M.dirichletActual.rows ≠ 1 ∧
    ∃ out, tTrainStepDense tLossPoisson M (fun _ X r (_ : Fin 1) => (X r).1) 10 (some [("eps", 1)]) = .ok out := by
  let N : ModelData 2 2 2 (2 * 2) 2 := ⟨fun _ _ _ => 1, fun _ _ _ => 1, fun _ _ _ => 1, fun _ _ => 0, fun r => (r, 0),
    fun r => (r, 0), fun _ => 0, 2⟩
  refine ⟨.ofExact N, ⟨⟨rfl, rfl, rfl⟩, ⟨rfl, rfl, rfl⟩, rfl, rfl, rfl⟩, by decide, by decide, by decide, by decide,
    by decide, ?_⟩
  obtain ⟨v, hv⟩ := (C105_poisson_accepts (.ofExact N) (nc := 2) (nt := 2) (nq := 2)
    ⟨⟨rfl, rfl, rfl⟩, ⟨rfl, rfl, rfl⟩, rfl, rfl, rfl⟩ (by norm_num) (fun _ X r (_ : Fin 1) => (X r).1)
    (some [("eps", 1)]) 1 (by simp [paramGet])).2 ⟨2, rfl, .inl rfl, .inl rfl, .inl rfl, .inl rfl⟩
  obtain ⟨b, hb, -⟩ := tMeanSquareError_same
    (outputMat_is ((fun _ X r (_ : Fin 1) => (X r).1 : Network 1) _ N.dirichletInput))
    (outputMat_is fun r (_ : Fin 1) => N.dirichletActual r)
  refine ⟨⟨0.0 + v.sum, b.toList, b.toList.map fun x => 0.0 + v.sum + 10 * x, []⟩, ?_⟩
  unfold tTrainStepDense
  exact exceptBind_ok.2 ⟨v, hv, exceptBind_ok.2 ⟨b, hb, rfl⟩⟩

end FastVPINNs
