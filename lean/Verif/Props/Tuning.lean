import Verif.Model.Tuning
import Verif.Props.Constructor
import Verif.Props.Geometry
import Verif.Props.DataHandler
import Verif.Props.Train
import Verif.Props.Network
import Verif.Props.ModelConfig
import Verif.Props.Utils
import Verif.Props.Examples

/-! # C58, C59: hyper-parameter tuning -/

namespace FastVPINNs

open Spec

/-! ## C59 -/

/-- The sum over a list of points in rows. -/
lemma sum_map_grid {α : Type} (F : α → ℝ) (g : ℕ → ℕ → α) (tx ty : ℕ) (pts : List α)
    (hlen : pts.length = tx * ty) (h : ∀ i < tx, ∀ j < ty, pts[tx * j + i]? = some (g i j)) :
    (pts.map F).sum = ∑ j ∈ Finset.range ty, ∑ i ∈ Finset.range tx, F (g i j) := by
  induction ty generalizing pts with
  | zero =>
    rw [Nat.mul_zero] at hlen
    rw [List.length_eq_zero_iff.1 hlen]
    simp
  | succ n ih =>
    have hsplit : pts = pts.take (tx * n) ++ pts.drop (tx * n) := (List.take_append_drop _ _).symm
    have hlt : (pts.take (tx * n)).length = tx * n := by
      rw [List.length_take, hlen]
      exact min_eq_left (Nat.mul_le_mul_left _ (Nat.le_succ n))
    have h1 := ih (pts.take (tx * n)) hlt (fun i hi j hj => by
      rw [List.getElem?_take_of_lt]
      · exact h i hi j (by omega)
      · calc tx * j + i < tx * j + tx := by omega
          _ = tx * (j + 1) := by ring
          _ ≤ tx * n := Nat.mul_le_mul_left _ hj)
    have h2 : pts.drop (tx * n) = (List.range tx).map fun i => g i n := by
      refine List.ext_getElem? fun i => ?_
      rw [List.getElem?_drop]
      by_cases hi : i < tx
      · rw [h i hi n (by omega)]
        simp [hi]
      · rw [List.getElem?_eq_none (by rw [hlen, Nat.mul_succ]; omega),
          List.getElem?_eq_none (by simp; omega)]
    rw [hsplit, List.map_append, List.sum_append, h1, Finset.sum_range_succ, h2, List.map_map]
    congr 1

/-- The layers before training: the widths of the search point, weights from the initializer, `tanh` in
the hidden layers. -/
def Spec.initialLayers (env : TrialEnv) (p : SearchPoint) : List DenseLayer :=
  buildLayers env.init 0 2 (p.hidden.map (fun n => ⟨n, some "tanh"⟩) ++ [⟨1, none⟩])

/-- The layers after `n` epochs. -/
def Spec.trainedLayers (env : TrialEnv) (p : SearchPoint) (n : ℕ) : List DenseLayer :=
  (List.range n).foldl (fun w k => env.update k w) (Spec.initialLayers env p)

/-- The function the network with these layers computes. -/
noncomputable def Spec.prediction (env : TrialEnv) (p : SearchPoint) (layers : List DenseLayer)
    (z : ℝ × ℝ) : ℝ :=
  Spec.outputValue (env.act "tanh") (fun k => p.architecture.getD k 0) (Spec.kernels layers)
    (Spec.biases layers) p.hidden.length (fun i => if i = 0 then z.1 else z.2) 0

/-- Sum of squares over the `100 × 100` points of the uniform grid on the unit square. -/
noncomputable def Spec.gridSquares (F : ℝ × ℝ → ℝ) : ℝ :=
  ∑ j ∈ Finset.range 100, ∑ i ∈ Finset.range 100, F ((i : ℝ) / 99, (j : ℝ) / 99) ^ 2

section
variable (env : TrialEnv) (p : SearchPoint)

lemma objective_bind {nt nq : ℕ} (D : DataHandler2D nt nq) (bd : List (ℝ × ℝ) × List ℝ) (n : ℕ) :
    bindKwargs (denseParams _) (objectiveKwargs p D bd n) = .ok [.dims p.architecture, .lr p.learningRate,
      .params [("n_cells", n)], .obj (.loss (lossPoisson _ _ _)),
      .objs [.input D.xPde, .bdPoints fun i => bd.1.get i, .bdValues fun i => bd.2.getD i.val 0],
      .objs [.mat D.shapeValMat, .mat D.gradXMat, .mat D.gradYMat], .obj (.force D.forcing),
      .dtype true "float32", .bool false, .str "tanh", .bool false] := by
  simp [bindKwargs, denseParams, objectiveKwargs, mapE, List.lookup]

lemma architecture_specs :
    layerSpecs p.architecture "tanh" = .ok (p.hidden.map (fun n => ⟨n, some "tanh"⟩) ++ [⟨1, none⟩]) := by
  obtain ⟨specs, h1, h2, h3⟩ := C51_layers p.architecture "tanh" (by simp [SearchPoint.architecture])
  rw [h1]
  congr 1
  have hl : specs.length = p.hidden.length + 1 := by
    simp [SearchPoint.architecture] at h2; omega
  refine List.ext_getElem (by simp [hl]) fun k hk hk' => ?_
  rw [h3 k hk (by simp [SearchPoint.architecture]; omega)]
  by_cases hlt : k < p.hidden.length
  · rw [if_pos (by omega), List.getElem_append_left (by simpa using hlt)]
    simp [SearchPoint.architecture, hlt]
  · have : k = p.hidden.length := by omega
    subst this
    rw [if_neg (by omega), List.getElem_append_right (by simp)]
    simp [SearchPoint.architecture]

/-- The model the trial builds. -/
lemma objective_model {nt nq : ℕ} (D : DataHandler2D nt nq)
    (bd : List (ℝ × ℝ) × List ℝ) (n : ℕ) :
    ∃ m, initDense (objectiveKwargs p D bd n) = .ok m ∧ m.core.layerDims = p.architecture ∧
      m.core.useAttention = false ∧
      m.core.layerList = p.hidden.map (fun n => ⟨n, some "tanh"⟩) ++ [⟨1, none⟩] ∧
      modelTensors m = .ok (lossPoisson _ _ _, modelDataOf D bd n) := by
  have hlr : ∃ lr, learningRateFn p.learningRate = .ok lr := by
    simp [learningRateFn, SearchPoint.learningRate, strGet, List.lookup, PyVal.truthy]
  obtain ⟨lr, hlr⟩ := hlr
  have hc : ∃ core, modelCore learningRateFn p.architecture p.learningRate [("n_cells", (n : ℤ))]
      (.loss (lossPoisson _ _ _) : TensorObj D.nCells nt nq (D.nCells * nq) bd.1.length)
      [.input D.xPde, .bdPoints fun i => bd.1.get i, .bdValues fun i => bd.2.getD i.val 0]
      [.mat D.shapeValMat, .mat D.gradXMat, .mat D.gradYMat] (.force D.forcing) (true, "float32") false "tanh"
      false = .ok core ∧ core.layerDims = p.architecture ∧ core.useAttention = false ∧
      core.layerList = p.hidden.map (fun n => ⟨n, some "tanh"⟩) ++ [⟨1, none⟩] ∧
      modelTensors ⟨core⟩ = .ok (lossPoisson _ _ _, modelDataOf D bd n) := by
    have e0 : ∀ (a b c : TensorObj D.nCells nt nq (D.nCells * nq) bd.1.length), pyIndex [a, b, c] 0 = .ok a :=
      fun _ _ _ => rfl
    have e1 : ∀ (a b c : TensorObj D.nCells nt nq (D.nCells * nq) bd.1.length), pyIndex [a, b, c] 1 = .ok b :=
      fun _ _ _ => rfl
    have e2 : ∀ (a b c : TensorObj D.nCells nt nq (D.nCells * nq) bd.1.length), pyIndex [a, b, c] 2 = .ok c :=
      fun _ _ _ => rfl
    have e3 : strGet [("n_cells", (n : ℤ))] "n_cells" = .ok (n : ℤ) := rfl
    have e4 : pyIndex p.architecture 0 = .ok 2 := rfl
    unfold modelCore
    simp only [bind, Except.bind, pure, Except.pure, hlr, architecture_specs p, e0, e1, e2, e3, e4,
      Bool.true_eq_false, if_false, Except.ok.injEq, exists_eq_left']
    exact ⟨trivial, trivial, trivial, rfl⟩
  obtain ⟨core, hc, h⟩ := hc
  exact ⟨⟨core⟩, initDense_of _ _ _ _ _ _ _ _ _ _ _ _ _ core (objective_bind p D bd n) hc, h⟩

/-- Training steps that always return leave the loop with the folded update. -/
lemma trainLoop_ok (P : List DenseLayer → Prop) (step : List DenseLayer → Except PyErr Unit)
    (update : ℕ → List DenseLayer → List DenseLayer) (hstep : ∀ w, P w → step w = .ok ())
    (hupd : ∀ k w, P w → P (update k w)) (ks : List ℕ) (w : List DenseLayer) (hw : P w) :
    trainLoop step update ks w = .ok (ks.foldl (fun w k => update k w) w) ∧
      P (ks.foldl (fun w k => update k w) w) := by
  induction ks generalizing w with
  | nil => exact ⟨rfl, hw⟩
  | cons k ks ih =>
    simp only [trainLoop, hstep w hw, List.foldl_cons]
    exact ih _ (hupd k w hw)

/-- The model data of a data handler has the expected shape. -/
lemma shaped_modelData {ext : QuadRoutines} {mp : List (ℝ × ℝ)} {cells : List Quad} {bd : BdDict}
    {s : FESettings} {dict : List (ℤ × (ℝ → ℝ → ℝ))} {f : ℝ → ℝ → ℝ} {plot : Bool} {nq : ℕ}
    {S S' : Fespace2D (ℝ → ℝ → ℝ) ℝ (s.feOrder.toNat ^ 2) nq} {D : DataHandler2D (s.feOrder.toNat ^ 2) nq}
    (h : fespace2D ext mp cells bd s dict f plot = .ok ⟨nq, S⟩) (hD : dataHandler2D S true = .ok (D, S'))
    (bdv : List (ℝ × ℝ) × List ℝ) : ∃ pt, Shaped (modelDataOf D bdv S.nCells) pt := by
  obtain ⟨-, D₁, S₁, hD₁, hn, -, hlay⟩ := C41_layout ext mp cells bd s dict f plot S h
  rw [hD] at hD₁
  cases hD₁
  choose x hx hr using fun c => (hlay c).2.2.2.1
  refine ⟨x, ⟨?_, rfl, fun c q r hrc => hr c q r hrc⟩⟩
  show ((S.nCells : ℕ) : ℤ) = (D.nCells : ℤ)
  rw [hn, (fespace_ok h).2.2.2.2.1]

/-- The values the trained model predicts at a list of points. -/
lemma prediction_list (layers : List DenseLayer) (h : Architecture p.architecture "tanh" layers)
    (pts : List (ℝ × ℝ)) :
    ∃ Y, callDense env.act env.attention false layers (pts.map fun z => [z.1, z.2]) = .ok Y ∧
      Y.flatten = pts.map (prediction env p layers) := by
  have hd : p.architecture.length = p.hidden.length + 2 := by simp [SearchPoint.architecture]
  have h0 : p.architecture.getD 0 0 = 2 := rfl
  have hl : p.architecture.getD (p.architecture.length - 1) 0 = 1 := by
    rw [hd]; simp [SearchPoint.architecture]
  obtain ⟨Y, hY, hlen, hrow⟩ := C51_call env.act "tanh" p.architecture layers h env.attention
    (pts.map fun z => [z.1, z.2]) (by
      intro x hx
      obtain ⟨z, -, rfl⟩ := List.mem_map.1 hx
      rw [h0]; rfl)
  refine ⟨Y, hY, ?_⟩
  have : Y = (pts.map (prediction env p layers)).map fun v => [v] := by
    refine List.ext_getElem (by simpa using hlen) fun k hk hk' => ?_
    obtain ⟨h1, h2⟩ := hrow k (by rw [← hlen]; exact hk) hk
    rw [hl] at h1 h2
    obtain ⟨v, hv⟩ := List.length_eq_one_iff.1 h1
    have h3 := h2 0 (by norm_num)
    rw [hv] at h3 ⊢
    simp only [List.getElem_map, List.cons.injEq, and_true]
    have h3' : v = _ := h3
    rw [h3', prediction, hd, Nat.add_sub_cancel]
    refine outputValue_congr _ _ _ _ _ _ (fun i hi => ?_) _ _
    rw [h0] at hi
    interval_cases i <;> simp
  rw [this]
  generalize pts.map (prediction env p layers) = l
  induction l with
  | nil => rfl
  | cons v l ih => simp only [List.map_cons, List.flatten_cons, ih, List.singleton_append]

/-- The relative error over a list of points. -/
lemma relative_error (pts : List (ℝ × ℝ)) (hne : pts ≠ []) (e v : ℝ × ℝ → ℝ) :
    ∃ E, computeErrorsCombined ⟨[(pts.map e).length], pts.map e⟩ ⟨[(pts.map v).length], pts.map v⟩ = .ok E ∧
      E.2.2.1 = Real.sqrt ((pts.map fun z => (e z - v z) ^ 2).sum)
        / Real.sqrt ((pts.map fun z => e z ^ 2).sum) := by
  have hn : 0 < pts.length := List.length_pos_iff.2 hne
  have hl : ∀ {β : Type} (g : ℝ × ℝ → β), pts.map g = List.ofFn fun i : Fin pts.length => g (pts.get i) :=
    fun g => by
      conv_lhs => rw [← List.ofFn_get pts]
      rw [List.map_ofFn]; rfl
  obtain ⟨l2, linf, l2r, linfr, l1, l1r, -, -, h3, -, -, -, h⟩ := C56_combined hn [(pts.map e).length]
    [(pts.map v).length] (fun i => e (pts.get i)) (fun i => v (pts.get i)) [] []
  rw [← hl e, ← hl v] at h
  refine ⟨_, h, ?_⟩
  rw [l2rel_value] at h3
  have h3 := (Except.ok.inj h3).symm
  have hn' : (0 : ℝ) < pts.length := by exact_mod_cast hn
  show l2r = _
  rw [h3, Real.sqrt_div' _ hn'.le, Real.sqrt_div' _ hn'.le,
    div_div_div_cancel_right₀ (Real.sqrt_pos.2 hn').ne', hl, hl, List.sum_ofFn, List.sum_ofFn]

lemma exact_nonzero : 0 < gridSquares fun z => UniformPoisson.exactSolution z.1 z.2 := by
  unfold gridSquares
  have key : UniformPoisson.exactSolution (((1 : ℕ) : ℝ) / 99) (((1 : ℕ) : ℝ) / 99) ≠ 0 := by
    have h : 0 < Real.sin (4.0 * Real.pi * (((1 : ℕ) : ℝ) / 99)) := by
      apply Real.sin_pos_of_pos_of_lt_pi
      · have := Real.pi_pos
        norm_num
        positivity
      · have := Real.pi_pos
        norm_num
        nlinarith
    unfold UniformPoisson.exactSolution
    have h1 : (-1.0 : ℝ) ≠ 0 := by norm_num
    exact mul_ne_zero (mul_ne_zero h1 h.ne') h.ne'
  refine Finset.sum_pos' (fun j _ => Finset.sum_nonneg fun i _ => sq_nonneg _) ⟨1, by simp, ?_⟩
  exact Finset.sum_pos' (fun i _ => sq_nonneg _) ⟨1, by simp, by positivity⟩

/-- **C59.**  Every point of the search space gives a value: the geometry, the finite element space, the
data handler and the model are built, every training step runs and the errors can be computed, for every
number of epochs, all samples, initial weights and weight updates that keep the shapes.  The value is the
relative ℓ² error of the trained network on the `100 × 100` grid; it is never a division by zero, and is
zero exactly when the network equals the exact solution at all grid points. -/
theorem C59_objective (hp : p.InSpace) (n : ℕ)
    (hupd : ∀ k w, Architecture p.architecture "tanh" w → Architecture p.architecture "tanh" (env.update k w)) :
    ∃ v, objective env p n = .ok v ∧ 0 ≤ v ∧
      0 < gridSquares (fun z => UniformPoisson.exactSolution z.1 z.2) ∧
      v * Real.sqrt (gridSquares fun z => UniformPoisson.exactSolution z.1 z.2)
        = Real.sqrt (gridSquares fun z =>
            UniformPoisson.exactSolution z.1 z.2 - prediction env p (trainedLayers env p n) z) ∧
      (v = 0 ↔ ∀ i j : ℕ, i < 100 → j < 100 → prediction env p (trainedLayers env p n) ((i : ℝ) / 99, (j : ℝ) / 99)
        = UniformPoisson.exactSolution ((i : ℝ) / 99) ((j : ℝ) / 99)) := by
  -- geometry and mesh
  obtain ⟨g, hg, hgt⟩ : ∃ g, geometry2D "quadrilateral" "internal" 100 100 true = .ok g ∧
      g.meshType = "quadrilateral" := ⟨_, by simp [geometry2D]; rfl, rfl⟩
  obtain ⟨mesh, hmesh⟩ : ∃ mesh, generateQuadMeshInternal g (0, 1) (0, 1) p.nCellsX p.nCellsY
    p.nBoundaryPoints (env.sample (p.nBoundaryPoints / 4)) = mesh := ⟨_, rfl⟩
  have hmt : mesh.geometry.meshType = "quadrilateral" := by rw [← hmesh]; exact hgt
  have hcells : mesh.cells.length = p.nCellsX * p.nCellsY := by
    rw [← hmesh]
    exact (C02_internal_cells g (0, 1) (0, 1) (by norm_num) (by norm_num) _ _ _ _).1
  have hne : mesh.cells ≠ [] := by
    rw [← List.length_pos_iff, hcells]
    exact Nat.mul_pos (by have := hp.cellsX.1; omega) (by have := hp.cellsY.1; omega)
  -- space, data handler, boundary data
  obtain ⟨nq, S, hS⟩ := (C63_constructor env.ext mesh.meshPoints mesh.cells mesh.bdDict
    ⟨mesh.geometry.meshType, p.feOrder, p.feType, p.quadOrder, p.quadType, "bilinear"⟩
    UniformPoisson.boundaryFunctionDict UniformPoisson.rhs).2 (by
      refine ⟨hmt, hne, ⟨hp.order.1, ?_⟩, ?_, ⟨hp.quadrature.1, ?_⟩, ?_, Or.inl rfl, ?_⟩
      · have := hp.order.2; show p.feOrder < 1000; omega
      · have := hp.type
        simp only [List.mem_cons, List.not_mem_nil, or_false] at this
        rcases this with h | h <;> simp [supportedFeType, h]
      · have := hp.quadrature.2; show p.quadOrder ≤ 9999; omega
      · have := hp.quadratureType
        simpa using this
      · intro e he _
        simp only [← hmesh, generateQuadMeshInternal, internalBoundary, List.mem_cons, List.not_mem_nil,
          or_false] at he
        rcases he with rfl | rfl | rfl | rfl <;>
          simp [UniformPoisson.boundaryFunctionDict, List.lookup])
  obtain ⟨-, D, S', hD, -, -, -⟩ := C41_layout env.ext mesh.meshPoints mesh.cells mesh.bdDict _
    UniformPoisson.boundaryFunctionDict UniformPoisson.rhs false S hS
  obtain ⟨-, hn', -, -, hb', hf'⟩ := reachable_forall₂ (dataHandler_reachable _ _ _ _ _ _ _ _ hS hD)
  have hbd : ∃ bd, getDirichletInput S' = .ok bd := by
    obtain ⟨-, -, -, -, -, h1, h2, h3, -⟩ := fespace_ok hS
    exact ⟨S.dirichletBoundaryData, by unfold getDirichletInput; rw [hb', hf', h1, h2, h3]⟩
  obtain ⟨bd, hbd⟩ := hbd
  obtain ⟨m, hm, hdims, hatt, hlist, hten⟩ := objective_model p D bd S'.nCells
  obtain ⟨pt, hpt⟩ := shaped_modelData hS hD bd
  rw [← hn'] at hpt
  -- the training loop
  have harch : Architecture p.architecture "tanh" (initialLayers env p) := by
    obtain ⟨specs, k, h1, h2, h3, -⟩ := C51_build p.architecture "tanh"
      (by simp [SearchPoint.architecture]) env.init
    rw [architecture_specs] at h1
    cases h1
    have h2 : Except.ok 2 = Except.ok k := h2
    cases h2
    exact h3
  obtain ⟨hloop, htrained⟩ := trainLoop_ok (Architecture p.architecture "tanh")
    (fun w => discard (trainStepDense (lossPoisson D.nCells _ nq) (modelDataOf D bd S'.nCells)
      (networkDense env.act env.attention false w 1) 10
      (some (paramsAsTensors UniformPoisson.bilinearParamsDict)))) env.update
    (fun w hw => by
      obtain ⟨u, hu, -⟩ := C51_network env.act "tanh" p.architecture w hw rfl 1
        (by simp [SearchPoint.architecture]) env.attention
      obtain ⟨out, ho⟩ := (C47_dense (modelDataOf D bd S'.nCells) pt hpt 10
        (some (paramsAsTensors UniformPoisson.bilinearParamsDict)) .poisson (by simp [LossKind.forward]) _ u hu).1.2
        ⟨_, _, _, 1.0, ⟨_, rfl, rfl⟩, rfl, rfl, rfl⟩
      show discard (trainStepDense (lossOf .poisson _ _ _) _ _ _ _) = _
      rw [ho]; rfl) hupd (List.range n) _ harch
  -- the test points
  obtain ⟨pts, hpts, hlen, hget, -, -⟩ := C05_test_points "quadrilateral" 100 100 true g hg (0, 1) (0, 1)
    p.nCellsX p.nCellsY p.nBoundaryPoints (env.sample (p.nBoundaryPoints / 4)) env.externalVtk
  rw [hmesh] at hpts
  obtain ⟨Y, hY, hflat⟩ := prediction_list env p _ htrained pts
  obtain ⟨E, hE, hval⟩ := relative_error pts (by rw [← List.length_pos_iff, hlen]; norm_num)
    (fun z => UniformPoisson.exactSolution z.1 z.2) (prediction env p (trainedLayers env p n))
  have hsum : ∀ F : ℝ × ℝ → ℝ, (pts.map fun z => F z ^ 2).sum = gridSquares F := fun F => by
    rw [sum_map_grid (fun z => F z ^ 2) (fun i j => ((i : ℝ) / 99, (j : ℝ) / 99)) 100 100 pts hlen]
    · rfl
    · intro i hi j hj
      rw [hget i hi j hj]
      norm_num [gridLine]
  rw [hsum fun z => UniformPoisson.exactSolution z.1 z.2,
    hsum fun z => UniformPoisson.exactSolution z.1 z.2 - prediction env p (trainedLayers env p n) z] at hval
  have hobj : objective env p n = .ok E.2.2.1 := by
    unfold objective
    rw [hg]
    have e0 : pyIndex p.architecture 0 = .ok 2 := rfl
    simp only [Except.mapError, bind, Except.bind, pure, Except.pure]
    rw [hmesh, hS]
    simp only [hD, hbd, hm, hdims, e0, hten, hatt, hlist]
    rw [show buildLayers env.init 0 2 (p.hidden.map (fun n => ⟨n, some "tanh"⟩) ++ [⟨1, none⟩])
      = initialLayers env p from rfl, hloop]
    simp only [hpts, hY, hflat]
    rw [show (List.range n).foldl (fun w k => env.update k w) (initialLayers env p) = trainedLayers env p n
      from rfl, hE]
  have hpos := exact_nonzero
  refine ⟨E.2.2.1, hobj, ?_, hpos, ?_, ?_⟩
  · rw [hval]; positivity
  · rw [hval, div_mul_cancel₀ _ (Real.sqrt_pos.2 hpos).ne']
  · rw [hval, div_eq_zero_iff, or_iff_left (Real.sqrt_pos.2 hpos).ne', gridSquares, Real.sqrt_eq_zero
      (Finset.sum_nonneg fun j _ => Finset.sum_nonneg fun i _ => sq_nonneg _),
      Finset.sum_eq_zero_iff_of_nonneg fun j _ => Finset.sum_nonneg fun i _ => sq_nonneg _]
    constructor
    · intro h i j hi hj
      have := (Finset.sum_eq_zero_iff_of_nonneg fun i _ => sq_nonneg _).1 (h j (by simpa using hj)) i
        (by simpa using hi)
      exact (sub_eq_zero.1 (pow_eq_zero_iff (two_ne_zero) |>.1 this)).symm
    · intro h j hj
      refine Finset.sum_eq_zero fun i hi => ?_
      rw [h i j (by simpa using hi) (by simpa using hj)]
      simp

end

/-- A point of the search space: 4 × 4 cells, three hidden layers. -/
noncomputable def demoSearchPoint : SearchPoint :=
  ⟨4, 4, 400, 6, "jacobi", 10, "gauss-jacobi", [30, 30, 30], 0.003, 2000, 0.95⟩

theorem demoSearchPoint_inSpace : demoSearchPoint.InSpace := by
  constructor <;> norm_num [demoSearchPoint]

/-- The hypotheses of C59 hold for this point when the optimizer adds a constant to every weight. -/
example (env : TrialEnv) (n : ℕ) :
    ∃ v, objective { env with update := fun _ w => w.map fun L =>
      { L with kernel := fun i j => L.kernel i j + 1, bias := fun j => L.bias j + 1 } } demoSearchPoint n
      = .ok v ∧ 0 ≤ v := by
  obtain ⟨v, h1, h2, -⟩ := C59_objective { env with update := fun _ w => w.map fun L =>
      { L with kernel := fun i j => L.kernel i j + 1, bias := fun j => L.bias j + 1 } } demoSearchPoint
      demoSearchPoint_inSpace n (fun k w hw => by
        obtain ⟨h1, h2, h3⟩ := hw
        exact ⟨by simpa using h1, by simpa using h2, fun k hk => by
          simpa using h3 k (by simpa using hk)⟩)
  exact ⟨v, h1, h2⟩

/-! ## C58 -/

/-- **C58.**  With at least one GPU every trial gets an existing GPU, and among any `g` trials with
consecutive numbers every GPU is used exactly once.  Without GPU every trial is a `ZeroDivisionError`. -/
theorem C58_gpu (g : ℕ) :
    (0 < g → ∀ t, ∃ i < g, gpuId t g = .ok i) ∧
    (0 < g → ∀ first, ∀ i < g, ∃! k, k < g ∧ gpuId (first + k) g = .ok i) ∧
    ∀ t, gpuId t 0 = .error .zeroDivisionError := by
  refine ⟨fun hg t => ⟨t % g, Nat.mod_lt _ hg, if_neg hg.ne'⟩, fun hg first i hi => ?_, fun t => rfl⟩
  have e : ∀ t, gpuId t g = .ok (t % g) := fun t => if_neg hg.ne'
  simp only [e, Except.ok.injEq]
  have hm := Nat.mod_lt first hg
  refine ⟨(i + (g - first % g)) % g, ⟨Nat.mod_lt _ hg, ?_⟩, fun k hk => ?_⟩
  · have h2 : first + (i + (g - first % g)) = i + g * (first / g + 1) := by
      have := Nat.div_add_mod first g
      rw [Nat.mul_add]; omega
    rw [Nat.add_mod_mod, h2, Nat.add_mul_mod_self_left, Nat.mod_eq_of_lt hi]
  · obtain ⟨hk, rfl⟩ := hk
    have h2 : first + k + (g - first % g) = k + g * (first / g + 1) := by
      have := Nat.div_add_mod first g
      rw [Nat.mul_add]; omega
    rw [Nat.mod_add_mod, h2, Nat.add_mul_mod_self_left, Nat.mod_eq_of_lt hk]

example : gpuId 7 4 = .ok 3 := rfl

/-- A trial of the study with any point of the search space: with at least one GPU it runs on an existing
one and returns a value; without GPU it fails before the objective is evaluated, whatever the point. -/
theorem C58_trial (env : TrialEnv) (gpus n t : ℕ) (p : SearchPoint) :
    (p.InSpace → 0 < gpus →
      (∀ k w, Architecture p.architecture "tanh" w → Architecture p.architecture "tanh" (env.update k w)) →
      ∃ i v, objectiveWrapper env gpus n t p = .ok (i, v) ∧ i < gpus ∧ 0 ≤ v ∧ objective env p n = .ok v) ∧
    objectiveWrapper env 0 n t p = .error .zeroDivisionError := by
  refine ⟨fun hp hg hupd => ?_, rfl⟩
  obtain ⟨i, hi, hgpu⟩ := (C58_gpu gpus).1 hg t
  obtain ⟨v, hv, h0, -⟩ := C59_objective env p hp n hupd
  exact ⟨i, v, by simp only [objectiveWrapper, hgpu, hv], hi, h0, hv⟩

/-- C58, number of parallel trials.  If `n_jobs` is positive and there is a GPU, at least one and at most
as many trials as GPUs (and as `n_jobs`) run in parallel; a positive `n_jobs` without GPU, `n_jobs = 0`, and
`n_jobs < -1` are a `ValueError`.  Missing: the bound for `n_jobs = -1`, where it is false
(`C58_jobs_default`). -/
theorem C58_jobs_partial (gpus cpus : ℕ) (jobs : ℤ) :
    (0 < gpus → 1 ≤ jobs → ∃ w, tunerWorkers gpus cpus jobs = .ok w ∧ 1 ≤ w ∧ w ≤ gpus ∧ (w : ℤ) ≤ jobs ∧
      ((w : ℤ) = jobs ∨ w = gpus)) ∧
    (1 ≤ jobs → tunerWorkers 0 cpus jobs = .error .valueError) ∧
    (jobs ≤ 0 → jobs ≠ -1 → tunerWorkers gpus cpus jobs = .error .valueError) := by
  unfold tunerWorkers optunaWorkers nJobs
  refine ⟨fun hg hj => ?_, fun hj => ?_, fun hj hj1 => ?_⟩
  · by_cases h1 : min (gpus : ℤ) jobs = 1
    · rw [if_pos h1]
      exact ⟨1, rfl, le_rfl, hg, hj, by omega⟩
    · rw [if_neg h1, if_neg (by omega), if_neg (by omega)]
      exact ⟨_, rfl, by omega, by omega, by omega, by omega⟩
  · rw [if_neg (by simp; omega), if_neg (by simp; omega), if_pos (by simp)]
  · rw [if_neg (by omega), if_neg (by omega), if_pos (by omega)]

example : tunerWorkers 4 64 8 = .ok 4 := by decide

/-- With the default `n_jobs = -1` the number of GPUs is ignored: as many trials run in parallel as there
are CPUs.  So the claim that the number of jobs never exceeds the number of GPUs is false. -/
theorem C58_jobs_default (gpus cpus : ℕ) : tunerWorkers gpus cpus (-1) = .ok cpus ∧
    ¬ ∀ (gpus cpus w : ℕ) (jobs : ℤ), tunerWorkers gpus cpus jobs = .ok w → w ≤ gpus := by
  have h : ∀ gpus cpus : ℕ, tunerWorkers gpus cpus (-1) = .ok cpus := fun gpus cpus => by
    unfold tunerWorkers optunaWorkers nJobs
    rw [if_neg (by omega), if_pos (by omega)]
  exact ⟨h gpus cpus, fun hall => absurd (hall 1 2 2 (-1) (h 1 2)) (by norm_num)⟩

/-- C58, exactly.  There can be more parallel trials than GPUs only for `n_jobs = -1` and more CPUs than GPUs. -/
theorem C58_jobs_exact (gpus cpus : ℕ) (jobs : ℤ) :
    (∀ w, tunerWorkers gpus cpus jobs = .ok w → w ≤ gpus) ↔ jobs ≠ -1 ∨ cpus ≤ gpus := by
  constructor
  · intro h
    by_cases hj : jobs = -1
    · subst hj
      exact .inr (h _ (C58_jobs_default gpus cpus).1)
    · exact .inl hj
  · intro h w hw
    by_cases hj : jobs = -1
    · subst hj
      rw [(C58_jobs_default gpus cpus).1] at hw
      rw [← Except.ok.inj hw]
      exact h.resolve_left (by simp)
    · obtain ⟨h1, h2, h3⟩ := C58_jobs_partial gpus cpus jobs
      by_cases h0 : jobs ≤ 0
      · rw [h3 h0 hj] at hw
        exact absurd hw (by simp)
      · rcases Nat.eq_zero_or_pos gpus with rfl | hg
        · rw [h2 (by omega)] at hw
          exact absurd hw (by simp)
        · obtain ⟨w', hw', -, hle, -⟩ := h1 hg (by omega)
          rw [hw'] at hw
          rw [← Except.ok.inj hw]
          exact hle

example : ∀ w, tunerWorkers 4 64 8 = .ok w → w ≤ 4 := (C58_jobs_exact 4 64 8).2 (by norm_num)

/-! ## C65: trials running at the same time -/

/-- No two of the running trials are on the same GPU. -/
def Spec.DistinctGpus (g : ℕ) (s : StudyState) : Prop :=
  ∀ t ∈ s.running, ∀ t' ∈ s.running, t ≠ t' → gpuId t g ≠ gpuId t' g

/-- In every state the running trials are different, at most one per worker, and have been started. -/
lemma study_invariant {workers nTrials first : ℕ} {s : StudyState}
    (h : StudyReachable workers nTrials first s) :
    s.running.Nodup ∧ s.running.length ≤ workers ∧ first ≤ s.next ∧ s.next ≤ first + nTrials ∧
      ∀ t ∈ s.running, first ≤ t ∧ t < s.next := by
  induction h with
  | init => simp
  | step _ hs ih =>
    obtain ⟨h1, h2, h3, h4, h5⟩ := ih
    cases hs with
    | start hw hn =>
      refine ⟨List.nodup_cons.2 ⟨fun hmem => by have := (h5 _ hmem).2; omega, h1⟩, by simp; omega, by
        simp; omega, by simp; omega, fun t ht => ?_⟩
      rcases List.mem_cons.1 ht with rfl | ht
      · simp; omega
      · have := h5 t ht
        simp; omega
    | finish t ht =>
      exact ⟨h1.erase t, (List.length_erase_le).trans h2, h3, h4, fun t' ht' =>
        h5 t' (List.mem_of_mem_erase ht')⟩

/-- C65, what holds.  Trials running at the same time are on different GPUs if only one runs at a time, if
the study has no more trials than there are GPUs, and more generally as long as the numbers of the running
trials differ by less than the number of GPUs.  Missing: the general case, where it is false
(`C65_shared_gpu`). -/
theorem C65_distinct_partial {workers nTrials first g : ℕ} (hg : 0 < g) {s : StudyState}
    (h : StudyReachable workers nTrials first s)
    (hw : workers ≤ 1 ∨ nTrials ≤ g ∨ ∀ t ∈ s.running, ∀ t' ∈ s.running, t' < t + g) :
    DistinctGpus g s := by
  obtain ⟨h1, h2, h3, h4, h5⟩ := study_invariant h
  intro t ht t' ht' hne heq
  have hmod : t % g = t' % g := by
    simpa [gpuId, hg.ne'] using heq
  have hclose : t' < t + g ∧ t < t' + g := by
    rcases hw with hw | hw | hw
    · exfalso
      have hl := h2.trans hw
      match hs : s.running, hl with
      | [], _ => simp [hs] at ht
      | [a], _ =>
        rw [hs, List.mem_singleton] at ht ht'
        exact hne (ht.trans ht'.symm)
    · have := h5 t ht
      have := h5 t' ht'
      omega
    · exact ⟨hw t ht t' ht', hw t' ht' t ht⟩
  have e1 := Nat.div_add_mod t g
  have e2 := Nat.div_add_mod t' g
  rw [hmod] at e1
  apply hne
  have : t / g = t' / g := by
    by_contra hd
    rcases Nat.lt_or_gt_of_ne hd with hlt | hlt
    · have := Nat.mul_le_mul_left g hlt
      rw [Nat.succ_eq_add_one, Nat.mul_add] at this
      omega
    · have := Nat.mul_le_mul_left g hlt
      rw [Nat.succ_eq_add_one, Nat.mul_add] at this
      omega
  rw [← e1, this]
  exact e2

/-- Trial `first` runs while the others come and go. -/
lemma study_overtake (workers nTrials first k : ℕ) (hw : 2 ≤ workers) (hk : k + 1 ≤ nTrials) :
    StudyReachable workers nTrials first ⟨[first], first + 1 + k⟩ := by
  induction k with
  | zero =>
    exact .step .init (.start (by simp; omega) (by simp; omega))
  | succ k ih =>
    have h1 : StudyReachable workers nTrials first ⟨[first + 1 + k, first], first + 1 + k + 1⟩ :=
      .step (ih (by omega)) (.start (by simp; omega) (by simp; omega))
    have h2 := StudyReachable.step h1 (.finish (first + 1 + k) (by simp))
    simpa [Nat.add_assoc] using h2

/-- C65 is false in general: with at least two workers and more trials than GPUs, even if there are no more
workers than GPUs, the study can reach a state in which two running trials share a GPU (one trial outlasts
`g - 1` others). -/
theorem C65_shared_gpu (workers nTrials first g : ℕ) (hw : 2 ≤ workers) (hg : 0 < g) (hn : g < nTrials) :
    ∃ s, StudyReachable workers nTrials first s ∧ s.running.length ≤ 2 ∧ ¬ DistinctGpus g s := by
  refine ⟨⟨[first + 1 + (g - 1), first], first + 1 + (g - 1) + 1⟩,
    .step (study_overtake workers nTrials first (g - 1) hw (by omega)) (.start (by simp; omega)
      (by simp; omega)), by simp, fun h => ?_⟩
  refine h first (by simp) (first + 1 + (g - 1)) (by simp) (by omega) ?_
  rw [show first + 1 + (g - 1) = first + g by omega]
  simp [gpuId, hg.ne']

example : ∃ s, StudyReachable 2 100 0 s ∧ s.running.length ≤ 2 ∧ ¬ DistinctGpus 4 s :=
  C65_shared_gpu 2 100 0 4 (by norm_num) (by norm_num) (by norm_num)

/-- C65, exactly.  Trials running at the same time are always on different GPUs if and only if there is at most one
worker or there are no more trials than GPUs. -/
theorem C65_exact (workers nTrials first g : ℕ) (hg : 0 < g) :
    (∀ s, StudyReachable workers nTrials first s → DistinctGpus g s) ↔ workers ≤ 1 ∨ nTrials ≤ g := by
  constructor
  · intro h
    by_contra hn
    obtain ⟨s, hs, -, hd⟩ := C65_shared_gpu workers nTrials first g (by omega) hg (by omega)
    exact hd (h s hs)
  · intro h s hs
    exact C65_distinct_partial hg hs (h.elim .inl fun h => .inr (.inl h))

example : ¬ ∀ s, StudyReachable 4 100 0 s → DistinctGpus 4 s :=
  fun h => absurd ((C65_exact 4 100 0 4 (by norm_num)).1 h) (by norm_num)

end FastVPINNs
