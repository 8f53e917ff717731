import Verif.Lemmas.Numbering
import Verif.Props.Training

/-! # C87: the loss does not depend on the numbering of the mesh -/

namespace FastVPINNs

open Spec

section

variable {V V' : Type} {cells cells' : List Quad} (hcells : ∀ c ∈ cells, ConvexCCW c)
  (hm : SameMesh cells' cells) {f : ℝ → ℝ → ℝ} {s s' : FESettings} (hs : SameDiscretisation s' s)
  {nq nq' : ℕ} {S : Fespace2D (ℝ → ℝ → ℝ) V (s.feOrder.toNat ^ 2) nq}
  {D : DataHandler2D (s.feOrder.toNat ^ 2) nq} (hR : Discretised cells f s S D)
  {S' : Fespace2D (ℝ → ℝ → ℝ) V' (s'.feOrder.toNat ^ 2) nq'}
  {D' : DataHandler2D (s'.feOrder.toNat ^ 2) nq'} (hR' : Discretised cells' f s' S' D')
  (bdv : List (ℝ × ℝ) × List ℝ)

include hcells hm hs hR hR'

/-- The PDE losses of the two spaces are the same function of the network. -/
lemma pdeLoss_sameMesh : ∃ pt pt', Shaped (modelDataOf D bdv S.nCells) pt ∧
    Shaped (modelDataOf D' bdv S'.nCells) pt' ∧ ∀ (a u : ℝ × ℝ → ℝ) (b : ℝ × ℝ) (r : ℝ),
      pdeLoss (modelDataOf D' bdv S'.nCells) pt' u (fun k q => a (pt' k q)) b r
        = pdeLoss (modelDataOf D bdv S.nCells) pt u (fun k q => a (pt k q)) b r := by
  obtain ⟨n, x, w, pt, hn, hK, hsh, hl⟩ := pdeLoss_cells hcells hR bdv
  obtain ⟨n', x', w', pt', hn', hK', hsh', hl'⟩ := pdeLoss_cells (convex_sameMesh hm hcells) hR' bdv
  refine ⟨pt, pt', hsh, hsh', fun a u b r => ?_⟩
  obtain ⟨h1, h2, h3, h4⟩ := hs
  rw [h4, hn] at hn'
  obtain rfl : n = n' := by exact_mod_cast hn'
  rw [h3] at hK'
  obtain ⟨rfl, rfl⟩ := hK.unique hK'
  rw [hl, hl', h1, h2]
  exact sum_sameMesh hm _ fun c' c hc => cellLoss_sameQuad _ _ hK a u b r f hc

/-- **C87** (`DenseModel`).  Two spaces for the same strictly convex cells, listed in another order and each
starting at another vertex, with the same test space and quadrature rule, for the same boundary data: a
training step returns the same losses.  The transformation may be another one where both are allowed. -/
theorem C87_dense (kind : LossKind) (hk : kind.forward) (p : ParamDict) (e : ℝ) (b : ℝ × ℝ) (r : ℝ)
    (hco : ConstantCoefficients kind p e b r) (net : Network 1) (u : ℝ × ℝ → ℝ)
    (hnet : RowWise net (fun _ => u)) (beta : ℝ) :
    (∃ out, trainStepDense (lossOf kind _ _ _) (modelDataOf D bdv S.nCells) net beta p = .ok out) ∧
    trainStepDense (lossOf kind _ _ _) (modelDataOf D' bdv S'.nCells) net beta p
      = trainStepDense (lossOf kind _ _ _) (modelDataOf D bdv S.nCells) net beta p := by
  obtain ⟨pt, pt', hsh, hsh', h⟩ := pdeLoss_sameMesh hcells hm hs hR hR' bdv
  exact ⟨(C47_dense _ pt hsh beta p kind hk net (fun _ => u) hnet).1.2
      ⟨_, _, _, constantCoefficients_iff hk hco _ _⟩,
    dense_same hsh hsh' beta hk hnet hnet hco hco (h (fun _ => e) u b r) rfl⟩

/-- **C87** (`DenseModel_Hard`). -/
theorem C87_hard (kind : LossKind) (hk : kind.forward) (p : ParamDict) (e : ℝ) (b : ℝ × ℝ) (r : ℝ)
    (hco : ConstantCoefficients kind p e b r) (net : Network 1) (u : ℝ × ℝ → ℝ)
    (hnet : RowWise net (fun _ => u)) (beta : ℝ) :
    (∃ out, trainStepHard (lossOf kind _ _ _) (modelDataOf D bdv S.nCells) net beta p = .ok out) ∧
    trainStepHard (lossOf kind _ _ _) (modelDataOf D' bdv S'.nCells) net beta p
      = trainStepHard (lossOf kind _ _ _) (modelDataOf D bdv S.nCells) net beta p := by
  obtain ⟨pt, pt', hsh, hsh', h⟩ := pdeLoss_sameMesh hcells hm hs hR hR' bdv
  exact ⟨(C47_hard _ pt hsh beta p kind hk net (fun _ => u) hnet).1.2
      ⟨_, _, _, constantCoefficients_iff hk hco _ _⟩,
    hard_same hsh hsh' beta hk hnet hnet hco hco (h (fun _ => e) u b r)⟩

/-- **C87** (`DenseModel_Inverse`). -/
theorem C87_inverse {nS : ℕ} (sp : Fin nS → ℝ × ℝ) (sv : Fin nS → ℝ) (p ip : ParamDict) (e : ℝ)
    (he : HasParam ip "eps" e) (net : Network 1) (u : ℝ × ℝ → ℝ) (hnet : RowWise net (fun _ => u))
    (beta : ℝ) :
    (∃ out, trainStepInverse (lossPoissonInverse _ _ _) (modelDataOf D bdv S.nCells) sp sv ip net beta p
      = .ok out) ∧
    trainStepInverse (lossPoissonInverse _ _ _) (modelDataOf D' bdv S'.nCells) sp sv ip net beta p
      = trainStepInverse (lossPoissonInverse _ _ _) (modelDataOf D bdv S.nCells) sp sv ip net beta p := by
  obtain ⟨pt, pt', hsh, hsh', h⟩ := pdeLoss_sameMesh hcells hm hs hR hR' bdv
  exact ⟨(C47_inverse _ pt hsh beta p ip sp sv net (fun _ => u) hnet).1.2 ⟨e, he⟩,
    inverse_same hsh hsh' beta hnet hnet he (h (fun _ => e) u (0, 0) 0) rfl rfl⟩

/-- **C87** (`DenseModel_Inverse_Domain`). -/
theorem C87_inverse_domain {nS : ℕ} (sp : Fin nS → ℝ × ℝ) (sv : Fin nS → ℝ) (p : ParamDict) (b : ℝ × ℝ)
    (r : ℝ) (hb1 : HasParam p "b_x" b.1) (hb2 : HasParam p "b_y" b.2) (hr : HasParam p "c" r) {dout : ℕ}
    (hd : 2 ≤ dout) (net : Network dout) (u : Fin dout → ℝ × ℝ → ℝ) (hnet : RowWise net u) (beta : ℝ) :
    (∃ out, trainStepInverseDomain (lossCd2dInverseDomain _ _ _) (modelDataOf D bdv S.nCells) sp sv net
      beta p = .ok out) ∧
    trainStepInverseDomain (lossCd2dInverseDomain _ _ _) (modelDataOf D' bdv S'.nCells) sp sv net beta p
      = trainStepInverseDomain (lossCd2dInverseDomain _ _ _) (modelDataOf D bdv S.nCells) sp sv net beta p := by
  obtain ⟨pt, pt', hsh, hsh', h⟩ := pdeLoss_sameMesh hcells hm hs hR hR' bdv
  exact ⟨(C47_inverse_domain _ pt hsh beta p sp sv hd net u hnet).1.2 ⟨_, _, _, hb1, hb2, hr⟩,
    domain_same hsh hsh' beta hd hnet hnet hb1 hb2 hr hb1 hb2 hr (h (u ⟨1, by omega⟩) (u ⟨0, by omega⟩) b r)
      rfl rfl⟩

/-- **C87** (whole training runs).  From the same weights and optimizer state, training on the two spaces
returns the same losses in every epoch and ends with the same weights, for each of the four models. -/
theorem C87_training (act : String → ℝ → ℝ) (attention : Batch → Except PyErr Batch) (useAttention : Bool)
    (inDim : ℕ) (specs : List LayerSpec) (beta : ℝ) (p : ParamDict) (lr : LearningRate) (n : ℕ)
    (st : TrainState) :
    (∀ (kind : LossKind), kind.forward → ∀ e b r, ConstantCoefficients kind p e b r →
      (∀ θ, ∃ u, RowWise (networkAt act attention useAttention inDim specs 1 θ) fun _ => u) →
      trainEpochs (trainStepWith (forwardDense (lossOf kind _ _ _) (modelDataOf D' bdv S'.nCells) act
          attention useAttention inDim specs 1 beta p) (trainableVariables inDim specs []) lr) n st
        = trainEpochs (trainStepWith (forwardDense (lossOf kind _ _ _) (modelDataOf D bdv S.nCells) act
          attention useAttention inDim specs 1 beta p) (trainableVariables inDim specs []) lr) n st) ∧
    (∀ (kind : LossKind), kind.forward → ∀ e b r, ConstantCoefficients kind p e b r → ∀ hard,
      (∀ θ, ∃ u, RowWise (networkHard act attention useAttention (layersAt θ 0 inDim specs) hard 1)
        fun _ => u) →
      trainEpochs (trainStepWith (forwardHard (lossOf kind _ _ _) (modelDataOf D' bdv S'.nCells) act
          attention useAttention inDim specs 1 beta p hard) (trainableVariables inDim specs []) lr) n st
        = trainEpochs (trainStepWith (forwardHard (lossOf kind _ _ _) (modelDataOf D bdv S.nCells) act
          attention useAttention inDim specs 1 beta p hard) (trainableVariables inDim specs []) lr) n st) ∧
    (∀ (nS : ℕ) (sp : Fin nS → ℝ × ℝ) (sv : Fin nS → ℝ) (keys : List String), "eps" ∈ keys →
      (∀ θ, ∃ u, RowWise (networkAt act attention useAttention inDim specs 1 θ) fun _ => u) →
      trainEpochs (trainStepInverseFull (lossPoissonInverse _ _ _) (modelDataOf D' bdv S'.nCells) act
          attention useAttention inDim specs 1 beta p sp sv keys lr) n st
        = trainEpochs (trainStepInverseFull (lossPoissonInverse _ _ _) (modelDataOf D bdv S.nCells) act
          attention useAttention inDim specs 1 beta p sp sv keys lr) n st) ∧
    (∀ (nS : ℕ) (sp : Fin nS → ℝ × ℝ) (sv : Fin nS → ℝ) (b : ℝ × ℝ) (r : ℝ), HasParam p "b_x" b.1 →
      HasParam p "b_y" b.2 → HasParam p "c" r → ∀ dout, 2 ≤ dout →
      (∀ θ, ∃ u, RowWise (networkAt act attention useAttention inDim specs dout θ) u) →
      trainEpochs (trainStepWith (forwardInverseDomain (lossCd2dInverseDomain _ _ _)
          (modelDataOf D' bdv S'.nCells) act attention useAttention inDim specs dout beta p sp sv)
          (trainableVariables inDim specs []) lr) n st
        = trainEpochs (trainStepWith (forwardInverseDomain (lossCd2dInverseDomain _ _ _)
          (modelDataOf D bdv S.nCells) act attention useAttention inDim specs dout beta p sp sv)
          (trainableVariables inDim specs []) lr) n st) := by
  refine ⟨fun kind hk e b r hco hnet => ?_, fun kind hk e b r hco hard hnet => ?_,
    fun nS sp sv keys hkey hnet => ?_, fun nS sp sv b r hb1 hb2 hr dout hd hnet => ?_⟩
  · congr 2
    funext θ
    obtain ⟨u, hu⟩ := hnet θ
    unfold forwardDense
    rw [(C87_dense hcells hm hs hR hR' bdv kind hk p e b r hco _ u hu beta).2]
  · congr 2
    funext θ
    obtain ⟨u, hu⟩ := hnet θ
    unfold forwardHard
    rw [(C87_hard hcells hm hs hR hR' bdv kind hk p e b r hco _ u hu beta).2]
  · congr 1
    unfold trainStepInverseFull
    have : forwardInverse (lossPoissonInverse _ _ _) (modelDataOf D' bdv S'.nCells) act attention
        useAttention inDim specs 1 beta p sp sv keys
      = forwardInverse (lossPoissonInverse _ _ _) (modelDataOf D bdv S.nCells) act attention
        useAttention inDim specs 1 beta p sp sv keys := by
      funext θ
      obtain ⟨u, hu⟩ := hnet θ
      unfold forwardInverse
      rw [(C87_inverse hcells hm hs hR hR' bdv sp sv p (inverseAt θ keys) (θ (.inverse "eps"))
        (hasParam_inverseAt θ keys "eps" hkey) _ u hu beta).2]
    rw [this]
  · congr 2
    funext θ
    obtain ⟨u, hu⟩ := hnet θ
    unfold forwardInverseDomain
    rw [(C87_inverse_domain hcells hm hs hR hR' bdv sp sv p b r hb1 hb2 hr hd _ u hu beta).2]

end

/-- A space for any cells, with the bilinear transformation. -/
lemma discretised_exists (cells : List Quad) (hne : cells ≠ []) (f : ℝ → ℝ → ℝ) :
    ∃ nq, ∃ S : Fespace2D (ℝ → ℝ → ℝ) ℝ (((3 : ℤ).toNat) ^ 2) nq, ∃ D,
      Discretised cells f (demoSettings "bilinear") S D := by
  obtain ⟨ext, h1, -⟩ := quadRoutines_exist
  have hr : RoutinesOK ext 5 "gauss-legendre" := ⟨fun _ => h1 _ (by decide), fun h => absurd h (by decide)⟩
  obtain ⟨nq, S, h⟩ := (C63_constructor ext [] cells [] (demoSettings "bilinear") ([] : List (ℤ × (ℝ → ℝ → ℝ)))
    f).2 ⟨rfl, hne, by simp [demoSettings], by simp [demoSettings, supportedFeType], by simp [demoSettings],
      Or.inl rfl, Or.inl rfl, by simp⟩
  obtain ⟨-, D, S', hD, -⟩ := C41_layout ext [] cells [] (demoSettings "bilinear") [] f false S h
  exact ⟨nq, S, D, ⟨ext, [], [], [], false, S', h, hr, hD⟩, fun h => absurd h (by decide)⟩

/-- The two demo cells in the other order, the kite with its vertices listed from vertex 2 and the square with
its vertices listed from vertex 1. -/
def renumbered : List Quad := [fun i => kiteCell (i + 2), fun i => squareCell 1 (i + 1)]

lemma renumbered_same : SameMesh renumbered demoCells :=
  ⟨[kiteCell, squareCell 1], List.Perm.swap _ _ _, .cons ⟨2, fun _ => rfl⟩ (.cons ⟨1, fun _ => rfl⟩ .nil)⟩

/-- The hypotheses are met by two spaces for the demo cells with different lists of cells: the Poisson loss of
the network `(x, y) ↦ x² y` with forcing function `x` is the same on both, and it is returned. -/
example : renumbered ≠ demoCells ∧
    ∃ nq, ∃ S : Fespace2D (ℝ → ℝ → ℝ) ℝ (((3 : ℤ).toNat) ^ 2) nq, ∃ D, ∃ nq',
    ∃ S' : Fespace2D (ℝ → ℝ → ℝ) ℝ (((3 : ℤ).toNat) ^ 2) nq', ∃ D',
      Discretised demoCells (fun x _ => x) (demoSettings "bilinear") S D ∧
      Discretised renumbered (fun x _ => x) (demoSettings "bilinear") S' D' ∧
      ∃ out, trainStepDense (lossOf .poisson _ _ _) (modelDataOf D' ([], []) S'.nCells)
          (fun _ X r (_ : Fin 1) => (X r).1 ^ 2 * (X r).2) 1 (some [("eps", 1)]) = .ok out ∧
        trainStepDense (lossOf .poisson _ _ _) (modelDataOf D ([], []) S.nCells)
          (fun _ X r (_ : Fin 1) => (X r).1 ^ 2 * (X r).2) 1 (some [("eps", 1)]) = .ok out := by
  constructor
  · intro h
    have h1 := congrFun (List.head_eq_of_cons_eq h) 0
    simp [kiteCell, squareCell] at h1
  obtain ⟨nq, S, D, hR⟩ := discretised_exists demoCells (by simp [demoCells]) fun x _ => x
  obtain ⟨nq', S', D', hR'⟩ := discretised_exists renumbered (by simp [renumbered]) fun x _ => x
  obtain ⟨⟨out, ho⟩, h⟩ := C87_dense (fun c hc => (demo_cells_ok c hc).1) renumbered_same
    (s := demoSettings "bilinear") (s' := demoSettings "bilinear") ⟨rfl, rfl, rfl, rfl⟩ hR hR' ([], [])
    .poisson (Or.inl rfl) (some [("eps", 1)]) 1 (0, 0) 0 ⟨1, ⟨_, rfl, rfl⟩, rfl, rfl, rfl⟩
    (fun _ X r (_ : Fin 1) => (X r).1 ^ 2 * (X r).2) (fun z => z.1 ^ 2 * z.2) (fun _ _ _ _ => rfl) 1
  exact ⟨nq, S, D, nq', S', D', hR, hR', out, h.trans ho, ho⟩

/-- Every network without attention, for two inputs and one output, meets the hypothesis of
`C87_training`. -/
example (act : String → ℝ → ℝ) (attention : Batch → Except PyErr Batch) (a : String) (specs : List LayerSpec)
    (hs : layerSpecs [2, 30, 30, 1] a = .ok specs) :
    ∀ θ, ∃ u, RowWise (networkAt act attention false 2 specs 1 θ) fun _ => u := fun θ =>
  ⟨netFn act a [2, 30, 30, 1] specs θ 0, by
    have := netFn_rowWise act a [2, 30, 30, 1] specs (by simp) hs rfl 1 rfl attention θ
    intro n X r j
    rw [show networkAt act attention false 2 specs 1 θ
      = networkAt act attention false ([2, 30, 30, 1].getD 0 0) specs 1 θ from rfl, this n X r j]
    obtain rfl : j = 0 := Subsingleton.elim _ _
    rfl⟩

end FastVPINNs
