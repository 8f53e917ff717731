import Verif.Spec.Run
import Verif.Lemmas.Adam
import Verif.Lemmas.SmoothModels
import Verif.Props.ModelConfig
import Mathlib.Topology.Algebra.InfiniteSum.Real
import Mathlib.Analysis.Normed.Group.InfiniteSum

/-! # C72, C73, C74: the training of the weights -/

namespace FastVPINNs

open Spec Filter Topology

/-! ## Runs -/

/-- A loop of `n` steps returns exactly if there is a run of `n` steps; it returns the dictionaries of the
run in order, and its last state. -/
theorem trainEpochs_iff {α : Type} (step : TrainState → Except PyErr (α × TrainState)) (n : ℕ)
    (s s' : TrainState) (l : List α) :
    trainEpochs step n s = .ok (l, s') ↔ l.length = n ∧ ∃ st, IsRun step st l ∧ st 0 = s ∧ st n = s' := by
  induction n generalizing s l with
  | zero =>
    constructor
    · intro h
      simp only [trainEpochs, Except.ok.injEq, Prod.mk.injEq] at h
      obtain ⟨rfl, rfl⟩ := h
      exact ⟨rfl, fun _ => s, fun k hk => absurd hk (by simp), rfl, rfl⟩
    · rintro ⟨hl, st, -, rfl, rfl⟩
      rw [List.length_eq_zero_iff] at hl
      rw [hl]
      rfl
  | succ n ih =>
    constructor
    · intro h
      simp only [trainEpochs] at h
      split at h
      · exact absurd h (by simp)
      · rename_i out s1 h1
        split at h
        · exact absurd h (by simp)
        · rename_i outs s2 h2
          simp only [Except.ok.injEq, Prod.mk.injEq] at h
          obtain ⟨rfl, rfl⟩ := h
          obtain ⟨hl, st, hst, h0, hn⟩ := (ih s1 outs).1 h2
          refine ⟨by simp [hl], fun k => if k = 0 then s else st (k - 1), fun k hk => ?_, rfl, by simpa using hn⟩
          cases k with
          | zero => simpa [h0] using h1
          | succ k => simpa using hst k (by simpa using hk)
    · rintro ⟨hl, st, hst, rfl, rfl⟩
      cases l with
      | nil => simp at hl
      | cons out outs =>
        have h1 := hst 0 (by simp)
        have h2 := (ih (st 1) outs).2 ⟨by simpa using hl, fun k => st (k + 1),
          fun k hk => hst (k + 1) (by simpa using hk), rfl, rfl⟩
        simp only [List.getElem_cons_zero, zero_add] at h1
        simp only [trainEpochs, h1, h2]

/-! ## C72: zero loss is kept -/

section
variable {nc nt nq nIn nBd : ℕ} (M : ModelData nc nt nq nIn nBd) (act : String → ℝ → ℝ)
  (attention : Batch → Except PyErr Batch) (useAttention : Bool) (inDim : ℕ) (specs : List LayerSpec)
  (dout : ℕ) (beta : ℝ) (p : ParamDict) (lr : LearningRate) (s : TrainState)

/-- **C72** (`DenseModel`).  If the weights give loss zero, `beta ≥ 0`, and the optimizer has no momentum
(as a new one), training for any number of epochs does not change any weight, and every epoch returns the
same dictionary. -/
theorem C72_dense (kind : LossKind) (hk : kind.forward) (hβ : 0 ≤ beta)
    (hm : ∀ x ∈ trainableVariables inDim specs [], s.adam.m x = 0) (out : TrainOut dout)
    (h : trainStepDense (lossOf kind nc nt nq) M
      (networkAt act attention useAttention inDim specs dout s.weights) beta p = .ok out)
    (h0 : ∀ j, out.loss j = 0) (n : ℕ) :
    ∃ s', trainEpochs (trainStepWith
        (forwardDense (lossOf kind nc nt nq) M act attention useAttention inDim specs dout beta p)
        (trainableVariables inDim specs []) lr) n s = .ok (List.replicate n out, s') ∧
      s'.weights = s.weights ∧ s'.adam.iterations = s.adam.iterations + n := by
  refine trainEpochs_zero _ (fun θ => forwardDense_nonneg M act attention useAttention inDim specs beta p θ
    kind hk hβ) _ (trainableVariables_nodup _ _ _ List.nodup_nil) lr n s hm out ?_
  unfold forwardDense
  rw [h]
  simp [h0]

/-- **C72** (`DenseModel_Hard`), for every `beta`. -/
theorem C72_hard (kind : LossKind) (hk : kind.forward) (hard : Batch → Batch → Batch)
    (hm : ∀ x ∈ trainableVariables inDim specs [], s.adam.m x = 0) (out : TrainOutHard)
    (h : trainStepHard (lossOf kind nc nt nq) M
      (networkHard act attention useAttention (layersAt s.weights 0 inDim specs) hard dout) beta p = .ok out)
    (h0 : out.loss = 0) (n : ℕ) :
    ∃ s', trainEpochs (trainStepWith
        (forwardHard (lossOf kind nc nt nq) M act attention useAttention inDim specs dout beta p hard)
        (trainableVariables inDim specs []) lr) n s = .ok (List.replicate n out, s') ∧
      s'.weights = s.weights ∧ s'.adam.iterations = s.adam.iterations + n := by
  refine trainEpochs_zero _ (fun θ => forwardHard_nonneg M act attention useAttention inDim specs beta p θ
    kind hk hard) _ (trainableVariables_nodup _ _ _ List.nodup_nil) lr n s hm out ?_
  unfold forwardHard
  rw [h]
  simp [h0]

/-- **C72** (`DenseModel_Inverse`).  The inverse parameters are kept too, and are what every epoch
reports. -/
theorem C72_inverse (hβ : 0 ≤ beta) {nS : ℕ} (sp : Fin nS → ℝ × ℝ) (sv : Fin nS → ℝ) (keys : List String)
    (hkeys : keys.Nodup) (hm : ∀ x ∈ trainableVariables inDim specs keys, s.adam.m x = 0)
    (out : TrainOutInverse dout)
    (h : trainStepInverse (lossPoissonInverse nc nt nq) M sp sv (inverseAt s.weights keys)
      (networkAt act attention useAttention inDim specs dout s.weights) beta p = .ok out)
    (h0 : ∀ j, out.loss j = 0) (n : ℕ) :
    ∃ s', trainEpochs (trainStepInverseFull (lossPoissonInverse nc nt nq) M act attention useAttention inDim
        specs dout beta p sp sv keys lr) n s = .ok (List.replicate n out, s') ∧
      s'.weights = s.weights ∧ out.inverseParams = inverseAt s.weights keys := by
  have hinv : out.inverseParams = inverseAt s.weights keys := by
    unfold trainStepInverse at h
    dsimp only at h
    split at h
    · exact absurd h (by simp)
    · have := Except.ok.inj h
      subst this
      rfl
  have hf : forwardInverse (lossPoissonInverse nc nt nq) M act attention useAttention inDim specs dout beta p
      sp sv keys s.weights = .ok (out, 0) := by
    unfold forwardInverse
    rw [h]
    simp [h0]
  suffices H : ∀ (n : ℕ) (t : TrainState), t.weights = s.weights →
      (∀ x ∈ trainableVariables inDim specs keys, t.adam.m x = 0) →
      ∃ s', trainEpochs (trainStepInverseFull (lossPoissonInverse nc nt nq) M act attention useAttention inDim
        specs dout beta p sp sv keys lr) n t = .ok (List.replicate n out, s') ∧ s'.weights = s.weights by
    obtain ⟨s', h1, h2⟩ := H n s rfl hm
    exact ⟨s', h1, h2, hinv⟩
  intro n
  induction n with
  | zero => exact fun t ht _ => ⟨t, rfl, ht⟩
  | succ n ih =>
    intro t ht htm
    obtain ⟨s1, h1, h2, h3, -⟩ := trainStepWith_zero _ (fun θ => forwardInverse_nonneg M act attention
      useAttention inDim specs beta p θ hβ sp sv keys) _ (trainableVariables_nodup inDim specs keys hkeys) lr t
      htm out (by rw [ht]; exact hf)
    have hstep : trainStepInverseFull (lossPoissonInverse nc nt nq) M act attention useAttention inDim
        specs dout beta p sp sv keys lr t = .ok (out, s1) := by
      unfold trainStepInverseFull
      rw [h1]
      simp only [h2, ht, ← hinv]
    obtain ⟨s2, h4, h5⟩ := ih s1 (h2.trans ht) h3
    refine ⟨s2, ?_, h5⟩
    simp only [trainEpochs, hstep, h4, List.replicate_succ]

/-- **C72** (`DenseModel_Inverse_Domain`). -/
theorem C72_inverse_domain (hβ : 0 ≤ beta) {nS : ℕ} (sp : Fin nS → ℝ × ℝ) (sv : Fin nS → ℝ)
    (hm : ∀ x ∈ trainableVariables inDim specs [], s.adam.m x = 0) (out : TrainOutInverse 1)
    (h : trainStepInverseDomain (lossCd2dInverseDomain nc nt nq) M sp sv
      (networkAt act attention useAttention inDim specs dout s.weights) beta p = .ok out)
    (h0 : ∀ j, out.loss j = 0) (n : ℕ) :
    ∃ s', trainEpochs (trainStepWith (forwardInverseDomain (lossCd2dInverseDomain nc nt nq) M act attention
        useAttention inDim specs dout beta p sp sv) (trainableVariables inDim specs []) lr) n s
        = .ok (List.replicate n out, s') ∧
      s'.weights = s.weights ∧ s'.adam.iterations = s.adam.iterations + n := by
  refine trainEpochs_zero _ (fun θ => forwardInverseDomain_nonneg M act attention useAttention inDim specs
    beta p θ hβ sp sv) _ (trainableVariables_nodup _ _ _ List.nodup_nil) lr n s hm out ?_
  unfold forwardInverseDomain
  rw [h]
  simp [h0]

end

/-- **C72** (exact solutions).  A `DenseModel` on a space over strictly convex cells whose weights are such
that the network is an exact solution the rule handles, with matching boundary data, stays it: training
from there with a new optimizer and `beta ≥ 0` changes no weight in any number of epochs, and every
epoch reports loss zero. -/
theorem C72_exact_solution (ext : QuadRoutines) (mp : List (ℝ × ℝ)) (cells : List Quad) (bd : BdDict)
    (s : FESettings) (dict : List (ℤ × (ℝ → ℝ → ℝ))) (f : ℝ → ℝ → ℝ) (plot : Bool) {nq : ℕ}
    (S S' : Fespace2D (ℝ → ℝ → ℝ) ℝ (s.feOrder.toNat ^ 2) nq) (D : DataHandler2D (s.feOrder.toNat ^ 2) nq)
    (bdv : List (ℝ × ℝ) × List ℝ) (h : fespace2D ext mp cells bd s dict f plot = .ok ⟨nq, S⟩)
    (hD : dataHandler2D S true = .ok (D, S')) (hr : RoutinesOK ext s.quadOrder s.quadType)
    (hty : s.feType ≠ "jacobi_plain")
    (hcells : ∀ c ∈ cells, ConvexCCW c ∧ (s.feTransformationType = "affine" → IsParallelogram c))
    (kind : LossKind) (hk : kind.forward) (p : ParamDict) (e : ℝ) (u : ℝ × ℝ → ℝ) (b : ℝ × ℝ) (r : ℝ)
    (hco : Coefficients (nc := D.nCells) (nq := nq) kind p none [] (fun _ _ => e) b r)
    (hflux : ∀ c ∈ cells, FluxHandled (ruleDegree s.quadType s.quadOrder) s.feOrder.toNat c
      (fun z => e * dx u z) (fun z => e * dy u z))
    (hsol : ∀ c ∈ cells, SolvesOn (convexHull ℝ (Set.range c)) (fun _ => e) u b r f)
    (hbd : ∀ i : Fin bdv.1.length, u (bdv.1.get i) = bdv.2.getD i.val 0)
    (act : String → ℝ → ℝ) (attention : Batch → Except PyErr Batch) (useAttention : Bool) (inDim : ℕ)
    (specs : List LayerSpec) (θ : Weights)
    (hu : RowWise (networkAt act attention useAttention inDim specs 1 θ) fun _ => u)
    (beta : ℝ) (hβ : 0 ≤ beta) (lr : LearningRate) (n : ℕ) :
    ∃ outs s', trainEpochs (trainStepWith (forwardDense (lossOf kind _ _ _) (modelDataOf D bdv S.nCells) act
        attention useAttention inDim specs 1 beta p) (trainableVariables inDim specs []) lr) n
        ⟨θ, AdamState.init⟩ = .ok (outs, s') ∧
      outs.length = n ∧ (∀ out ∈ outs, out.loss 0 = 0 ∧ out.lossPde = 0) ∧ s'.weights = θ := by
  obtain ⟨out, -, ho, -, e1, -, e3⟩ := C46_exact_solution ext mp cells bd s dict f plot S S' D bdv h hD hr hty
    hcells kind hk p e u b r hco hflux hsol _ hu beta
  obtain ⟨s', h1, h2, -⟩ := C72_dense (modelDataOf D bdv S.nCells) act attention useAttention inDim specs 1
    beta p lr ⟨θ, AdamState.init⟩ kind hk hβ (fun _ _ => rfl) out ho
    (fun j => by rw [Subsingleton.elim j 0]; exact e3 hbd) n
  refine ⟨_, s', h1, by simp, fun o ho' => ?_, h2⟩
  rw [List.eq_of_mem_replicate ho']
  exact ⟨e3 hbd, e1⟩

/-! ## C73: gradients and descent -/

section
variable {nc nt nq nIn nBd : ℕ} (M : ModelData nc nt nq nIn nBd) (pt : Fin nc → Fin nq → ℝ × ℝ)
  (hM : Shaped M pt) (act : String → ℝ → ℝ) (attention : Batch → Except PyErr Batch) (a : String)
  (hσ : ContDiff ℝ 2 (act a))
  (dims : List ℕ) (specs : List LayerSpec) (h : 2 ≤ dims.length) (hs : layerSpecs dims a = .ok specs)
  (hin : dims.getD 0 0 = 2) (beta : ℝ) (p : ParamDict)
include hM h hs hin hσ

/-- **C73** (`DenseModel`).  Let the activation be twice continuously differentiable (as `tanh`).  For all
weights, each entry of the gradient is the derivative of PDE loss plus `beta` times boundary loss of the
network function with respect to that weight; and unless all entries are zero, the second epoch of a new
optimizer reports a smaller loss than the first for all small enough positive learning rates. -/
theorem C73_dense (hout : dims.getD (dims.length - 1) 0 = 1) (kind : LossKind) (hk : kind.forward)
    (A : Fin nc → Fin nq → ℝ) (b : ℝ × ℝ) (r : ℝ) (hco : Coefficients kind p none [] A b r) :
    ∃ u : Weights → ℝ × ℝ → ℝ,
      (∀ θ, RowWise (networkAt act attention false (dims.getD 0 0) specs 1 θ) fun _ => u θ) ∧
      (∀ θ v, HasDerivAt (fun t => pdeLoss M pt (u (Function.update θ v t)) A b r
          + beta * meanSq fun i => u (Function.update θ v t) (M.dirichletInput i) - M.dirichletActual i)
        (lossGradient (forwardDense (lossOf kind nc nt nq) M act attention false (dims.getD 0 0) specs 1
          beta p) θ v) (θ v)) ∧
      ∀ θ, (∃ v ∈ trainableVariables (dims.getD 0 0) specs [], lossGradient (forwardDense
          (lossOf kind nc nt nq) M act attention false (dims.getD 0 0) specs 1 beta p) θ v ≠ 0) →
        ∃ δ > 0, ∀ lr : LearningRate, 0 < lr.at 0 → lr.at 0 < δ → ∃ o₀ o₁ s',
          trainEpochs (trainStepWith (forwardDense (lossOf kind nc nt nq) M act attention false
            (dims.getD 0 0) specs 1 beta p) (trainableVariables (dims.getD 0 0) specs []) lr) 2
            ⟨θ, AdamState.init⟩ = .ok ([o₀, o₁], s') ∧ o₁.loss 0 < o₀.loss 0 := by
  have hsm := forwardDense_smooth M pt hM act attention a hσ dims specs h hs hin beta p hout kind hk A b r hco
  have hrow := netFn_rowWise act a dims specs h hs hin 1 hout attention
  have hval : ∀ θ out l, forwardDense (lossOf kind nc nt nq) M act attention false (dims.getD 0 0) specs 1
      beta p θ = .ok (out, l) → l = out.loss 0 := by
    intro θ out l hl
    unfold forwardDense at hl
    split at hl
    · exact absurd hl (by simp)
    · simp only [Except.ok.injEq, Prod.mk.injEq] at hl
      obtain ⟨rfl, rfl⟩ := hl
      simp
  refine ⟨fun θ => netFn act a dims specs θ 0, fun θ => ?_, fun θ v => ?_, fun θ ⟨v, hv, hg⟩ => ?_⟩
  · intro n X i j
    rw [hrow θ n X i j, Subsingleton.elim j 0]
    rfl
  · have := hsm.hasDerivAt θ v
    simp only [forwardDense_total M pt hM act attention a dims specs h hs hin beta p hout kind hk A b r hco]
      at this
    exact this
  · obtain ⟨δ, hδ, H⟩ := first_two_epochs hsm (fun θ => by
      obtain ⟨out, ho⟩ := (C47_dense M pt hM beta p kind hk _ _ (hrow θ)).1.2 ⟨A, b, r, hco⟩
      refine ⟨out, ∑ j, out.loss j, ?_⟩
      unfold forwardDense
      rw [ho]) _ (trainableVariables_nodup _ _ _ List.nodup_nil) θ v hv hg
    refine ⟨δ, hδ, fun lr h1 h2 => ?_⟩
    obtain ⟨o₀, o₁, s₁, s₂, e, -, -, l₀, l₁, e0, e1, hlt⟩ := H lr h1 h2
    refine ⟨o₀, o₁, s₂, e, ?_⟩
    rw [← hval _ _ _ e0, ← hval _ _ _ e1]
    exact hlt

/-- **C73** (`DenseModel_Hard`), for a smooth constraint `g` applied to the output at each point. -/
theorem C73_hard (hout : dims.getD (dims.length - 1) 0 = 1) (kind : LossKind) (hk : kind.forward)
    (A : Fin nc → Fin nq → ℝ) (b : ℝ × ℝ) (r : ℝ) (hco : Coefficients kind p none [] A b r)
    (g : ℝ × ℝ → ℝ → ℝ) (hg : ContDiff ℝ 2 fun q : (ℝ × ℝ) × ℝ => g q.1 q.2) :
    ∃ u : Weights → ℝ × ℝ → ℝ,
      (∀ θ, RowWise (networkAt act attention false (dims.getD 0 0) specs 1 θ) fun _ => u θ) ∧
      (∀ θ v, HasDerivAt (fun t => pdeLoss M pt (fun z => g z (u (Function.update θ v t) z)) A b r)
        (lossGradient (forwardHard (lossOf kind nc nt nq) M act attention false (dims.getD 0 0) specs 1
          beta p (List.zipWith fun x v => v.map (g (x.getD 0 0, x.getD 1 0)))) θ v) (θ v)) ∧
      ∀ θ, (∃ v ∈ trainableVariables (dims.getD 0 0) specs [], lossGradient (forwardHard
          (lossOf kind nc nt nq) M act attention false (dims.getD 0 0) specs 1 beta p
          (List.zipWith fun x v => v.map (g (x.getD 0 0, x.getD 1 0)))) θ v ≠ 0) →
        ∃ δ > 0, ∀ lr : LearningRate, 0 < lr.at 0 → lr.at 0 < δ → ∃ o₀ o₁ s',
          trainEpochs (trainStepWith (forwardHard (lossOf kind nc nt nq) M act attention false
            (dims.getD 0 0) specs 1 beta p (List.zipWith fun x v => v.map (g (x.getD 0 0, x.getD 1 0))))
            (trainableVariables (dims.getD 0 0) specs []) lr) 2
            ⟨θ, AdamState.init⟩ = .ok ([o₀, o₁], s') ∧ o₁.loss < o₀.loss := by
  have hsm := forwardHard_smooth M pt hM act attention a hσ dims specs h hs hin beta p hout kind hk A b r hco
    g hg
  have hrow := netFn_rowWise act a dims specs h hs hin 1 hout attention
  have hval : ∀ θ out l, forwardHard (lossOf kind nc nt nq) M act attention false (dims.getD 0 0) specs 1
      beta p (List.zipWith fun x v => v.map (g (x.getD 0 0, x.getD 1 0))) θ = .ok (out, l) →
      l = out.loss := by
    intro θ out l hl
    unfold forwardHard at hl
    split at hl
    · exact absurd hl (by simp)
    · simp only [Except.ok.injEq, Prod.mk.injEq] at hl
      obtain ⟨rfl, rfl⟩ := hl
      rfl
  refine ⟨fun θ => netFn act a dims specs θ 0, fun θ => ?_, fun θ v => ?_, fun θ ⟨v, hv, hg⟩ => ?_⟩
  · intro n X i j
    rw [hrow θ n X i j, Subsingleton.elim j 0]
    rfl
  · have := hsm.hasDerivAt θ v
    simp only [forwardHard_total M pt hM act attention a dims specs h hs hin beta p hout kind hk A b r hco g]
      at this
    exact this
  · obtain ⟨δ, hδ, H⟩ := first_two_epochs hsm (fun θ => by
      obtain ⟨u₀, -, hu1⟩ := C48_network act a dims _ (layersAt_arch dims a specs h hs θ) hin hout attention g
      obtain ⟨out, ho⟩ := (C47_hard M pt hM beta p kind hk _ _ hu1).1.2 ⟨A, b, r, hco⟩
      refine ⟨out, out.loss, ?_⟩
      unfold forwardHard
      rw [ho]) _ (trainableVariables_nodup _ _ _ List.nodup_nil) θ v hv hg
    refine ⟨δ, hδ, fun lr h1 h2 => ?_⟩
    obtain ⟨o₀, o₁, s₁, s₂, e, -, -, l₀, l₁, e0, e1, hlt⟩ := H lr h1 h2
    refine ⟨o₀, o₁, s₂, e, ?_⟩
    rw [← hval _ _ _ e0, ← hval _ _ _ e1]
    exact hlt

/-- **C73** (`DenseModel_Inverse`).  The diffusion coefficient of the loss is the trainable variable
`eps`, so the gradient contains its derivative too. -/
theorem C73_inverse (hout : dims.getD (dims.length - 1) 0 = 1) {nS : ℕ} (sp : Fin nS → ℝ × ℝ)
    (sv : Fin nS → ℝ) (keys : List String) (hkey : "eps" ∈ keys) (hkeys : keys.Nodup) :
    ∃ u : Weights → ℝ × ℝ → ℝ,
      (∀ θ, RowWise (networkAt act attention false (dims.getD 0 0) specs 1 θ) fun _ => u θ) ∧
      (∀ θ v, HasDerivAt (fun t => pdeLoss M pt (u (Function.update θ v t))
            (fun _ _ => Function.update θ v t (.inverse "eps")) (0, 0) 0
          + beta * (meanSq fun i => u (Function.update θ v t) (M.dirichletInput i) - M.dirichletActual i)
          + 10 * meanSq fun i => u (Function.update θ v t) (sp i) - sv i)
        (lossGradient (forwardInverse (lossPoissonInverse nc nt nq) M act attention false (dims.getD 0 0)
          specs 1 beta p sp sv keys) θ v) (θ v)) ∧
      ∀ θ, (∃ v ∈ trainableVariables (dims.getD 0 0) specs keys, lossGradient (forwardInverse
          (lossPoissonInverse nc nt nq) M act attention false (dims.getD 0 0) specs 1 beta p sp sv keys)
          θ v ≠ 0) →
        ∃ δ > 0, ∀ lr : LearningRate, 0 < lr.at 0 → lr.at 0 < δ → ∃ o₀ o₁ s',
          trainEpochs (trainStepInverseFull (lossPoissonInverse nc nt nq) M act attention false
            (dims.getD 0 0) specs 1 beta p sp sv keys lr) 2
            ⟨θ, AdamState.init⟩ = .ok ([o₀, o₁], s') ∧ o₁.loss 0 < o₀.loss 0 := by
  have hsm := forwardInverse_smooth M pt hM act attention a hσ dims specs h hs hin beta p hout sp sv keys hkey
  have hrow := netFn_rowWise act a dims specs h hs hin 1 hout attention
  have hval : ∀ θ out l, forwardInverse (lossPoissonInverse nc nt nq) M act attention false (dims.getD 0 0)
      specs 1 beta p sp sv keys θ = .ok (out, l) → l = out.loss 0 := by
    intro θ out l hl
    unfold forwardInverse at hl
    split at hl
    · exact absurd hl (by simp)
    · simp only [Except.ok.injEq, Prod.mk.injEq] at hl
      obtain ⟨rfl, rfl⟩ := hl
      simp
  refine ⟨fun θ => netFn act a dims specs θ 0, fun θ => ?_, fun θ v => ?_, fun θ ⟨v, hv, hg⟩ => ?_⟩
  · intro n X i j
    rw [hrow θ n X i j, Subsingleton.elim j 0]
    rfl
  · have := hsm.hasDerivAt θ v
    simp only [forwardInverse_total M pt hM act attention a dims specs h hs hin beta p hout sp sv keys hkey]
      at this
    exact this
  · obtain ⟨δ, hδ, H⟩ := first_two_epochs hsm (fun θ => by
      obtain ⟨out, ho⟩ := (C47_inverse M pt hM beta p (inverseAt θ keys) sp sv _ _ (hrow θ)).1.2
        ⟨θ (.inverse "eps"), hasParam_inverseAt θ keys "eps" hkey⟩
      refine ⟨out, ∑ j, out.loss j, ?_⟩
      unfold forwardInverse
      rw [ho]) _ (trainableVariables_nodup _ _ _ hkeys) θ v hv hg
    refine ⟨δ, hδ, fun lr h1 h2 => ?_⟩
    obtain ⟨o₀, o₁, s₁, s₂, -, f0, f1, l₀, l₁, e0, e1, hlt⟩ := H lr h1 h2
    rw [hval _ _ _ e0, hval _ _ _ e1] at hlt
    refine ⟨{ o₀ with inverseParams := inverseAt s₁.weights keys },
      { o₁ with inverseParams := inverseAt s₂.weights keys }, s₂, ?_, hlt⟩
    simp only [trainEpochs, trainStepInverseFull, f0, f1]

/-- **C73** (`DenseModel_Inverse_Domain`).  The diffusion coefficient is the second output of the
network. -/
theorem C73_inverse_domain (hout : dims.getD (dims.length - 1) 0 = 2) {nS : ℕ} (sp : Fin nS → ℝ × ℝ)
    (sv : Fin nS → ℝ) (b : ℝ × ℝ) (r : ℝ) (hb1 : HasParam p "b_x" b.1) (hb2 : HasParam p "b_y" b.2)
    (hr : HasParam p "c" r) :
    ∃ u : Weights → Fin 2 → ℝ × ℝ → ℝ,
      (∀ θ, RowWise (networkAt act attention false (dims.getD 0 0) specs 2 θ) (u θ)) ∧
      (∀ θ v, HasDerivAt (fun t => pdeLoss M pt (u (Function.update θ v t) 0)
            (fun c q => u (Function.update θ v t) 1 (pt c q)) b r
          + beta * (meanSq fun i => u (Function.update θ v t) 0 (M.dirichletInput i) - M.dirichletActual i)
          + 10 * meanSq fun i => u (Function.update θ v t) 0 (sp i) - sv i)
        (lossGradient (forwardInverseDomain (lossCd2dInverseDomain nc nt nq) M act attention false
          (dims.getD 0 0) specs 2 beta p sp sv) θ v) (θ v)) ∧
      ∀ θ, (∃ v ∈ trainableVariables (dims.getD 0 0) specs [], lossGradient (forwardInverseDomain
          (lossCd2dInverseDomain nc nt nq) M act attention false (dims.getD 0 0) specs 2 beta p sp sv)
          θ v ≠ 0) →
        ∃ δ > 0, ∀ lr : LearningRate, 0 < lr.at 0 → lr.at 0 < δ → ∃ o₀ o₁ s',
          trainEpochs (trainStepWith (forwardInverseDomain (lossCd2dInverseDomain nc nt nq) M act attention
            false (dims.getD 0 0) specs 2 beta p sp sv) (trainableVariables (dims.getD 0 0) specs []) lr) 2
            ⟨θ, AdamState.init⟩ = .ok ([o₀, o₁], s') ∧ o₁.loss 0 < o₀.loss 0 := by
  have hsm := forwardInverseDomain_smooth M pt hM act attention a hσ dims specs h hs hin beta p hout sp sv
    b r hb1 hb2 hr
  have hrow := netFn_rowWise act a dims specs h hs hin 2 hout attention
  have hval : ∀ θ out l, forwardInverseDomain (lossCd2dInverseDomain nc nt nq) M act attention false
      (dims.getD 0 0) specs 2 beta p sp sv θ = .ok (out, l) → l = out.loss 0 := by
    intro θ out l hl
    unfold forwardInverseDomain at hl
    split at hl
    · exact absurd hl (by simp)
    · simp only [Except.ok.injEq, Prod.mk.injEq] at hl
      obtain ⟨rfl, rfl⟩ := hl
      simp
  refine ⟨fun θ j => netFn act a dims specs θ j, hrow, fun θ v => ?_, fun θ ⟨v, hv, hg⟩ => ?_⟩
  · have := hsm.hasDerivAt θ v
    simp only [forwardInverseDomain_total M pt hM act attention a dims specs h hs hin beta p hout sp sv b r
      hb1 hb2 hr] at this
    exact this
  · obtain ⟨δ, hδ, H⟩ := first_two_epochs hsm (fun θ => by
      obtain ⟨out, ho⟩ := (C47_inverse_domain M pt hM beta p sp sv le_rfl _ _ (hrow θ)).1.2
        ⟨b.1, b.2, r, hb1, hb2, hr⟩
      refine ⟨out, ∑ j, out.loss j, ?_⟩
      unfold forwardInverseDomain
      rw [ho]) _ (trainableVariables_nodup _ _ _ List.nodup_nil) θ v hv hg
    refine ⟨δ, hδ, fun lr h1 h2 => ?_⟩
    obtain ⟨o₀, o₁, s₁, s₂, e, -, -, l₀, l₁, e0, e1, hlt⟩ := H lr h1 h2
    refine ⟨o₀, o₁, s₂, e, ?_⟩
    rw [← hval _ _ _ e0, ← hval _ _ _ e1]
    exact hlt

end

/-- **C73** (update).  A step changes exactly the trainable variables, each with its own gradient entry:
the moments are moved a tenth (a thousandth) of the way to the gradient (its square), and the weight goes
against the first one, scaled with the learning rate of this step, the usual bias correction and the root
of the second one.  The reported dictionary is that of the weights before the update. -/
theorem C73_update {α : Type} (fwd : Forward α) (inDim : ℕ) (specs : List LayerSpec) (keys : List String)
    (hkeys : keys.Nodup) (lr : LearningRate) (s s' : TrainState) (out : α)
    (hstep : trainStepWith fwd (trainableVariables inDim specs keys) lr s = .ok (out, s')) :
    (∃ l, fwd s.weights = .ok (out, l)) ∧ s'.adam.iterations = s.adam.iterations + 1 ∧
    (∀ x ∈ trainableVariables inDim specs keys,
      s'.adam.m x = 9 / 10 * s.adam.m x + 1 / 10 * lossGradient fwd s.weights x ∧
      s'.adam.v x = 999 / 1000 * s.adam.v x + 1 / 1000 * lossGradient fwd s.weights x ^ 2 ∧
      s'.weights x = s.weights x - lr.at s.adam.iterations
        * (Real.sqrt (1 - (999 / 1000) ^ s'.adam.iterations) / (1 - (9 / 10) ^ s'.adam.iterations))
        * (s'.adam.m x / (Real.sqrt (s'.adam.v x) + 1 / 10 ^ 7))) ∧
    ∀ x ∉ trainableVariables inDim specs keys, s'.weights x = s.weights x := by
  unfold trainStepWith at hstep
  split at hstep
  · exact absurd hstep (by simp)
  · rename_i o l hl
    simp only [Except.ok.injEq, Prod.mk.injEq] at hstep
    obtain ⟨rfl, rfl⟩ := hstep
    rw [applyGradients_eq lr _ _ (trainableVariables_nodup _ _ _ hkeys)]
    refine ⟨⟨l, hl⟩, rfl, fun x hx => ?_, fun x hx => by simp only [if_neg hx]⟩
    simp only [if_pos hx]
    refine ⟨by unfold adamM; ring, by unfold adamV; ring, ?_⟩
    unfold adamAlpha
    norm_num
    ring

/-! ## C74: how far the weights can get -/

/-- The states of a run from a new optimizer: moments bounded and steps counted. -/
lemma run_state {α : Type} (fwd : Forward α) (vars : List Var) (hn : vars.Nodup) (lr : LearningRate)
    (st : ℕ → TrainState) (h0 : (st 0).adam = AdamState.init) (n : ℕ)
    (hst : ∀ k < n, ∃ out, trainStepWith fwd vars lr (st k) = .ok (out, st (k + 1))) :
    ∀ k ≤ n, AdamMoments (st k).adam ∧ (st k).adam.iterations = k := by
  intro k
  induction k with
  | zero =>
    intro _
    rw [h0]
    exact ⟨⟨fun x => by simp [AdamState.init]⟩, rfl⟩
  | succ k ih =>
    intro hk
    obtain ⟨out, ho⟩ := hst k hk
    obtain ⟨h1, h2⟩ := ih (by omega)
    unfold trainStepWith at ho
    split at ho
    · exact absurd ho (by simp)
    · simp only [Except.ok.injEq, Prod.mk.injEq] at ho
      rw [← ho.2]
      refine ⟨applyGradients_moments lr _ vars hn _ h1, ?_⟩
      simp only [applyGradients, h2]

/-- **C74** (step).  In a training from a new optimizer, epoch `k` moves no weight by more than 7.3
times the learning rate of step `k`, whatever the loss and the gradients are. -/
theorem C74_step {α : Type} (fwd : Forward α) (inDim : ℕ) (specs : List LayerSpec) (keys : List String)
    (hkeys : keys.Nodup) (lr : LearningRate) (st : ℕ → TrainState) (outs : List α)
    (h0 : (st 0).adam = AdamState.init)
    (hrun : IsRun (trainStepWith fwd (trainableVariables inDim specs keys) lr) st outs) (k : ℕ)
    (hk : k < outs.length) (x : Var) :
    |(st (k + 1)).weights x - (st k).weights x| ≤ 73 / 10 * |lr.at k| := by
  have hn := trainableVariables_nodup inDim specs keys hkeys
  obtain ⟨h1, h2⟩ := run_state fwd _ hn lr st h0 outs.length (fun k hk => ⟨_, hrun k hk⟩) k hk.le
  have ho := hrun k hk
  unfold trainStepWith at ho
  split at ho
  · exact absurd ho (by simp)
  · simp only [Except.ok.injEq, Prod.mk.injEq] at ho
    rw [← ho.2]
    have := applyGradients_move lr (lossGradient fwd (st k).weights) _ hn (st k) h1 x
    rwa [h2] at this

/-- **C74** (total).  After `n` epochs no weight is further from its start than 7.3 times the sum of the
learning rates. -/
theorem C74_total {α : Type} (fwd : Forward α) (inDim : ℕ) (specs : List LayerSpec) (keys : List String)
    (hkeys : keys.Nodup) (lr : LearningRate) (θ : Weights) (n : ℕ) (outs : List α) (s' : TrainState)
    (h : trainEpochs (trainStepWith fwd (trainableVariables inDim specs keys) lr) n ⟨θ, AdamState.init⟩
      = .ok (outs, s')) (x : Var) :
    |s'.weights x - θ x| ≤ 73 / 10 * ∑ k ∈ Finset.range n, |lr.at k| := by
  obtain ⟨hl, st, hrun, h0, rfl⟩ := (trainEpochs_iff _ _ _ _ _).1 h
  have key : ∀ m ≤ n, |(st m).weights x - θ x| ≤ 73 / 10 * ∑ k ∈ Finset.range m, |lr.at k| := by
    intro m
    induction m with
    | zero => simp [h0]
    | succ m ih =>
      intro hm
      have h1 := ih (by omega)
      have h2 := C74_step fwd inDim specs keys hkeys lr st outs (by rw [h0]) hrun m (by omega) x
      rw [Finset.sum_range_succ, mul_add]
      calc |(st (m + 1)).weights x - θ x|
          ≤ |(st (m + 1)).weights x - (st m).weights x| + |(st m).weights x - θ x| := by
            have := abs_add_le ((st (m + 1)).weights x - (st m).weights x) ((st m).weights x - θ x)
            simpa using this
        _ ≤ _ := by linarith
  exact key n le_rfl

/-- The rate with the scheduler on, as a function of the step. -/
lemma stairs_rate (d : List (String × PyVal)) (initial decay : ℝ) (steps : ℕ) (hsteps : 0 < steps) (u : PyVal)
    (hi : d.lookup "initial_learning_rate" = some (.num initial)) (hu : d.lookup "use_lr_scheduler" = some u)
    (hs : d.lookup "decay_steps" = some (.num steps)) (hr : d.lookup "decay_rate" = some (.num decay))
    (hon : u.truthy = true) (lr : LearningRate) (hlr : learningRateFn d = .ok lr) (k : ℕ) :
    lr.at k = initial * decay ^ (k / steps) := by
  obtain ⟨lr', h1, h2, -⟩ := C50_rate d initial decay steps hsteps u hi hu hs hr
  obtain rfl := Except.ok.inj (hlr.symm.trans h1)
  have := h2 hon (k / steps) (k % steps) (Nat.mod_lt _ hsteps)
  rwa [Nat.div_add_mod' k steps] at this

/-- **C74** (scheduler).  With the learning rate schedule on, `0 ≤ decay_rate < 1`, no training, however
long, brings a weight further than `7.3 * initial_learning_rate * decay_steps / (1 - decay_rate)` from its
start (so a solution whose weights are further away is out of reach). -/
theorem C74_scheduler {α : Type} (fwd : Forward α) (inDim : ℕ) (specs : List LayerSpec) (keys : List String)
    (hkeys : keys.Nodup) (d : List (String × PyVal)) (initial decay : ℝ) (steps : ℕ) (hsteps : 0 < steps)
    (u : PyVal) (hi : d.lookup "initial_learning_rate" = some (.num initial))
    (hu : d.lookup "use_lr_scheduler" = some u) (hs : d.lookup "decay_steps" = some (.num steps))
    (hr : d.lookup "decay_rate" = some (.num decay)) (hon : u.truthy = true) (hd0 : 0 ≤ decay)
    (hd1 : decay < 1) (lr : LearningRate) (hlr : learningRateFn d = .ok lr) (θ : Weights) (n : ℕ)
    (outs : List α) (s' : TrainState)
    (h : trainEpochs (trainStepWith fwd (trainableVariables inDim specs keys) lr) n ⟨θ, AdamState.init⟩
      = .ok (outs, s')) (x : Var) :
    |s'.weights x - θ x| ≤ 73 / 10 * |initial| * steps / (1 - decay) := by
  refine (C74_total fwd inDim specs keys hkeys lr θ n outs s' h x).trans ?_
  have e : ∀ k, |lr.at k| = |initial| * decay ^ (k / steps) := by
    intro k
    rw [stairs_rate d initial decay steps hsteps u hi hu hs hr hon lr hlr, abs_mul,
      abs_of_nonneg (pow_nonneg hd0 _)]
  simp only [e, ← Finset.mul_sum]
  have h1 := sum_stairs decay hd0 hd1 steps hsteps n
  have h2 := mul_le_mul_of_nonneg_left h1 (abs_nonneg initial)
  calc 73 / 10 * (|initial| * ∑ k ∈ Finset.range n, decay ^ (k / steps))
      ≤ 73 / 10 * (|initial| * (steps / (1 - decay))) := by linarith
    _ = _ := by ring

/-- **C74** (convergence).  Under the same conditions every weight converges in a training without end,
whatever the loss. -/
theorem C74_converges {α : Type} (fwd : Forward α) (inDim : ℕ) (specs : List LayerSpec) (keys : List String)
    (hkeys : keys.Nodup) (d : List (String × PyVal)) (initial decay : ℝ) (steps : ℕ) (hsteps : 0 < steps)
    (u : PyVal) (hi : d.lookup "initial_learning_rate" = some (.num initial))
    (hu : d.lookup "use_lr_scheduler" = some u) (hs : d.lookup "decay_steps" = some (.num steps))
    (hr : d.lookup "decay_rate" = some (.num decay)) (hon : u.truthy = true) (hd0 : 0 ≤ decay)
    (hd1 : decay < 1) (lr : LearningRate) (hlr : learningRateFn d = .ok lr) (st : ℕ → TrainState)
    (h0 : (st 0).adam = AdamState.init)
    (hst : ∀ k, ∃ out, trainStepWith fwd (trainableVariables inDim specs keys) lr (st k)
      = .ok (out, st (k + 1))) (x : Var) :
    ∃ w, Tendsto (fun k => (st k).weights x) atTop (𝓝 w) := by
  choose outs hout using hst
  have hstep : ∀ k, |(st (k + 1)).weights x - (st k).weights x| ≤ 73 / 10 * |initial| * decay ^ (k / steps) := by
    intro k
    have := C74_step fwd inDim specs keys hkeys lr st (List.ofFn fun i : Fin (k + 1) => outs i) h0
      (fun j hj => by rw [List.getElem_ofFn]; exact hout j) k (by simp) x
    rwa [stairs_rate d initial decay steps hsteps u hi hu hs hr hon lr hlr, abs_mul,
      abs_of_nonneg (pow_nonneg hd0 _), ← mul_assoc] at this
  have hsum : Summable fun k => 73 / 10 * |initial| * decay ^ (k / steps) := by
    refine Summable.mul_left _ (summable_of_sum_range_le (c := steps / (1 - decay))
      (fun k => pow_nonneg hd0 _) fun n => sum_stairs decay hd0 hd1 steps hsteps n)
  refine cauchySeq_tendsto_of_complete (cauchySeq_of_dist_le_of_summable _ (fun k => ?_) hsum)
  rw [dist_comm, Real.dist_eq]
  exact hstep k

/-- **C74** (`DenseModel_Inverse`).  The weights and inverse parameters of that model move as above: its
steps have the same effect as the plain ones. -/
theorem C74_inverse {nc nt nq nIn nBd dout nS : ℕ} (L : LossFunction nc nt nq)
    (M : ModelData nc nt nq nIn nBd) (act : String → ℝ → ℝ) (attention : Batch → Except PyErr Batch)
    (useAttention : Bool) (inDim : ℕ) (specs : List LayerSpec) (beta : ℝ) (p : ParamDict)
    (sp : Fin nS → ℝ × ℝ) (sv : Fin nS → ℝ) (keys : List String) (hkeys : keys.Nodup) (lr : LearningRate)
    (θ : Weights) (n : ℕ) (outs : List (TrainOutInverse dout)) (s' : TrainState)
    (h : trainEpochs (trainStepInverseFull L M act attention useAttention inDim specs dout beta p sp sv keys
      lr) n ⟨θ, AdamState.init⟩ = .ok (outs, s')) :
    (∀ x, |s'.weights x - θ x| ≤ 73 / 10 * ∑ k ∈ Finset.range n, |lr.at k|) ∧
    ∀ hn : outs ≠ [], (outs.getLast hn).inverseParams = some (keys.map fun k => (k, s'.weights (.inverse k))) := by
  obtain ⟨hl, st, hrun, h0, rfl⟩ := (trainEpochs_iff _ _ _ _ _).1 h
  have hstep : ∀ k (hk : k < outs.length), (∃ out, trainStepWith (forwardInverse L M act attention useAttention
      inDim specs dout beta p sp sv keys) (trainableVariables inDim specs keys) lr (st k)
      = .ok (out, st (k + 1))) ∧ outs[k].inverseParams = inverseAt (st (k + 1)).weights keys := by
    intro k hk
    have := hrun k hk
    unfold trainStepInverseFull at this
    split at this
    · exact absurd this (by simp)
    · rename_i out s1 h1
      simp only [Except.ok.injEq, Prod.mk.injEq] at this
      obtain ⟨e1, rfl⟩ := this
      exact ⟨⟨out, h1⟩, by rw [← e1]⟩
  constructor
  · intro x
    choose o ho using fun k hk => (hstep k hk).1
    have := (trainEpochs_iff (trainStepWith (forwardInverse L M act attention useAttention
      inDim specs dout beta p sp sv keys) (trainableVariables inDim specs keys) lr) n ⟨θ, AdamState.init⟩
      (st n) (List.ofFn fun i : Fin outs.length => o i i.2)).2 ⟨by simp [hl], st, fun k hk => by
        simpa using ho k (by simpa using hk), h0, rfl⟩
    exact C74_total _ inDim specs keys hkeys lr θ n _ _ this x
  · intro hne
    have hpos : 0 < outs.length := List.length_pos_iff.mpr hne
    rw [List.getLast_eq_getElem, (hstep (outs.length - 1) (by omega)).2]
    have : outs.length - 1 + 1 = n := by omega
    rw [this]
    rfl

/-! ## Examples -/

/-- `demoModel` with right-hand side `2c + 2`: the network `x + 2y` has loss zero. -/
noncomputable def demoModelExact : ModelData 2 1 2 4 2 :=
  { demoModel with forceMatrix := fun _ c => 2 * c.val + 2 }

/-- The weights of a single linear layer for `x + 2y`. -/
def demoWeights : Weights
  | .kernel 0 0 0 => 1
  | .kernel 0 1 0 => 2
  | _ => 0

lemma demo_layerSpecs : layerSpecs [2, 1] "tanh" = .ok [⟨1, none⟩] := rfl

lemma demo_net (act : String → ℝ → ℝ) (θ : Weights) (z : ℝ × ℝ) :
    netFn act "tanh" [2, 1] [⟨1, none⟩] θ 0 z
      = z.1 * θ (.kernel 0 0 0) + z.2 * θ (.kernel 0 1 0) + θ (.bias 0 0) := by
  simp [netFn, outputValue, hiddenValues, kernels, biases, kernelAt, biasAt, layersAt, Finset.sum_range_succ]

lemma demo_dx (w₁ w₂ w₃ : ℝ) (z : ℝ × ℝ) : dx (fun z => z.1 * w₁ + z.2 * w₂ + w₃) z = w₁ := by
  have : HasDerivAt (fun s : ℝ => s * w₁ + z.2 * w₂ + w₃) w₁ z.1 := by
    simpa using (((hasDerivAt_id z.1).mul_const w₁).add_const (z.2 * w₂)).add_const w₃
  exact this.deriv

lemma demo_dy (w₁ w₂ w₃ : ℝ) (z : ℝ × ℝ) : dy (fun z => z.1 * w₁ + z.2 * w₂ + w₃) z = w₂ := by
  have : HasDerivAt (fun s : ℝ => z.1 * w₁ + s * w₂ + w₃) w₂ z.2 := by
    simpa using (((hasDerivAt_id z.2).mul_const w₂).const_add (z.1 * w₁)).add_const w₃
  exact this.deriv

/-- C72 at work: 1000 epochs at the exact solution of the discrete problem. -/
example (act : String → ℝ → ℝ) (attention : Batch → Except PyErr Batch) (lr : LearningRate) :
    ∃ out s', trainEpochs (trainStepWith (forwardDense (lossOf .poisson 2 1 2) demoModelExact act attention
        false 2 [⟨1, none⟩] 1 10 (some [("eps", 1)])) (trainableVariables 2 [⟨1, none⟩] []) lr) 1000
        ⟨demoWeights, AdamState.init⟩ = .ok (List.replicate 1000 out, s') ∧ s'.weights = demoWeights := by
  have hS : Shaped demoModelExact (fun c q => ((c.val * 2 + q.val : ℕ), 1)) :=
    ⟨rfl, rfl, fun c q r hr => by simp [demoModelExact, demoModel, hr]⟩
  have hR := netFn_rowWise act "tanh" [2, 1] [⟨1, none⟩] (by simp) demo_layerSpecs rfl 1 rfl attention demoWeights
  have hco : Coefficients (nc := 2) (nq := 2) .poisson (some [("eps", 1)]) none [] (fun _ _ => 1) (0, 0) 0 :=
    ⟨1, ⟨_, rfl, rfl⟩, rfl, rfl, rfl⟩
  obtain ⟨h1, h2⟩ := C47_dense demoModelExact _ hS 10 (some [("eps", 1)]) .poisson (Or.inl rfl) _ _ hR
  obtain ⟨out, ho⟩ := h1.2 ⟨_, _, _, hco⟩
  obtain ⟨A', b', r', hco', e1, e2, e3, -⟩ := h2 out ho
  obtain ⟨rfl, rfl, rfl⟩ := coefficients_unique hco hco'
  have hn : netFn act "tanh" [2, 1] [⟨1, none⟩] demoWeights 0
      = fun z : ℝ × ℝ => z.1 * 1 + z.2 * 2 + 0 := funext fun z => demo_net act demoWeights z
  have hloss : ∀ j, out.loss j = 0 := by
    intro j
    rw [Subsingleton.elim j 0, e3, e1, e2]
    simp only [Fin.val_zero, hn, pdeLoss, demo_dx, demo_dy]
    simp [meanSq, testedResidual, Fin.sum_univ_two, demoModelExact, demoModel]
    norm_num
  obtain ⟨s', h3, h4, -⟩ := C72_dense demoModelExact act attention false 2 [⟨1, none⟩] 1 10 (some [("eps", 1)])
    lr ⟨demoWeights, AdamState.init⟩ .poisson (Or.inl rfl) (by norm_num) (fun _ _ => rfl) out ho hloss 1000
  exact ⟨out, s', h3, h4⟩

/-- C73 at work: at weights zero the gradient of `demoModel` is not zero, so the first step with a small
enough learning rate decreases the loss. -/
example (attention : Batch → Except PyErr Batch) :
    ∃ δ > 0, ∀ lr : LearningRate, 0 < lr.at 0 → lr.at 0 < δ → ∃ o₀ o₁ s',
      trainEpochs (trainStepWith (forwardDense (lossOf .poisson 2 1 2) demoModel (fun _ => Real.tanh) attention
        false 2 [⟨1, none⟩] 1 10 (some [("eps", 1)])) (trainableVariables 2 [⟨1, none⟩] []) lr) 2
        ⟨fun _ => 0, AdamState.init⟩ = .ok ([o₀, o₁], s') ∧ o₁.loss 0 < o₀.loss 0 := by
  have hS : Shaped demoModel (fun c q => ((c.val * 2 + q.val : ℕ), 1)) :=
    ⟨rfl, rfl, fun c q r hr => by simp [demoModel, hr]⟩
  have hco : Coefficients (nc := 2) (nq := 2) .poisson (some [("eps", 1)]) none [] (fun _ _ => 1) (0, 0) 0 :=
    ⟨1, ⟨_, rfl, rfl⟩, rfl, rfl, rfl⟩
  obtain ⟨u, hu, hgrad, H⟩ := C73_dense demoModel _ hS (fun _ => Real.tanh) attention "tanh" contDiff_tanh [2, 1]
    [⟨1, none⟩] (by simp) demo_layerSpecs rfl 10 (some [("eps", 1)]) rfl .poisson (Or.inl rfl) _ _ _ hco
  refine H (fun _ => 0) ⟨.kernel 0 1 0, by simp [trainableVariables, layerVars], fun h0 => ?_⟩
  have hu' : ∀ θ, u θ = fun z => z.1 * θ (.kernel 0 0 0) + z.2 * θ (.kernel 0 1 0) + θ (.bias 0 0) := by
    intro θ
    funext z
    rw [← demo_net (fun _ => Real.tanh) θ z]
    have h1 := hu θ 1 (fun _ => z) 0 0
    have h2 := netFn_rowWise (fun _ => Real.tanh) "tanh" [2, 1] [⟨1, none⟩] (by simp) demo_layerSpecs rfl 1 rfl
      attention θ 1 (fun _ => z) 0 0
    exact h1.symm.trans h2
  have hd := hgrad (fun _ => 0) (.kernel 0 1 0)
  have hd2 : HasDerivAt (fun t : ℝ => (t - 2) ^ 2 + (t - 5) ^ 2 + 5) (2 * (0 - 2) + 2 * (0 - 5)) 0 := by
    have h1 := ((hasDerivAt_id (0 : ℝ)).sub_const 2).pow 2
    have h2 := ((hasDerivAt_id (0 : ℝ)).sub_const 5).pow 2
    have h3 := (h1.add h2).add_const 5
    refine h3.congr_deriv ?_
    simp
  have e := hd.unique (hd2.congr_of_eventuallyEq (Filter.Eventually.of_forall fun t => ?_))
  · have h1 : lossGradient _ _ _ = _ := e
    rw [show [2, 1].getD 0 0 = 2 from rfl] at h1 h0
    rw [h0] at h1
    norm_num at h1
  · simp only [hu', pdeLoss, demo_dx, demo_dy]
    simp [meanSq, testedResidual, Fin.sum_univ_two, demoModel]
    ring

/-- C74 at work: with the values of the Poisson example (`input.yaml`: rate 0.001, factor 0.99 every 1000
steps) and the scheduler on, no weight ever moves by more than 730. -/
example {α : Type} (fwd : Forward α) (lr : LearningRate) (hlr : learningRateFn
    [("initial_learning_rate", .num (1 / 1000)), ("use_lr_scheduler", .bool true),
      ("decay_steps", .num (1000 : ℕ)), ("decay_rate", .num (99 / 100))] = .ok lr) (θ : Weights) (n : ℕ)
    (outs : List α) (s' : TrainState)
    (h : trainEpochs (trainStepWith fwd (trainableVariables 2 [⟨30, some "tanh"⟩, ⟨1, none⟩] []) lr) n
      ⟨θ, AdamState.init⟩ = .ok (outs, s')) (x : Var) : |s'.weights x - θ x| ≤ 730 := by
  have := C74_scheduler fwd _ _ [] List.nodup_nil _ (1 / 1000) (99 / 100) 1000 (by norm_num) (.bool true) rfl rfl
    rfl rfl rfl (by norm_num) (by norm_num) lr hlr θ n outs s' h x
  refine this.trans (le_of_eq ?_)
  rw [abs_of_pos (by norm_num)]
  norm_num

end FastVPINNs
