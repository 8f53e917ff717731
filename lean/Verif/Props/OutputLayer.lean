import Verif.Lemmas.OutputLayer
import Verif.Props.Training
import Verif.Props.Expressive
import Verif.Props.Trainable

/-! # C106: the output layer is a least-squares problem -/

namespace FastVPINNs

open Spec

/-- **C106** (the variables).  The trainable variables that produce the output number `j` from the last hidden layer are
the whole column `j` of the last kernel and the entry `j` of the last bias: none of them is left out. -/
theorem C106_column (dims : List ℕ) (a : String) (h : 2 ≤ dims.length) (specs : List LayerSpec)
    (hs : layerSpecs dims a = .ok specs) (keys : List String) (hkeys : keys.Nodup) (j : ℕ)
    (hj : j < dims.getD (dims.length - 1) 0) (v : Var) :
    v ∈ trainableVariables (dims.getD 0 0) specs keys ∧ OutputColumn (dims.length - 2) j v ↔
      (∃ i < dims.getD (dims.length - 2) 0, v = .kernel (dims.length - 2) i j) ∨ v = .bias (dims.length - 2) j := by
  rw [(C89_variables dims a h specs hs keys hkeys).1 v]
  have e : dims.length - 2 + 1 = dims.length - 1 := by omega
  cases v with
  | kernel k i j' =>
    simp only [IsWeight, OutputColumn, Var.kernel.injEq, reduceCtorEq, or_false]
    constructor
    · rintro ⟨⟨-, h1, -⟩, rfl, rfl⟩
      exact ⟨i, h1, rfl, rfl, rfl⟩
    · rintro ⟨_, h1, rfl, rfl, rfl⟩
      exact ⟨⟨by omega, h1, by rw [e]; exact hj⟩, rfl, rfl⟩
  | bias k j' =>
    simp only [IsWeight, OutputColumn, Var.bias.injEq, reduceCtorEq, and_false, exists_false, false_or]
    constructor
    · rintro ⟨-, rfl, rfl⟩
      exact ⟨rfl, rfl⟩
    · rintro ⟨rfl, rfl⟩
      exact ⟨⟨by omega, by rw [e]; exact hj⟩, rfl, rfl⟩
  | inverse key => simp [OutputColumn]

/-- The hypotheses of `C106_column`: two hidden layers. -/
example : ∃ specs, layerSpecs [2, 30, 30, 1] "tanh" = .ok specs ∧
    ∀ i < 30, Var.kernel 2 i 0 ∈ trainableVariables 2 specs [] := by
  obtain ⟨specs, hs, -, -⟩ := C51_layers [2, 30, 30, 1] "tanh" (by simp)
  exact ⟨specs, hs, fun i hi => ((C106_column [2, 30, 30, 1] "tanh" (by simp) specs hs [] (by simp) 0 (by simp)
    (.kernel 2 i 0)).2 (Or.inl ⟨i, hi, rfl⟩)).1⟩

section
variable {nc nt nq nIn nBd : ℕ} (M : ModelData nc nt nq nIn nBd) (pt : Fin nc → Fin nq → ℝ × ℝ)
  (hM : Shaped M pt) (beta : ℝ) (p : ParamDict)
include hM

/-- **C106** (averages).  Let three networks compute `u`, `v` and the pointwise average
`(1 - t) u + t v` with `0 ≤ t ≤ 1`, `u` and `v` differentiable.  For every loss function of the forward
problems and `beta ≥ 0` the loss `DenseModel` reports for the average is at most the average of the losses. -/
theorem C106_average (hβ : 0 ≤ beta) (kind : LossKind) (hk : kind.forward) (u v : ℝ × ℝ → ℝ)
    (hu : Differentiable ℝ u) (hv : Differentiable ℝ v) (t : ℝ) (ht : 0 ≤ t ∧ t ≤ 1) (n₀ n₁ n : Network 1)
    (h₀ : RowWise n₀ fun _ => u) (h₁ : RowWise n₁ fun _ => v)
    (h : RowWise n fun _ z => (1 - t) * u z + t * v z) (o₀ o₁ o : TrainOut 1)
    (e₀ : trainStepDense (lossOf kind nc nt nq) M n₀ beta p = .ok o₀)
    (e₁ : trainStepDense (lossOf kind nc nt nq) M n₁ beta p = .ok o₁)
    (e : trainStepDense (lossOf kind nc nt nq) M n beta p = .ok o) :
    o.loss 0 ≤ (1 - t) * o₀.loss 0 + t * o₁.loss 0 := by
  obtain ⟨A, b, r, hco, a1, a2, a3, -⟩ := (C47_dense M pt hM beta p kind hk _ _ h₀).2 _ e₀
  obtain ⟨A', b', r', hco', b1, b2, b3, -⟩ := (C47_dense M pt hM beta p kind hk _ _ h₁).2 _ e₁
  obtain ⟨rfl, rfl, rfl⟩ := coefficients_unique hco hco'
  obtain ⟨A', b', r', hco', c1, c2, c3, -⟩ := (C47_dense M pt hM beta p kind hk _ _ h).2 _ e
  obtain ⟨rfl, rfl, rfl⟩ := coefficients_unique hco hco'
  let U : ℝ → ℝ × ℝ → ℝ := fun s z => (1 - s) * u z + s * v z
  have hU0 : U 0 = u := by funext z; simp [U]
  have hU1 : U 1 = v := by funext z; simp [U]
  have hU : ∀ s, U s = fun w => (1 - s) * U 0 w + s * U 1 w := fun s => by rw [hU0, hU1]
  have hd : ∀ s, Differentiable ℝ (U s) := fun s => (hu.const_mul _).add (hv.const_mul _)
  obtain ⟨Q, hQ, hq⟩ := (pdeLoss_line M pt A b r U hd hU).add
    ((dataTerm_line M.dirichletInput M.dirichletActual U hU).mul hβ)
  have := hq t
  dsimp only at this
  rw [hU0, hU1] at this
  rw [a3, a2, a1, b3, b2, b1, c3, c2, c1]
  have hp : 0 ≤ t * (1 - t) * Q := mul_nonneg (mul_nonneg ht.1 (by linarith [ht.2])) hQ
  change pdeLoss M pt (U t) A b r + beta * (meanSq fun i => U t (M.dirichletInput i) - M.dirichletActual i) ≤ _
  rw [this]
  linarith

end

section
variable {nc nt nq nIn nBd : ℕ} (M : ModelData nc nt nq nIn nBd) (pt : Fin nc → Fin nq → ℝ × ℝ)
  (hM : Shaped M pt) (act : String → ℝ → ℝ) (attention : Batch → Except PyErr Batch) (a : String)
  (hσ : ContDiff ℝ 2 (act a))
  (dims : List ℕ) (specs : List LayerSpec) (h : 2 ≤ dims.length) (hs : layerSpecs dims a = .ok specs)
  (hin : dims.getD 0 0 = 2) (beta : ℝ) (p : ParamDict)
include hM h hs hin hσ

/-- **C106** (`DenseModel`).  For the three forward losses and `beta ≥ 0`: every step succeeds, and as a
function of the kernel and bias of the output layer, with the hidden layers fixed, the reported loss is a convex
polynomial of degree two.  So weights at which the gradient is zero in the entries of the output layer have
the smallest loss among all weights with the same hidden layers. -/
theorem C106_dense (hβ : 0 ≤ beta) (hout : dims.getD (dims.length - 1) 0 = 1) (kind : LossKind)
    (hk : kind.forward) (A : Fin nc → Fin nq → ℝ) (b : ℝ × ℝ) (r : ℝ)
    (hco : Coefficients kind p none [] A b r) :
    ∃ J : Weights → ℝ,
      (∀ θ, ∃ o, trainStepDense (lossOf kind nc nt nq) M
        (networkAt act attention false (dims.getD 0 0) specs 1 θ) beta p = .ok o ∧ o.loss 0 = J θ) ∧
      ConvexQuadratic (OutputColumn (dims.length - 2) 0) (trainableVariables (dims.getD 0 0) specs []) J ∧
      StationaryIsOptimal (OutputColumn (dims.length - 2) 0) (trainableVariables (dims.getD 0 0) specs []) J
        (lossGradient (forwardDense (lossOf kind nc nt nq) M act attention false (dims.getD 0 0) specs 1 beta p)) := by
  have htot := forwardDense_total M pt hM act attention a dims specs h hs hin beta p hout kind hk A b r hco
  have hsm := forwardDense_smooth M pt hM act attention a hσ dims specs h hs hin beta p hout kind hk A b r hco
  have hq : ConvexQuadratic (OutputColumn (dims.length - 2) 0) (trainableVariables (dims.getD 0 0) specs [])
      (forwardDense (lossOf kind nc nt nq) M act attention false (dims.getD 0 0) specs 1 beta p).total := by
    intro θ θ' hd
    have hU : ∀ t, netFn act a dims specs (blend θ θ' t) 0 = fun w =>
        (1 - t) * netFn act a dims specs (blend θ θ' 0) 0 w + t * netFn act a dims specs (blend θ θ' 1) 0 w :=
      fun t => by rw [blend_zero, blend_one]; exact netFn_blend act a dims specs hd t
    obtain ⟨Q, hQ, hl⟩ := (pdeLoss_line M pt A b r (fun t => netFn act a dims specs (blend θ θ' t) 0)
      (fun t => netFn_differentiable act a dims specs hσ _ 0) hU).add
      ((dataTerm_line M.dirichletInput M.dirichletActual (fun t => netFn act a dims specs (blend θ θ' t) 0)
        hU).mul hβ)
    refine ⟨Q, hQ, fun t => ?_⟩
    have e := hl t
    dsimp only at e
    rw [blend_zero, blend_one] at e
    rw [htot, htot, htot]
    exact e
  refine ⟨_, fun θ => ?_, hq, stationary_of_quadratic hsm hq⟩
  have hu := netFn_rowWise act a dims specs h hs hin 1 hout attention θ
  obtain ⟨o, ho⟩ := (C47_dense M pt hM beta p kind hk _ _ hu).1.2 ⟨A, b, r, hco⟩
  refine ⟨o, ho, ?_⟩
  unfold Forward.total forwardDense
  rw [ho]
  simp

/-- **C106** (`DenseModel_Hard`).  The same for a constraint `B + ℓ · N` with twice continuously
differentiable `B`, `ℓ` of the point; no assumption on `beta`. -/
theorem C106_hard (hout : dims.getD (dims.length - 1) 0 = 1) (kind : LossKind)
    (hk : kind.forward) (A : Fin nc → Fin nq → ℝ) (b : ℝ × ℝ) (r : ℝ)
    (hco : Coefficients kind p none [] A b r) (B ℓ : ℝ × ℝ → ℝ) (hB : ContDiff ℝ 2 B) (hℓ : ContDiff ℝ 2 ℓ) :
    ∃ J : Weights → ℝ,
      (∀ θ, ∃ o, trainStepHard (lossOf kind nc nt nq) M
        (networkHard act attention false (layersAt θ 0 (dims.getD 0 0) specs) (List.zipWith fun x v =>
          v.map fun y => B (x.getD 0 0, x.getD 1 0) + ℓ (x.getD 0 0, x.getD 1 0) * y) 1) beta p = .ok o ∧
          o.loss = J θ) ∧
      ConvexQuadratic (OutputColumn (dims.length - 2) 0) (trainableVariables (dims.getD 0 0) specs []) J ∧
      StationaryIsOptimal (OutputColumn (dims.length - 2) 0) (trainableVariables (dims.getD 0 0) specs []) J
        (lossGradient (forwardHard (lossOf kind nc nt nq) M act attention false (dims.getD 0 0) specs 1 beta p
          (List.zipWith fun x v => v.map fun y => B (x.getD 0 0, x.getD 1 0)
            + ℓ (x.getD 0 0, x.getD 1 0) * y))) := by
  have hg : ContDiff ℝ 2 fun q : (ℝ × ℝ) × ℝ => B q.1 + ℓ q.1 * q.2 :=
    (hB.comp contDiff_fst).add ((hℓ.comp contDiff_fst).mul contDiff_snd)
  have htot := forwardHard_total M pt hM act attention a dims specs h hs hin beta p hout kind hk A b r hco
    fun z y => B z + ℓ z * y
  have hsm := forwardHard_smooth M pt hM act attention a hσ dims specs h hs hin beta p hout kind hk A b r hco
    (fun z y => B z + ℓ z * y) hg
  have hq : ConvexQuadratic (OutputColumn (dims.length - 2) 0) (trainableVariables (dims.getD 0 0) specs [])
      (forwardHard (lossOf kind nc nt nq) M act attention false (dims.getD 0 0) specs 1 beta p
          (List.zipWith fun x v => v.map fun y => B (x.getD 0 0, x.getD 1 0)
            + ℓ (x.getD 0 0, x.getD 1 0) * y)).total := by
    intro θ θ' hd
    have hU : ∀ t, (fun z => B z + ℓ z * netFn act a dims specs (blend θ θ' t) 0 z) = fun w =>
        (1 - t) * (B w + ℓ w * netFn act a dims specs (blend θ θ' 0) 0 w)
          + t * (B w + ℓ w * netFn act a dims specs (blend θ θ' 1) 0 w) := by
      intro t
      rw [blend_zero, blend_one, netFn_blend act a dims specs hd t]
      funext w
      ring
    obtain ⟨Q, hQ, hl⟩ := pdeLoss_line M pt A b r
      (fun t z => B z + ℓ z * netFn act a dims specs (blend θ θ' t) 0 z)
      (fun t => (hB.differentiable (by norm_num)).add ((hℓ.differentiable (by norm_num)).mul
        (netFn_differentiable act a dims specs hσ _ 0))) hU
    refine ⟨Q, hQ, fun t => ?_⟩
    have e := hl t
    dsimp only at e
    rw [blend_zero, blend_one] at e
    rw [htot, htot, htot]
    exact e
  refine ⟨_, fun θ => ?_, hq, stationary_of_quadratic hsm hq⟩
  obtain ⟨u₀, hu0, hu1⟩ := C48_network act a dims _ (layersAt_arch dims a specs h hs θ) hin hout attention
    fun z y => B z + ℓ z * y
  obtain ⟨o, ho⟩ := (C47_hard M pt hM beta p kind hk _ _ hu1).1.2 ⟨A, b, r, hco⟩
  refine ⟨o, ho, ?_⟩
  unfold Forward.total forwardHard
  rw [ho]

/-- **C106** (`DenseModel_Inverse`).  The loss is a convex quadratic function of the output layer with the
parameter and the hidden layers fixed, and of the parameter with the network fixed; a zero gradient in
either group of variables means that no other values of that group give a smaller loss. -/
theorem C106_inverse (hβ : 0 ≤ beta) (hout : dims.getD (dims.length - 1) 0 = 1) {nS : ℕ}
    (sp : Fin nS → ℝ × ℝ) (sv : Fin nS → ℝ) (keys : List String) (hkey : "eps" ∈ keys) :
    ∃ J : Weights → ℝ,
      (∀ θ, ∃ o, trainStepInverse (lossPoissonInverse nc nt nq) M sp sv (inverseAt θ keys)
        (networkAt act attention false (dims.getD 0 0) specs 1 θ) beta p = .ok o ∧ o.loss 0 = J θ) ∧
      ∀ P, P = OutputColumn (dims.length - 2) 0 ∨ P = (· = Var.inverse "eps") →
        ConvexQuadratic P (trainableVariables (dims.getD 0 0) specs keys) J ∧
        StationaryIsOptimal P (trainableVariables (dims.getD 0 0) specs keys) J
          (lossGradient (forwardInverse (lossPoissonInverse nc nt nq) M act attention false (dims.getD 0 0) specs 1
            beta p sp sv keys)) := by
  have htot := forwardInverse_total M pt hM act attention a dims specs h hs hin beta p hout sp sv keys hkey
  have hsm := forwardInverse_smooth M pt hM act attention a hσ dims specs h hs hin beta p hout sp sv keys hkey
  refine ⟨(forwardInverse (lossPoissonInverse nc nt nq) M act attention false (dims.getD 0 0) specs 1
    beta p sp sv keys).total, fun θ => ?_, fun P hP => ?_⟩
  · have hu := netFn_rowWise act a dims specs h hs hin 1 hout attention θ
    obtain ⟨o, ho⟩ := (C47_inverse M pt hM beta p (inverseAt θ keys) sp sv _ _ hu).1.2
      ⟨_, hasParam_inverseAt θ keys "eps" hkey⟩
    refine ⟨o, ho, ?_⟩
    unfold Forward.total forwardInverse
    rw [ho]
    simp
  · have hq : ConvexQuadratic P (trainableVariables (dims.getD 0 0) specs keys)
        (forwardInverse (lossPoissonInverse nc nt nq) M act attention false (dims.getD 0 0) specs 1
          beta p sp sv keys).total := by
      intro θ θ' hd
      rcases hP with rfl | rfl
      · have hU : ∀ t, netFn act a dims specs (blend θ θ' t) 0 = fun w =>
            (1 - t) * netFn act a dims specs (blend θ θ' 0) 0 w
              + t * netFn act a dims specs (blend θ θ' 1) 0 w :=
          fun t => by rw [blend_zero, blend_one]; exact netFn_blend act a dims specs hd t
        have he : ∀ t, blend θ θ' t (.inverse "eps") = θ (.inverse "eps") := fun t =>
          blend_eq hd t _ (by simp [OutputColumn])
        obtain ⟨Q, hQ, hl⟩ := ((pdeLoss_line M pt (fun _ _ => θ (.inverse "eps")) (0, 0) 0
          (fun t => netFn act a dims specs (blend θ θ' t) 0)
          (fun t => netFn_differentiable act a dims specs hσ _ 0) hU).add
          ((dataTerm_line M.dirichletInput M.dirichletActual
            (fun t => netFn act a dims specs (blend θ θ' t) 0) hU).mul hβ)).add
          ((dataTerm_line sp sv (fun t => netFn act a dims specs (blend θ θ' t) 0) hU).mul
            (show (0 : ℝ) ≤ 10 by norm_num))
        refine ⟨Q, hQ, fun t => ?_⟩
        have e := hl t
        dsimp only at e
        have he1 : θ' (.inverse "eps") = θ (.inverse "eps") := by
          have := he 1
          rwa [blend_one] at this
        rw [blend_zero, blend_one] at e
        rw [htot, htot, htot, he, he1]
        exact e
      · have hU : ∀ t, netFn act a dims specs (blend θ θ' t) 0 = netFn act a dims specs θ 0 := fun t =>
          netFn_other act a dims specs hd (Or.inr fun v hv => ⟨_, hv⟩) t
        have hU1 : netFn act a dims specs θ' 0 = netFn act a dims specs θ 0 := by
          have := hU 1
          rwa [blend_one] at this
        obtain ⟨Q, hQ, hl⟩ := pdeLoss_line_diffusion M pt (netFn act a dims specs θ 0) (0, 0) 0
          (fun t _ _ => blend θ θ' t (.inverse "eps")) fun t _ _ => by rw [blend_zero, blend_one]; rfl
        refine ⟨Q, hQ, fun t => ?_⟩
        have e := hl t
        dsimp only at e
        rw [blend_zero, blend_one] at e
        rw [htot, htot, htot, hU, hU1, e]
        ring
    exact ⟨hq, stationary_of_quadratic hsm hq⟩

/-- **C106** (`DenseModel_Inverse_Domain`).  The loss is a convex quadratic function of the column of the output
layer that produces the solution, and of the column that produces the coefficient, each with all other weights
fixed; a zero gradient in either column means that no other values of that column give a smaller
loss. -/
theorem C106_inverse_domain (hβ : 0 ≤ beta) (hout : dims.getD (dims.length - 1) 0 = 2) {nS : ℕ}
    (sp : Fin nS → ℝ × ℝ) (sv : Fin nS → ℝ) (b : ℝ × ℝ) (r : ℝ) (hb1 : HasParam p "b_x" b.1)
    (hb2 : HasParam p "b_y" b.2) (hr : HasParam p "c" r) :
    ∃ J : Weights → ℝ,
      (∀ θ, ∃ o, trainStepInverseDomain (lossCd2dInverseDomain nc nt nq) M sp sv
        (networkAt act attention false (dims.getD 0 0) specs 2 θ) beta p = .ok o ∧ o.loss 0 = J θ) ∧
      ∀ j : Fin 2, ConvexQuadratic (OutputColumn (dims.length - 2) j)
          (trainableVariables (dims.getD 0 0) specs []) J ∧
        StationaryIsOptimal (OutputColumn (dims.length - 2) j) (trainableVariables (dims.getD 0 0) specs []) J
          (lossGradient (forwardInverseDomain (lossCd2dInverseDomain nc nt nq) M act attention false
            (dims.getD 0 0) specs 2 beta p sp sv)) := by
  have htot := forwardInverseDomain_total M pt hM act attention a dims specs h hs hin beta p hout sp sv b r hb1
    hb2 hr
  have hsm := forwardInverseDomain_smooth M pt hM act attention a hσ dims specs h hs hin beta p hout sp sv b r
    hb1 hb2 hr
  refine ⟨(forwardInverseDomain (lossCd2dInverseDomain nc nt nq) M act attention false
    (dims.getD 0 0) specs 2 beta p sp sv).total, fun θ => ?_, fun j => ?_⟩
  · have hu := netFn_rowWise act a dims specs h hs hin 2 hout attention θ
    obtain ⟨o, ho⟩ := (C47_inverse_domain M pt hM beta p sp sv le_rfl _ _ hu).1.2 ⟨_, _, _, hb1, hb2, hr⟩
    refine ⟨o, ho, ?_⟩
    unfold Forward.total forwardInverseDomain
    rw [ho]
    simp
  · have hq : ConvexQuadratic (OutputColumn (dims.length - 2) j) (trainableVariables (dims.getD 0 0) specs [])
        (forwardInverseDomain (lossCd2dInverseDomain nc nt nq) M act attention false
          (dims.getD 0 0) specs 2 beta p sp sv).total := by
      intro θ θ' hd
      fin_cases j
      · have hU : ∀ t, netFn act a dims specs (blend θ θ' t) 0 = fun w =>
            (1 - t) * netFn act a dims specs (blend θ θ' 0) 0 w
              + t * netFn act a dims specs (blend θ θ' 1) 0 w :=
          fun t => by rw [blend_zero, blend_one]; exact netFn_blend act a dims specs hd t
        have hV : ∀ t, netFn act a dims specs (blend θ θ' t) 1 = netFn act a dims specs θ 1 := fun t =>
          netFn_other act a dims specs hd (Or.inl fun v hv => ⟨0, by norm_num, hv⟩) t
        have hV1 : netFn act a dims specs θ' 1 = netFn act a dims specs θ 1 := by
          have := hV 1
          rwa [blend_one] at this
        obtain ⟨Q, hQ, hl⟩ := ((pdeLoss_line M pt (fun c q => netFn act a dims specs θ 1 (pt c q)) b r
          (fun t => netFn act a dims specs (blend θ θ' t) 0)
          (fun t => netFn_differentiable act a dims specs hσ _ 0) hU).add
          ((dataTerm_line M.dirichletInput M.dirichletActual
            (fun t => netFn act a dims specs (blend θ θ' t) 0) hU).mul hβ)).add
          ((dataTerm_line sp sv (fun t => netFn act a dims specs (blend θ θ' t) 0) hU).mul
            (show (0 : ℝ) ≤ 10 by norm_num))
        refine ⟨Q, hQ, fun t => ?_⟩
        have e := hl t
        dsimp only at e
        rw [blend_zero, blend_one] at e
        rw [htot, htot, htot, hV, hV1]
        exact e
      · have hU : ∀ t, netFn act a dims specs (blend θ θ' t) 0 = netFn act a dims specs θ 0 := fun t =>
          netFn_other act a dims specs hd (Or.inl fun v hv => ⟨1, by norm_num, hv⟩) t
        have hU1 : netFn act a dims specs θ' 0 = netFn act a dims specs θ 0 := by
          have := hU 1
          rwa [blend_one] at this
        obtain ⟨Q, hQ, hl⟩ := pdeLoss_line_diffusion M pt (netFn act a dims specs θ 0) b r
          (fun t c q => netFn act a dims specs (blend θ θ' t) 1 (pt c q)) fun t c q => by
            rw [blend_zero, blend_one, netFn_blend act a dims specs hd t]
        refine ⟨Q, hQ, fun t => ?_⟩
        have e := hl t
        dsimp only at e
        rw [blend_zero, blend_one] at e
        rw [htot, htot, htot, hU, hU1, e]
        ring
    exact ⟨hq, stationary_of_quadratic hsm hq⟩

end

/-- One cell with one quadrature point; the test functions have `x`-derivative one there, and the entries of
the force matrix are `F`; a single boundary point, at the origin, with value zero. -/
def lineModel {nt : ℕ} (F : Fin nt → ℝ) : ModelData 1 nt 1 1 1 where
  preMultiplierVal := fun _ _ _ => 0
  preMultiplierGradX := fun _ _ _ => 1
  preMultiplierGradY := fun _ _ _ => 0
  forceMatrix := fun t _ => F t
  inputTensor := fun _ => (3, 1)
  dirichletInput := fun _ => (0, 0)
  dirichletActual := fun _ => 0
  nCells := 1

lemma lineModel_shaped {nt : ℕ} (F : Fin nt → ℝ) : Shaped (lineModel F) fun _ _ => (3, 1) :=
  ⟨rfl, rfl, fun _ _ _ _ => rfl⟩

lemma lineModel_pdeLoss {nt : ℕ} (F : Fin nt → ℝ) (act : String → ℝ → ℝ) (θ : Weights) (e : ℝ) :
    pdeLoss (lineModel F) (fun _ _ => (3, 1)) (netFn act "tanh" [2, 1] [⟨1, none⟩] θ 0) (fun _ _ => e) (0, 0) 0
      = meanSq fun t => e * θ (.kernel 0 0 0) - F t := by
  have hu : netFn act "tanh" [2, 1] [⟨1, none⟩] θ 0
      = fun z => z.1 * θ (.kernel 0 0 0) + z.2 * θ (.kernel 0 1 0) + θ (.bias 0 0) := by
    funext z
    exact demo_net act θ z
  rw [hu]
  simp only [pdeLoss, demo_dx, demo_dy]
  simp only [Finset.univ_unique, Finset.sum_singleton]
  congr 1
  funext t
  simp [testedResidual, lineModel]

/-- **C106** (why the groups of variables have to be separate).  For all output-layer weights and the parameter
together the loss of `DenseModel_Inverse` need not be convex: with one cell, one test function, one boundary
point and one sensor there are two states of a network without hidden layers with loss zero, halfway between
which the loss is one. -/
theorem C106_inverse_joint (act : String → ℝ → ℝ) (attention : Batch → Except PyErr Batch) (beta : ℝ)
    (p : ParamDict) :
    ∃ (M : ModelData 1 1 1 1 1) (sp : Fin 1 → ℝ × ℝ) (sv : Fin 1 → ℝ) (θ θ' : Weights) (o o' m : TrainOutInverse 1),
      trainStepInverse (lossPoissonInverse 1 1 1) M sp sv (inverseAt θ ["eps"])
        (networkAt act attention false 2 [⟨1, none⟩] 1 θ) beta p = .ok o ∧ o.loss 0 = 0 ∧
      trainStepInverse (lossPoissonInverse 1 1 1) M sp sv (inverseAt θ' ["eps"])
        (networkAt act attention false 2 [⟨1, none⟩] 1 θ') beta p = .ok o' ∧ o'.loss 0 = 0 ∧
      trainStepInverse (lossPoissonInverse 1 1 1) M sp sv (inverseAt (blend θ θ' (1 / 2)) ["eps"])
        (networkAt act attention false 2 [⟨1, none⟩] 1 (blend θ θ' (1 / 2))) beta p = .ok m ∧ m.loss 0 = 1 := by
  have key : ∀ θ : Weights, θ (.bias 0 0) = 0 → ∃ o,
      trainStepInverse (lossPoissonInverse 1 1 1) (lineModel fun _ : Fin 1 => 1) (fun _ : Fin 1 => (0, 0))
        (fun _ => 0) (inverseAt θ ["eps"]) (networkAt act attention false 2 [⟨1, none⟩] 1 θ) beta p = .ok o ∧
        o.loss 0 = (θ (.inverse "eps") * θ (.kernel 0 0 0) - 1) ^ 2 := by
    intro θ hb
    have hu := netFn_rowWise act "tanh" [2, 1] [⟨1, none⟩] (by simp) demo_layerSpecs rfl 1 rfl attention θ
    obtain ⟨h1, h2⟩ := C47_inverse (lineModel fun _ : Fin 1 => 1) _ (lineModel_shaped _) beta p
      (inverseAt θ ["eps"]) (fun _ : Fin 1 => (0, 0)) (fun _ => 0) _ _ hu
    have heps := hasParam_inverseAt θ ["eps"] "eps" (by simp)
    obtain ⟨o, ho⟩ := h1.2 ⟨_, heps⟩
    obtain ⟨eps, hp, e1, e2, e3, -, e4, -⟩ := h2 o ho
    obtain rfl := hasParam_unique heps hp
    refine ⟨o, ho, ?_⟩
    have e1' := e1.trans (lineModel_pdeLoss (fun _ : Fin 1 => 1) act θ (θ (.inverse "eps")))
    rw [e4, e3, e2, e1']
    simp only [Fin.val_zero, demo_net, lineModel, meanSq, hb]
    simp
    ring
  let w : ℝ → Weights := fun s v => match v with
    | .kernel _ _ _ => s
    | .bias _ _ => 0
    | .inverse _ => s
  have hm : blend (w 1) (w (-1)) (1 / 2) = w 0 := by
    funext v
    cases v <;> simp [blend, w] <;> norm_num
  obtain ⟨o, h1, h2⟩ := key (w 1) rfl
  obtain ⟨o', h3, h4⟩ := key (w (-1)) rfl
  obtain ⟨m, h5, h6⟩ := key (w 0) rfl
  refine ⟨lineModel fun _ => 1, fun _ => (0, 0), fun _ => 0, w 1, w (-1), o, o', m, h1, ?_, h3, ?_, ?_, ?_⟩
  · rw [h2]; norm_num [w]
  · rw [h4]; norm_num [w]
  · rw [hm]; exact h5
  · rw [h6]; norm_num [w]

/-! ## The hypotheses are met -/

/-- `C106_average` for `demoModel`, `u = x + 2y` and `v = x²`. -/
example (t : ℝ) (ht : 0 ≤ t ∧ t ≤ 1) : ∃ o₀ o₁ o : TrainOut 1,
    trainStepDense (lossOf .poisson 2 1 2) demoModel demoNet 10 (some [("eps", 1)]) = .ok o₀ ∧
    trainStepDense (lossOf .poisson 2 1 2) demoModel (asNetwork fun _ : Fin 1 => fun z => z.1 ^ 2) 10
      (some [("eps", 1)]) = .ok o₁ ∧
    trainStepDense (lossOf .poisson 2 1 2) demoModel (asNetwork fun _ : Fin 1 => fun z =>
      (1 - t) * (z.1 + 2 * z.2) + t * z.1 ^ 2) 10 (some [("eps", 1)]) = .ok o ∧
    o.loss 0 ≤ (1 - t) * o₀.loss 0 + t * o₁.loss 0 := by
  have hco : ∃ A b r, Coefficients (nc := 2) (nq := 2) .poisson (some [("eps", 1)]) none [] A b r :=
    ⟨_, _, _, 1, ⟨_, rfl, rfl⟩, rfl, rfl, rfl⟩
  have h0 : RowWise demoNet fun _ z => z.1 + 2 * z.2 := fun _ _ _ _ => rfl
  have h1 : RowWise (asNetwork fun _ : Fin 1 => fun z : ℝ × ℝ => z.1 ^ 2) fun _ z => z.1 ^ 2 := fun _ _ _ _ => rfl
  have h2 : RowWise (asNetwork fun _ : Fin 1 => fun z : ℝ × ℝ => (1 - t) * (z.1 + 2 * z.2) + t * z.1 ^ 2)
      fun _ z => (1 - t) * (z.1 + 2 * z.2) + t * z.1 ^ 2 := fun _ _ _ _ => rfl
  obtain ⟨o₀, e₀⟩ := (C47_dense demoModel _ demo_shaped 10 (some [("eps", 1)]) .poisson (Or.inl rfl) _ _ h0).1.2 hco
  obtain ⟨o₁, e₁⟩ := (C47_dense demoModel _ demo_shaped 10 (some [("eps", 1)]) .poisson (Or.inl rfl) _ _ h1).1.2 hco
  obtain ⟨o, e⟩ := (C47_dense demoModel _ demo_shaped 10 (some [("eps", 1)]) .poisson (Or.inl rfl) _ _ h2).1.2 hco
  exact ⟨o₀, o₁, o, e₀, e₁, e, C106_average demoModel _ demo_shaped 10 _ (by norm_num) .poisson (Or.inl rfl) _ _
    (by fun_prop) (by fun_prop) t ht _ _ _ h0 h1 h2 _ _ _ e₀ e₁ e⟩

/-- `C106_dense`, `C106_hard`, `C106_inverse` and `C106_inverse_domain` for `demoModel` and networks with a hidden
layer of 15 units. -/
example (attention : Batch → Except PyErr Batch) :
    (∃ J, ConvexQuadratic (OutputColumn 1 0) (trainableVariables 2 [⟨15, some "tanh"⟩, ⟨1, none⟩] []) J ∧
      ∀ θ, ∃ o, trainStepDense (lossOf .poisson 2 1 2) demoModel (networkAt (fun _ => Real.tanh) attention false 2
        [⟨15, some "tanh"⟩, ⟨1, none⟩] 1 θ) 10 (some [("eps", 1)]) = .ok o ∧ o.loss 0 = J θ) ∧
    (∃ J, ConvexQuadratic (OutputColumn 1 0) (trainableVariables 2 [⟨15, some "tanh"⟩, ⟨1, none⟩] []) J ∧
      ∀ θ, ∃ o, trainStepHard (lossOf .poisson 2 1 2) demoModel (networkHard (fun _ => Real.tanh) attention false
        (layersAt θ 0 2 [⟨15, some "tanh"⟩, ⟨1, none⟩]) (List.zipWith fun x v => v.map fun y =>
          (fun z : ℝ × ℝ => z.1) (x.getD 0 0, x.getD 1 0) + (fun z : ℝ × ℝ => z.1 * z.2) (x.getD 0 0, x.getD 1 0) * y)
        1) 10 (some [("eps", 1)]) = .ok o ∧ o.loss = J θ) ∧
    (∃ J, ConvexQuadratic (· = Var.inverse "eps") (trainableVariables 2 [⟨15, some "tanh"⟩, ⟨1, none⟩] ["eps"]) J ∧
      ∀ θ, ∃ o, trainStepInverse (lossPoissonInverse 2 1 2) demoModel (fun _ : Fin 1 => (5, 5)) (fun _ => 1)
        (inverseAt θ ["eps"]) (networkAt (fun _ => Real.tanh) attention false 2
        [⟨15, some "tanh"⟩, ⟨1, none⟩] 1 θ) 10 none = .ok o ∧ o.loss 0 = J θ) ∧
    ∃ J, ConvexQuadratic (OutputColumn 1 1) (trainableVariables 2 [⟨15, some "tanh"⟩, ⟨2, none⟩] []) J ∧
      ∀ θ, ∃ o, trainStepInverseDomain (lossCd2dInverseDomain 2 1 2) demoModel (fun _ : Fin 1 => (5, 5))
        (fun _ => 1) (networkAt (fun _ => Real.tanh) attention false 2
        [⟨15, some "tanh"⟩, ⟨2, none⟩] 2 θ) 10 (some [("b_x", 1), ("b_y", 0), ("c", 2)]) = .ok o ∧
        o.loss 0 = J θ := by
  have hco : Coefficients (nc := 2) (nq := 2) .poisson (some [("eps", 1)]) none [] (fun _ _ => 1) (0, 0) 0 :=
    ⟨1, ⟨_, rfl, rfl⟩, rfl, rfl, rfl⟩
  refine ⟨?_, ?_, ?_, ?_⟩
  · obtain ⟨J, h1, h2, -⟩ := C106_dense demoModel _ demo_shaped (fun _ => Real.tanh) attention "tanh" contDiff_tanh
      [2, 15, 1] _ (by simp) rfl rfl 10 (some [("eps", 1)]) (by norm_num) rfl .poisson (Or.inl rfl) _ _ _ hco
    exact ⟨J, h2, h1⟩
  · obtain ⟨J, h1, h2, -⟩ := C106_hard demoModel _ demo_shaped (fun _ => Real.tanh) attention "tanh" contDiff_tanh
      [2, 15, 1] _ (by simp) rfl rfl 10 (some [("eps", 1)]) rfl .poisson (Or.inl rfl) _ _ _ hco (fun z => z.1)
      (fun z => z.1 * z.2) contDiff_fst (contDiff_fst.mul contDiff_snd)
    exact ⟨J, h2, h1⟩
  · obtain ⟨J, h1, h2⟩ := C106_inverse demoModel _ demo_shaped (fun _ => Real.tanh) attention "tanh" contDiff_tanh
      [2, 15, 1] _ (by simp) rfl rfl 10 none (by norm_num) rfl (fun _ : Fin 1 => (5, 5)) (fun _ => 1) ["eps"]
      (by simp)
    exact ⟨J, (h2 _ (Or.inr rfl)).1, h1⟩
  · obtain ⟨J, h1, h2⟩ := C106_inverse_domain demoModel _ demo_shaped (fun _ => Real.tanh) attention "tanh"
      contDiff_tanh [2, 15, 2] _ (by simp) rfl rfl 10 (some [("b_x", 1), ("b_y", 0), ("c", 2)]) (by norm_num) rfl
      (fun _ : Fin 1 => (5, 5)) (fun _ => 1) (1, 0) 2 ⟨_, rfl, rfl⟩ ⟨_, rfl, rfl⟩ ⟨_, rfl, rfl⟩
    exact ⟨J, (h2 1).1, h1⟩

/-- A stationary state with a positive loss: the two test functions of the only cell ask for opposite slopes, so
the loss `w² + 1 + 10 b²` is at least one, and zero weights are optimal; `C106_dense` concludes it from the zero
gradient. -/
example (attention : Batch → Except PyErr Batch) :
    (∀ v ∈ trainableVariables 2 [⟨1, none⟩] [], OutputColumn 0 0 v →
      lossGradient (forwardDense (lossOf .poisson 1 2 1) (lineModel ![1, -1]) (fun _ => Real.tanh) attention false 2
        [⟨1, none⟩] 1 10 (some [("eps", 1)])) (fun _ => 0) v = 0) ∧
    ∀ (θ : Weights) (o : TrainOut 1), DifferOnly (OutputColumn 0 0) (trainableVariables 2 [⟨1, none⟩] [])
      (fun _ => 0) θ → trainStepDense (lossOf .poisson 1 2 1) (lineModel ![1, -1]) (networkAt (fun _ => Real.tanh)
        attention false 2 [⟨1, none⟩] 1 θ) 10 (some [("eps", 1)]) = .ok o → 1 ≤ o.loss 0 := by
  have hco : Coefficients (nc := 1) (nq := 1) .poisson (some [("eps", 1)]) none [] (fun _ _ => 1) (0, 0) 0 :=
    ⟨1, ⟨_, rfl, rfl⟩, rfl, rfl, rfl⟩
  have htot := forwardDense_total (lineModel ![1, -1]) _ (lineModel_shaped _) (fun _ => Real.tanh) attention "tanh"
    [2, 1] [⟨1, none⟩] (by simp) demo_layerSpecs rfl 10 (some [("eps", 1)]) rfl .poisson (Or.inl rfl) _ _ _ hco
  have hval : ∀ θ, (forwardDense (lossOf .poisson 1 2 1) (lineModel ![1, -1]) (fun _ => Real.tanh) attention false 2
      [⟨1, none⟩] 1 10 (some [("eps", 1)])).total θ = θ (.kernel 0 0 0) ^ 2 + 1 + 10 * θ (.bias 0 0) ^ 2 := by
    intro θ
    refine (htot θ).trans ?_
    rw [lineModel_pdeLoss]
    simp only [demo_net]
    simp [meanSq, lineModel, Fin.sum_univ_two]
    ring
  have hgrad : ∀ v ∈ trainableVariables 2 [⟨1, none⟩] [], OutputColumn 0 0 v →
      lossGradient (forwardDense (lossOf .poisson 1 2 1) (lineModel ![1, -1]) (fun _ => Real.tanh) attention false 2
        [⟨1, none⟩] 1 10 (some [("eps", 1)])) (fun _ => 0) v = 0 := by
    intro v hv _
    unfold lossGradient
    simp only [hval]
    have hv' : v = .kernel 0 0 0 ∨ v = .kernel 0 1 0 ∨ v = .bias 0 0 := by
      simp [trainableVariables, layerVars, List.range_succ] at hv
      tauto
    rcases hv' with rfl | rfl | rfl <;> simp [Function.update]
  refine ⟨hgrad, fun θ o hd ho => ?_⟩
  obtain ⟨J, h1, -, h2⟩ := C106_dense (lineModel ![1, -1]) _ (lineModel_shaped _) (fun _ => Real.tanh) attention
    "tanh" contDiff_tanh [2, 1] [⟨1, none⟩] (by simp) demo_layerSpecs rfl 10 (some [("eps", 1)]) (by norm_num) rfl
    .poisson (Or.inl rfl) _ _ _ hco
  have hle := h2 (fun _ => 0) hgrad θ hd
  obtain ⟨o0, ho0, e0⟩ := h1 fun _ => 0
  obtain ⟨o1, ho1, e1⟩ := h1 θ
  obtain rfl : o = o1 := Except.ok.inj (ho.symm.trans ho1)
  have hz : o0.loss 0 = 1 := by
    have := hval fun _ => 0
    unfold Forward.total forwardDense at this
    rw [show networkAt (fun _ => Real.tanh) attention false 2 [⟨1, none⟩] 1 (fun _ => 0)
      = networkAt (fun _ => Real.tanh) attention false ([2, 1].getD 0 0) [⟨1, none⟩] 1 (fun _ => 0) from rfl,
      ho0] at this
    simpa using this
  rw [e1, ← hz, e0]
  exact hle

end FastVPINNs
