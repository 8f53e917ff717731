import Verif.Lemmas.QuadLimit
import Verif.Props.Noise

/-! # C111: finer quadrature -/

namespace FastVPINNs

open Spec

/-- Weights of bounded size. -/
def Spec.weightsWithin (vars : List Var) (B : ℝ) : Set Weights := {θ | ∀ v ∈ vars, |θ v| ≤ B}

lemma close_bound {A B δ E : ℝ} {n : ℕ} (h : RootNear A B (n * (8 * δ) ^ 2)) (hδ : 0 ≤ δ) (hE : 8 * δ * √n ≤ E) :
    |√A - √B| ≤ E := by
  refine h.close.trans (le_trans (le_of_eq ?_) hE)
  rw [Real.sqrt_mul (Nat.cast_nonneg _), Real.sqrt_sq (by positivity), mul_comm]

section Single

variable {V : Type} {cells : List Quad} {s : FESettings} {ψ : ℕ → ℕ → ℝ × ℝ → ℝ} {f : ℝ → ℝ → ℝ}
  (hV : VariationalSetup cells s.feType s.feOrder.toNat ψ f) {nq : ℕ}
  {S : Fespace2D (ℝ → ℝ → ℝ) V (s.feOrder.toNat ^ 2) nq} {D : DataHandler2D (s.feOrder.toNat ^ 2) nq}
  (hR : Discretised cells f s S D) (bdv : List (ℝ × ℝ) × List ℝ)

include hV hR

/-- **C111** (`DenseModel`).  The square root of the reported loss differs from that of the loss with exact integrals by
at most `8 δ √n`, where `n` is the number of cells and `δ` the distance of the integrands from the polynomials that the
rule integrates exactly. -/
theorem C111_dense (kind : LossKind) (hk : kind.forward) (p : ParamDict) (e : ℝ) (b : ℝ × ℝ) (r : ℝ)
    (hco : ConstantCoefficients kind p e b r) (u : ℝ × ℝ → ℝ) (hu : ∀ c ∈ cells, SmoothOn (cellSet c) u) {δ : ℝ}
    (hδ0 : 0 ≤ δ)
    (hδ : IntegrandsNear (ruleDegree s.quadType s.quadOrder) cells s.feOrder.toNat ψ (fun _ => e) u b r f fun _ _ => δ)
    (net : Network 1) (hnet : RowWise net (fun _ => u)) (beta : ℝ) (hβ : 0 ≤ beta) :
    ∃ out, trainStepDense (lossOf kind _ _ _) (modelDataOf D bdv S.nCells) net beta p = .ok out ∧
      |√(out.loss 0) - √(exactPdeLoss cells s.feOrder.toNat ψ (fun _ => e) u b r f + beta * dataLoss bdv.1 bdv.2 u)|
        ≤ 8 * δ * √cells.length := by
  obtain ⟨pt, hsh, hroot⟩ := pdeLoss_exact hV hR bdv (fun _ _ => continuousOn_const) hu hδ
  have hco := constantCoefficients_iff hk hco D.nCells nq
  obtain ⟨h1, h2⟩ := C47_dense _ pt hsh beta p kind hk net (fun _ => u) hnet
  obtain ⟨out, ho⟩ := h1.2 ⟨_, _, _, hco⟩
  obtain ⟨a', b', r', hc', e1, e2, e3, -⟩ := h2 out ho
  obtain ⟨rfl, rfl, rfl⟩ := coefficients_unique hc' hco
  refine ⟨out, ho, close_bound ?_ hδ0 le_rfl⟩
  rw [e3, e1, e2]
  have := hroot.add ((rootNear_refl (dataLoss_nonneg bdv.1 bdv.2 u)).smul hβ)
  rw [mul_zero, add_zero] at this
  exact this

/-- **C111** (`DenseModel_Hard`). -/
theorem C111_hard (kind : LossKind) (hk : kind.forward) (p : ParamDict) (e : ℝ) (b : ℝ × ℝ) (r : ℝ)
    (hco : ConstantCoefficients kind p e b r) (u : ℝ × ℝ → ℝ) (hu : ∀ c ∈ cells, SmoothOn (cellSet c) u) {δ : ℝ}
    (hδ0 : 0 ≤ δ)
    (hδ : IntegrandsNear (ruleDegree s.quadType s.quadOrder) cells s.feOrder.toNat ψ (fun _ => e) u b r f fun _ _ => δ)
    (net : Network 1) (hnet : RowWise net (fun _ => u)) (beta : ℝ) :
    ∃ out, trainStepHard (lossOf kind _ _ _) (modelDataOf D bdv S.nCells) net beta p = .ok out ∧
      |√out.loss - √(exactPdeLoss cells s.feOrder.toNat ψ (fun _ => e) u b r f)| ≤ 8 * δ * √cells.length := by
  obtain ⟨pt, hsh, hroot⟩ := pdeLoss_exact hV hR bdv (fun _ _ => continuousOn_const) hu hδ
  have hco := constantCoefficients_iff hk hco D.nCells nq
  obtain ⟨h1, h2⟩ := C47_hard _ pt hsh beta p kind hk net (fun _ => u) hnet
  obtain ⟨out, ho⟩ := h1.2 ⟨_, _, _, hco⟩
  obtain ⟨-, a', b', r', hc', e1, e2, e3, -⟩ := h2 out ho
  obtain ⟨rfl, rfl, rfl⟩ := coefficients_unique hc' hco
  refine ⟨out, ho, close_bound ?_ hδ0 le_rfl⟩
  rw [e3, e1]
  exact hroot

/-- **C111** (`DenseModel_Inverse`). -/
theorem C111_inverse (e : ℝ) (u : ℝ × ℝ → ℝ) (hu : ∀ c ∈ cells, SmoothOn (cellSet c) u) {δ : ℝ} (hδ0 : 0 ≤ δ)
    (hδ : IntegrandsNear (ruleDegree s.quadType s.quadOrder) cells s.feOrder.toNat ψ (fun _ => e) u (0, 0) 0 f
      fun _ _ => δ) (sp : List (ℝ × ℝ)) (sv : List ℝ) (net : Network 1) (hnet : RowWise net (fun _ => u)) (beta : ℝ)
    (hβ : 0 ≤ beta) (p ip : ParamDict) (he : HasParam ip "eps" e) :
    ∃ out, trainStepInverse (lossPoissonInverse _ _ _) (modelDataOf D bdv S.nCells) sp.get (fun i => sv.getD i 0) ip net
        beta p = .ok out ∧
      |√(out.loss 0) - √(exactPdeLoss cells s.feOrder.toNat ψ (fun _ => e) u (0, 0) 0 f
        + beta * dataLoss bdv.1 bdv.2 u + 10 * dataLoss sp sv u)| ≤ 8 * δ * √cells.length := by
  obtain ⟨pt, hsh, hroot⟩ := pdeLoss_exact hV hR bdv (fun _ _ => continuousOn_const) hu hδ
  obtain ⟨h1, h2⟩ := C47_inverse _ pt hsh beta p ip sp.get (fun i => sv.getD i 0) net (fun _ => u) hnet
  obtain ⟨out, ho⟩ := h1.2 ⟨e, he⟩
  obtain ⟨e', he', e1, e2, e3, -, e4, -⟩ := h2 out ho
  obtain rfl := hasParam_unique he he'
  refine ⟨out, ho, close_bound ?_ hδ0 le_rfl⟩
  rw [e4, e1, e2, e3]
  have := (hroot.add ((rootNear_refl (dataLoss_nonneg bdv.1 bdv.2 u)).smul hβ)).add
    ((rootNear_refl (dataLoss_nonneg sp sv u)).smul (by norm_num : (0 : ℝ) ≤ 10))
  rw [mul_zero, mul_zero, add_zero, add_zero] at this
  exact this

/-- **C111** (`DenseModel_Inverse_Domain`). -/
theorem C111_inverse_domain (a u : ℝ × ℝ → ℝ) (b : ℝ × ℝ) (r : ℝ) (ha : ∀ c ∈ cells, ContinuousOn a (cellSet c))
    (hu : ∀ c ∈ cells, SmoothOn (cellSet c) u) {δ : ℝ} (hδ0 : 0 ≤ δ)
    (hδ : IntegrandsNear (ruleDegree s.quadType s.quadOrder) cells s.feOrder.toNat ψ a u b r f fun _ _ => δ)
    (sp : List (ℝ × ℝ)) (sv : List ℝ) (net : Network 2) (hnet : RowWise net ![u, a]) (beta : ℝ) (hβ : 0 ≤ beta)
    (p : ParamDict) (hb1 : HasParam p "b_x" b.1) (hb2 : HasParam p "b_y" b.2) (hr : HasParam p "c" r) :
    ∃ out, trainStepInverseDomain (lossCd2dInverseDomain _ _ _) (modelDataOf D bdv S.nCells) sp.get
        (fun i => sv.getD i 0) net beta p = .ok out ∧
      |√(out.loss 0) - √(exactPdeLoss cells s.feOrder.toNat ψ a u b r f + beta * dataLoss bdv.1 bdv.2 u
        + 10 * dataLoss sp sv u)| ≤ 8 * δ * √cells.length := by
  obtain ⟨pt, hsh, hroot⟩ := pdeLoss_exact hV hR bdv ha hu hδ
  obtain ⟨h1, h2⟩ := C47_inverse_domain _ pt hsh beta p sp.get (fun i => sv.getD i 0) le_rfl net ![u, a] hnet
  obtain ⟨out, ho⟩ := h1.2 ⟨b.1, b.2, r, hb1, hb2, hr⟩
  obtain ⟨b1, b2, r', hb1', hb2', hr', e1, e2, e3, e4, -⟩ := h2 out ho
  obtain rfl := hasParam_unique hb1 hb1'
  obtain rfl := hasParam_unique hb2 hb2'
  obtain rfl := hasParam_unique hr hr'
  refine ⟨out, ho, close_bound ?_ hδ0 le_rfl⟩
  have := (hroot.add ((rootNear_refl (dataLoss_nonneg bdv.1 bdv.2 u)).smul hβ)).add
    ((rootNear_refl (dataLoss_nonneg sp sv u)).smul (by norm_num : (0 : ℝ) ≤ 10))
  rw [mul_zero, mul_zero, add_zero, add_zero] at this
  rw [e4, e1, e2, e3]
  exact this

end Single

/-- **C111** (two rules).  Two spaces on the same cells that differ in the quadrature rule (type and order) or in the
transformation: the square roots of the losses of a network differ by at most `16 δ √n`; if both rules are exact for the
integrands, the losses are equal. -/
theorem C111_rules {V V' : Type} {cells : List Quad} {s s' : FESettings} (hty : s'.feType = s.feType)
    (hN : s'.feOrder.toNat = s.feOrder.toNat) {ψ : ℕ → ℕ → ℝ × ℝ → ℝ} {f : ℝ → ℝ → ℝ}
    (hV : VariationalSetup cells s.feType s.feOrder.toNat ψ f) {nq nq' : ℕ}
    {S : Fespace2D (ℝ → ℝ → ℝ) V (s.feOrder.toNat ^ 2) nq} {D : DataHandler2D (s.feOrder.toNat ^ 2) nq}
    {S' : Fespace2D (ℝ → ℝ → ℝ) V' (s'.feOrder.toNat ^ 2) nq'} {D' : DataHandler2D (s'.feOrder.toNat ^ 2) nq'}
    (hR : Discretised cells f s S D) (hR' : Discretised cells f s' S' D') (bdv : List (ℝ × ℝ) × List ℝ)
    (kind : LossKind) (hk : kind.forward) (p : ParamDict) (e : ℝ) (b : ℝ × ℝ) (r : ℝ)
    (hco : ConstantCoefficients kind p e b r) (u : ℝ × ℝ → ℝ) (hu : ∀ c ∈ cells, SmoothOn (cellSet c) u) {δ : ℝ}
    (hδ0 : 0 ≤ δ)
    (hδ : ∀ d ∈ [ruleDegree s.quadType s.quadOrder, ruleDegree s'.quadType s'.quadOrder],
      IntegrandsNear d cells s.feOrder.toNat ψ (fun _ => e) u b r f fun _ _ => δ)
    (net : Network 1) (hnet : RowWise net (fun _ => u)) (beta : ℝ) (hβ : 0 ≤ beta) :
    ∃ o o', trainStepDense (lossOf kind _ _ _) (modelDataOf D bdv S.nCells) net beta p = .ok o ∧
      trainStepDense (lossOf kind _ _ _) (modelDataOf D' bdv S'.nCells) net beta p = .ok o' ∧
      |√(o.loss 0) - √(o'.loss 0)| ≤ 16 * δ * √cells.length ∧ (δ = 0 → o.loss 0 = o'.loss 0) := by
  have hV' : VariationalSetup cells s'.feType s'.feOrder.toNat ψ f := by rw [hty, hN]; exact hV
  obtain ⟨o, ho, h1⟩ := C111_dense hV hR bdv kind hk p e b r hco u hu hδ0 (hδ _ (by simp)) net hnet beta hβ
  obtain ⟨o', ho', h2⟩ := C111_dense hV' hR' bdv kind hk p e b r hco u hu hδ0
    (by rw [hN]; exact hδ _ (by simp)) net hnet beta hβ
  rw [hN] at h2
  have h3 : |√(o.loss 0) - √(o'.loss 0)| ≤ 16 * δ * √cells.length := by
    have := abs_sub_le (√(o.loss 0)) (√(exactPdeLoss cells s.feOrder.toNat ψ (fun _ => e) u b r f
      + beta * dataLoss bdv.1 bdv.2 u)) (√(o'.loss 0))
    rw [abs_sub_comm (√(exactPdeLoss cells s.feOrder.toNat ψ (fun _ => e) u b r f
      + beta * dataLoss bdv.1 bdv.2 u))] at this
    linarith
  refine ⟨o, o', ho, ho', h3, ?_⟩
  rintro rfl
  rw [mul_zero, zero_mul] at h3
  have h4 := sub_eq_zero.1 (abs_nonpos_iff.1 h3)
  have nn : ∀ {V : Type} {s : FESettings} {nq : ℕ} {S : Fespace2D (ℝ → ℝ → ℝ) V (s.feOrder.toNat ^ 2) nq}
      {D : DataHandler2D (s.feOrder.toNat ^ 2) nq} {o : TrainOut 1},
      VariationalSetup cells s.feType s.feOrder.toNat ψ f → Discretised cells f s S D →
      IntegrandsNear (ruleDegree s.quadType s.quadOrder) cells s.feOrder.toNat ψ (fun _ => e) u b r f (fun _ _ => 0) →
      trainStepDense (lossOf kind _ _ _) (modelDataOf D bdv S.nCells) net beta p = .ok o → 0 ≤ o.loss 0 := by
    intro V s nq S D o hV hR hδ ho
    obtain ⟨pt, hsh, -⟩ := pdeLoss_exact hV hR bdv (fun _ _ => continuousOn_const) hu hδ
    obtain ⟨a', b', r', hc', e1, e2, e3, -⟩ := (C47_dense _ pt hsh beta p kind hk net (fun _ => u) hnet).2 o ho
    rw [e3, e1, e2]
    exact add_nonneg (pdeLoss_nonneg _ _ _ _ _ _) (mul_nonneg hβ (meanSq_nonneg _))
  exact (Real.sqrt_inj (nn hV hR (hδ _ (by simp)) ho) (nn hV' hR' (by rw [hN]; exact hδ _ (by simp)) ho')).1 h4

/-! ## All networks with bounded weights at once -/

/-- One degree for all weights of bounded size. -/
lemma weights_degree {cells : List Quad} {ty : String} {N : ℕ} {ψ : ℕ → ℕ → ℝ × ℝ → ℝ} {f : ℝ → ℝ → ℝ}
    (hV : VariationalSetup cells ty N ψ f) (vars : List Var) (B : ℝ) {A U : Weights → ℝ × ℝ → ℝ}
    (hfam : ContinuousFamily (fun e => A (onVars 0 vars.toFinset e)) fun e => U (onVars 0 vars.toFinset e))
    (hdep : ∀ θ θ', (∀ v ∈ vars, θ' v = θ v) → A θ' = A θ ∧ U θ' = U θ) (b : ℝ × ℝ) (r : ℝ) {δ : ℝ} (hδ : 0 < δ) :
    ∃ d, ∀ θ ∈ weightsWithin vars B, (∀ K, ContinuousOn (A θ) K ∧ SmoothOn K (U θ)) ∧
      ∀ d' ≥ d, IntegrandsNear d' cells N ψ (A θ) (U θ) b r f fun _ _ => δ := by
  have hK : IsCompact (Set.univ.pi fun _ : vars.toFinset => Set.Icc (-B) B) := isCompact_univ_pi fun _ => isCompact_Icc
  obtain ⟨d, hd⟩ := integrands_uniform hV hK hfam b r hδ
  refine ⟨d, fun θ hθ => ?_⟩
  obtain ⟨e1, e2⟩ := hdep θ (onVars 0 vars.toFinset fun v => θ v) fun v hv => by
    unfold onVars
    rw [dif_pos (List.mem_toFinset.2 hv)]
  rw [← e1, ← e2]
  exact ⟨fun K => hfam.smoothOn _ K, hd _ fun v _ => abs_le.1 (hθ v (List.mem_toFinset.1 v.2))⟩

/-- The `δ` for a given tolerance. -/
lemma tolerance (n : ℕ) {ε : ℝ} (hε : 0 < ε) : ∃ δ : ℝ, 0 < δ ∧ 8 * δ * √n ≤ ε := by
  refine ⟨ε / (8 * (√n + 1)), by positivity, ?_⟩
  have h : 0 ≤ √(n : ℝ) := Real.sqrt_nonneg _
  rw [show 8 * (ε / (8 * (√(n : ℝ) + 1))) * √n = ε * (√n / (√n + 1)) by field_simp]
  have : √(n : ℝ) / (√n + 1) ≤ 1 := (div_le_one (by positivity)).2 (by linarith)
  nlinarith

section Weights

variable {cells : List Quad} {ty : String} {N : ℕ} {ψ : ℕ → ℕ → ℝ × ℝ → ℝ} {f : ℝ → ℝ → ℝ}
  (hV : VariationalSetup cells ty N ψ f) (act : String → ℝ → ℝ) (attention : Batch → Except PyErr Batch) (a : String)
  (hσ : ContDiff ℝ 2 (act a)) (dims : List ℕ) (specs : List LayerSpec) (h : 2 ≤ dims.length)
  (hs : layerSpecs dims a = .ok specs) (hin : dims.getD 0 0 = 2)

include hσ in
lemma netFn_family (vars : List Var) (j : ℕ) : ContDiff ℝ 1 fun q : (vars.toFinset → ℝ) × (ℝ × ℝ) =>
    netFn act a dims specs (onVars 0 vars.toFinset q.1) j q.2 :=
  (netFn_contDiff act a hσ dims specs j _ (onVars_contDiff 0 vars.toFinset)).of_le (by norm_num)

lemma netFn_depends (keys : List String) {θ θ' : Weights}
    (hθ : ∀ v ∈ trainableVariables (dims.getD 0 0) specs keys, θ' v = θ v) (j : ℕ) :
    netFn act a dims specs θ' j = netFn act a dims specs θ j := by
  funext z
  unfold netFn
  rw [layersAt_congr θ θ' 0 (dims.getD 0 0) specs fun x hx => hθ x (List.mem_append_left _ hx)]

lemma rowWise_unique {dout : ℕ} {net : Network dout} {u u' : Fin dout → ℝ × ℝ → ℝ} (h : RowWise net u)
    (h' : RowWise net u') : u = u' :=
  funext fun j => funext fun z => (h 1 (fun _ => z) 0 j).symm.trans (h' 1 (fun _ => z) 0 j)

include hV hσ h hs hin

/-- **C111** (`DenseModel`, all weights).  For every bounded set of weights and every `ε > 0` there is a degree such that
with every rule that is exact up to this degree, whatever its type and whatever the transformation, the square root of
the loss of every network with weights in this set is within `ε` of that of the loss with exact integrals. -/
theorem C111_weights_dense (hout : dims.getD (dims.length - 1) 0 = 1) (kind : LossKind) (hk : kind.forward)
    (p : ParamDict) (e : ℝ) (b : ℝ × ℝ) (r : ℝ) (hco : ConstantCoefficients kind p e b r) (beta : ℝ) (hβ : 0 ≤ beta)
    (U : Weights → ℝ × ℝ → ℝ)
    (hU : ∀ θ, RowWise (networkAt act attention false (dims.getD 0 0) specs 1 θ) fun _ => U θ) (B ε : ℝ) (hε : 0 < ε) :
    ∃ d, ∀ s : FESettings, s.feType = ty → s.feOrder.toNat = N → d ≤ ruleDegree s.quadType s.quadOrder →
      ∀ (V : Type) (nq : ℕ) (S : Fespace2D (ℝ → ℝ → ℝ) V (s.feOrder.toNat ^ 2) nq)
        (D : DataHandler2D (s.feOrder.toNat ^ 2) nq), Discretised cells f s S D → ∀ bdv : List (ℝ × ℝ) × List ℝ,
      RootsWithin (weightsWithin (trainableVariables (dims.getD 0 0) specs []) B)
        (fun θ v => ∃ o, trainStepDense (lossOf kind _ _ _) (modelDataOf D bdv S.nCells)
          (networkAt act attention false (dims.getD 0 0) specs 1 θ) beta p = .ok o ∧ o.loss 0 = v)
        (fun θ v => v = exactPdeLoss cells N ψ (fun _ => e) (U θ) b r f + beta * dataLoss bdv.1 bdv.2 (U θ)) ε := by
  obtain ⟨δ, hδ, hδε⟩ := tolerance cells.length hε
  have hUe : U = fun θ => netFn act a dims specs θ 0 := funext fun θ =>
    congrFun (rowWise_unique (hU θ) (netFn_rowWise act a dims specs h hs hin 1 hout attention θ)) 0
  have hc := netFn_family act a hσ dims specs (trainableVariables (dims.getD 0 0) specs []) 0
  have hp := partials_continuous (U := fun w => netFn act a dims specs (onVars 0 _ w) 0) hc
  obtain ⟨d, hd⟩ := weights_degree hV (trainableVariables (dims.getD 0 0) specs []) B (A := fun _ _ => e) (U := U)
    (by rw [hUe]; exact ⟨continuous_const, hc.continuous, hp.1, hp.2⟩)
    (fun θ θ' hθ => ⟨rfl, by rw [hUe]; exact netFn_depends act a dims specs [] hθ 0⟩) b r hδ
  refine ⟨d, ?_⟩
  rintro s rfl rfl hds V nq S D hR bdv θ hθ
  obtain ⟨h1, h2⟩ := hd θ hθ
  obtain ⟨o, ho, hclose⟩ := C111_dense hV hR bdv kind hk p e b r hco (U θ) (fun c _ => (h1 _).2) hδ.le (h2 _ hds) _
    (hU θ) beta hβ
  refine ⟨⟨fun _ => ⟨_, rfl⟩, fun _ => ⟨_, o, ho, rfl⟩⟩, ?_⟩
  rintro _ _ ⟨o', ho', rfl⟩ rfl
  obtain rfl := Except.ok.inj (ho.symm.trans ho')
  exact hclose.trans hδε

/-- **C111** (`DenseModel_Hard`, all weights) for a constraint function that is twice continuously differentiable in point
and value. -/
theorem C111_weights_hard (hout : dims.getD (dims.length - 1) 0 = 1) (kind : LossKind) (hk : kind.forward)
    (p : ParamDict) (e : ℝ) (b : ℝ × ℝ) (r : ℝ) (hco : ConstantCoefficients kind p e b r) (beta : ℝ)
    (g : ℝ × ℝ → ℝ → ℝ) (hg : ContDiff ℝ 2 fun q : (ℝ × ℝ) × ℝ => g q.1 q.2) (U : Weights → ℝ × ℝ → ℝ)
    (hU : ∀ θ, RowWise (networkHard act attention false (layersAt θ 0 (dims.getD 0 0) specs)
      (List.zipWith fun x v => v.map (g (x.getD 0 0, x.getD 1 0))) 1) fun _ => U θ) (B ε : ℝ) (hε : 0 < ε) :
    ∃ d, ∀ s : FESettings, s.feType = ty → s.feOrder.toNat = N → d ≤ ruleDegree s.quadType s.quadOrder →
      ∀ (V : Type) (nq : ℕ) (S : Fespace2D (ℝ → ℝ → ℝ) V (s.feOrder.toNat ^ 2) nq)
        (D : DataHandler2D (s.feOrder.toNat ^ 2) nq), Discretised cells f s S D → ∀ bdv : List (ℝ × ℝ) × List ℝ,
      RootsWithin (weightsWithin (trainableVariables (dims.getD 0 0) specs []) B)
        (fun θ v => ∃ o, trainStepHard (lossOf kind _ _ _) (modelDataOf D bdv S.nCells)
          (networkHard act attention false (layersAt θ 0 (dims.getD 0 0) specs)
            (List.zipWith fun x v => v.map (g (x.getD 0 0, x.getD 1 0))) 1) beta p = .ok o ∧ o.loss = v)
        (fun θ v => v = exactPdeLoss cells N ψ (fun _ => e) (U θ) b r f) ε := by
  obtain ⟨δ, hδ, hδε⟩ := tolerance cells.length hε
  have hUe : U = fun θ z => g z (netFn act a dims specs θ 0 z) := funext fun θ => by
    have hu := netFn_rowWise act a dims specs h hs hin 1 hout attention θ
    obtain ⟨u₀, hu0, hu1⟩ := C48_network act a dims _ (layersAt_arch dims a specs h hs θ) hin hout attention g
    have hu0' : u₀ = netFn act a dims specs θ 0 := congrFun (rowWise_unique hu0 hu) 0
    subst hu0'
    exact congrFun (rowWise_unique (hU θ) hu1) 0
  have hc : ContDiff ℝ 1 fun q : ((trainableVariables (dims.getD 0 0) specs []).toFinset → ℝ) × (ℝ × ℝ) =>
      g q.2 (netFn act a dims specs (onVars 0 (trainableVariables (dims.getD 0 0) specs []).toFinset q.1) 0 q.2) :=
    (hg.of_le (by norm_num)).comp (contDiff_snd.prodMk (netFn_family act a hσ dims specs _ 0))
  have hp := partials_continuous (U := fun w z => g z (netFn act a dims specs (onVars 0 _ w) 0 z)) hc
  obtain ⟨d, hd⟩ := weights_degree hV (trainableVariables (dims.getD 0 0) specs []) B (A := fun _ _ => e) (U := U)
    (by rw [hUe]; exact ⟨continuous_const, hc.continuous, hp.1, hp.2⟩)
    (fun θ θ' hθ => ⟨rfl, by rw [hUe]; simp only [netFn_depends act a dims specs [] hθ 0]⟩) b r hδ
  refine ⟨d, ?_⟩
  rintro s rfl rfl hds V nq S D hR bdv θ hθ
  obtain ⟨h1, h2⟩ := hd θ hθ
  obtain ⟨o, ho, hclose⟩ := C111_hard hV hR bdv kind hk p e b r hco (U θ) (fun c _ => (h1 _).2) hδ.le (h2 _ hds) _
    (hU θ) beta
  refine ⟨⟨fun _ => ⟨_, rfl⟩, fun _ => ⟨_, o, ho, rfl⟩⟩, ?_⟩
  rintro _ _ ⟨o', ho', rfl⟩ rfl
  obtain rfl := Except.ok.inj (ho.symm.trans ho')
  exact hclose.trans hδε

/-- **C111** (`DenseModel_Inverse`, all weights): weights and unknown parameters of bounded size. -/
theorem C111_weights_inverse (hout : dims.getD (dims.length - 1) 0 = 1) (keys : List String) (hkey : "eps" ∈ keys)
    (p : ParamDict) (beta : ℝ) (hβ : 0 ≤ beta) (U : Weights → ℝ × ℝ → ℝ)
    (hU : ∀ θ, RowWise (networkAt act attention false (dims.getD 0 0) specs 1 θ) fun _ => U θ) (B ε : ℝ) (hε : 0 < ε) :
    ∃ d, ∀ s : FESettings, s.feType = ty → s.feOrder.toNat = N → d ≤ ruleDegree s.quadType s.quadOrder →
      ∀ (V : Type) (nq : ℕ) (S : Fespace2D (ℝ → ℝ → ℝ) V (s.feOrder.toNat ^ 2) nq)
        (D : DataHandler2D (s.feOrder.toNat ^ 2) nq), Discretised cells f s S D →
      ∀ (bdv : List (ℝ × ℝ) × List ℝ) (sp : List (ℝ × ℝ)) (sv : List ℝ),
      RootsWithin (weightsWithin (trainableVariables (dims.getD 0 0) specs keys) B)
        (fun θ v => ∃ o, trainStepInverse (lossPoissonInverse _ _ _) (modelDataOf D bdv S.nCells) sp.get
          (fun i => sv.getD i 0) (inverseAt θ keys) (networkAt act attention false (dims.getD 0 0) specs 1 θ) beta p
            = .ok o ∧ o.loss 0 = v)
        (fun θ v => v = exactPdeLoss cells N ψ (fun _ => θ (.inverse "eps")) (U θ) (0, 0) 0 f
          + beta * dataLoss bdv.1 bdv.2 (U θ) + 10 * dataLoss sp sv (U θ)) ε := by
  obtain ⟨δ, hδ, hδε⟩ := tolerance cells.length hε
  have hUe : U = fun θ => netFn act a dims specs θ 0 := funext fun θ =>
    congrFun (rowWise_unique (hU θ) (netFn_rowWise act a dims specs h hs hin 1 hout attention θ)) 0
  have hc := netFn_family act a hσ dims specs (trainableVariables (dims.getD 0 0) specs keys) 0
  have hp := partials_continuous (U := fun w => netFn act a dims specs (onVars 0 _ w) 0) hc
  obtain ⟨d, hd⟩ := weights_degree hV (trainableVariables (dims.getD 0 0) specs keys) B
    (A := fun θ _ => θ (.inverse "eps")) (U := U)
    (by
      rw [hUe]
      exact ⟨(onVars_contDiff 0 _ (.inverse "eps")).continuous.comp continuous_fst, hc.continuous,
        hp.1, hp.2⟩)
    (fun θ θ' hθ => ⟨funext fun _ => hθ _ (List.mem_append_right _ (List.mem_map_of_mem hkey)),
      by rw [hUe]; exact netFn_depends act a dims specs keys hθ 0⟩) (0, 0) 0 hδ
  refine ⟨d, ?_⟩
  rintro s rfl rfl hds V nq S D hR bdv sp sv θ hθ
  obtain ⟨h1, h2⟩ := hd θ hθ
  obtain ⟨o, ho, hclose⟩ := C111_inverse hV hR bdv (θ (.inverse "eps")) (U θ) (fun c _ => (h1 _).2) hδ.le (h2 _ hds) sp sv
    _ (hU θ) beta hβ p (inverseAt θ keys) (hasParam_inverseAt θ keys "eps" hkey)
  refine ⟨⟨fun _ => ⟨_, rfl⟩, fun _ => ⟨_, o, ho, rfl⟩⟩, ?_⟩
  rintro _ _ ⟨o', ho', rfl⟩ rfl
  obtain rfl := Except.ok.inj (ho.symm.trans ho')
  exact hclose.trans hδε

/-- **C111** (`DenseModel_Inverse_Domain`, all weights): solution `U θ` and coefficient field `A θ` are the two outputs of
the network. -/
theorem C111_weights_inverse_domain (hout : dims.getD (dims.length - 1) 0 = 2) (p : ParamDict) (b : ℝ × ℝ) (r : ℝ)
    (hb1 : HasParam p "b_x" b.1) (hb2 : HasParam p "b_y" b.2) (hr : HasParam p "c" r) (beta : ℝ) (hβ : 0 ≤ beta)
    (U A : Weights → ℝ × ℝ → ℝ)
    (hU : ∀ θ, RowWise (networkAt act attention false (dims.getD 0 0) specs 2 θ) ![U θ, A θ]) (B ε : ℝ) (hε : 0 < ε) :
    ∃ d, ∀ s : FESettings, s.feType = ty → s.feOrder.toNat = N → d ≤ ruleDegree s.quadType s.quadOrder →
      ∀ (V : Type) (nq : ℕ) (S : Fespace2D (ℝ → ℝ → ℝ) V (s.feOrder.toNat ^ 2) nq)
        (D : DataHandler2D (s.feOrder.toNat ^ 2) nq), Discretised cells f s S D →
      ∀ (bdv : List (ℝ × ℝ) × List ℝ) (sp : List (ℝ × ℝ)) (sv : List ℝ),
      RootsWithin (weightsWithin (trainableVariables (dims.getD 0 0) specs []) B)
        (fun θ v => ∃ o, trainStepInverseDomain (lossCd2dInverseDomain _ _ _) (modelDataOf D bdv S.nCells) sp.get
          (fun i => sv.getD i 0) (networkAt act attention false (dims.getD 0 0) specs 2 θ) beta p = .ok o ∧ o.loss 0 = v)
        (fun θ v => v = exactPdeLoss cells N ψ (A θ) (U θ) b r f
          + beta * dataLoss bdv.1 bdv.2 (U θ) + 10 * dataLoss sp sv (U θ)) ε := by
  obtain ⟨δ, hδ, hδε⟩ := tolerance cells.length hε
  have hUA := fun θ => rowWise_unique (hU θ) (netFn_rowWise act a dims specs h hs hin 2 hout attention θ)
  have hUe : U = fun θ => netFn act a dims specs θ 0 := funext fun θ => congrFun (hUA θ) 0
  have hAe : A = fun θ => netFn act a dims specs θ 1 := funext fun θ => congrFun (hUA θ) 1
  have hc := netFn_family act a hσ dims specs (trainableVariables (dims.getD 0 0) specs []) 0
  have hp := partials_continuous (U := fun w => netFn act a dims specs (onVars 0 _ w) 0) hc
  have hc' := netFn_family act a hσ dims specs (trainableVariables (dims.getD 0 0) specs []) 1
  obtain ⟨d, hd⟩ := weights_degree hV (trainableVariables (dims.getD 0 0) specs []) B (A := A) (U := U)
    (by
      rw [hUe, hAe]
      exact ⟨hc'.continuous, hc.continuous, hp.1, hp.2⟩)
    (fun θ θ' hθ => ⟨by rw [hAe]; exact netFn_depends act a dims specs [] hθ 1,
      by rw [hUe]; exact netFn_depends act a dims specs [] hθ 0⟩) b r hδ
  refine ⟨d, ?_⟩
  rintro s rfl rfl hds V nq S D hR bdv sp sv θ hθ
  obtain ⟨h1, h2⟩ := hd θ hθ
  obtain ⟨o, ho, hclose⟩ := C111_inverse_domain hV hR bdv (A θ) (U θ) b r (fun c _ => (h1 _).1) (fun c _ => (h1 _).2)
    hδ.le (h2 _ hds) sp sv _ (hU θ) beta hβ p hb1 hb2 hr
  refine ⟨⟨fun _ => ⟨_, rfl⟩, fun _ => ⟨_, o, ho, rfl⟩⟩, ?_⟩
  rintro _ _ ⟨o', ho', rfl⟩ rfl
  obtain rfl := Except.ok.inj (ho.symm.trans ho')
  exact hclose.trans hδε

end Weights

/-- **C111** (best weights).  If the losses of all weights in `T` are that close to the losses `J` with exact integrals,
then weights that are best in `T` (up to `τ`) for the reported loss are best for the loss with exact integrals up to
`2 ε + √τ` in the square root. -/
theorem C111_best (T : Set Weights) (runs : Weights → ℝ → Prop) (J : Weights → ℝ) (ε : ℝ)
    (h : RootsWithin T runs (fun θ v => v = J θ) ε) (τ : ℝ) (hτ : 0 ≤ τ) (θ : Weights) (hθ : NearlyBest T runs τ θ) :
    ∀ θ' ∈ T, √(J θ) ≤ √(J θ') + 2 * ε + √τ := by
  have h' : RootsWithin T (fun θ v => v = J θ) runs ε := fun x hx =>
    ⟨(h x hx).1.symm, fun v v' hv hv' => by rw [abs_sub_comm]; exact (h x hx).2 v' v hv' hv⟩
  exact fun θ' hθ' => (C110_best T _ _ ε h').2 T subset_rfl τ θ hτ hθ _ rfl θ' hθ' _ rfl

/-- Spaces on the demo cells with any accepted order of the quadrature rule. -/
lemma demo_rule (f : ℝ → ℝ → ℝ) (q : ℤ) (hq : 3 ≤ q ∧ q ≤ 9999) :
    ∃ nq, ∃ S : Fespace2D (ℝ → ℝ → ℝ) ℝ (({ defectSettings with quadOrder := q } : FESettings).feOrder.toNat ^ 2) nq,
      ∃ D, Discretised demoCells f { defectSettings with quadOrder := q } S D := by
  obtain ⟨ext, h1, -⟩ := quadRoutines_exist
  have hr : RoutinesOK ext q "gauss-legendre" := ⟨fun _ => h1 _ (by omega), fun h => absurd h (by decide)⟩
  obtain ⟨nq, S, h⟩ := (C63_constructor ext [] demoCells [(1000, [(0, 0)])] { defectSettings with quadOrder := q }
    [(1000, fun _ _ => (0 : ℝ))] f).2 ⟨rfl, by simp [demoCells], by simp [defectSettings],
      by simp [defectSettings, supportedFeType], hq, Or.inl rfl, Or.inl rfl, by simp⟩
  obtain ⟨-, D, S', hD, -⟩ := C41_layout ext _ _ _ _ _ _ _ S h
  exact ⟨nq, S, D, ⟨ext, [], _, _, false, S', h, hr, hD⟩, fun h => by simp [defectSettings] at h⟩

/-- The hypotheses of `C111_rules` with `δ = 0`: for a network that computes `x²` and the forcing term `-2`, all
Gauss–Legendre rules from the order 6 on give the same loss on the demo cells. -/
example (net : Network 1) (hnet : RowWise net fun _ z => z.1 ^ 2) (q : ℤ) (hq : 6 ≤ q ∧ q ≤ 9999) (beta : ℝ)
    (hβ : 0 ≤ beta) :
    ∃ nq, ∃ S : Fespace2D (ℝ → ℝ → ℝ) ℝ (defectSettings.feOrder.toNat ^ 2) nq, ∃ D,
    ∃ nq', ∃ S' : Fespace2D (ℝ → ℝ → ℝ) ℝ (({ defectSettings with quadOrder := q } : FESettings).feOrder.toNat ^ 2) nq',
    ∃ D', Discretised demoCells (fun _ _ => -2) defectSettings S D ∧
      Discretised demoCells (fun _ _ => -2) { defectSettings with quadOrder := q } S' D' ∧
      ∃ o o', trainStepDense (lossOf .poisson _ _ _) (modelDataOf D ([(3, 0)], [9]) S.nCells) net beta
          (some [("eps", 1)]) = .ok o ∧
        trainStepDense (lossOf .poisson _ _ _) (modelDataOf D' ([(3, 0)], [9]) S'.nCells) net beta
          (some [("eps", 1)]) = .ok o' ∧ o.loss 0 = o'.loss 0 := by
  have hcells : ∀ c ∈ demoCells, ConvexCCW c := fun c hc => (demo_cells_ok c hc).1
  obtain ⟨nq, S, D, hS⟩ := defect_space fun _ _ => -2
  obtain ⟨nq', S', D', hS'⟩ := demo_rule (fun _ _ => -2) q ⟨by omega, hq.2⟩
  obtain ⟨ψ, hψ⟩ := testFunctions_exist demoCells hcells defectSettings.feType defectSettings.feOrder.toNat
  have ha : IsPolynomial (fun i j => i + j ≤ 0) fun _ : ℝ × ℝ => (1 : ℝ) := const_polynomial 0 1
  have hf : IsPolynomial (fun i j => i + j ≤ 0 + 2) fun _ : ℝ × ℝ => (-2 : ℝ) := const_polynomial _ _
  have hdx : dx (fun z : ℝ × ℝ => z.1 ^ 2) = fun z => 2 * z.1 := by
    funext z
    simp [dx]
  have hdy : dy (fun z : ℝ × ℝ => z.1 ^ 2) = fun _ => 0 := by
    funext z
    simp [dy]
  have hsm : ∀ K, SmoothOn K fun z : ℝ × ℝ => z.1 ^ 2 := fun K =>
    ⟨by fun_prop, by rw [hdx]; fun_prop, by rw [hdy]; fun_prop⟩
  obtain ⟨o, o', h1, h2, -, h3⟩ := C111_rules (s := defectSettings) (s' := { defectSettings with quadOrder := q }) rfl rfl
    (ψ := ψ) ⟨hcells, hψ, fun _ _ => continuousOn_const⟩ hS hS' ([(3, 0)], [9]) .poisson (Or.inl rfl) (some [("eps", 1)]) 1
    (0, 0) 0 ⟨1, ⟨_, rfl, rfl⟩, rfl, rfl, rfl⟩ (fun z => z.1 ^ 2) (fun c _ => hsm _) le_rfl
    (fun d hd => integrandsNear_polynomial (f := fun _ _ => -2) ha square_polynomial hf (0, 0) 0 hcells hψ (by
      simp only [List.mem_cons, List.not_mem_nil, or_false, ruleDegree] at hd
      have : defectSettings.feOrder.toNat = 5 := rfl
      rcases hd with rfl | rfl
      · decide
      · simp [defectSettings]
        omega)) net hnet beta hβ
  exact ⟨nq, S, D, nq', S', D', hS, hS', o, o', h1, h2, h3 rfl⟩

/-- The hypotheses of `C111_weights_dense` for `tanh` networks on the demo cells, and spaces of every accepted order to
which its conclusion applies. -/
example (attention : Batch → Except PyErr Batch) (B ε beta : ℝ) (hε : 0 < ε) (hβ : 0 ≤ beta)
    (bdv : List (ℝ × ℝ) × List ℝ) :
    ∃ specs ψ, ∃ U : Weights → ℝ × ℝ → ℝ, ∃ d, layerSpecs [2, 30, 30, 1] "tanh" = .ok specs ∧ ∀ q : ℤ, 3 ≤ q ∧ q ≤ 9999 → d ≤ ruleDegree "gauss-legendre" q →
      ∃ nq, ∃ S : Fespace2D (ℝ → ℝ → ℝ) ℝ (({ defectSettings with quadOrder := q } : FESettings).feOrder.toNat ^ 2) nq,
      ∃ D, Discretised demoCells (fun x y => Real.sin x * y) { defectSettings with quadOrder := q } S D ∧
      RootsWithin (weightsWithin (trainableVariables 2 specs []) B)
        (fun θ v => ∃ o, trainStepDense (lossOf .poisson _ _ _) (modelDataOf D bdv S.nCells)
          (networkAt (fun _ => Real.tanh) attention false 2 specs 1 θ) beta (some [("eps", 1)]) = .ok o ∧ o.loss 0 = v)
        (fun θ v => v = exactPdeLoss demoCells 5 ψ (fun _ => 1) (U θ) (0, 0) 0 (fun x y => Real.sin x * y)
          + beta * dataLoss bdv.1 bdv.2 (U θ)) ε := by
  have hcells : ∀ c ∈ demoCells, ConvexCCW c := fun c hc => (demo_cells_ok c hc).1
  obtain ⟨ψ, hψ⟩ := testFunctions_exist demoCells hcells defectSettings.feType 5
  obtain ⟨specs, hs, -, -⟩ := C51_layers [2, 30, 30, 1] "tanh" (by simp)
  have hf : Continuous fun z : ℝ × ℝ => Real.sin z.1 * z.2 := by fun_prop
  obtain ⟨d, hd⟩ := C111_weights_dense (ty := defectSettings.feType) (N := 5) (ψ := ψ)
    (f := fun x y => Real.sin x * y)
    ⟨hcells, hψ, fun _ _ => hf.continuousOn⟩ (fun _ => Real.tanh) attention "tanh" contDiff_tanh [2, 30, 30, 1] specs
    (by simp) hs rfl rfl .poisson (Or.inl rfl) (some [("eps", 1)]) 1 (0, 0) 0 ⟨1, ⟨_, rfl, rfl⟩, rfl, rfl, rfl⟩ beta hβ
    (fun θ => netFn (fun _ => Real.tanh) "tanh" [2, 30, 30, 1] specs θ 0) (fun θ => by
      have := netFn_rowWise (fun _ => Real.tanh) "tanh" [2, 30, 30, 1] specs (by simp) hs rfl 1 rfl attention θ
      intro m pts i j
      rw [this m pts i j, Subsingleton.elim j 0]
      rfl) B ε hε
  refine ⟨specs, ψ, fun θ => netFn (fun _ => Real.tanh) "tanh" [2, 30, 30, 1] specs θ 0, d, hs, fun q hq hdq => ?_⟩
  obtain ⟨nq, S, D, hS⟩ := demo_rule (fun x y => Real.sin x * y) q hq
  exact ⟨nq, S, D, hS, hd { defectSettings with quadOrder := q } rfl rfl hdq ℝ nq S D hS bdv⟩

end FastVPINNs
