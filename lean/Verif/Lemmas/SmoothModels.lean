import Verif.Lemmas.Descent

/-! # The four models have smooth losses -/

namespace FastVPINNs

open Spec

lemma contDiff_tanh : ContDiff ℝ 2 Real.tanh := by
  have e : Real.tanh = fun x => Real.sinh x / Real.cosh x := by
    funext x
    exact Real.tanh_eq_sinh_div_cosh x
  rw [e]
  exact Real.contDiff_sinh.div Real.contDiff_cosh fun x => (Real.cosh_pos x).ne'

section
variable {nc nt nq nIn nBd : ℕ} (M : ModelData nc nt nq nIn nBd) (pt : Fin nc → Fin nq → ℝ × ℝ)
  (hM : Shaped M pt) (act : String → ℝ → ℝ) (attention : Batch → Except PyErr Batch) (a : String)
  (hσ : ContDiff ℝ 2 (act a))
  (dims : List ℕ) (specs : List LayerSpec) (h : 2 ≤ dims.length) (hs : layerSpecs dims a = .ok specs)
  (hin : dims.getD 0 0 = 2) (beta : ℝ) (p : ParamDict)
include hM h hs hin hσ

lemma forwardDense_smooth (hout : dims.getD (dims.length - 1) 0 = 1) (kind : LossKind) (hk : kind.forward)
    (A : Fin nc → Fin nq → ℝ) (b : ℝ × ℝ) (r : ℝ) (hco : Coefficients kind p none [] A b r) :
    SmoothTotal (forwardDense (lossOf kind nc nt nq) M act attention false (dims.getD 0 0) specs 1 beta p) := by
  intro E _ _ ι hι
  simp only [forwardDense_total M pt hM act attention a dims specs h hs hin beta p hout kind hk A b r hco]
  have hU := netFn_contDiff act a hσ dims specs 0 ι hι
  exact (pdeLoss_contDiff M pt _ hU (fun _ => A) (fun _ _ => contDiff_const) b r).add
    (contDiff_const.mul (meanSq_contDiff _ fun i => (value_contDiff _ hU _).sub contDiff_const))

lemma forwardHard_smooth (hout : dims.getD (dims.length - 1) 0 = 1) (kind : LossKind) (hk : kind.forward)
    (A : Fin nc → Fin nq → ℝ) (b : ℝ × ℝ) (r : ℝ) (hco : Coefficients kind p none [] A b r)
    (g : ℝ × ℝ → ℝ → ℝ) (hg : ContDiff ℝ 2 fun q : (ℝ × ℝ) × ℝ => g q.1 q.2) :
    SmoothTotal (forwardHard (lossOf kind nc nt nq) M act attention false (dims.getD 0 0) specs 1 beta p
      (List.zipWith fun x v => v.map (g (x.getD 0 0, x.getD 1 0)))) := by
  intro E _ _ ι hι
  simp only [forwardHard_total M pt hM act attention a dims specs h hs hin beta p hout kind hk A b r hco g]
  have hU := netFn_contDiff act a hσ dims specs 0 ι hι
  exact pdeLoss_contDiff M pt (fun e z => g z (netFn act a dims specs (ι e) 0 z))
    (hg.comp (contDiff_snd.prodMk hU)) (fun _ => A) (fun _ _ => contDiff_const) b r

lemma forwardInverse_smooth (hout : dims.getD (dims.length - 1) 0 = 1) {nS : ℕ} (sp : Fin nS → ℝ × ℝ)
    (sv : Fin nS → ℝ) (keys : List String) (hkey : "eps" ∈ keys) :
    SmoothTotal (forwardInverse (lossPoissonInverse nc nt nq) M act attention false (dims.getD 0 0) specs 1
      beta p sp sv keys) := by
  intro E _ _ ι hι
  simp only [forwardInverse_total M pt hM act attention a dims specs h hs hin beta p hout sp sv keys hkey]
  have hU := netFn_contDiff act a hσ dims specs 0 ι hι
  exact ((pdeLoss_contDiff M pt _ hU (fun e _ _ => ι e (.inverse "eps"))
      (fun _ _ => (hι _).of_le (by norm_num)) _ _).add
    (contDiff_const.mul (meanSq_contDiff _ fun i => (value_contDiff _ hU _).sub contDiff_const))).add
    (contDiff_const.mul (meanSq_contDiff _ fun i => (value_contDiff _ hU _).sub contDiff_const))

lemma forwardInverseDomain_smooth (hout : dims.getD (dims.length - 1) 0 = 2) {nS : ℕ}
    (sp : Fin nS → ℝ × ℝ) (sv : Fin nS → ℝ) (b : ℝ × ℝ) (r : ℝ) (hb1 : HasParam p "b_x" b.1)
    (hb2 : HasParam p "b_y" b.2) (hr : HasParam p "c" r) :
    SmoothTotal (forwardInverseDomain (lossCd2dInverseDomain nc nt nq) M act attention false (dims.getD 0 0)
      specs 2 beta p sp sv) := by
  intro E _ _ ι hι
  simp only [forwardInverseDomain_total M pt hM act attention a dims specs h hs hin beta p hout sp sv b r hb1
    hb2 hr]
  have hU := netFn_contDiff act a hσ dims specs 0 ι hι
  have hU1 := netFn_contDiff act a hσ dims specs 1 ι hι
  exact ((pdeLoss_contDiff M pt _ hU (fun e c q => netFn act a dims specs (ι e) 1 (pt c q))
      (fun _ _ => value_contDiff _ hU1 _) _ _).add
    (contDiff_const.mul (meanSq_contDiff _ fun i => (value_contDiff _ hU _).sub contDiff_const))).add
    (contDiff_const.mul (meanSq_contDiff _ fun i => (value_contDiff _ hU _).sub contDiff_const))

end

/-- Two epochs from a new optimizer. -/
lemma first_two_epochs {α : Type} {fwd : Forward α} (h : SmoothTotal fwd)
    (hok : ∀ θ, ∃ out l, fwd θ = .ok (out, l)) (vars : List Var)
    (hn : vars.Nodup) (θ : Weights) (x₀ : Var) (hx₀ : x₀ ∈ vars) (hg : lossGradient fwd θ x₀ ≠ 0) :
    ∃ δ > 0, ∀ lr : LearningRate, 0 < lr.at 0 → lr.at 0 < δ →
      ∃ o₀ o₁ s₁ s₂, trainEpochs (trainStepWith fwd vars lr) 2 ⟨θ, AdamState.init⟩ = .ok ([o₀, o₁], s₂) ∧
        trainStepWith fwd vars lr ⟨θ, AdamState.init⟩ = .ok (o₀, s₁) ∧
        trainStepWith fwd vars lr s₁ = .ok (o₁, s₂) ∧
        ∃ l₀ l₁, fwd θ = .ok (o₀, l₀) ∧ fwd s₁.weights = .ok (o₁, l₁) ∧ l₁ < l₀ := by
  obtain ⟨o₀, l₀, h0⟩ := hok θ
  obtain ⟨δ, hδ, H⟩ := first_step_descends h vars hn θ x₀ hx₀ hg o₀ l₀ h0
  refine ⟨δ, hδ, fun lr h1 h2 => ?_⟩
  obtain ⟨s₁, hs1, hlt⟩ := H lr h1 h2
  obtain ⟨o₁, l₁, h1'⟩ := hok s₁.weights
  have hs2 : ∃ s₂, trainStepWith fwd vars lr s₁ = .ok (o₁, s₂) := by
    unfold trainStepWith
    rw [h1']
    exact ⟨_, rfl⟩
  obtain ⟨s₂, hs2⟩ := hs2
  refine ⟨o₀, o₁, s₁, s₂, ?_, hs1, hs2, l₀, l₁, h0, h1', ?_⟩
  · simp only [trainEpochs, hs1, hs2]
  · simpa [Forward.total, h0, h1'] using hlt

end FastVPINNs
