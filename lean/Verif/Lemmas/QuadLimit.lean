import Verif.Spec.QuadLimit
import Verif.Lemmas.Noise
import Verif.Lemmas.Settle
import Verif.Props.Trainable
import Mathlib.Topology.UniformSpace.HeineCantor

/-! # Quadrature for a family of networks -/

namespace FastVPINNs

open Spec Topology

/-- Functions that depend continuously on a parameter in a compact set are close to polynomials of one degree. -/
lemma polynomial_near_uniform {X : Type*} [TopologicalSpace X] {K : Set X} (hK : IsCompact K) {G : X → ℝ × ℝ → ℝ}
    (hG : ContinuousOn (Function.uncurry G) (K ×ˢ refSquare)) {ε : ℝ} (hε : 0 < ε) :
    ∃ d, ∀ x ∈ K, ∃ P, IsQ d P ∧ ∀ p ∈ refSquare, |P p - G x p| < ε := by
  refine hK.induction_on (p := fun S => ∃ d, ∀ x ∈ S, ∃ P, IsQ d P ∧ ∀ p ∈ refSquare, |P p - G x p| < ε)
    ⟨0, by simp⟩ (fun S T hST ⟨d, hd⟩ => ⟨d, fun x hx => hd x (hST hx)⟩) ?_ ?_
  · rintro S T ⟨d, hd⟩ ⟨d', hd'⟩
    refine ⟨max d d', fun x hx => ?_⟩
    rcases hx with hx | hx
    · obtain ⟨P, hP, h⟩ := hd x hx
      exact ⟨P, hP.mono' fun i j h => ⟨by omega, by omega⟩, h⟩
    · obtain ⟨P, hP, h⟩ := hd' x hx
      exact ⟨P, hP.mono' fun i j h => ⟨by omega, by omega⟩, h⟩
  · intro x hx
    have hc : ContinuousOn (G x) refSquare :=
      hG.comp (f := fun p => (x, p)) (by fun_prop) fun p hp => ⟨hx, hp⟩
    obtain ⟨d, P, hP, h⟩ := polynomial_near hc (half_pos hε)
    obtain ⟨v, hv, hvx⟩ := refSquare_compact.mem_uniformity_of_prod hG hx (Metric.dist_mem_uniformity (half_pos hε))
    refine ⟨v, hv, d, fun y hy => ⟨P, hP, fun p hp => ?_⟩⟩
    have h1 := h p hp
    have h2 : dist (G y p) (G x p) < ε / 2 := hvx y hy p hp
    rw [Real.dist_eq, abs_sub_comm] at h2
    calc |P p - G y p| = |(P p - G x p) + (G x p - G y p)| := by rw [sub_add_sub_cancel]
      _ ≤ |P p - G x p| + |G x p - G y p| := abs_add_le _ _
      _ < ε := by linarith

/-- A function of parameters and point that is continuously differentiable: the partial derivatives with respect to the
point are continuous functions of both. -/
lemma partials_continuous {E : Type*} [NormedAddCommGroup E] [NormedSpace ℝ E] {U : E → ℝ × ℝ → ℝ}
    (hU : ContDiff ℝ 1 fun q : E × (ℝ × ℝ) => U q.1 q.2) :
    (Continuous fun q : E × (ℝ × ℝ) => dx (U q.1) q.2) ∧ Continuous fun q : E × (ℝ × ℝ) => dy (U q.1) q.2 := by
  have hd : ∀ q : E × (ℝ × ℝ), HasFDerivAt (U q.1)
      ((fderiv ℝ (fun q : E × (ℝ × ℝ) => U q.1 q.2) q).comp (ContinuousLinearMap.inr ℝ E (ℝ × ℝ))) q.2 := fun q =>
    ((hU.differentiable one_ne_zero) (q.1, q.2)).hasFDerivAt.comp q.2 (hasFDerivAt_prodMk_right q.1 q.2)
  have hc := hU.continuous_fderiv one_ne_zero
  constructor
  · have e : (fun q : E × (ℝ × ℝ) => dx (U q.1) q.2)
        = fun q => fderiv ℝ (fun q : E × (ℝ × ℝ) => U q.1 q.2) q (0, (1, 0)) := funext fun q => by
      rw [dx_eq_fderiv (hd q).differentiableAt, (hd q).fderiv]
      rfl
    rw [e]
    exact hc.clm_apply continuous_const
  · have e : (fun q : E × (ℝ × ℝ) => dy (U q.1) q.2)
        = fun q => fderiv ℝ (fun q : E × (ℝ × ℝ) => U q.1 q.2) q (0, (0, 1)) := funext fun q => by
      rw [dy_eq_fderiv (hd q).differentiableAt, (hd q).fderiv]
      rfl
    rw [e]
    exact hc.clm_apply continuous_const

/-- A family of coefficient fields and functions that depends continuously on a parameter. -/
structure ContinuousFamily {X : Type*} [TopologicalSpace X] (a u : X → ℝ × ℝ → ℝ) : Prop where
  coefficient : Continuous fun q : X × (ℝ × ℝ) => a q.1 q.2
  val : Continuous fun q : X × (ℝ × ℝ) => u q.1 q.2
  dx : Continuous fun q : X × (ℝ × ℝ) => dx (u q.1) q.2
  dy : Continuous fun q : X × (ℝ × ℝ) => dy (u q.1) q.2

lemma ContinuousFamily.smoothOn {X : Type*} [TopologicalSpace X] {a u : X → ℝ × ℝ → ℝ} (h : ContinuousFamily a u) (x : X)
    (K : Set (ℝ × ℝ)) : ContinuousOn (a x) K ∧ SmoothOn K (u x) :=
  ⟨(h.coefficient.comp (by fun_prop : Continuous fun z => (x, z))).continuousOn,
    (h.val.comp (by fun_prop : Continuous fun z => (x, z))).continuousOn,
    (h.dx.comp (by fun_prop : Continuous fun z => (x, z))).continuousOn,
    (h.dy.comp (by fun_prop : Continuous fun z => (x, z))).continuousOn⟩

/-- The integrands of all members of the family are close to polynomials of one degree. -/
lemma integrands_uniform {cells : List Quad} {ty : String} {N : ℕ} {ψ : ℕ → ℕ → ℝ × ℝ → ℝ} {f : ℝ → ℝ → ℝ}
    (hV : VariationalSetup cells ty N ψ f) {X : Type*} [TopologicalSpace X] {K : Set X} (hK : IsCompact K)
    {a u : X → ℝ × ℝ → ℝ} (h : ContinuousFamily a u) (b : ℝ × ℝ) (r : ℝ) {δ : ℝ} (hδ : 0 < δ) :
    ∃ d, ∀ x ∈ K, ∀ d' ≥ d, IntegrandsNear d' cells N ψ (a x) (u x) b r f fun _ _ => δ := by
  have key : ∀ (k : Fin cells.length) (t : ℕ), ∃ d, t < N ^ 2 → ∀ x ∈ K,
      NearPolynomial d cells[k] (weakIntegrand (a x) (u x) b r f (ψ k t)) δ := by
    intro k t
    have hc := List.getElem_mem k.2
    have hm : Set.MapsTo (fun q : X × (ℝ × ℝ) => bmap cells[k] q.2) (K ×ˢ refSquare) (cellSet cells[k]) :=
      fun q hq => bmap_mem (hV.convex _ hc) hq.2
    have hb : Continuous fun q : X × (ℝ × ℝ) => (q.1, bmap cells[k] q.2) :=
      continuous_fst.prodMk ((bmap_continuous _).comp continuous_snd)
    have hf := (hV.forcing _ hc).comp ((bmap_continuous cells[k]).comp continuous_snd).continuousOn hm
    have h1 := h.coefficient.comp hb
    have h2 := h.val.comp hb
    have h3 := h.dx.comp hb
    have h4 := h.dy.comp hb
    have h6 := (refGradX_continuous cells[k] ty (t / N) (t % N)).comp (continuous_snd (X := X))
    have h7 := (refGradY_continuous cells[k] ty (t / N) (t % N)).comp (continuous_snd (X := X))
    have h8 := (bilinDet_continuous cells[k]).comp (continuous_snd (X := X))
    have h9 := (refTest_continuous ty (t / N) (t % N)).comp (continuous_snd (X := X))
    have hG : ContinuousOn (Function.uncurry fun x => refIntegrand cells[k] ty (t / N) (t % N) (a x) (u x) b r f)
        (K ×ˢ refSquare) :=
      (h1.mul ((h3.mul h6).add (h4.mul h7))).continuousOn.add ((((((h3.const_mul b.1).add (h4.const_mul b.2)).add
        (h2.const_mul r)).continuousOn).sub hf).mul (h8.mul h9).continuousOn)
    obtain ⟨d, hd⟩ := polynomial_near_uniform hK hG hδ
    refine ⟨d, fun ht x hx => ?_⟩
    obtain ⟨P, hP, hnear⟩ := hd x hx
    refine ⟨P, hP, fun ξ hξ η hη => ?_⟩
    have e : (bilinearImage cells[k] : ℝ × ℝ → ℝ × ℝ)
        = fun p => (quadBilinear cells[k]).originalFromRef p.1 p.2 := funext fun p => (bmap_eq _ p).symm
    rw [← bmap_eq, e, bilin_jacobianDet, abs_sub_comm]
    have h2 := weakIntegrand_eq (hV.convex _ hc) (hV.test k.val cells[k] (by simp) t ht) (a x) (u x) b r f
      (p := (ξ, η)) ⟨hξ, hη⟩
    have h3 := (hnear (ξ, η) (openSquare_subset ⟨hξ, hη⟩)).le
    rw [show refIntegrand cells[k] ty (t / N) (t % N) (a x) (u x) b r f (ξ, η) = _ from h2.symm] at h3
    exact h3
  choose d hd using key
  refine ⟨∑ k, ∑ t ∈ Finset.range (N ^ 2), d k t, fun x hx d' hd' k c hk t ht => ?_⟩
  obtain ⟨hk', rfl⟩ := List.getElem?_eq_some_iff.1 hk
  obtain ⟨P, hP, hnear⟩ := hd ⟨k, hk'⟩ t ht x hx
  have l1 : d ⟨k, hk'⟩ t ≤ ∑ t ∈ Finset.range (N ^ 2), d ⟨k, hk'⟩ t :=
    Finset.single_le_sum (f := fun t => d ⟨k, hk'⟩ t) (fun _ _ => Nat.zero_le _) (Finset.mem_range.2 ht)
  have l2 := Finset.single_le_sum (f := fun k => ∑ t ∈ Finset.range (N ^ 2), d k t)
    (fun _ _ => Nat.zero_le _) (Finset.mem_univ (⟨k, hk'⟩ : Fin cells.length))
  exact ⟨P, hP.mono' fun i j h => ⟨by omega, by omega⟩, hnear⟩

/-- The PDE loss and the loss with exact integrals. -/
lemma pdeLoss_exact {V : Type} {cells : List Quad} {s : FESettings} {ψ : ℕ → ℕ → ℝ × ℝ → ℝ} {f : ℝ → ℝ → ℝ}
    (hV : VariationalSetup cells s.feType s.feOrder.toNat ψ f) {nq : ℕ}
    {S : Fespace2D (ℝ → ℝ → ℝ) V (s.feOrder.toNat ^ 2) nq} {D : DataHandler2D (s.feOrder.toNat ^ 2) nq}
    (hR : Discretised cells f s S D) (bdv : List (ℝ × ℝ) × List ℝ) {a u : ℝ × ℝ → ℝ} {b : ℝ × ℝ} {r : ℝ}
    (ha : ∀ c ∈ cells, ContinuousOn a (cellSet c)) (hu : ∀ c ∈ cells, SmoothOn (cellSet c) u) {δ : ℝ}
    (hδ : IntegrandsNear (ruleDegree s.quadType s.quadOrder) cells s.feOrder.toNat ψ a u b r f fun _ _ => δ) :
    ∃ pt, Shaped (modelDataOf D bdv S.nCells) pt ∧
      RootNear (pdeLoss (modelDataOf D bdv S.nCells) pt u (fun k q => a (pt k q)) b r)
        (exactPdeLoss cells s.feOrder.toNat ψ a u b r f) (cells.length * (8 * δ) ^ 2) := by
  obtain ⟨pt, R, hsh, hRn, hle⟩ := pdeLoss_close hV hR bdv ha hu hδ
  refine ⟨pt, hsh, ?_⟩
  rw [hle]
  have h : RootNear (∑ k, meanSq (R k)) (exactPdeLoss cells s.feOrder.toNat ψ a u b r f) _ :=
    rootNear_sum Finset.univ fun k _ => rootNear_meanSq _ _
  refine h.mono ?_
  calc _ ≤ ∑ _k : Fin cells.length, (8 * δ) ^ 2 := Finset.sum_le_sum fun k _ => meanSq_le fun t => hRn k t
    _ = cells.length * (8 * δ) ^ 2 := by simp

lemma rootNear_refl {A : ℝ} (h : 0 ≤ A) : RootNear A A 0 := ⟨h, h, le_rfl, by simp⟩

lemma dataLoss_nonneg (points : List (ℝ × ℝ)) (values : List ℝ) (u : ℝ × ℝ → ℝ) : 0 ≤ dataLoss points values u :=
  meanSq_nonneg _

/-- The networks whose weights are in a bounded set. -/
lemma netFn_onVars (act : String → ℝ → ℝ) (a : String) (dims : List ℕ) (specs : List LayerSpec) (keys : List String)
    (θ : Weights) : ∃ e : (trainableVariables (dims.getD 0 0) specs keys).toFinset → ℝ,
      (∀ v, e v = θ v) ∧
      (∀ j, netFn act a dims specs (onVars 0 (trainableVariables (dims.getD 0 0) specs keys).toFinset e) j
        = netFn act a dims specs θ j) ∧
      ∀ key ∈ keys, onVars 0 (trainableVariables (dims.getD 0 0) specs keys).toFinset e (.inverse key)
        = θ (.inverse key) := by
  have hv : ∀ v ∈ trainableVariables (dims.getD 0 0) specs keys,
      onVars 0 (trainableVariables (dims.getD 0 0) specs keys).toFinset (fun v => θ v) v = θ v := fun v hv => by
    unfold onVars
    rw [dif_pos (List.mem_toFinset.2 hv)]
  refine ⟨fun v => θ v, fun _ => rfl, fun j => ?_, fun key hk =>
    hv _ (List.mem_append_right _ (List.mem_map_of_mem hk))⟩
  funext z
  unfold netFn
  rw [layersAt_congr θ _ 0 (dims.getD 0 0) specs fun x hx => hv x (List.mem_append_left _ hx)]

end FastVPINNs
