import Verif.Lemmas.Training
import Verif.Props.Network
import Verif.Props.ExactSolution
import Mathlib.Analysis.Calculus.ContDiff.Basic
import Mathlib.Analysis.Calculus.ContDiff.Operations
import Mathlib.Analysis.Calculus.FDeriv.Pi
import Mathlib.Analysis.SpecialFunctions.Trigonometric.Deriv
import Mathlib.Analysis.SpecialFunctions.Trigonometric.DerivHyp

/-! # The losses are differentiable functions of the weights -/

namespace FastVPINNs

open Spec

/-! ## The layers with given weights -/

lemma layersAt_length (θ : Weights) (k n : ℕ) (specs : List LayerSpec) :
    (layersAt θ k n specs).length = specs.length := by
  induction specs generalizing k n with
  | nil => rfl
  | cons s rest ih => simp [layersAt, ih]

lemma layersAt_get (θ : Weights) (k n : ℕ) (specs : List LayerSpec) (i : ℕ)
    (hi : i < (layersAt θ k n specs).length) (hs : i < specs.length) :
    (layersAt θ k n specs)[i].inDim = (n :: specs.map LayerSpec.units).getD i 0 ∧
    (layersAt θ k n specs)[i].units = specs[i].units ∧
    (layersAt θ k n specs)[i].activation = specs[i].activation := by
  induction specs generalizing k n i with
  | nil => simp at hs
  | cons s rest ih =>
    cases i with
    | zero => exact ⟨rfl, rfl, rfl⟩
    | succ i => exact ih (k + 1) s.units i (by simpa [layersAt] using hi) (by simpa using hs)

/-- With any weights the model has the architecture it was created with. -/
lemma layersAt_arch (dims : List ℕ) (a : String) (specs : List LayerSpec) (h : 2 ≤ dims.length)
    (hs : layerSpecs dims a = .ok specs) (θ : Weights) :
    Architecture dims a (layersAt θ 0 (dims.getD 0 0) specs) := by
  obtain ⟨specs', h1, h2, h3⟩ := C51_layers dims a h
  obtain rfl : specs = specs' := Except.ok.inj (hs.symm.trans h1)
  obtain ⟨n, rest, rfl⟩ : ∃ n rest, dims = n :: rest := by
    cases dims with
    | nil => simp at h
    | cons n rest => exact ⟨n, rest, rfl⟩
  have hlen := layersAt_length θ 0 n specs
  have hunits : specs.map LayerSpec.units = rest := by
    simp only [List.length_cons] at h2
    refine List.ext_getElem (by simpa using h2) fun k hk1 hk2 => ?_
    rw [List.getElem_map, h3 k (by simpa using hk1) (by simpa using hk2)]
    simp
  simp only [List.length_cons] at h2 h
  change Architecture (n :: rest) a (layersAt θ 0 n specs)
  refine ⟨by simp only [List.length_cons]; omega, by omega, fun k hk => ?_⟩
  have hk' : k < specs.length := by rw [layersAt_length] at hk; exact hk
  obtain ⟨b1, b2, b3⟩ := layersAt_get θ 0 _ specs k hk hk'
  have hsk := h3 k hk' (by simp only [List.length_cons]; omega)
  refine ⟨?_, ?_, ?_⟩
  · rw [b1, hunits, getD_lt _ _ _ (by simp only [List.length_cons]; omega)]
  · rw [b2, hsk]
  · rw [b3, hsk, layersAt_length]

/-- Every entry of the kernels is one of the weights, or zero outside the shapes. -/
lemma kernels_layersAt (k₀ n : ℕ) (specs : List LayerSpec) (k i j : ℕ) :
    (∃ v, ∀ θ, kernels (layersAt θ k₀ n specs) k i j = θ v) ∨
      ∀ θ, kernels (layersAt θ k₀ n specs) k i j = 0 := by
  induction specs generalizing k₀ n k with
  | nil => exact Or.inr fun θ => by simp [kernels, layersAt]
  | cons s rest ih =>
    cases k with
    | zero =>
      by_cases hij : i < n ∧ j < s.units
      · exact Or.inl ⟨.kernel k₀ i j, fun θ => by simp [kernels, layersAt, kernelAt, hij]⟩
      · refine Or.inr fun θ => ?_
        simp only [kernels, layersAt, List.getElem?_cons_zero, kernelAt]
        rw [dif_neg hij]
    | succ k =>
      rcases ih (k₀ + 1) s.units k with ⟨v, hv⟩ | h0
      · exact Or.inl ⟨v, fun θ => by rw [← hv θ]; simp [kernels, layersAt]⟩
      · exact Or.inr fun θ => by rw [← h0 θ]; simp [kernels, layersAt]

lemma biases_layersAt (k₀ n : ℕ) (specs : List LayerSpec) (k j : ℕ) :
    (∃ v, ∀ θ, biases (layersAt θ k₀ n specs) k j = θ v) ∨
      ∀ θ, biases (layersAt θ k₀ n specs) k j = 0 := by
  induction specs generalizing k₀ n k with
  | nil => exact Or.inr fun θ => by simp [biases, layersAt]
  | cons s rest ih =>
    cases k with
    | zero =>
      by_cases hij : j < s.units
      · exact Or.inl ⟨.bias k₀ j, fun θ => by simp [biases, layersAt, biasAt, hij]⟩
      · refine Or.inr fun θ => ?_
        simp only [biases, layersAt, List.getElem?_cons_zero, biasAt]
        rw [dif_neg hij]
    | succ k =>
      rcases ih (k₀ + 1) s.units k with ⟨v, hv⟩ | h0
      · exact Or.inl ⟨v, fun θ => by rw [← hv θ]; simp [biases, layersAt]⟩
      · exact Or.inr fun θ => by rw [← h0 θ]; simp [biases, layersAt]

/-! ## Smoothness in weights and points together -/

section
variable {E : Type} [NormedAddCommGroup E] [NormedSpace ℝ E]

lemma outputValue_contDiff (σ : ℝ → ℝ) (hσ : ContDiff ℝ 2 σ) (dims : ℕ → ℕ) (W : E → ℕ → ℕ → ℕ → ℝ)
    (b : E → ℕ → ℕ → ℝ) (x : E → ℕ → ℝ) (hW : ∀ k i j, ContDiff ℝ 2 fun e => W e k i j)
    (hb : ∀ k j, ContDiff ℝ 2 fun e => b e k j) (hx : ∀ i, ContDiff ℝ 2 fun e => x e i) (m j : ℕ) :
    ContDiff ℝ 2 fun e => outputValue σ dims (W e) (b e) m (x e) j := by
  have hh : ∀ k i, ContDiff ℝ 2 fun e => hiddenValues σ dims (W e) (b e) (x e) k i := by
    intro k
    induction k with
    | zero => exact hx
    | succ k ih =>
      intro i
      simp only [hiddenValues]
      exact hσ.comp ((ContDiff.sum fun i _ => (ih i).mul (hW _ _ _)).add (hb _ _))
  unfold outputValue
  exact (ContDiff.sum fun i _ => (hh m i).mul (hW _ _ _)).add (hb _ _)

/-- The function the model computes with the weights `θ`. -/
noncomputable def netFn (act : String → ℝ → ℝ) (a : String) (dims : List ℕ) (specs : List LayerSpec)
    (θ : Weights) (j : ℕ) (z : ℝ × ℝ) : ℝ :=
  outputValue (act a) (fun k => dims.getD k 0) (kernels (layersAt θ 0 (dims.getD 0 0) specs))
    (biases (layersAt θ 0 (dims.getD 0 0) specs)) (dims.length - 2) (fun i => if i = 0 then z.1 else z.2) j

lemma netFn_rowWise (act : String → ℝ → ℝ) (a : String) (dims : List ℕ) (specs : List LayerSpec)
    (h : 2 ≤ dims.length) (hs : layerSpecs dims a = .ok specs) (hin : dims.getD 0 0 = 2) (dout : ℕ)
    (hout : dims.getD (dims.length - 1) 0 = dout) (attention : Batch → Except PyErr Batch) (θ : Weights) :
    RowWise (networkAt act attention false (dims.getD 0 0) specs dout θ)
      fun j => netFn act a dims specs θ j := by
  obtain ⟨u, hu, hu', -⟩ := C51_network act a dims _ (layersAt_arch dims a specs h hs θ) hin dout hout attention
  intro n X r j
  rw [networkAt, hu n X r j, hu']
  rfl

lemma netFn_contDiff (act : String → ℝ → ℝ) (a : String) (hσ : ContDiff ℝ 2 (act a)) (dims : List ℕ)
    (specs : List LayerSpec) (j : ℕ) (ι : E → Weights) (hι : ∀ v, ContDiff ℝ 2 fun e => ι e v) :
    ContDiff ℝ 2 fun p : E × (ℝ × ℝ) => netFn act a dims specs (ι p.1) j p.2 := by
  unfold netFn
  refine outputValue_contDiff (E := E × (ℝ × ℝ)) (act a) hσ _ _ _ _ ?_ ?_ ?_ _ _
  · intro k i j
    rcases kernels_layersAt 0 (dims.getD 0 0) specs k i j with ⟨v, hv⟩ | h0
    · simp only [hv]
      exact (hι v).comp contDiff_fst
    · simp only [h0]
      exact contDiff_const
  · intro k j
    rcases biases_layersAt 0 (dims.getD 0 0) specs k j with ⟨v, hv⟩ | h0
    · simp only [hv]
      exact (hι v).comp contDiff_fst
    · simp only [h0]
      exact contDiff_const
  · intro i
    by_cases hi : i = 0
    · simp only [hi, if_true]
      exact contDiff_fst.comp contDiff_snd
    · simp only [hi, if_false]
      exact contDiff_snd.comp contDiff_snd

/-- Space derivatives of a family of functions depend smoothly on the parameter. -/
lemma dx_family (U : E → ℝ × ℝ → ℝ) (hU : ContDiff ℝ 2 fun p : E × (ℝ × ℝ) => U p.1 p.2) (z : ℝ × ℝ) :
    ContDiff ℝ 1 fun e => dx (U e) z := by
  have hd : ∀ e, dx (U e) z = fderiv ℝ (fun p : E × (ℝ × ℝ) => U p.1 p.2) (e, z) (0, (1, 0)) := by
    intro e
    have h1 : HasFDerivAt (fun p : E × (ℝ × ℝ) => U p.1 p.2) _ (e, (z.1, z.2)) :=
      (hU.differentiable (by norm_num) (e, z)).hasFDerivAt
    have h2 : HasDerivAt (fun s : ℝ => ((e, (s, z.2)) : E × (ℝ × ℝ))) (0, (1, 0)) z.1 :=
      (hasDerivAt_const z.1 e).prodMk ((hasDerivAt_id z.1).prodMk (hasDerivAt_const z.1 z.2))
    exact (h1.comp_hasDerivAt z.1 h2).deriv
  simp only [hd]
  have h3 : ContDiff ℝ 1 (fderiv ℝ fun p : E × (ℝ × ℝ) => U p.1 p.2) :=
    hU.fderiv_right (by norm_num)
  exact (h3.comp (contDiff_id.prodMk contDiff_const)).clm_apply contDiff_const

lemma dy_family (U : E → ℝ × ℝ → ℝ) (hU : ContDiff ℝ 2 fun p : E × (ℝ × ℝ) => U p.1 p.2) (z : ℝ × ℝ) :
    ContDiff ℝ 1 fun e => dy (U e) z := by
  have hd : ∀ e, dy (U e) z = fderiv ℝ (fun p : E × (ℝ × ℝ) => U p.1 p.2) (e, z) (0, (0, 1)) := by
    intro e
    have h1 : HasFDerivAt (fun p : E × (ℝ × ℝ) => U p.1 p.2) _ (e, (z.1, z.2)) :=
      (hU.differentiable (by norm_num) (e, z)).hasFDerivAt
    have h2 : HasDerivAt (fun s : ℝ => ((e, (z.1, s)) : E × (ℝ × ℝ))) (0, (0, 1)) z.2 :=
      (hasDerivAt_const z.2 e).prodMk ((hasDerivAt_const z.2 z.1).prodMk (hasDerivAt_id z.2))
    exact (h1.comp_hasDerivAt z.2 h2).deriv
  simp only [hd]
  have h3 : ContDiff ℝ 1 (fderiv ℝ fun p : E × (ℝ × ℝ) => U p.1 p.2) :=
    hU.fderiv_right (by norm_num)
  exact (h3.comp (contDiff_id.prodMk contDiff_const)).clm_apply contDiff_const

lemma value_contDiff (U : E → ℝ × ℝ → ℝ) (hU : ContDiff ℝ 2 fun p : E × (ℝ × ℝ) => U p.1 p.2) (z : ℝ × ℝ) :
    ContDiff ℝ 1 fun e => U e z :=
  ((hU.comp (contDiff_id.prodMk contDiff_const)).of_le (by norm_num) :
    ContDiff ℝ 1 ((fun p : E × (ℝ × ℝ) => U p.1 p.2) ∘ fun e => (e, z)))

lemma meanSq_contDiff {n : ℕ} (x : E → Fin n → ℝ) (hx : ∀ i, ContDiff ℝ 1 fun e => x e i) :
    ContDiff ℝ 1 fun e => meanSq (x e) := by
  unfold meanSq
  exact (ContDiff.sum fun i _ => (hx i).mul (hx i)).div_const _

/-- The PDE loss of a smooth family of functions, with smooth diffusion coefficients. -/
lemma pdeLoss_contDiff {nc nt nq nIn nBd : ℕ} (M : ModelData nc nt nq nIn nBd)
    (pt : Fin nc → Fin nq → ℝ × ℝ) (U : E → ℝ × ℝ → ℝ)
    (hU : ContDiff ℝ 2 fun p : E × (ℝ × ℝ) => U p.1 p.2) (A : E → Fin nc → Fin nq → ℝ)
    (hA : ∀ c q, ContDiff ℝ 1 fun e => A e c q) (b : ℝ × ℝ) (r : ℝ) :
    ContDiff ℝ 1 fun e => pdeLoss M pt (U e) (A e) b r := by
  unfold pdeLoss
  refine ContDiff.sum fun c _ => meanSq_contDiff _ fun t => ?_
  unfold testedResidual
  refine ContDiff.sub (ContDiff.sum fun q _ => ?_) contDiff_const
  have h0 := value_contDiff U hU (pt c q)
  have h1 := dx_family U hU (pt c q)
  have h2 := dy_family U hU (pt c q)
  exact ((hA c q).mul ((h1.mul contDiff_const).add (h2.mul contDiff_const))).add
    ((((contDiff_const.mul h1).add (contDiff_const.mul h2)).add (contDiff_const.mul h0)).mul contDiff_const)

end

lemma hasParam_inverseAt (θ : Weights) (keys : List String) (key : String) (hkey : key ∈ keys) :
    HasParam (inverseAt θ keys) key (θ (.inverse key)) := by
  refine ⟨_, rfl, ?_⟩
  induction keys with
  | nil => simp at hkey
  | cons k ks ih =>
    by_cases hk : key = k
    · subst hk
      simp
    · rw [List.map_cons, List.lookup_cons, ih ((List.mem_cons.mp hkey).resolve_left hk)]
      have : (key == k) = false := by simpa using hk
      simp [this]

/-! ## The four models -/

section
variable {nc nt nq nIn nBd : ℕ} (M : ModelData nc nt nq nIn nBd) (pt : Fin nc → Fin nq → ℝ × ℝ)
  (hM : Shaped M pt) (act : String → ℝ → ℝ) (attention : Batch → Except PyErr Batch) (a : String)
  (dims : List ℕ) (specs : List LayerSpec) (h : 2 ≤ dims.length) (hs : layerSpecs dims a = .ok specs)
  (hin : dims.getD 0 0 = 2) (beta : ℝ) (p : ParamDict)
include hM h hs hin

lemma forwardDense_total (hout : dims.getD (dims.length - 1) 0 = 1) (kind : LossKind) (hk : kind.forward)
    (A : Fin nc → Fin nq → ℝ) (b : ℝ × ℝ) (r : ℝ) (hco : Coefficients kind p none [] A b r) (θ : Weights) :
    (forwardDense (lossOf kind nc nt nq) M act attention false (dims.getD 0 0) specs 1 beta p).total θ
      = pdeLoss M pt (netFn act a dims specs θ 0) A b r
        + beta * meanSq fun i => netFn act a dims specs θ 0 (M.dirichletInput i) - M.dirichletActual i := by
  have hu := netFn_rowWise act a dims specs h hs hin 1 hout attention θ
  obtain ⟨h1, h2⟩ := C47_dense M pt hM beta p kind hk _ _ hu
  obtain ⟨out, ho⟩ := h1.2 ⟨A, b, r, hco⟩
  obtain ⟨A', b', r', hco', e1, e2, e3, -⟩ := h2 out ho
  obtain ⟨rfl, rfl, rfl⟩ := coefficients_unique hco hco'
  unfold Forward.total forwardDense
  rw [ho]
  simp only [Fin.sum_univ_one]
  rw [e3, e2, e1]
  rfl

lemma forwardInverse_total (hout : dims.getD (dims.length - 1) 0 = 1) {nS : ℕ} (sp : Fin nS → ℝ × ℝ)
    (sv : Fin nS → ℝ) (keys : List String) (hkey : "eps" ∈ keys) (θ : Weights) :
    (forwardInverse (lossPoissonInverse nc nt nq) M act attention false (dims.getD 0 0) specs 1 beta p
        sp sv keys).total θ
      = pdeLoss M pt (netFn act a dims specs θ 0) (fun _ _ => θ (.inverse "eps")) (0, 0) 0
        + beta * (meanSq fun i => netFn act a dims specs θ 0 (M.dirichletInput i) - M.dirichletActual i)
        + 10 * meanSq fun i => netFn act a dims specs θ 0 (sp i) - sv i := by
  have hu := netFn_rowWise act a dims specs h hs hin 1 hout attention θ
  have heps := hasParam_inverseAt θ keys "eps" hkey
  obtain ⟨h1, h2⟩ := C47_inverse M pt hM beta p (inverseAt θ keys) sp sv _ _ hu
  obtain ⟨out, ho⟩ := h1.2 ⟨_, heps⟩
  obtain ⟨eps, hp, e1, e2, e3, -, e4, -⟩ := h2 out ho
  obtain rfl := hasParam_unique heps hp
  unfold Forward.total forwardInverse
  rw [ho]
  simp only [Fin.sum_univ_one]
  rw [e4, e3, e2, e1]
  rfl

lemma forwardInverseDomain_total (hout : dims.getD (dims.length - 1) 0 = 2) {nS : ℕ}
    (sp : Fin nS → ℝ × ℝ) (sv : Fin nS → ℝ) (b : ℝ × ℝ) (r : ℝ) (hb1 : HasParam p "b_x" b.1)
    (hb2 : HasParam p "b_y" b.2) (hr : HasParam p "c" r) (θ : Weights) :
    (forwardInverseDomain (lossCd2dInverseDomain nc nt nq) M act attention false (dims.getD 0 0) specs 2
        beta p sp sv).total θ
      = pdeLoss M pt (netFn act a dims specs θ 0) (fun c q => netFn act a dims specs θ 1 (pt c q)) b r
        + beta * (meanSq fun i => netFn act a dims specs θ 0 (M.dirichletInput i) - M.dirichletActual i)
        + 10 * meanSq fun i => netFn act a dims specs θ 0 (sp i) - sv i := by
  have hu := netFn_rowWise act a dims specs h hs hin 2 hout attention θ
  obtain ⟨h1, h2⟩ := C47_inverse_domain M pt hM beta p sp sv le_rfl _ _ hu
  obtain ⟨out, ho⟩ := h1.2 ⟨_, _, _, hb1, hb2, hr⟩
  obtain ⟨bx, b2, r', p1, p2, p3, e1, e2, e3, e4, -⟩ := h2 out ho
  obtain rfl := hasParam_unique hb1 p1
  obtain rfl := hasParam_unique hb2 p2
  obtain rfl := hasParam_unique hr p3
  unfold Forward.total forwardInverseDomain
  rw [ho]
  simp only [Fin.sum_univ_one]
  rw [e4, e3, e2, e1]

lemma forwardHard_total (hout : dims.getD (dims.length - 1) 0 = 1) (kind : LossKind) (hk : kind.forward)
    (A : Fin nc → Fin nq → ℝ) (b : ℝ × ℝ) (r : ℝ) (hco : Coefficients kind p none [] A b r)
    (g : ℝ × ℝ → ℝ → ℝ) (θ : Weights) :
    (forwardHard (lossOf kind nc nt nq) M act attention false (dims.getD 0 0) specs 1 beta p
        (List.zipWith fun x v => v.map (g (x.getD 0 0, x.getD 1 0)))).total θ
      = pdeLoss M pt (fun z => g z (netFn act a dims specs θ 0 z)) A b r := by
  have hu := netFn_rowWise act a dims specs h hs hin 1 hout attention θ
  obtain ⟨u₀, hu0, hu1⟩ := C48_network act a dims _ (layersAt_arch dims a specs h hs θ) hin hout attention g
  have hu0' : u₀ = netFn act a dims specs θ 0 := by
    funext z
    have e1 := hu0 1 (fun _ => z) 0 0
    have e2 := hu 1 (fun _ => z) 0 0
    rw [networkAt] at e2
    exact e1.symm.trans e2
  subst hu0'
  obtain ⟨h1, h2⟩ := C47_hard M pt hM beta p kind hk _ _ hu1
  obtain ⟨out, ho⟩ := h1.2 ⟨A, b, r, hco⟩
  obtain ⟨-, A', b', r', hco', e1, e2, e3, -⟩ := h2 out ho
  obtain ⟨rfl, rfl, rfl⟩ := coefficients_unique hco hco'
  unfold Forward.total forwardHard
  rw [ho]
  simp only
  rw [e3, e1]

end

end FastVPINNs
