import Verif.Lemmas.Interpolation
import Verif.Lemmas.Numbering
import Verif.Lemmas.MaxPrinciple
import Verif.Props.Consistency
import Verif.Props.Defect
import Verif.Props.ExactSolution
import Verif.Props.Training

/-! # C91: a loss of zero can be reached, and says nothing about other points -/

namespace FastVPINNs

open Finset Spec

lemma Spec.LargeFor.mono {dims : List ℕ} {dout n n' : ℕ} (h : LargeFor dims dout n) (hn : n' ≤ n) :
    LargeFor dims dout n' :=
  ⟨h.hidden, h.input, h.output, h.width, by have := h.last; omega⟩

lemma asNetwork_rowWise {dout : ℕ} (v : Fin dout → ℝ × ℝ → ℝ) : RowWise (asNetwork v) v := fun _ _ _ _ => rfl

section
variable (act : String → ℝ → ℝ) (attention : Batch → Except PyErr Batch) (a : String) (ha : act a = Real.tanh)
  (dims : List ℕ) (specs : List LayerSpec) (hs : layerSpecs dims a = .ok specs)

include ha hs

lemma interp_network (dout : ℕ) (Z : Finset (ℝ × ℝ)) (h : LargeFor dims dout Z.card) (κ : String → ℝ)
    (v gx gy : Fin dout → ℝ × ℝ → ℝ) :
    ∃ (θ : Weights) (u : Fin dout → ℝ × ℝ → ℝ), (∀ key, θ (.inverse key) = κ key) ∧
      RowWise (networkAt act attention false 2 specs dout θ) u ∧ (∀ j, ContDiff ℝ 2 (u j)) ∧
      ∀ j, ∀ z ∈ Z, u j z = v j z ∧ dx (u j) z = gx j z ∧ dy (u j) z = gy j z := by
  have h3 := h.hidden
  obtain ⟨θ, hκ, hθ⟩ := interpolation dims dout Z h κ
    (fun j z => if hj : j < dout then v ⟨j, hj⟩ z else 0) (fun j z => if hj : j < dout then gx ⟨j, hj⟩ z else 0)
    (fun j z => if hj : j < dout then gy ⟨j, hj⟩ z else 0)
  have hrow := networkAt_outputs act attention dims a specs (by omega) hs h.input dout h.output θ
  rw [ha] at hrow
  refine ⟨θ, _, hκ, hrow, fun j => ?_, fun j z hz => ?_⟩
  · unfold networkOutput
    exact outputValue_contDiff (E := ℝ × ℝ) Real.tanh contDiff_tanh _ (fun _ k i j => θ (.kernel k i j))
      (fun _ k j => θ (.bias k j)) (fun z i => if i = 0 then z.1 else z.2) (fun _ _ _ => contDiff_const)
      (fun _ _ => contDiff_const) (fun i => by split_ifs <;> fun_prop) _ _
  · have := hθ j z hz
    simpa using this

/-- **C91** (interpolation).  Take `tanh` as activation and an architecture that is large enough for the points of
a finite set.  For all values and gradients prescribed at these points there are weights for which the model
takes them, as a twice continuously differentiable function. -/
theorem C91_interpolation (dout : ℕ) (Z : Finset (ℝ × ℝ)) (h : LargeFor dims dout Z.card)
    (v gx gy : Fin dout → ℝ × ℝ → ℝ) :
    ∃ (θ : Weights) (u : Fin dout → ℝ × ℝ → ℝ), RowWise (networkAt act attention false 2 specs dout θ) u ∧
      (∀ j, ContDiff ℝ 2 (u j)) ∧
      ∀ j, ∀ z ∈ Z, u j z = v j z ∧ dx (u j) z = gx j z ∧ dy (u j) z = gy j z := by
  obtain ⟨θ, u, -, h⟩ := interp_network act attention a ha dims specs hs dout Z h (fun _ => 0) v gx gy
  exact ⟨θ, u, h⟩

variable {nc nt nq nIn nBd : ℕ} (M : ModelData nc nt nq nIn nBd) (pt : Fin nc → Fin nq → ℝ × ℝ)
  (hM : Shaped M pt) (beta : ℝ) (p : ParamDict)

omit ha hs in
lemma pdeLoss_congr (hM : Shaped M pt) (u v : ℝ × ℝ → ℝ) (A A' : Fin nc → Fin nq → ℝ) (b : ℝ × ℝ) (r : ℝ)
    (h : ∀ i, u (M.inputTensor i) = v (M.inputTensor i) ∧ dx u (M.inputTensor i) = dx v (M.inputTensor i) ∧
      dy u (M.inputTensor i) = dy v (M.inputTensor i)) (hA : A = A') :
    pdeLoss M pt u A b r = pdeLoss M pt v A' b r := by
  have hp : ∀ c q, u (pt c q) = v (pt c q) ∧ dx u (pt c q) = dx v (pt c q) ∧ dy u (pt c q) = dy v (pt c q) := by
    intro c q
    have e := hM.point c q (rowIndex hM.rows c q) rfl
    rw [← e]
    exact h _
  have e1 : (fun c q => u (pt c q)) = fun c q => v (pt c q) := by
    funext c q
    exact (hp c q).1
  have e2 : (fun c q => dx u (pt c q)) = fun c q => dx v (pt c q) := by
    funext c q
    exact (hp c q).2.1
  have e3 : (fun c q => dy u (pt c q)) = fun c q => dy v (pt c q) := by
    funext c q
    exact (hp c q).2.2
  unfold pdeLoss
  rw [e1, e2, e3, hA]

include hM

/-- **C91** (`DenseModel`).  For every function `v` there are weights for which a training step reports exactly
the losses that it reports for a network that is `v`; at finitely many other points the same weights give any
prescribed values `w`. -/
theorem C91_dense (kind : LossKind) (hk : kind.forward) (e : ℝ) (b : ℝ × ℝ) (r : ℝ)
    (hco : ConstantCoefficients kind p e b r) (v w : ℝ × ℝ → ℝ) (X : Finset (ℝ × ℝ))
    (hX : ∀ z ∈ X, ¬ IsTrainingPoint M z) (hdims : LargeFor dims 1 (nIn + nBd + X.card)) :
    ∃ (θ : Weights) (u : ℝ × ℝ → ℝ), RowWise (networkAt act attention false 2 specs 1 θ) (fun _ => u) ∧
      trainStepDense (lossOf kind nc nt nq) M (networkAt act attention false 2 specs 1 θ) beta p
        = trainStepDense (lossOf kind nc nt nq) M (asNetwork fun _ => v) beta p ∧
      ∀ z ∈ X, u z = w z := by
  classical
  let Z := (univ.image M.inputTensor ∪ univ.image M.dirichletInput) ∪ X
  have hcard : Z.card ≤ nIn + nBd + X.card := by
    refine (card_union_le _ _).trans (Nat.add_le_add_right ((card_union_le _ _).trans ?_) _)
    exact Nat.add_le_add (card_image_le.trans (by simp)) (card_image_le.trans (by simp))
  obtain ⟨θ, u, -, hrow, -, hu⟩ := interp_network act attention a ha dims specs hs 1 Z (hdims.mono hcard)
    (fun _ => 0) (fun _ z => if z ∈ X then w z else v z) (fun _ => dx v) (fun _ => dy v)
  have hrow' : RowWise (networkAt act attention false 2 specs 1 θ) fun _ => u 0 := by
    intro n X r j
    rw [hrow n X r j, Subsingleton.elim j 0]
  refine ⟨θ, u 0, hrow', ?_, fun z hz => ?_⟩
  · have h1 : ∀ i, u 0 (M.inputTensor i) = v (M.inputTensor i) ∧
        dx (u 0) (M.inputTensor i) = dx v (M.inputTensor i) ∧
        dy (u 0) (M.inputTensor i) = dy v (M.inputTensor i) := by
      intro i
      have h2 := hu 0 (M.inputTensor i) (mem_union_left _ (mem_union_left _ (mem_image_of_mem _ (mem_univ i))))
      rwa [if_neg fun hz => hX _ hz (Or.inl ⟨i, rfl⟩)] at h2
    have h2 : ∀ i, u 0 (M.dirichletInput i) = v (M.dirichletInput i) := by
      intro i
      have h2 := (hu 0 (M.dirichletInput i)
        (mem_union_left _ (mem_union_right _ (mem_image_of_mem _ (mem_univ i))))).1
      rwa [if_neg fun hz => hX _ hz (Or.inr ⟨i, rfl⟩)] at h2
    refine dense_same hM hM beta hk (asNetwork_rowWise _) hrow' hco hco
      (pdeLoss_congr M pt hM _ _ _ _ _ _ h1 rfl) ?_
    simp only [h2]
  · have h2 := (hu 0 z (mem_union_right _ hz)).1
    rwa [if_pos hz] at h2

/-- **C91** (`DenseModel_Hard`), for a constraint of the form `B + ℓ u` that is differentiable at the quadrature
points, with `ℓ` not zero there nor at the other points. -/
theorem C91_hard (kind : LossKind) (hk : kind.forward) (e : ℝ) (b : ℝ × ℝ) (r : ℝ)
    (hco : ConstantCoefficients kind p e b r) (B ℓ : ℝ × ℝ → ℝ)
    (hB : ∀ i, DifferentiableAt ℝ B (M.inputTensor i) ∧ DifferentiableAt ℝ ℓ (M.inputTensor i) ∧
      ℓ (M.inputTensor i) ≠ 0) (v w : ℝ × ℝ → ℝ) (X : Finset (ℝ × ℝ))
    (hX : ∀ z ∈ X, (∀ i, M.inputTensor i ≠ z) ∧ ℓ z ≠ 0) (hdims : LargeFor dims 1 (nIn + X.card)) :
    ∃ (θ : Weights) (u : ℝ × ℝ → ℝ), RowWise (networkHard act attention false (layersAt θ 0 2 specs)
        (List.zipWith fun x y => y.map fun t => B (x.getD 0 0, x.getD 1 0) + ℓ (x.getD 0 0, x.getD 1 0) * t) 1)
        (fun _ => u) ∧
      trainStepHard (lossOf kind nc nt nq) M (networkHard act attention false (layersAt θ 0 2 specs)
        (List.zipWith fun x y => y.map fun t => B (x.getD 0 0, x.getD 1 0) + ℓ (x.getD 0 0, x.getD 1 0) * t) 1)
        beta p = trainStepHard (lossOf kind nc nt nq) M (asNetwork fun _ : Fin 1 => v) beta p ∧
      ∀ z ∈ X, u z = w z := by
  classical
  let Z := univ.image M.inputTensor ∪ X
  have hcard : Z.card ≤ nIn + X.card := by
    refine (card_union_le _ _).trans (Nat.add_le_add_right (card_image_le.trans (by simp)) _)
  let v' : ℝ × ℝ → ℝ := fun z => ((if z ∈ X then w z else v z) - B z) / ℓ z
  obtain ⟨θ, u, -, hrow, hsm, hu⟩ := interp_network act attention a ha dims specs hs 1 Z (hdims.mono hcard)
    (fun _ => 0) (fun _ => v') (fun _ z => (dx v z - dx B z - dx ℓ z * v' z) / ℓ z)
    (fun _ z => (dy v z - dy B z - dy ℓ z * v' z) / ℓ z)
  have h3 := hdims.hidden
  have harch := layersAt_arch dims a specs (by omega) hs θ
  obtain ⟨u₀, hu₀, hhard⟩ := C48_network act a dims _ harch hdims.input hdims.output attention
    fun z t => B z + ℓ z * t
  rw [hdims.input] at hu₀ hhard
  have heq : u₀ = u 0 := by
    funext z
    have h4 := hu₀ 1 (fun _ => z) 0 0
    have h5 := hrow 1 (fun _ => z) 0 0
    unfold networkAt at h5
    exact h4.symm.trans h5
  subst heq
  refine ⟨θ, _, hhard, ?_, fun z hz => ?_⟩
  · refine hard_same hM hM beta hk (asNetwork_rowWise _) hhard hco hco
      (pdeLoss_congr M pt hM _ _ _ _ _ _ (fun i => ?_) rfl)
    obtain ⟨d1, d2, d3⟩ := hB i
    obtain ⟨e1, e2, e3⟩ := hu 0 (M.inputTensor i) (mem_union_left _ (mem_image_of_mem _ (mem_univ i)))
    set z := M.inputTensor i with hz
    have hnX : z ∉ X := fun hzX => (hX z hzX).1 i rfl
    have e1' : v' z = (v z - B z) / ℓ z := by
      simp only [v', if_neg hnX]
    have hd : DifferentiableAt ℝ (u 0) z := (hsm 0).differentiable (by norm_num) z
    refine ⟨?_, ?_, ?_⟩
    · rw [e1, e1']
      field_simp
      ring
    · have h4 := (hasDerivAt_slice_x d1).add ((hasDerivAt_slice_x d2).mul (hasDerivAt_slice_x hd))
      have h5 : dx (fun z => B z + ℓ z * u 0 z) z = _ := h4.deriv
      rw [h5, e1, e2]
      field_simp
      ring
    · have h4 := (hasDerivAt_slice_y d1).add ((hasDerivAt_slice_y d2).mul (hasDerivAt_slice_y hd))
      have h5 : dy (fun z => B z + ℓ z * u 0 z) z = _ := h4.deriv
      rw [h5, e1, e3]
      field_simp
      ring
  · have h2 := (hu 0 z (mem_union_right _ hz)).1
    rw [h2]
    simp only [v', if_pos hz]
    have := (hX z hz).2
    field_simp
    ring

/-- **C91** (`DenseModel_Inverse`), with any values of the inverse parameters. -/
theorem C91_inverse {nS : ℕ} (sp : Fin nS → ℝ × ℝ) (sv : Fin nS → ℝ) (keys : List String)
    (hkey : "eps" ∈ keys) (κ : String → ℝ) (v w : ℝ × ℝ → ℝ) (X : Finset (ℝ × ℝ))
    (hX : ∀ z ∈ X, ¬ IsTrainingPoint M z ∧ ∀ i, sp i ≠ z)
    (hdims : LargeFor dims 1 (nIn + nBd + nS + X.card)) :
    ∃ (θ : Weights) (u : ℝ × ℝ → ℝ), (∀ key, θ (.inverse key) = κ key) ∧
      RowWise (networkAt act attention false 2 specs 1 θ) (fun _ => u) ∧
      trainStepInverse (lossPoissonInverse nc nt nq) M sp sv (inverseAt θ keys)
          (networkAt act attention false 2 specs 1 θ) beta p
        = trainStepInverse (lossPoissonInverse nc nt nq) M sp sv (some (keys.map fun k => (k, κ k)))
          (asNetwork fun _ => v) beta p ∧
      ∀ z ∈ X, u z = w z := by
  classical
  let Z := ((univ.image M.inputTensor ∪ univ.image M.dirichletInput) ∪ univ.image sp) ∪ X
  have hcard : Z.card ≤ nIn + nBd + nS + X.card := by
    refine (card_union_le _ _).trans (Nat.add_le_add_right ((card_union_le _ _).trans ?_) _)
    refine Nat.add_le_add ((card_union_le _ _).trans ?_) (card_image_le.trans (by simp))
    exact Nat.add_le_add (card_image_le.trans (by simp)) (card_image_le.trans (by simp))
  obtain ⟨θ, u, hκ, hrow, -, hu⟩ := interp_network act attention a ha dims specs hs 1 Z (hdims.mono hcard)
    κ (fun _ z => if z ∈ X then w z else v z) (fun _ => dx v) (fun _ => dy v)
  have hrow' : RowWise (networkAt act attention false 2 specs 1 θ) fun _ => u 0 := by
    intro n X r j
    rw [hrow n X r j, Subsingleton.elim j 0]
  have hip : inverseAt θ keys = some (keys.map fun k => (k, κ k)) := by
    unfold inverseAt
    simp only [hκ]
  have heps : HasParam (some (keys.map fun k => (k, κ k))) "eps" (κ "eps") := by
    refine ⟨_, rfl, ?_⟩
    clear hip
    induction keys with
    | nil => simp at hkey
    | cons k l ih =>
      by_cases hk : k = "eps"
      · subst hk
        simp
      · have hb : ("eps" == k) = false := by simpa using fun h => hk h.symm
        simp only [List.map_cons, List.lookup, hb]
        exact ih ((List.mem_cons.1 hkey).resolve_left fun h => hk h.symm)
  refine ⟨θ, u 0, hκ, hrow', ?_, fun z hz => ?_⟩
  · rw [hip]
    have h1 : ∀ i, u 0 (M.inputTensor i) = v (M.inputTensor i) ∧
        dx (u 0) (M.inputTensor i) = dx v (M.inputTensor i) ∧
        dy (u 0) (M.inputTensor i) = dy v (M.inputTensor i) := by
      intro i
      have h2 := hu 0 (M.inputTensor i)
        (mem_union_left _ (mem_union_left _ (mem_union_left _ (mem_image_of_mem _ (mem_univ i)))))
      rwa [if_neg fun hz => (hX _ hz).1 (Or.inl ⟨i, rfl⟩)] at h2
    have h2 : ∀ i, u 0 (M.dirichletInput i) = v (M.dirichletInput i) := by
      intro i
      have h2 := (hu 0 (M.dirichletInput i)
        (mem_union_left _ (mem_union_left _ (mem_union_right _ (mem_image_of_mem _ (mem_univ i)))))).1
      rwa [if_neg fun hz => (hX _ hz).1 (Or.inr ⟨i, rfl⟩)] at h2
    have h3 : ∀ i, u 0 (sp i) = v (sp i) := by
      intro i
      have h2 := (hu 0 (sp i) (mem_union_left _ (mem_union_right _ (mem_image_of_mem _ (mem_univ i))))).1
      rwa [if_neg fun hz => (hX _ hz).2 i rfl] at h2
    refine inverse_same hM hM beta (asNetwork_rowWise _) hrow' heps
      (pdeLoss_congr M pt hM _ _ _ _ _ _ h1 rfl) ?_ ?_
    · simp only [h2]
    · simp only [h3]
  · have h2 := (hu 0 z (mem_union_right _ hz)).1
    rwa [if_pos hz] at h2

/-- **C91** (`DenseModel_Inverse_Domain`), with any functions for solution and coefficient. -/
theorem C91_inverse_domain {nS : ℕ} (sp : Fin nS → ℝ × ℝ) (sv : Fin nS → ℝ) (b : ℝ × ℝ) (r : ℝ)
    (hb1 : HasParam p "b_x" b.1) (hb2 : HasParam p "b_y" b.2) (hr : HasParam p "c" r)
    (v w : Fin 2 → ℝ × ℝ → ℝ) (X : Finset (ℝ × ℝ))
    (hX : ∀ z ∈ X, ¬ IsTrainingPoint M z ∧ ∀ i, sp i ≠ z)
    (hdims : LargeFor dims 2 (nIn + nBd + nS + X.card)) :
    ∃ (θ : Weights) (u : Fin 2 → ℝ × ℝ → ℝ), RowWise (networkAt act attention false 2 specs 2 θ) u ∧
      trainStepInverseDomain (lossCd2dInverseDomain nc nt nq) M sp sv
          (networkAt act attention false 2 specs 2 θ) beta p
        = trainStepInverseDomain (lossCd2dInverseDomain nc nt nq) M sp sv (asNetwork v) beta p ∧
      ∀ j, ∀ z ∈ X, u j z = w j z := by
  classical
  let Z := ((univ.image M.inputTensor ∪ univ.image M.dirichletInput) ∪ univ.image sp) ∪ X
  have hcard : Z.card ≤ nIn + nBd + nS + X.card := by
    refine (card_union_le _ _).trans (Nat.add_le_add_right ((card_union_le _ _).trans ?_) _)
    refine Nat.add_le_add ((card_union_le _ _).trans ?_) (card_image_le.trans (by simp))
    exact Nat.add_le_add (card_image_le.trans (by simp)) (card_image_le.trans (by simp))
  obtain ⟨θ, u, -, hrow, -, hu⟩ := interp_network act attention a ha dims specs hs 2 Z (hdims.mono hcard)
    (fun _ => 0) (fun j z => if z ∈ X then w j z else v j z) (fun j => dx (v j)) (fun j => dy (v j))
  refine ⟨θ, u, hrow, ?_, fun j z hz => ?_⟩
  · have h1 : ∀ j i, u j (M.inputTensor i) = v j (M.inputTensor i) ∧
        dx (u j) (M.inputTensor i) = dx (v j) (M.inputTensor i) ∧
        dy (u j) (M.inputTensor i) = dy (v j) (M.inputTensor i) := by
      intro j i
      have h2 := hu j (M.inputTensor i)
        (mem_union_left _ (mem_union_left _ (mem_union_left _ (mem_image_of_mem _ (mem_univ i)))))
      rwa [if_neg fun hz => (hX _ hz).1 (Or.inl ⟨i, rfl⟩)] at h2
    have h2 : ∀ j i, u j (M.dirichletInput i) = v j (M.dirichletInput i) := by
      intro j i
      have h2 := (hu j (M.dirichletInput i)
        (mem_union_left _ (mem_union_left _ (mem_union_right _ (mem_image_of_mem _ (mem_univ i)))))).1
      rwa [if_neg fun hz => (hX _ hz).1 (Or.inr ⟨i, rfl⟩)] at h2
    have h3 : ∀ j i, u j (sp i) = v j (sp i) := by
      intro j i
      have h2 := (hu j (sp i) (mem_union_left _ (mem_union_right _ (mem_image_of_mem _ (mem_univ i))))).1
      rwa [if_neg fun hz => (hX _ hz).2 i rfl] at h2
    refine domain_same hM hM beta le_rfl (asNetwork_rowWise _) hrow hb1 hb2 hr hb1 hb2 hr
      (pdeLoss_congr M pt hM _ _ _ _ _ _ (h1 _) ?_) ?_ ?_
    · funext c q
      rw [← hM.point c q (rowIndex hM.rows c q) rfl]
      exact (h1 _ _).1
    · simp only [h2]
    · simp only [h3]
  · have h2 := (hu j z (mem_union_right _ hz)).1
    rwa [if_pos hz] at h2

end

/-- **C91** (a loss of zero).  Take a space over strictly convex cells, an exact solution `v` that the rule
handles, and boundary data that agree with it.  A large enough network with `tanh` has weights for which the loss
is zero.  Among them are weights for which the values `w` at finitely many other points are arbitrary.  Training
from such weights with a new optimizer and `beta ≥ 0` changes nothing and reports loss zero in every epoch. -/
theorem C91_zero_loss (ext : QuadRoutines) (mp : List (ℝ × ℝ)) (cells : List Quad) (bd : BdDict)
    (s : FESettings) (dict : List (ℤ × (ℝ → ℝ → ℝ))) (f : ℝ → ℝ → ℝ) (plot : Bool) {nq : ℕ}
    (S S' : Fespace2D (ℝ → ℝ → ℝ) ℝ (s.feOrder.toNat ^ 2) nq) (D : DataHandler2D (s.feOrder.toNat ^ 2) nq)
    (bdv : List (ℝ × ℝ) × List ℝ) (h : fespace2D ext mp cells bd s dict f plot = .ok ⟨nq, S⟩)
    (hD : dataHandler2D S true = .ok (D, S')) (hr : RoutinesOK ext s.quadOrder s.quadType)
    (hty : s.feType ≠ "jacobi_plain")
    (hcells : ∀ c ∈ cells, ConvexCCW c ∧ (s.feTransformationType = "affine" → IsParallelogram c))
    (kind : LossKind) (hk : kind.forward) (p : ParamDict) (e : ℝ) (v : ℝ × ℝ → ℝ) (b : ℝ × ℝ) (r : ℝ)
    (hco : ConstantCoefficients kind p e b r)
    (hflux : ∀ c ∈ cells, FluxHandled (ruleDegree s.quadType s.quadOrder) s.feOrder.toNat c
      (fun z => e * dx v z) (fun z => e * dy v z))
    (hsol : ∀ c ∈ cells, SolvesOn (convexHull ℝ (Set.range c)) (fun _ => e) v b r f)
    (hbd : ∀ i : Fin bdv.1.length, v (bdv.1.get i) = bdv.2.getD i.val 0)
    (act : String → ℝ → ℝ) (attention : Batch → Except PyErr Batch) (a : String) (ha : act a = Real.tanh)
    (dims : List ℕ) (specs : List LayerSpec) (hs : layerSpecs dims a = .ok specs) (w : ℝ × ℝ → ℝ)
    (X : Finset (ℝ × ℝ)) (hX : ∀ z ∈ X, ¬ IsTrainingPoint (modelDataOf D bdv S.nCells) z)
    (hdims : LargeFor dims 1 (D.nCells * nq + bdv.1.length + X.card)) (beta : ℝ) (hβ : 0 ≤ beta)
    (lr : LearningRate) :
    ∃ (θ : Weights) (u : ℝ × ℝ → ℝ), RowWise (networkAt act attention false 2 specs 1 θ) (fun _ => u) ∧
      (∀ z ∈ X, u z = w z) ∧ ∀ n, ∃ outs s', trainEpochs (trainStepWith (forwardDense (lossOf kind _ _ _)
          (modelDataOf D bdv S.nCells) act attention false 2 specs 1 beta p) (trainableVariables 2 specs []) lr) n
          ⟨θ, AdamState.init⟩ = .ok (outs, s') ∧
        outs.length = n ∧ (∀ out ∈ outs, out.loss 0 = 0 ∧ out.lossPde = 0) ∧ s'.weights = θ := by
  have hc := constantCoefficients_iff hk hco D.nCells nq
  obtain ⟨pt, -, hsh, -⟩ := C46_residuals ext mp cells bd s dict f plot S S' D bdv h hD hr hty hcells
    (fun _ => e) v b r hflux hsol
  obtain ⟨out, -, ho, -, e1, -, e3⟩ := C46_exact_solution ext mp cells bd s dict f plot S S' D bdv h hD hr hty
    hcells kind hk p e v b r hc hflux hsol _ (asNetwork_rowWise fun _ => v) beta
  obtain ⟨θ, u, hrow, hstep, hX'⟩ := C91_dense act attention a ha dims specs hs (modelDataOf D bdv S.nCells) pt
    hsh beta p kind hk e b r hco v w X hX hdims
  refine ⟨θ, u, hrow, hX', fun n => ?_⟩
  rw [ho] at hstep
  obtain ⟨s', h1, h2, -⟩ := C72_dense (modelDataOf D bdv S.nCells) act attention false 2 specs 1
    beta p lr ⟨θ, AdamState.init⟩ kind hk hβ (fun _ _ => rfl) out hstep
    (fun j => by rw [Subsingleton.elim j 0]; exact e3 hbd) n
  refine ⟨_, s', h1, by simp, fun o ho' => ?_, h2⟩
  rw [List.eq_of_mem_replicate ho']
  exact ⟨e3 hbd, e1⟩

/-- **C91** (a small loss).  For a classical solution that is not handled exactly, a large enough network with
`tanh` reaches a loss of at most `64 δ²` per cell, where `δ` is the distance of the integrands from the
polynomials that the rule integrates exactly. -/
theorem C91_small_loss {V : Type} {cells : List Quad} {s : FESettings} {ψ : ℕ → ℕ → ℝ × ℝ → ℝ} {f : ℝ → ℝ → ℝ}
    (hV : VariationalSetup cells s.feType s.feOrder.toNat ψ f) {nq : ℕ}
    {S : Fespace2D (ℝ → ℝ → ℝ) V (s.feOrder.toNat ^ 2) nq} {D : DataHandler2D (s.feOrder.toNat ^ 2) nq}
    (hR : Discretised cells f s S D) (hty : s.feType ≠ "jacobi_plain") (bdv : List (ℝ × ℝ) × List ℝ)
    (kind : LossKind) (hk : kind.forward) (p : ParamDict) (e : ℝ)
    (b : ℝ × ℝ) (r : ℝ) (hco : ConstantCoefficients kind p e b r) (v : ℝ × ℝ → ℝ)
    (hv : ∀ c ∈ cells, ClassicalSolution (cellSet c) (fun _ => e) v b r f) (δ : ℝ)
    (hδ : IntegrandsNear (ruleDegree s.quadType s.quadOrder) cells s.feOrder.toNat ψ (fun _ => e) v b r f
      fun _ _ => δ) (hbd : ∀ i : Fin bdv.1.length, v (bdv.1.get i) = bdv.2.getD i.val 0)
    (act : String → ℝ → ℝ) (attention : Batch → Except PyErr Batch) (a : String) (ha : act a = Real.tanh)
    (dims : List ℕ) (specs : List LayerSpec) (hs : layerSpecs dims a = .ok specs)
    (hdims : LargeFor dims 1 (D.nCells * nq + bdv.1.length)) (beta : ℝ) :
    ∃ (θ : Weights) (out : TrainOut 1), trainStepDense (lossOf kind _ _ _) (modelDataOf D bdv S.nCells)
        (networkAt act attention false 2 specs 1 θ) beta p = .ok out ∧
      0 ≤ out.loss 0 ∧ out.loss 0 ≤ cells.length * (8 * δ) ^ 2 := by
  obtain ⟨out, -, ho, -, -, -, -, -, h1⟩ := C70_smooth_solution hV hR hty bdv kind hk p e b r hco v hv δ hδ
    (asNetwork fun _ => v) (asNetwork_rowWise _) beta
  obtain ⟨pt, -, hsh, -⟩ := pdeLoss_close hV hR bdv (fun _ _ => continuousOn_const)
    (fun c hc => (hv c hc).smooth) hδ
  obtain ⟨θ, u, -, hstep, -⟩ := C91_dense act attention a ha dims specs hs (modelDataOf D bdv S.nCells) pt
    hsh beta p kind hk e b r hco v v ∅ (by simp) (by simpa using hdims)
  exact ⟨θ, out, hstep.trans ho, h1 hbd⟩

lemma cell_infinite {c : Quad} (hc : ConvexCCW c) : (cellSet c).Infinite := by
  have h1 := bmap_interior hc (p := (0, 0)) (by simp [openSquare])
  exact infinite_of_mem_nhds _ (mem_interior_iff_mem_nhds.1 h1)

/-- **C91** (no bound for the error).  In the situation of `C91_zero_loss` with at least one cell, for every `K`
there are weights with loss zero and a point of the mesh at which the error is `K`. -/
theorem C91_no_error_bound (ext : QuadRoutines) (mp : List (ℝ × ℝ)) (cells : List Quad) (bd : BdDict)
    (s : FESettings) (dict : List (ℤ × (ℝ → ℝ → ℝ))) (f : ℝ → ℝ → ℝ) (plot : Bool) {nq : ℕ}
    (S S' : Fespace2D (ℝ → ℝ → ℝ) ℝ (s.feOrder.toNat ^ 2) nq) (D : DataHandler2D (s.feOrder.toNat ^ 2) nq)
    (bdv : List (ℝ × ℝ) × List ℝ) (h : fespace2D ext mp cells bd s dict f plot = .ok ⟨nq, S⟩)
    (hD : dataHandler2D S true = .ok (D, S')) (hr : RoutinesOK ext s.quadOrder s.quadType)
    (hty : s.feType ≠ "jacobi_plain")
    (hcells : ∀ c ∈ cells, ConvexCCW c ∧ (s.feTransformationType = "affine" → IsParallelogram c))
    (kind : LossKind) (hk : kind.forward) (p : ParamDict) (e : ℝ) (v : ℝ × ℝ → ℝ) (b : ℝ × ℝ) (r : ℝ)
    (hco : ConstantCoefficients kind p e b r)
    (hflux : ∀ c ∈ cells, FluxHandled (ruleDegree s.quadType s.quadOrder) s.feOrder.toNat c
      (fun z => e * dx v z) (fun z => e * dy v z))
    (hsol : ∀ c ∈ cells, SolvesOn (convexHull ℝ (Set.range c)) (fun _ => e) v b r f)
    (hbd : ∀ i : Fin bdv.1.length, v (bdv.1.get i) = bdv.2.getD i.val 0)
    (act : String → ℝ → ℝ) (attention : Batch → Except PyErr Batch) (a : String) (ha : act a = Real.tanh)
    (dims : List ℕ) (specs : List LayerSpec) (hs : layerSpecs dims a = .ok specs)
    (hdims : LargeFor dims 1 (D.nCells * nq + bdv.1.length + 1)) (beta : ℝ)
    (c : Quad) (hc : c ∈ cells) (K : ℝ) :
    ∃ (z : ℝ × ℝ) (θ : Weights) (u : ℝ × ℝ → ℝ) (out : TrainOut 1), z ∈ cellSet c ∧
      RowWise (networkAt act attention false 2 specs 1 θ) (fun _ => u) ∧
      trainStepDense (lossOf kind _ _ _) (modelDataOf D bdv S.nCells)
        (networkAt act attention false 2 specs 1 θ) beta p = .ok out ∧
      out.loss 0 = 0 ∧ u z - v z = K := by
  classical
  let M := modelDataOf D bdv S.nCells
  obtain ⟨z, hz, hzM⟩ := (cell_infinite (hcells c hc).1).exists_notMem_finset
    (univ.image M.inputTensor ∪ univ.image M.dirichletInput)
  have hzt : ¬ IsTrainingPoint M z := by
    rintro (⟨i, rfl⟩ | ⟨i, rfl⟩)
    · exact hzM (mem_union_left _ (mem_image_of_mem _ (mem_univ i)))
    · exact hzM (mem_union_right _ (mem_image_of_mem _ (mem_univ i)))
  have hc' := constantCoefficients_iff hk hco D.nCells nq
  obtain ⟨pt, -, hsh, -⟩ := C46_residuals ext mp cells bd s dict f plot S S' D bdv h hD hr hty hcells
    (fun _ => e) v b r hflux hsol
  obtain ⟨out, -, ho, -, e1, -, e3⟩ := C46_exact_solution ext mp cells bd s dict f plot S S' D bdv h hD hr hty
    hcells kind hk p e v b r hc' hflux hsol _ (asNetwork_rowWise fun _ => v) beta
  obtain ⟨θ, u, hrow, hstep, hX'⟩ := C91_dense act attention a ha dims specs hs (modelDataOf D bdv S.nCells) pt
    hsh beta p kind hk e b r hco v (fun z => v z + K) {z} (by simpa using hzt) (by simpa using hdims)
  refine ⟨z, θ, u, out, hz, hrow, hstep.trans ho, e3 hbd, ?_⟩
  rw [hX' z (by simp)]
  ring

/-! ## Concrete cases -/

lemma demo_shaped : Shaped demoModel (fun c q => ((c.val * 2 + q.val : ℕ), 1)) :=
  ⟨rfl, rfl, fun c q r hr => by simp [demoModel, hr]⟩

lemma demo_other (z : ℝ × ℝ) (hz : z.2 = 10) : ¬ IsTrainingPoint demoModel z := by
  rintro (⟨i, rfl⟩ | ⟨i, rfl⟩) <;> simp [demoModel] at hz

/-- The hypotheses of `C91_dense` for `demoModel`, two hidden layers, any function `v` and one further point: the
losses are those of `v`, the value at `(10, 10)` is `7`. -/
example (attention : Batch → Except PyErr Batch) (v : ℝ × ℝ → ℝ) : ∃ (θ : Weights) (u : ℝ × ℝ → ℝ),
    RowWise (networkAt (fun _ => Real.tanh) attention false 2 [⟨2, some "tanh"⟩, ⟨21, some "tanh"⟩, ⟨1, none⟩] 1 θ)
      (fun _ => u) ∧
    trainStepDense (lossOf .poisson 2 1 2) demoModel (networkAt (fun _ => Real.tanh) attention false 2
        [⟨2, some "tanh"⟩, ⟨21, some "tanh"⟩, ⟨1, none⟩] 1 θ) 10 (some [("eps", 1)])
      = trainStepDense (lossOf .poisson 2 1 2) demoModel (asNetwork fun _ => v) 10 (some [("eps", 1)]) ∧
    u (10, 10) = 7 := by
  obtain ⟨θ, u, h1, h2, h3⟩ := C91_dense (fun _ => Real.tanh) attention "tanh" rfl [2, 2, 21, 1] _ rfl demoModel _
    demo_shaped 10 (some [("eps", 1)]) .poisson (Or.inl rfl) 1 (0, 0) 0 ⟨1, ⟨_, rfl, rfl⟩, rfl, rfl, rfl⟩ v (fun _ => 7)
    {(10, 10)} (by
      intro z hz
      rw [Finset.mem_singleton] at hz
      subst hz
      rintro (⟨i, hi⟩ | ⟨i, hi⟩)
      · simp [demoModel] at hi
      · simp [demoModel] at hi)
    ⟨by decide, rfl, rfl, fun k h1 h2 => by
      have : k = 1 := by
        simp only [List.length_cons, List.length_nil] at h2
        omega
      subst this
      decide, by decide⟩
  exact ⟨θ, u, h1, h2, h3 _ (by simp)⟩

/-- The hypotheses of `C91_hard` (constraint `x + (1 + y²) u`), `C91_inverse` and `C91_inverse_domain`. -/
example (attention : Batch → Except PyErr Batch) (v w : ℝ × ℝ → ℝ) :
    (∃ θ, trainStepHard (lossOf .poisson 2 1 2) demoModel (networkHard (fun _ => Real.tanh) attention false
        (layersAt θ 0 2 [⟨15, some "tanh"⟩, ⟨1, none⟩]) (List.zipWith fun x y => y.map fun t =>
          (fun z : ℝ × ℝ => z.1) (x.getD 0 0, x.getD 1 0)
            + (fun z : ℝ × ℝ => 1 + z.2 ^ 2) (x.getD 0 0, x.getD 1 0) * t) 1) 10 (some [("eps", 1)])
      = trainStepHard (lossOf .poisson 2 1 2) demoModel (asNetwork fun _ : Fin 1 => v) 10 (some [("eps", 1)])) ∧
    (∃ θ, θ (.inverse "eps") = 3 ∧ trainStepInverse (lossPoissonInverse 2 1 2) demoModel
        (fun _ : Fin 1 => (5, 5)) (fun _ => 1) (inverseAt θ ["eps"])
        (networkAt (fun _ => Real.tanh) attention false 2 [⟨24, some "tanh"⟩, ⟨1, none⟩] 1 θ) 10 none
      = trainStepInverse (lossPoissonInverse 2 1 2) demoModel (fun _ : Fin 1 => (5, 5)) (fun _ => 1)
        (some [("eps", 3)]) (asNetwork fun _ : Fin 1 => v) 10 none) ∧
    ∃ θ, trainStepInverseDomain (lossCd2dInverseDomain 2 1 2) demoModel (fun _ : Fin 1 => (5, 5)) (fun _ => 1)
        (networkAt (fun _ => Real.tanh) attention false 2 [⟨24, some "tanh"⟩, ⟨2, none⟩] 2 θ) 10
        (some [("b_x", 1), ("b_y", 0), ("c", 2)])
      = trainStepInverseDomain (lossCd2dInverseDomain 2 1 2) demoModel (fun _ : Fin 1 => (5, 5)) (fun _ => 1)
        (asNetwork ![v, w]) 10 (some [("b_x", 1), ("b_y", 0), ("c", 2)]) := by
  refine ⟨?_, ?_, ?_⟩
  · obtain ⟨θ, u, -, h, -⟩ := C91_hard (fun _ => Real.tanh) attention "tanh" rfl [2, 15, 1] _ rfl demoModel _
      demo_shaped 10 (some [("eps", 1)]) .poisson (Or.inl rfl) 1 (0, 0) 0 ⟨1, ⟨_, rfl, rfl⟩, rfl, rfl, rfl⟩
      (fun z => z.1) (fun z => 1 + z.2 ^ 2) (fun i => ⟨by fun_prop, by fun_prop, by positivity⟩) v (fun _ => 7)
      {(10, 10)} (by
        intro z hz
        rw [Finset.mem_singleton] at hz
        subst hz
        exact ⟨fun i hi => demo_other (10, 10) rfl (Or.inl ⟨i, hi⟩), by norm_num⟩)
      ⟨by decide, rfl, rfl, fun k h1 h2 => by
        simp only [List.length_cons, List.length_nil] at h2
        omega, by decide⟩
    exact ⟨θ, h⟩
  · obtain ⟨θ, u, h0, -, h, -⟩ := C91_inverse (fun _ => Real.tanh) attention "tanh" rfl [2, 24, 1] _ rfl demoModel _
      demo_shaped 10 none (fun _ : Fin 1 => (5, 5)) (fun _ => 1) ["eps"] (by simp) (fun _ => 3) v (fun _ => 7)
      {(10, 10)} (by
        intro z hz
        rw [Finset.mem_singleton] at hz
        subst hz
        exact ⟨demo_other _ rfl, fun _ h => by norm_num at h⟩)
      ⟨by decide, rfl, rfl, fun k h1 h2 => by
        simp only [List.length_cons, List.length_nil] at h2
        omega, by decide⟩
    exact ⟨θ, h0 _, h⟩
  · obtain ⟨θ, u, -, h, -⟩ := C91_inverse_domain (fun _ => Real.tanh) attention "tanh" rfl [2, 24, 2] _ rfl demoModel
      _ demo_shaped 10 (some [("b_x", 1), ("b_y", 0), ("c", 2)]) (fun _ : Fin 1 => (5, 5)) (fun _ => 1) (1, 0) 2
      ⟨_, rfl, rfl⟩ ⟨_, rfl, rfl⟩ ⟨_, rfl, rfl⟩ ![v, w] (fun _ _ => 7)
      {(10, 10)} (by
        intro z hz
        rw [Finset.mem_singleton] at hz
        subst hz
        exact ⟨demo_other _ rfl, fun _ h => by norm_num at h⟩)
      ⟨by decide, rfl, rfl, fun k h1 h2 => by
        simp only [List.length_cons, List.length_nil] at h2
        omega, by decide⟩
    exact ⟨θ, h⟩

/-- The hypotheses of `C91_no_error_bound`: the solution `x²` of `-Δ v = -2` on two cells, one boundary point. -/
example (attention : Batch → Except PyErr Batch) (beta K : ℝ) :
    ∃ nq, ∃ S : Fespace2D (ℝ → ℝ → ℝ) ℝ (defectSettings.feOrder.toNat ^ 2) nq, ∃ D, ∃ specs θ u z,
      ∃ out : TrainOut 1, Discretised demoCells (fun _ _ => -2) defectSettings S D ∧ z ∈ cellSet kiteCell ∧
      RowWise (networkAt (fun _ => Real.tanh) attention false 2 specs 1 θ) (fun _ => u) ∧
      trainStepDense (lossOf .poisson _ _ _) (modelDataOf D ([(3, 0)], [9]) S.nCells)
        (networkAt (fun _ => Real.tanh) attention false 2 specs 1 θ) beta (some [("eps", 1)]) = .ok out ∧
      out.loss 0 = 0 ∧ u z - z.1 ^ 2 = K := by
  obtain ⟨nq, S, D, ⟨ext, mp, bd, dict, plot, S', h, hr, hD⟩, hpar⟩ := defect_space fun _ _ => -2
  have hdx : dx (fun z : ℝ × ℝ => z.1 ^ 2) = fun z => 2 * z.1 := by
    funext z
    simp [dx]
  have hdy : dy (fun z : ℝ × ℝ => z.1 ^ 2) = fun _ => 0 := by
    funext z
    simp [dy]
  obtain ⟨specs, hs, -, -⟩ := C51_layers [2, 3 * (D.nCells * nq + 1 + 1), 1] "tanh" (by simp)
  obtain ⟨z, θ, u, out, h1, h2, h3, h4, h5⟩ := C91_no_error_bound ext mp demoCells bd defectSettings dict _ plot S S' D
    ([(3, 0)], [9]) h hD hr (by decide) (fun c hc => ⟨(demo_cells_ok c hc).1, fun h => absurd h (by decide)⟩)
    .poisson (Or.inl rfl) (some [("eps", 1)]) 1 (fun z => z.1 ^ 2) (0, 0) 0 ⟨1, ⟨_, rfl, rfl⟩, rfl, rfl, rfl⟩
    (fun c _ => (flux_of_polynomial _ _ 2 (by norm_num) c 1 _).1 square_polynomial (by decide))
    (fun c _ z _ => by
      rw [hdx, hdy]
      have e1 : dx (fun z : ℝ × ℝ => 1 * (2 * z.1)) z = 2 := by simp [dx]
      have e2 : dy (fun z : ℝ × ℝ => (1 : ℝ) * 0) z = 0 := by simp [dy]
      rw [e1, e2]
      norm_num)
    (fun i => by
      rcases i with ⟨_ | n, hi⟩
      · norm_num
      · simp at hi) (fun _ => Real.tanh) attention "tanh" rfl _ specs hs
    ⟨by simp, rfl, rfl, fun k h1 h2 => by
      simp only [List.length_cons, List.length_nil] at h2
      omega, le_rfl⟩ beta kiteCell (by simp [demoCells]) K
  exact ⟨nq, S, D, specs, θ, u, z, out, ⟨⟨ext, mp, bd, dict, plot, S', h, hr, hD⟩, hpar⟩, h1, h2, h3, h4, h5⟩

/-- The hypotheses of `C91_small_loss` for the solution `x²`, with `δ = 0`. -/
example (attention : Batch → Except PyErr Batch) (beta : ℝ) :
    ∃ nq, ∃ S : Fespace2D (ℝ → ℝ → ℝ) ℝ (defectSettings.feOrder.toNat ^ 2) nq, ∃ D, ∃ specs θ, ∃ out : TrainOut 1,
      Discretised demoCells (fun _ _ => -2) defectSettings S D ∧
      trainStepDense (lossOf .poisson _ _ _) (modelDataOf D ([(3, 0)], [9]) S.nCells)
        (networkAt (fun _ => Real.tanh) attention false 2 specs 1 θ) beta (some [("eps", 1)]) = .ok out ∧
      0 ≤ out.loss 0 ∧ out.loss 0 ≤ 2 * (8 * 0) ^ 2 := by
  have hcells : ∀ c ∈ demoCells, ConvexCCW c := fun c hc => (demo_cells_ok c hc).1
  obtain ⟨nq, S, D, hS⟩ := defect_space fun _ _ => -2
  obtain ⟨ψ, hψ⟩ := testFunctions_exist demoCells hcells defectSettings.feType defectSettings.feOrder.toNat
  have ha : IsPolynomial (fun i j => i + j ≤ 0) fun _ : ℝ × ℝ => (1 : ℝ) := const_polynomial 0 1
  have hf : IsPolynomial (fun i j => i + j ≤ 0 + 2) fun _ : ℝ × ℝ => (-2 : ℝ) := const_polynomial _ _
  obtain ⟨specs, hs, -, -⟩ := C51_layers [2, 3 * (D.nCells * nq + 1), 1] "tanh" (by simp)
  obtain ⟨θ, out, h1, h2⟩ := C91_small_loss (ψ := ψ) ⟨hcells, hψ, fun _ _ => continuousOn_const⟩ hS (by decide)
    ([(3, 0)], [9]) .poisson (Or.inl rfl) (some [("eps", 1)]) 1 (0, 0) 0 ⟨1, ⟨_, rfl, rfl⟩, rfl, rfl, rfl⟩
    (fun z => z.1 ^ 2) (fun c _ => by
      have h1 := polynomial_defect (f := fun _ _ => -2) ha square_polynomial hf (0, 0) 0 (cellSet c)
      have e1 : strongDefect (fun _ => 1) (fun z => z.1 ^ 2) (0, 0) 0 (fun _ _ => (-2 : ℝ)) = fun _ _ => 0 := by
        funext x y
        rw [square_defect]
        norm_num
      rw [e1] at h1
      simpa using h1.solves) 0
    (integrandsNear_polynomial (f := fun _ _ => -2) ha square_polynomial hf (0, 0) 0 hcells hψ (by decide))
    (fun i => by
      rcases i with ⟨_ | n, hi⟩
      · norm_num
      · simp at hi) (fun _ => Real.tanh) attention "tanh" rfl _ specs hs
    ⟨by simp, rfl, rfl, fun k h1 h2 => by
      simp only [List.length_cons, List.length_nil] at h2
      omega, le_rfl⟩ beta
  exact ⟨nq, S, D, specs, θ, out, hS, h1, by simpa [demoCells] using h2⟩

end FastVPINNs
