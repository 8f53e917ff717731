import Verif.Spec.Network
import Mathlib.Algebra.BigOperators.Intervals
import Mathlib.Analysis.Calculus.FDeriv.Add
import Mathlib.Analysis.Calculus.FDeriv.Mul
import Mathlib.Analysis.Calculus.FDeriv.Comp
import Mathlib.Analysis.Calculus.FDeriv.Prod
import Mathlib.Analysis.SpecialFunctions.ExpDeriv

/-! # Lemmas on fully connected networks -/

namespace FastVPINNs

open Finset

theorem mapE_eq_map {α β ε : Type*} (f : α → Except ε β) (g : α → β) (l : List α)
    (h : ∀ a ∈ l, f a = .ok (g a)) : mapE f l = .ok (l.map g) := by
  induction l with
  | nil => rfl
  | cons a l ih =>
    simp [mapE, h a (by simp), ih (fun b hb => h b (List.mem_cons_of_mem _ hb))]

theorem getD_lt {α : Type*} (l : List α) (d : α) (i : ℕ) (h : i < l.length) : l.getD i d = l[i] := by
  simp [h]

/-- The activation of a layer as a function. -/
def actOf (act : String → ℝ → ℝ) : Option String → ℝ → ℝ
  | none, z => z
  | some a, z => act a z

/-- A layer on a row of the right width. -/
noncomputable def rowOf (act : String → ℝ → ℝ) (L : DenseLayer) (x : List ℝ) : List ℝ :=
  List.ofFn fun j : Fin L.units =>
    actOf act L.activation (∑ i ∈ range L.inDim, x.getD i 0 * Spec.kernelAt L i j + Spec.biasAt L j)

theorem applyLayer_eq (act : String → ℝ → ℝ) (L : DenseLayer) (x : List ℝ) (h : x.length = L.inDim) :
    applyLayer act L x = .ok (rowOf act L x) := by
  unfold applyLayer rowOf
  rw [dif_pos h]
  refine congrArg Except.ok (congrArg List.ofFn (funext fun j => ?_))
  have hz : (∑ i : Fin L.inDim, x[i.val]'(by omega) * L.kernel i j) + L.bias j
      = ∑ i ∈ range L.inDim, x.getD i 0 * Spec.kernelAt L i j + Spec.biasAt L j := by
    rw [Finset.sum_range]
    congr 1
    · refine Finset.sum_congr rfl fun i _ => ?_
      rw [getD_lt _ _ _ (by omega : i.val < x.length)]
      unfold Spec.kernelAt
      rw [dif_pos ⟨i.isLt, j.isLt⟩]
    · unfold Spec.biasAt
      rw [dif_pos j.isLt]
  simp only [hz]
  cases L.activation <;> rfl

/-- All layers on a row. -/
noncomputable def rowFn (act : String → ℝ → ℝ) : List DenseLayer → List ℝ → List ℝ
  | [], x => x
  | L :: rest, x => rowFn act rest (rowOf act L x)

theorem hiddenValues_shift (σ : ℝ → ℝ) (dims : ℕ → ℕ) (W : ℕ → ℕ → ℕ → ℝ) (b : ℕ → ℕ → ℝ) (x : ℕ → ℝ)
    (k : ℕ) : Spec.hiddenValues σ dims W b x (k + 1)
      = Spec.hiddenValues σ (fun i => dims (i + 1)) (fun i => W (i + 1)) (fun i => b (i + 1))
          (Spec.hiddenValues σ dims W b x 1) k := by
  induction k with
  | zero => rfl
  | succ k ih =>
    funext j
    rw [Spec.hiddenValues, ih]
    rfl

theorem outputValue_shift (σ : ℝ → ℝ) (dims : ℕ → ℕ) (W : ℕ → ℕ → ℕ → ℝ) (b : ℕ → ℕ → ℝ) (x : ℕ → ℝ)
    (m j : ℕ) : Spec.outputValue σ dims W b (m + 1) x j
      = Spec.outputValue σ (fun i => dims (i + 1)) (fun i => W (i + 1)) (fun i => b (i + 1)) m
          (Spec.hiddenValues σ dims W b x 1) j := by
  unfold Spec.outputValue
  rw [hiddenValues_shift]

/-- Only the entries of the input below the width matter. -/
theorem hiddenValues_congr (σ : ℝ → ℝ) (dims : ℕ → ℕ) (W : ℕ → ℕ → ℕ → ℝ) (b : ℕ → ℕ → ℝ)
    (x y : ℕ → ℝ) (h : ∀ i < dims 0, x i = y i) (k : ℕ) :
    (∀ i < dims k, Spec.hiddenValues σ dims W b x k i = Spec.hiddenValues σ dims W b y k i) := by
  induction k with
  | zero => exact h
  | succ k ih =>
    intro i _
    simp only [Spec.hiddenValues]
    rw [Finset.sum_congr rfl fun a ha => by rw [ih a (Finset.mem_range.mp ha)]]

theorem outputValue_congr (σ : ℝ → ℝ) (dims : ℕ → ℕ) (W : ℕ → ℕ → ℕ → ℝ) (b : ℕ → ℕ → ℝ)
    (x y : ℕ → ℝ) (h : ∀ i < dims 0, x i = y i) (m j : ℕ) :
    Spec.outputValue σ dims W b m x j = Spec.outputValue σ dims W b m y j := by
  unfold Spec.outputValue
  rw [Finset.sum_congr rfl fun a ha => by
    rw [hiddenValues_congr σ dims W b x y h m a (Finset.mem_range.mp ha)]]

/-- The network on a batch, and its entries. -/
theorem applyLayers_arch (act : String → ℝ → ℝ) (a : String) (layers : List DenseLayer) (dims : List ℕ)
    (h : Spec.Architecture dims a layers) (X : Batch) (hX : ∀ x ∈ X, x.length = dims.getD 0 0) :
    applyLayers act layers X = .ok (X.map (rowFn act layers)) ∧
    ∀ x ∈ X, (rowFn act layers x).length = dims.getD layers.length 0 ∧
      ∀ j < dims.getD layers.length 0, (rowFn act layers x).getD j 0
        = Spec.outputValue (act a) (fun k => dims.getD k 0) (Spec.kernels layers) (Spec.biases layers)
            (layers.length - 1) (fun i => x.getD i 0) j := by
  induction layers generalizing dims X with
  | nil => exact absurd h.pos (by simp)
  | cons L rest ih =>
    have hl := h.layer 0 (by simp)
    have hc := h.count
    simp only [List.length_cons] at hc
    simp only [List.getElem_cons_zero] at hl
    obtain ⟨h1, h2, h3⟩ := hl
    have hw : ∀ x ∈ X, x.length = L.inDim := by
      intro x hx
      rw [hX x hx, h1, getD_lt _ _ _ (by omega)]
    have hmap : mapE (applyLayer act L) X = .ok (X.map (rowOf act L)) :=
      mapE_eq_map _ _ _ fun x hx => applyLayer_eq act L x (hw x hx)
    have hlen : ∀ x, (rowOf act L x).length = L.units := by
      intro x
      simp [rowOf]
    have hentry : ∀ x, ∀ j < L.units, (rowOf act L x).getD j 0
        = actOf act L.activation (∑ i ∈ range L.inDim, x.getD i 0 * Spec.kernelAt L i j + Spec.biasAt L j) := by
      intro x j hj
      rw [getD_lt _ _ _ (by rw [hlen]; exact hj)]
      simp [rowOf]
    cases rest with
    | nil =>
      simp only [applyLayers, hmap]
      refine ⟨rfl, fun x hx => ?_⟩
      have hd : dims.getD (L :: []).length 0 = L.units := by
        rw [h2]
        simp only [List.length_cons, List.length_nil]
        exact getD_lt _ _ _ _
      rw [hd]
      refine ⟨hlen x, fun j hj => ?_⟩
      change (rowOf act L x).getD j 0 = _
      rw [hentry x j hj, h3]
      have h0 : dims.getD 0 0 = L.inDim := by rw [h1]; exact getD_lt _ _ _ _
      have e : [L].length - 1 = 0 := rfl
      rw [e]
      unfold Spec.outputValue
      simp only [h0]
      simp [actOf, Spec.hiddenValues, Spec.kernels, Spec.biases]
    | cons L' rest' =>
      obtain ⟨d, dims, rfl⟩ : ∃ d ds, dims = d :: ds := by
        cases dims with
        | nil => simp at hc
        | cons d ds => exact ⟨d, ds, rfl⟩
      have harch : Spec.Architecture dims a (L' :: rest') := by
        refine ⟨?_, by simp, fun k hk => ?_⟩
        · simp only [List.length_cons] at hc ⊢
          omega
        · have := h.layer (k + 1) (by simpa using hk)
          simpa using this
      have h2' : L.units = dims.getD 0 0 := by
        rw [h2]
        simp only [List.length_cons] at hc
        cases dims with
        | nil => simp at hc
        | cons e es => simp
      obtain ⟨i1, i2⟩ := ih dims harch (X.map (rowOf act L)) (by
        intro x hx
        obtain ⟨y, -, rfl⟩ := List.mem_map.mp hx
        rw [hlen, h2'])
      simp only [applyLayers, hmap]
      simp only [applyLayers] at i1
      refine ⟨?_, fun x hx => ?_⟩
      · rw [i1, List.map_map]
        rfl
      · obtain ⟨j1, j2⟩ := i2 (rowOf act L x) (List.mem_map_of_mem hx)
        have hd : (d :: dims).getD (L :: L' :: rest').length 0 = dims.getD (L' :: rest').length 0 := by
          simp
        rw [hd]
        refine ⟨j1, fun j hj => ?_⟩
        change (rowFn act (L' :: rest') (rowOf act L x)).getD j 0 = _
        rw [j2 j hj]
        have e : (L :: L' :: rest').length - 1 = ((L' :: rest').length - 1) + 1 := by simp
        rw [e, outputValue_shift]
        have ek : (fun i => Spec.kernels (L :: L' :: rest') (i + 1)) = Spec.kernels (L' :: rest') := by
          funext i j k
          simp [Spec.kernels]
        have eb : (fun i => Spec.biases (L :: L' :: rest') (i + 1)) = Spec.biases (L' :: rest') := by
          funext i j
          simp [Spec.biases]
        have ed : (fun i => (d :: dims).getD (i + 1) 0) = fun i => dims.getD i 0 := by
          funext i
          simp
        rw [ek, eb]
        simp only [ed]
        refine outputValue_congr _ _ _ _ _ _ (fun i hi => ?_) _ _
        have hi' : i < L.units := by rw [h2']; exact hi
        rw [hentry x i hi', h3]
        have hd0 : L.inDim = d := by simpa using h1
        simp [actOf, Spec.hiddenValues, Spec.kernels, Spec.biases, hd0]

/-- The output is a differentiable function of the input coordinates. -/
theorem outputValue_differentiable (σ : ℝ → ℝ) (hσ : Differentiable ℝ σ) (dims : ℕ → ℕ)
    (W : ℕ → ℕ → ℕ → ℝ) (b : ℕ → ℕ → ℝ) (x : ℝ × ℝ → ℕ → ℝ) (hx : ∀ i, Differentiable ℝ fun p => x p i)
    (m j : ℕ) : Differentiable ℝ fun p => Spec.outputValue σ dims W b m (x p) j := by
  have hh : ∀ k i, Differentiable ℝ fun p => Spec.hiddenValues σ dims W b (x p) k i := by
    intro k
    induction k with
    | zero => exact hx
    | succ k ih =>
      intro i
      simp only [Spec.hiddenValues]
      refine hσ.comp ?_
      exact (Differentiable.fun_sum fun i _ => (ih i).mul_const _).add_const _
  unfold Spec.outputValue
  exact (Differentiable.fun_sum fun i _ => (hh m i).mul_const _).add_const _

end FastVPINNs
