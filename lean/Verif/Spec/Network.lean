import Verif.Model.Network
import Mathlib.Algebra.BigOperators.Fin

/-! # Specification: fully connected networks -/

namespace FastVPINNs.Spec

open Finset

/-- The values after `k` hidden layers of a fully connected network with `dims k` units in layer `k`
(layer `0` is the input `x`), kernels `W k`, biases `b k` and activation `σ`. -/
noncomputable def hiddenValues (σ : ℝ → ℝ) (dims : ℕ → ℕ) (W : ℕ → ℕ → ℕ → ℝ) (b : ℕ → ℕ → ℝ)
    (x : ℕ → ℝ) : ℕ → ℕ → ℝ
  | 0, i => x i
  | k + 1, j => σ (∑ i ∈ range (dims k), hiddenValues σ dims W b x k i * W k i j + b k j)

/-- The output of the network with `m` hidden layers: one more layer, without activation. -/
noncomputable def outputValue (σ : ℝ → ℝ) (dims : ℕ → ℕ) (W : ℕ → ℕ → ℕ → ℝ) (b : ℕ → ℕ → ℝ)
    (m : ℕ) (x : ℕ → ℝ) (j : ℕ) : ℝ :=
  ∑ i ∈ range (dims m), hiddenValues σ dims W b x m i * W m i j + b m j

/-- Entry of the kernel of a layer. -/
noncomputable def kernelAt (L : DenseLayer) (i j : ℕ) : ℝ :=
  if h : i < L.inDim ∧ j < L.units then L.kernel ⟨i, h.1⟩ ⟨j, h.2⟩ else 0

/-- Entry of the bias of a layer. -/
noncomputable def biasAt (L : DenseLayer) (j : ℕ) : ℝ := if h : j < L.units then L.bias ⟨j, h⟩ else 0

/-- The kernels of a list of layers. -/
noncomputable def kernels (layers : List DenseLayer) (k i j : ℕ) : ℝ :=
  match layers[k]? with
  | some L => kernelAt L i j
  | none => 0

/-- The biases of a list of layers. -/
noncomputable def biases (layers : List DenseLayer) (k j : ℕ) : ℝ :=
  match layers[k]? with
  | some L => biasAt L j
  | none => 0

/-- `layers` is a network of the architecture `dims` (widths of input, hidden layers and output), with
any weights: layer `k` goes from width `dims[k]` to `dims[k+1]`, all but the last have the activation. -/
structure Architecture (dims : List ℕ) (activation : String) (layers : List DenseLayer) : Prop where
  count : layers.length + 1 = dims.length
  pos : 0 < layers.length
  layer : ∀ (k : ℕ) (hk : k < layers.length),
    layers[k].inDim = dims[k]'(by omega) ∧ layers[k].units = dims[k + 1]'(by omega) ∧
      layers[k].activation = if k + 1 < layers.length then some activation else none

end FastVPINNs.Spec
