import Verif.Model.Attention
import Mathlib.Analysis.Calculus.Deriv.Basic

/-! # Specification: where the derivatives registered for the activations are right -/

namespace FastVPINNs.Spec

open Filter Topology

/-- Around `z`, `f 1` is the derivative of `f 0` and `f 2` that of `f 1`. -/
def SmoothAt (f : ℕ → ℝ → ℝ) (z : ℝ) : Prop :=
  (∀ᶠ y in 𝓝 z, HasDerivAt (f 0) (f 1 y) y) ∧ ∀ᶠ y in 𝓝 z, HasDerivAt (f 1) (f 2 y) y

/-- What unit `j` of the layer adds up for the input row `x`. -/
def preActivation (L : DenseLayer) (x : List ℝ) (j : Fin L.units) : ℝ :=
  ∑ i : Fin L.inDim, x.getD i 0 * L.kernel i j + L.bias j

/-- No unit of the network sits at a kink of its activation when the input row is `x`. -/
def NoKink (act : String → ℕ → ℝ → ℝ) : List DenseLayer → List ℝ → Prop
  | [], _ => True
  | L :: rest, x =>
    (∀ a, L.activation = some a → ∀ j, SmoothAt (act a) (preActivation L x j)) ∧
      NoKink act rest (List.ofFn fun j => match L.activation with
        | none => preActivation L x j
        | some a => act a 0 (preActivation L x j))

/-- No unit sits at a kink at any of the points (after the attention layer, if there is one). -/
def NoKinkAt (act : String → ℕ → ℝ → ℝ) (useAttention : Bool) (layers : List DenseLayer) {n : ℕ}
    (X : Fin n → ℝ × ℝ) : Prop :=
  ∀ rows, (if useAttention then attentionDot (pointRows X) else .ok (pointRows X)) = .ok rows →
    ∀ x ∈ rows, NoKink act layers x

end FastVPINNs.Spec
