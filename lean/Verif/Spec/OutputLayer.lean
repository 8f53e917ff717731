import Verif.Model.Training

/-! # Functions that are quadratic in some of the weights -/

namespace FastVPINNs.Spec

/-- The weights of one column of the layer number `L` (the last one is the output layer): what produces the
`j`-th output of the network from the values of the last hidden layer. -/
def OutputColumn (L j : ℕ) : Var → Prop
  | .kernel k _ j' => k = L ∧ j' = j
  | .bias k j' => k = L ∧ j' = j
  | .inverse _ => False

/-- `θ'` has the values of `θ` except for those of the variables `vars` that are in `P`. -/
def DifferOnly (P : Var → Prop) (vars : List Var) (θ θ' : Weights) : Prop :=
  ∀ v, θ' v ≠ θ v → v ∈ vars ∧ P v

/-- The weights on the line through `θ` (at 0) and `θ'` (at 1). -/
def blend (θ θ' : Weights) (t : ℝ) : Weights := fun v => (1 - t) * θ v + t * θ' v

/-- As a function of the variables in `P` alone, `J` is a convex polynomial of degree two. -/
def ConvexQuadratic (P : Var → Prop) (vars : List Var) (J : Weights → ℝ) : Prop :=
  ∀ θ θ', DifferOnly P vars θ θ' → ∃ Q, 0 ≤ Q ∧
    ∀ t, J (blend θ θ' t) = (1 - t) * J θ + t * J θ' - t * (1 - t) * Q

/-- Where the entries `grad` of the variables in `P` are zero, no choice of these variables gives a smaller
value. -/
def StationaryIsOptimal (P : Var → Prop) (vars : List Var) (J : Weights → ℝ) (grad : Weights → Var → ℝ) : Prop :=
  ∀ θ, (∀ v ∈ vars, P v → grad θ v = 0) → ∀ θ', DifferOnly P vars θ θ' → J θ ≤ J θ'

end FastVPINNs.Spec
