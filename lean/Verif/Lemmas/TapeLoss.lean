import Verif.Lemmas.TapeNet
import Verif.Lemmas.Train

/-! # The recorded losses: values and regularity -/

namespace FastVPINNs

open Filter Topology Spec

/-- The numbers read are regular, and no absolute value is taken. -/
def ExprOf.RegIn {ι : Type} (m : ℕ) (ρ : ι → ℝ) : ExprOf (Node ι) → Prop
  | .val _ x => x.Regular m ρ
  | .add a b => a.RegIn m ρ ∧ b.RegIn m ρ
  | .sub a b => a.RegIn m ρ ∧ b.RegIn m ρ
  | .mul a b => a.RegIn m ρ ∧ b.RegIn m ρ
  | .sq a => a.RegIn m ρ
  | .abs _ => False
  | .sum _ f => ∀ i, (f i).RegIn m ρ
  | .mean _ f => ∀ i, (f i).RegIn m ρ

lemma regular_ofExpr {ι : Type} {m : ℕ} {ρ : ι → ℝ} : ∀ {e : ExprOf (Node ι)}, e.RegIn m ρ →
    (Node.ofExpr e).Regular m ρ
  | .val _ _, h => h
  | .add _ _, h => ⟨regular_ofExpr h.1, regular_ofExpr h.2⟩
  | .sub _ _, h => ⟨regular_ofExpr h.1, regular_ofExpr h.2⟩
  | .mul _ _, h => ⟨regular_ofExpr h.1, regular_ofExpr h.2⟩
  | .sq a, h => regular_ofExpr (e := a) h
  | .abs _, h => h.elim
  | .sum _ f, h => fun i => regular_ofExpr (e := f i) (h i)
  | .mean _ f, h => fun i => regular_ofExpr (e := f i) (h i)

/-- The numbers of the expressions. -/
noncomputable def evalCells {nc n : ℕ} (ρ : Source n → ℝ) (es : Fin nc → ExprOf (Node (Source n))) : Fin nc → ℝ :=
  fun c => (Node.ofExpr (es c)).value ρ

/-- The numbers of a matrix. -/
noncomputable def valMat {a b n : ℕ} (ρ : Source n → ℝ) (A : Fin a → Fin b → Node (Source n)) : Fin a → Fin b → ℝ :=
  fun i j => (A i j).value ρ

section
variable {nc nt nq nIn nBd dout : ℕ} (M : ModelData nc nt nq nIn nBd) (ρ : Source nIn → ℝ) (p : ParamDict)

lemma lossN_value (kind : LossKind) (hk : kind.forward) (u ux uy : Fin nc → Fin nq → Node (Source nIn)) :
    (lossN M p kind [] u ux uy).map (evalCells ρ)
      = (lossOf kind nc nt nq).call (lossKwargs M (valMat ρ u) (valMat ρ ux) (valMat ρ uy) p ++ []) := by
  rw [forward_call hk]
  rcases hk with rfl | rfl | rfl <;> simp only [lossN, lossE, pdeLossPoissonE, pdeLossCd2dE, pdeLossCd2dRestE,
    pdeLossHelmholtzE, paramGetE, runLoss, pdeLossPoisson, pdeLossCd2d, pdeLossHelmholtz]
  · cases h1 : paramGet p "eps" <;> rfl
  · cases h1 : paramGet p "eps" <;> cases h2 : paramGet p "b_x" <;> cases h3 : paramGet p "b_y" <;>
      cases h4 : paramGet p "c" <;> rfl
  · cases h1 : paramGet p "eps" <;> cases h2 : paramGet p "k" <;> simp only [Except.map]
    congr 1
    funext c
    simp only [evalCells, meanSquare0E, meanSquare0, Node.ofExpr, Node.value, transposeE, transpose, matvecE, matvec,
      readMat, readPred, constMat, valMat, Leaf.ofReal, sq]

lemma domainN_value (u ux uy k : Fin nc → Fin nq → Node (Source nIn)) :
    (lossN M p .cd2dInverseDomain [k] u ux uy).map (evalCells ρ)
      = (lossOf .cd2dInverseDomain nc nt nq).call (lossKwargs M (valMat ρ u) (valMat ρ ux) (valMat ρ uy) p
        ++ [("inverse_params_list", .preds [valMat ρ k])]) := by
  have h : (lossOf .cd2dInverseDomain nc nt nq).call (lossKwargs M (valMat ρ u) (valMat ρ ux) (valMat ρ uy) p
        ++ [("inverse_params_list", .preds [valMat ρ k])]) = runLoss .cd2dInverseDomain M.preMultiplierVal
          M.preMultiplierGradX M.preMultiplierGradY (valMat ρ u) (valMat ρ ux) (valMat ρ uy) M.forceMatrix p none
          [valMat ρ k] := rfl
  rw [h]
  simp only [lossN, lossE, pdeLossCd2dRestE, pdeLossCd2dInverseDomainE, paramGetE, runLoss, pdeLossCd2dInverseDomain,
    pyIndex]
  cases h2 : paramGet p "b_x" <;> cases h3 : paramGet p "b_y" <;> cases h4 : paramGet p "c" <;> rfl

lemma inverseN_value (X : Fin nIn → ℝ × ℝ) (θ : Weights) (keys : List String)
    (u ux uy : Fin nc → Fin nq → Node (Source nIn)) :
    (poissonInverseN M keys ux uy).map (evalCells (Source.at X θ))
      = (lossOf .poissonInverse nc nt nq).call (lossKwargs M (valMat (Source.at X θ) u) (valMat (Source.at X θ) ux)
        (valMat (Source.at X θ) uy) p ++ [("inverse_params_dict", .params (inverseAt θ keys))]) := by
  have h : (lossOf .poissonInverse nc nt nq).call (lossKwargs M (valMat (Source.at X θ) u) (valMat (Source.at X θ) ux)
        (valMat (Source.at X θ) uy) p ++ [("inverse_params_dict", .params (inverseAt θ keys))])
      = runLoss .poissonInverse M.preMultiplierVal M.preMultiplierGradX M.preMultiplierGradY
          (valMat (Source.at X θ) u) (valMat (Source.at X θ) ux) (valMat (Source.at X θ) uy) M.forceMatrix p
          (inverseAt θ keys) [] := rfl
  rw [h]
  have hg : paramGet (inverseAt θ keys) "eps"
      = if "eps" ∈ keys then .ok (θ (.inverse "eps")) else .error .keyError := by
    unfold paramGet inverseAt
    dsimp only
    have hl : ∀ keys : List String, (keys.map fun k => (k, θ (.inverse k))).lookup "eps"
        = if "eps" ∈ keys then some (θ (.inverse "eps")) else none := by
      intro keys
      induction keys with
      | nil => rfl
      | cons k keys ih =>
        rw [List.map_cons, List.lookup_cons, ih]
        by_cases hk : "eps" = k
        · subst hk; simp
        · have hb : ("eps" == k) = false := by simpa using hk
          simp [hb, hk]
    rw [hl]
    split_ifs <;> rfl
  simp only [runLoss, pdeLossPoissonInverse, hg, poissonInverseN]
  split_ifs <;> rfl

variable {m : ℕ}

lemma lossN_regular {kind : LossKind} {coeffs : List (Fin nc → Fin nq → Node (Source nIn))}
    {u ux uy : Fin nc → Fin nq → Node (Source nIn)} {es : Fin nc → ExprOf (Node (Source nIn))}
    (h : lossN M p kind coeffs u ux uy = .ok es) (hu : ∀ c q, (u c q).Regular m ρ) (hx : ∀ c q, (ux c q).Regular m ρ)
    (hy : ∀ c q, (uy c q).Regular m ρ) (hk : ∀ k ∈ coeffs, ∀ c q, (k c q).Regular m ρ) (c : Fin nc) :
    (es c).RegIn m ρ := by
  have hc : ∀ x : ℝ, (Node.const x : Node (Source nIn)).Regular m ρ := fun _ => trivial
  cases kind <;> simp only [lossN, lossE, pdeLossPoissonE, pdeLossCd2dE, pdeLossCd2dRestE,
    pdeLossHelmholtzE, paramGetE, pdeLossCd2dInverseDomainE] at h
  case poisson =>
    cases h1 : paramGet p "eps" <;> simp only [h1] at h <;> cases h
    simp [meanSquare0E, ExprOf.RegIn, transposeE, matvecE, readMat, readPred, Leaf.ofReal, constMat, hc, hx, hy]
  case poissonInverse => simp [paramGet] at h
  case cd2dInverse => simp [paramGet] at h
  case helmholtz =>
    cases h1 : paramGet p "eps" <;> cases h2 : paramGet p "k" <;> simp only [h1, h2] at h <;> cases h
    simp [meanSquare0E, ExprOf.RegIn, transposeE, matvecE, readMat, readPred, Leaf.ofReal, constMat, hc, hx, hy, hu]
  case cd2d =>
    cases h1 : paramGet p "eps" <;> cases h2 : paramGet p "b_x" <;> cases h3 : paramGet p "b_y" <;>
      cases h4 : paramGet p "c" <;> simp only [h1, h2, h3, h4] at h <;> cases h
    simp [meanSquare0E, ExprOf.RegIn, transposeE, matvecE, readMat, readPred, Leaf.ofReal, constMat, hc, hx, hy, hu]
  case cd2dInverseDomain =>
    cases h1 : pyIndex coeffs 0 with
    | error e => simp [h1] at h
    | ok k =>
      have hk' : ∀ c q, (k c q).Regular m ρ := hk k (by
        cases coeffs with
        | nil => simp [pyIndex] at h1
        | cons a l =>
          simp [pyIndex] at h1
          simp [h1])
      cases h2 : paramGet p "b_x" <;> cases h3 : paramGet p "b_y" <;>
        cases h4 : paramGet p "c" <;> simp only [h1, h2, h3, h4] at h <;> cases h
      simp [meanSquare0E, ExprOf.RegIn, transposeE, matvecE, readMat, readPred, Leaf.ofReal, constMat, hc, hx, hy, hu, hk']

lemma poissonInverseN_regular {keys : List String} {ux uy : Fin nc → Fin nq → Node (Source nIn)}
    {es : Fin nc → ExprOf (Node (Source nIn))} (h : poissonInverseN M keys ux uy = .ok es)
    (hx : ∀ c q, (ux c q).Regular m ρ) (hy : ∀ c q, (uy c q).Regular m ρ) (c : Fin nc) : (es c).RegIn m ρ := by
  have hc : ∀ x : ℝ, (Node.const x : Node (Source nIn)).Regular m ρ := fun _ => trivial
  have hs : ∀ x, (Node.source x : Node (Source nIn)).Regular m ρ := fun _ => trivial
  simp only [poissonInverseN] at h
  split_ifs at h
  cases h
  simp [meanSquare0E, ExprOf.RegIn, transposeE, matvecE, readMat, readPred, constMat, hc, hs, hx, hy]

lemma totalPdeE_value (es : Fin nc → ExprOf (Node (Source nIn))) :
    (Node.ofExpr (totalPdeE es)).value ρ = 0.0 + ∑ c, evalCells ρ es c := rfl

lemma totalPdeE_regular {es : Fin nc → ExprOf (Node (Source nIn))} (h : ∀ c, (es c).RegIn m ρ) :
    (Node.ofExpr (totalPdeE es)).Regular m ρ := ⟨trivial, fun c => regular_ofExpr (h c)⟩

lemma dataLossN_value (net : NodeBatch nIn → Except PyErr (NodeBatch nIn)) {k : ℕ} (points : Fin k → ℝ × ℝ)
    (values : Fin k → ℝ) (column : Fin dout → ℕ) (j : Fin dout) :
    (dataLossN net points values column j).value ρ
      = meanSquareError (fun r j => (nodeEntry (net (constRows points)) r (column j)).value ρ) values j := rfl

lemma dataLossN_regular (net : NodeBatch nIn → Except PyErr (NodeBatch nIn)) {k : ℕ} (points : Fin k → ℝ × ℝ)
    (values : Fin k → ℝ) (column : Fin dout → ℕ) (j : Fin dout)
    (h : ∀ r j, (nodeEntry (net (constRows points)) r j).Regular m ρ) :
    (dataLossN net points values column j).Regular m ρ := fun _ => ⟨h _ _, trivial⟩

end

end FastVPINNs
