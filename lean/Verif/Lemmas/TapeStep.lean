import Verif.Lemmas.TapeLoss

/-! # The recorded steps -/

namespace FastVPINNs

open Filter Topology Spec

section
variable {n : ℕ} (X : Fin n → ℝ × ℝ) (θ : Weights)

lemma update_at_var (v : Var) (t : ℝ) :
    Function.update (Source.at X θ) (.var v) t = Source.at X (Function.update θ v t) := by
  funext s
  cases s with
  | x r => simp [Source.at]
  | y r => simp [Source.at]
  | var w =>
    by_cases h : w = v
    · subst h; simp [Source.at]
    · simp [Source.at, h]

lemma update_at_x (r : Fin n) (t : ℝ) :
    Function.update (Source.at X θ) (.x r) t = Source.at (Function.update X r (t, (X r).2)) θ := by
  funext s
  cases s with
  | x r' =>
    by_cases h : r' = r
    · subst h; simp [Source.at]
    · simp [Source.at, h]
  | y r' =>
    by_cases h : r' = r
    · subst h; simp [Source.at]
    · simp [Source.at, h]
  | var w => simp [Source.at]

lemma update_at_y (r : Fin n) (t : ℝ) :
    Function.update (Source.at X θ) (.y r) t = Source.at (Function.update X r ((X r).1, t)) θ := by
  funext s
  cases s with
  | x r' =>
    by_cases h : r' = r
    · subst h; simp [Source.at]
    · simp [Source.at, h]
  | y r' =>
    by_cases h : r' = r
    · subst h; simp [Source.at]
    · simp [Source.at, h]
  | var w => simp [Source.at]

end

/-- The recorded network has the values of the network. -/
structure Records {n dout : ℕ} (netN : NodeBatch n → Except PyErr (NodeBatch n)) (net : Weights → Network dout) :
    Prop where
  source : ∀ X θ (r : Fin n) (j : Fin dout),
    (nodeEntry (netN (sourceRows n)) r j).value (Source.at X θ) = net θ n X r j
  const : ∀ X θ {m : ℕ} (P : Fin m → ℝ × ℝ) (r : Fin m) (j : Fin dout),
    (nodeEntry (netN (constRows P)) r j).value (Source.at X θ) = net θ m P r j

section
variable {nc nt nq nIn nBd dout : ℕ} (L : LossFunction nc nt nq) (M : ModelData nc nt nq nIn nBd)
  {netN : NodeBatch nIn → Except PyErr (NodeBatch nIn)} {net : Weights → Network dout}

lemma innerGradient_value {k : ℕ} {e : Fin nIn → Fin k → Node (Source nIn)}
    {g : Weights → (Fin nIn → ℝ × ℝ) → Fin nIn → Fin k → ℝ}
    (hg : ∀ X θ r j, (e r j).value (Source.at X θ) = g θ X r j) (X : Fin nIn → ℝ × ℝ) (θ : Weights)
    (hr : ∀ r j, (e r j).Regular 1 (Source.at X θ)) (r : Fin nIn) :
    ((innerGradient e (.x r)).value (Source.at X θ), (innerGradient e (.y r)).value (Source.at X θ))
      = tapeGradient (ι := Fin nIn × Fin k) (fun X i => g θ X i.1 i.2) X r := by
  have hs : (Node.sum nIn fun r => Node.sum k fun j => e r j).Regular 1 (Source.at X θ) := fun i j => hr i j
  unfold tapeGradient
  refine Prod.ext ?_ ?_
  · have h := (Node.hasDerivAt_back (Source.at X θ) (.x r) _ hs).deriv
    refine Eq.trans (h.symm.trans ?_) rfl
    refine congrArg (fun f => deriv f (X r).1) ?_
    funext t
    rw [update_at_x]
    simp only [Node.value, hg]
    rw [Fintype.sum_prod_type]
  · have h := (Node.hasDerivAt_back (Source.at X θ) (.y r) _ hs).deriv
    refine Eq.trans (h.symm.trans ?_) rfl
    refine congrArg (fun f => deriv f (X r).2) ?_
    funext t
    rw [update_at_y]
    simp only [Node.value, hg]
    rw [Fintype.sum_prod_type]

lemma innerGradient_regular {k m : ℕ} {e : Fin nIn → Fin k → Node (Source nIn)} {ρ : Source nIn → ℝ}
    (hr : ∀ r j, (e r j).Regular (m + 1) ρ) (s : Source nIn) : (innerGradient e s).Regular m ρ :=
  fun r j => Node.regular_back s (hr r j) trivial

lemma reshapeCellsN_value {n : ℕ} (nCells : ℤ) (v : Fin n → Node (Source nIn)) (ρ : Source nIn → ℝ) :
    reshapeCells nc nq nCells (fun r => (v r).value ρ) = (reshapeCellsN nc nq nCells v).map (valMat ρ) := by
  unfold reshapeCells reshapeCellsN
  split_ifs <;> rfl

lemma reshapeCellsN_mem {α : Type} {n : ℕ} {nCells : ℤ} {v : Fin n → α} {w : Fin nc → Fin nq → α}
    (h : reshapeCellsN nc nq nCells v = .ok w) (c : Fin nc) (q : Fin nq) : ∃ r, w c q = v r := by
  unfold reshapeCellsN at h
  split_ifs at h
  cases h
  exact ⟨_, rfl⟩

/-- The residuals have the values that the step computes. -/
lemma cellsResidualN_value (hN : Records netN net) (p : ParamDict) (extra : List (String × LossArg nc nt nq))
    (loss : (u ux uy : Fin nc → Fin nq → Node (Source nIn)) → Except PyErr (Fin nc → ExprOf (Node (Source nIn))))
    (θ : Weights)
    (hloss : ∀ u ux uy, (loss u ux uy).map (evalCells (Source.at M.inputTensor θ))
      = L.call (lossKwargs M (valMat (Source.at M.inputTensor θ) u) (valMat (Source.at M.inputTensor θ) ux)
        (valMat (Source.at M.inputTensor θ) uy) p ++ extra))
    (hr : ∀ (r : Fin nIn) (j : Fin dout),
      (nodeEntry (netN (sourceRows nIn)) r j).Regular 1 (Source.at M.inputTensor θ)) :
    cellsResidual L M (net θ) p extra
      = (cellsResidualN M netN dout loss).map (evalCells (Source.at M.inputTensor θ)) := by
  have hg := innerGradient_value (e := fun (r : Fin nIn) (j : Fin dout) => nodeEntry (netN (sourceRows nIn)) r j)
    (g := fun θ X r j => net θ nIn X r j) hN.source M.inputTensor θ hr
  unfold cellsResidual cellsResidualN
  simp only [← hg]
  have hf : flatten (net θ nIn M.inputTensor) = fun i => (flatten (fun (r : Fin nIn) (j : Fin dout) =>
      nodeEntry (netN (sourceRows nIn)) r j) i).value (Source.at M.inputTensor θ) := by
    funext i
    simp only [flatten, hN.source]
  rw [hf, reshapeCellsN_value, reshapeCellsN_value, reshapeCellsN_value]
  generalize reshapeCellsN nc nq M.nCells (fun r => innerGradient (fun (r : Fin nIn) (j : Fin dout) =>
      nodeEntry (netN (sourceRows nIn)) r j) (.x r)) = a
  generalize reshapeCellsN nc nq M.nCells (fun r => innerGradient (fun (r : Fin nIn) (j : Fin dout) =>
      nodeEntry (netN (sourceRows nIn)) r j) (.y r)) = b
  generalize reshapeCellsN nc nq M.nCells (flatten fun (r : Fin nIn) (j : Fin dout) =>
      nodeEntry (netN (sourceRows nIn)) r j) = c
  rcases a with _ | a <;> rcases b with _ | b <;> rcases c with _ | c <;> try rfl
  exact (hloss c a b).symm

lemma cellsResidualN_regular
    {loss : (u ux uy : Fin nc → Fin nq → Node (Source nIn)) → Except PyErr (Fin nc → ExprOf (Node (Source nIn)))}
    {m : ℕ} {ρ : Source nIn → ℝ}
    (hloss : ∀ u ux uy es, loss u ux uy = .ok es → (∀ c q, (u c q).Regular m ρ) → (∀ c q, (ux c q).Regular m ρ) →
      (∀ c q, (uy c q).Regular m ρ) → ∀ c, (es c).RegIn m ρ)
    (hr : ∀ (r : Fin nIn) (j : Fin dout), (nodeEntry (netN (sourceRows nIn)) r j).Regular (m + 1) ρ)
    {es : Fin nc → ExprOf (Node (Source nIn))} (h : cellsResidualN M netN dout loss = .ok es) (c : Fin nc) :
    (es c).RegIn m ρ := by
  unfold cellsResidualN at h
  dsimp only at h
  split at h
  · rename_i gx gy v h1 h2 h3
    refine hloss _ _ _ _ h (fun c q => ?_) (fun c q => ?_) (fun c q => ?_) c
    · obtain ⟨r, hr'⟩ := reshapeCellsN_mem h3 c q
      rw [hr']
      exact (hr _ _).mono (by omega)
    · obtain ⟨r, hr'⟩ := reshapeCellsN_mem h1 c q
      rw [hr']
      exact innerGradient_regular hr _
    · obtain ⟨r, hr'⟩ := reshapeCellsN_mem h2 c q
      rw [hr']
      exact innerGradient_regular hr _
  all_goals cases h

/-- The outer gradient is the derivative of the total loss. -/
lemma outerGradient_value {α : Type} {k : ℕ} (R : Recorded nIn k) (fwd : Forward α) (X : Fin nIn → ℝ × ℝ) (θ : Weights)
    (hreg : ∀ j, (R.loss j).Regular 1 (Source.at X θ)) (v : Var)
    (hval : ∀ᶠ t in 𝓝 (θ v), fwd.total (Function.update θ v t)
      = ∑ j, (R.loss j).value (Source.at X (Function.update θ v t))) :
    (outerGradient R v).value (Source.at X θ) = lossGradient fwd θ v := by
  have hs : (Node.sum k fun j => R.loss j).Regular 1 (Source.at X θ) := hreg
  have h := (Node.hasDerivAt_back (Source.at X θ) (.var v) _ hs).deriv
  refine Eq.trans (h.symm.trans ?_) rfl
  unfold lossGradient
  refine Filter.EventuallyEq.deriv_eq ?_
  filter_upwards [hval] with t ht
  rw [ht, update_at_var]
  rfl

/-- The step with the tapes is the step with derivatives. -/
theorem trainStepTaped_eq {α : Type} {k : ℕ} (record : Except PyErr (Recorded nIn k))
    (result : (Node (Source nIn) → ℝ) → Recorded nIn k → Weights → α) (fwd : Forward α) (vars : List Var)
    (lr : LearningRate) (s : TrainState)
    (good : Weights → Prop) (hgood : ∀ v, ∀ᶠ t in 𝓝 (s.weights v), good (Function.update s.weights v t))
    (herr : ∀ θ, good θ → ∀ e, record = .error e → fwd θ = .error e)
    (hok : ∀ θ, good θ → ∀ R, record = .ok R → fwd θ = .ok (result (Node.value (Source.at M.inputTensor θ)) R θ,
      ∑ j, (R.loss j).value (Source.at M.inputTensor θ)))
    (hnow : good s.weights)
    (hreg : ∀ R, record = .ok R → ∀ j, (R.loss j).Regular 1 (Source.at M.inputTensor s.weights)) :
    trainStepTaped M record result vars lr s = trainStepWith fwd vars lr s := by
  unfold trainStepTaped trainStepWith
  cases hR : record with
  | error e => rw [herr _ hnow e hR]
  | ok R =>
    rw [hok _ hnow R hR]
    dsimp only
    have : ∀ v, (outerGradient R v).value (Source.at M.inputTensor s.weights) = lossGradient fwd s.weights v := by
      intro v
      refine outerGradient_value R fwd M.inputTensor s.weights (hreg R hR) v ?_
      filter_upwards [hgood v] with t ht
      rw [Forward.total, hok _ ht R hR]
    simp only [this]

/-- Regularity of all entries lasts for small changes of one variable. -/
lemma eventually_regular {ι : Type} [Finite ι] {k : ℕ} {m : ℕ} (hm : 1 ≤ m) {X : Fin k → ℝ × ℝ} {θ : Weights}
    {e : ι → Node (Source k)} (h : ∀ i, (e i).Regular m (Source.at X θ)) (v : Var) :
    ∀ᶠ t in 𝓝 (θ v), ∀ i, (e i).Regular m (Source.at X (Function.update θ v t)) := by
  refine eventually_all.2 fun i => ?_
  have := Node.regular_nhds hm (.var v) (h i)
  filter_upwards [this] with t ht
  rwa [← update_at_var]

end

end FastVPINNs
