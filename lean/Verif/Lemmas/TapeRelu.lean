import Verif.Lemmas.TapeModels

/-! # The tapes and the ReLU -/

namespace FastVPINNs

open Filter Topology Spec

namespace Node
variable {ι : Type}

/-- The source occurs only where the registered derivative is zero. -/
def Flat (v : ι) : Node ι → Prop
  | source i => i ≠ v
  | const _ => True
  | add a b => a.Flat v ∧ b.Flat v
  | sub a b => a.Flat v ∧ b.Flat v
  | mul a b => a.Flat v ∧ b.Flat v
  | sq a => a.Flat v
  | sum _ f => ∀ i, (f i).Flat v
  | mean _ f => ∀ i, (f i).Flat v
  | unary f k a => f (k + 1) = (fun _ => 0) ∨ a.Flat v

variable [DecidableEq ι]

lemma Flat.back_zero {v : ι} (ρ : ι → ℝ) : ∀ {e : Node ι}, e.Flat v → ∀ ct, (e.back ct v).value ρ = 0
  | source i, h, ct => by
    have : i ≠ v := h
    simp [back, this, value]
  | const _, _, _ => rfl
  | add a b, h, ct => by simp [back, value, Flat.back_zero ρ h.1, Flat.back_zero ρ h.2]
  | sub a b, h, ct => by simp [back, value, Flat.back_zero ρ h.1, Flat.back_zero ρ h.2]
  | mul a b, h, ct => by simp [back, value, Flat.back_zero ρ h.1, Flat.back_zero ρ h.2]
  | sq a, h, ct => by
    simp only [back]
    exact Flat.back_zero (e := a) ρ h _
  | sum n f, h, ct => by
    simp only [back, value]
    exact Finset.sum_eq_zero fun i _ => Flat.back_zero (e := f i) ρ (h i) ct
  | mean n f, h, ct => by
    simp only [back, value]
    exact Finset.sum_eq_zero fun i _ => Flat.back_zero (e := f i) ρ (h i) _
  | unary f k a, h, ct => by
    simp only [back]
    rcases h with h | h
    · rw [value_back]
      simp [value, h]
    · exact Flat.back_zero (e := a) ρ h _

/-- The reverse pass towards `s` gives something in which `v` has no influence. -/
def BackFlat (v s : ι) (e : Node ι) : Prop := ∀ ct, Flat v ct → Flat v (e.back ct s)

/-- The reverse pass towards `s` gives zero. -/
def BackZero (ρ : ι → ℝ) (s : ι) (e : Node ι) : Prop := ∀ ct, (e.back ct s).value ρ = 0

end Node

section
variable {n : ℕ} (act : String → ℕ → ℝ → ℝ)

/-- A property of the units of a layer follows from the same property of its inputs. -/
lemma applyLayerN_induct {P : Node (Source n) → Prop} {k inDim : ℕ} {s : LayerSpec} {x y : List (Node (Source n))}
    (h : applyLayerN act k inDim s x = .ok y) (hx : ∀ e ∈ x, P e)
    (hlin : ∀ j (f : Fin inDim → Node (Source n)), (∀ i, P (f i)) →
      P (.add (.sum inDim fun i => .mul (f i) (.source (.var (.kernel k i j)))) (.source (.var (.bias k j)))))
    (hact : ∀ a, s.activation = some a → ∀ z, P z → P (.unary (act a) 0 z)) : ∀ e ∈ y, P e := by
  unfold applyLayerN at h
  split at h
  · cases h
    intro e he
    obtain ⟨j, rfl⟩ := (List.mem_ofFn).1 he
    have hz := hlin j (fun i => x[i.val]'(by omega)) fun i => hx _ (List.getElem_mem _)
    cases ha : s.activation with
    | none => exact hz
    | some a => exact hact a ha _ hz
  · cases h

lemma applyLayersN_induct {P : Node (Source n) → Prop} (hlin : ∀ k inDim j (f : Fin inDim → Node (Source n)),
      (∀ i, P (f i)) →
      P (.add (.sum inDim fun i => .mul (f i) (.source (.var (.kernel k i j)))) (.source (.var (.bias k j))))) :
    ∀ (specs : List LayerSpec) (k inDim : ℕ) {x y : NodeBatch n},
      (∀ s ∈ specs, ∀ a, s.activation = some a → ∀ z, P z → P (.unary (act a) 0 z)) →
      applyLayersN act k inDim specs x = .ok y → (∀ row ∈ x, ∀ e ∈ row, P e) → ∀ row ∈ y, ∀ e ∈ row, P e
  | [], _, _, _, _, _, h, hx => by
    cases h
    exact hx
  | s :: rest, k, inDim, x, y, hact, h, hx => by
    simp only [applyLayersN] at h
    cases hm : mapE (applyLayerN act k inDim s) x with
    | error e => simp [hm] at h
    | ok z =>
      rw [hm] at h
      refine applyLayersN_induct hlin rest (k + 1) s.units (fun s' hs' => hact s' (by simp [hs'])) h fun row hrow => ?_
      obtain ⟨r, hr, he⟩ := mapE_nodes_forall₂ hm row hrow
      exact applyLayerN_induct act he (hx r hr) (fun j f hf => hlin k inDim j f hf) (hact s (by simp))

lemma nodeEntry_induct {P : Node (Source n) → Prop} {out : Except PyErr (NodeBatch n)} (h0 : P (.const 0))
    (h : ∀ y, out = .ok y → ∀ row ∈ y, ∀ e ∈ row, P e) (r j : ℕ) : P (nodeEntry out r j) := by
  cases out with
  | error e => exact h0
  | ok b =>
    simp only [nodeEntry]
    by_cases hr : r < b.length
    · rw [List.getD_eq_getElem _ _ hr]
      by_cases hj : j < b[r].length
      · rw [List.getD_eq_getElem _ _ hj]
        exact h b rfl _ (List.getElem_mem _) _ (List.getElem_mem _)
      · rw [List.getD_eq_default _ _ (by omega)]
        exact h0
    · rw [List.getD_eq_default b _ (by omega)]
      exact h0

/-- The derivatives of the predictions do not feel the biases. -/
lemma inner_flat {inDim : ℕ} {specs : List LayerSpec}
    (hact : ∀ s ∈ specs, ∀ a, s.activation = some a → act a 2 = fun _ => 0) (l i : ℕ) {src : Source n}
    (hsrc : ∀ v, src ≠ .var v) {m k : ℕ} :
    (innerGradient (fun (r : Fin m) (j : Fin k) => nodeEntry (callN act false inDim specs (sourceRows n)) r j)
      src).Flat (.var (.bias l i)) := by
  intro r j
  refine nodeEntry_induct (P := Node.BackFlat (.var (.bias l i)) src) (fun ct _ => trivial) (fun y hy => ?_) r j
    (.const 1) trivial
  refine applyLayersN_induct act (fun k inDim j f hf ct hct => ?_) specs 0 inDim (fun s hs a ha z hz ct hct => ?_) hy
    fun row hrow e he ct hct => ?_
  · refine ⟨fun i => ⟨hf i _ ⟨hct, by simp [Node.Flat]⟩, ?_⟩, ?_⟩
    · simp [Node.back, (hsrc _).symm, Node.Flat]
    · simp [Node.back, (hsrc _).symm, Node.Flat]
  · exact hz _ ⟨hct, .inl (hact s hs a ha)⟩
  · obtain ⟨r, rfl⟩ := (List.mem_ofFn).1 hrow
    simp only [List.mem_cons, List.not_mem_nil, or_false] at he
    rcases he with rfl | rfl <;> (simp only [Node.back]; split_ifs <;> first | exact hct | trivial)

lemma lossPde_flat {nc nt nq nIn nBd dout : ℕ} (M : ModelData nc nt nq nIn nBd) (p : ParamDict) {inDim : ℕ}
    {specs : List LayerSpec} (hact : ∀ s ∈ specs, ∀ a, s.activation = some a → act a 2 = fun _ => 0) (l i : ℕ)
    {es : Fin nc → ExprOf (Node (Source nIn))}
    (h : cellsResidualN M (callN act false inDim specs) dout (lossN M p .poisson []) = .ok es) :
    (Node.ofExpr (totalPdeE es)).Flat (.var (.bias l i)) := by
  unfold cellsResidualN at h
  dsimp only at h
  split at h
  · rename_i gx gy v h1 h2 h3
    have hx : ∀ c q, (gx c q).Flat (.var (.bias l i)) := by
      intro c q
      obtain ⟨r, hr⟩ := reshapeCellsN_mem h1 c q
      rw [hr]
      exact inner_flat act hact l i (by simp)
    have hy : ∀ c q, (gy c q).Flat (.var (.bias l i)) := by
      intro c q
      obtain ⟨r, hr⟩ := reshapeCellsN_mem h2 c q
      rw [hr]
      exact inner_flat act hact l i (by simp)
    simp only [lossN, lossE, pdeLossPoissonE, paramGetE] at h
    cases h1 : paramGet p "eps" <;> simp only [h1] at h <;> cases h
    simp [totalPdeE, meanSquare0E, Node.ofExpr, Node.Flat, transposeE, matvecE, readMat, readPred, Leaf.ofReal, constMat,
      hx, hy]
  all_goals cases h

lemma backZero_linear {ρ : Source n → ℝ} {src : Source n} (hsrc : ∀ v, src ≠ .var v) (k inDim j : ℕ)
    (f : Fin inDim → Node (Source n)) (hf : ∀ i, Node.BackZero ρ src (f i)) :
    Node.BackZero ρ src
      (.add (.sum inDim fun i => .mul (f i) (.source (.var (.kernel k i j)))) (.source (.var (.bias k j)))) := by
  intro ct
  simp only [Node.back, (hsrc _).symm, if_false, Node.value, hf _ _, add_zero, Finset.sum_const_zero]

lemma backZero_unary {ρ : Source n → ℝ} {src : Source n} (f : ℕ → ℝ → ℝ) (k : ℕ) {z : Node (Source n)}
    (hz : Node.BackZero ρ src z) : Node.BackZero ρ src (.unary f k z) := fun ct => by
  simp only [Node.back]
  exact hz _

lemma backZero_kink {ρ : Source n → ℝ} {src : Source n} (f : ℕ → ℝ → ℝ) (k : ℕ) {z : Node (Source n)}
    (hz : f (k + 1) (z.value ρ) = 0) : Node.BackZero ρ src (.unary f k z) := fun ct => by
  simp only [Node.back]
  rw [Node.value_back]
  simp [Node.value, hz]

/-- At a point where the first layer adds up to zero the tape finds the gradient zero. -/
lemma inner_zero {inDim units : ℕ} {a : String} (ha : act a = reluOps) (rest : List LayerSpec) (X : Fin n → ℝ × ℝ)
    (θ : Weights) (hb : ∀ j < units, θ (.bias 0 j) = 0) (r : Fin n) (hr : X r = (0, 0)) {src : Source n}
    (hsrc : src = .x r ∨ src = .y r) (i j : ℕ) :
    Node.BackZero (Source.at X θ) src
      (nodeEntry (callN act false inDim (⟨units, some a⟩ :: rest) (sourceRows n)) i j) := by
  have hv : ∀ v, src ≠ .var v := by rcases hsrc with rfl | rfl <;> simp
  refine nodeEntry_induct (fun ct => rfl) (fun y hy => ?_) i j
  unfold callN at hy
  simp only [applyLayersN, Bool.false_eq_true, if_false] at hy
  cases hm : mapE (applyLayerN act 0 inDim ⟨units, some a⟩) (sourceRows n) with
  | error e => simp [hm] at hy
  | ok z =>
    rw [hm] at hy
    refine applyLayersN_induct act (fun k inDim j f hf => backZero_linear hv k inDim j f hf) rest 1 units
      (fun s _ a' _ z hz => backZero_unary (act a') 0 hz) hy fun row hrow => ?_
    obtain ⟨x, hx, he⟩ := mapE_nodes_forall₂ hm row hrow
    obtain ⟨q, rfl⟩ := (List.mem_ofFn).1 hx
    by_cases hq : q = r
    · subst hq
      unfold applyLayerN at he
      split at he
      · rename_i hl
        cases he
        intro e he
        obtain ⟨j, rfl⟩ := (List.mem_ofFn).1 he
        refine backZero_kink (act a) 0 ?_
        have h0 : (Node.add (.sum inDim fun i => .mul ([Node.source (.x q), .source (.y q)][i.val]'(by omega))
            (.source (.var (.kernel 0 i j)))) (.source (.var (.bias 0 j)))).value (Source.at X θ) = 0 := by
          simp only [Node.value, Source.at, hb j j.2, add_zero]
          refine Finset.sum_eq_zero fun i _ => ?_
          have h2 : inDim = 2 := hl.symm
          have : i.val = 0 ∨ i.val = 1 := by omega
          rcases this with h | h <;> simp [h, Node.value, Source.at, hr]
        rw [h0, ha]
        simp [reluOps]
      · cases he
    · refine applyLayerN_induct act he (P := Node.BackZero (Source.at X θ) src) (fun e he ct => ?_)
        (fun j f hf => backZero_linear hv 0 inDim j f hf) (fun a' _ z hz => backZero_unary (act a') 0 hz)
      simp only [List.mem_cons, List.not_mem_nil, or_false] at he
      rcases he with rfl | rfl <;> rcases hsrc with rfl | rfl <;> simp [Node.back, hq, Node.value]

end

lemma reluOps_smoothAt {z : ℝ} (hz : z ≠ 0) : SmoothAt reluOps z := by
  rcases hz.lt_or_gt with h | h
  · constructor
    · filter_upwards [gt_mem_nhds h] with y hy
      have : HasDerivAt (fun _ : ℝ => (0 : ℝ)) 0 y := hasDerivAt_const _ _
      have e : reluOps 1 y = 0 := by simp [reluOps, hy.le]
      rw [e]
      refine this.congr_of_eventuallyEq ?_
      filter_upwards [gt_mem_nhds hy] with w hw
      simp [reluOps, hw.le]
    · filter_upwards [gt_mem_nhds h] with y hy
      have : HasDerivAt (fun _ : ℝ => (0 : ℝ)) 0 y := hasDerivAt_const _ _
      refine this.congr_of_eventuallyEq ?_
      filter_upwards [gt_mem_nhds hy] with w hw
      simp [reluOps, hw.le]
  · constructor
    · filter_upwards [lt_mem_nhds h] with y hy
      have e : reluOps 1 y = 1 := by simp [reluOps, hy]
      rw [e]
      refine (hasDerivAt_id y).congr_of_eventuallyEq ?_
      filter_upwards [lt_mem_nhds hy] with w hw
      simp [reluOps, hw.le]
    · filter_upwards [lt_mem_nhds h] with y hy
      have : HasDerivAt (fun _ : ℝ => (1 : ℝ)) 0 y := hasDerivAt_const _ _
      refine this.congr_of_eventuallyEq ?_
      filter_upwards [lt_mem_nhds hy] with w hw
      simp [reluOps, hw]

lemma tanhOps_smoothAt (z : ℝ) : SmoothAt tanhOps z :=
  ⟨.of_forall fun y => tanhOps_hasDerivAt 0 (by omega) y, .of_forall fun y => tanhOps_hasDerivAt 1 (by omega) y⟩

end FastVPINNs
