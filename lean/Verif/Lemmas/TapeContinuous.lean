import Verif.Lemmas.RoundedTraining
import Verif.Lemmas.TapeModels

/-! # Recorded numbers without jumps

The lemmas on regularity of `Lemmas/Tape*.lean`, for continuity. -/

namespace FastVPINNs

open Filter Topology Spec

namespace Node
variable {ι : Type}

/-- The operations, and the derivatives registered for them up to the `m`-th, are continuous where they are applied. -/
def ContUp (m : ℕ) (ρ : ι → ℝ) : Node ι → Prop
  | source _ => True
  | const _ => True
  | add a b => a.ContUp m ρ ∧ b.ContUp m ρ
  | sub a b => a.ContUp m ρ ∧ b.ContUp m ρ
  | mul a b => a.ContUp m ρ ∧ b.ContUp m ρ
  | sq a => a.ContUp m ρ
  | sum _ f => ∀ i, (f i).ContUp m ρ
  | mean _ f => ∀ i, (f i).ContUp m ρ
  | unary f k a => a.ContUp m ρ ∧ ∀ i ≤ m, ContinuousAt (f (k + i)) (a.value ρ)

lemma ContUp.continuous {m : ℕ} {ρ : ι → ℝ} : ∀ {e : Node ι}, e.ContUp m ρ → ContinuousNode ρ e
  | source _, _ => trivial
  | const _, _ => trivial
  | add _ _, h => ⟨h.1.continuous, h.2.continuous⟩
  | sub _ _, h => ⟨h.1.continuous, h.2.continuous⟩
  | mul _ _, h => ⟨h.1.continuous, h.2.continuous⟩
  | sq a, h => ContUp.continuous (e := a) h
  | sum _ f, h => fun i => ContUp.continuous (e := f i) (h i)
  | mean _ f, h => fun i => ContUp.continuous (e := f i) (h i)
  | unary _ _ _, h => ⟨h.1.continuous, h.2 0 (by omega)⟩

lemma ContUp.mono {m m' : ℕ} (hm : m' ≤ m) {ρ : ι → ℝ} : ∀ {e : Node ι}, e.ContUp m ρ → e.ContUp m' ρ
  | source _, _ => trivial
  | const _, _ => trivial
  | add _ _, h => ⟨h.1.mono hm, h.2.mono hm⟩
  | sub _ _, h => ⟨h.1.mono hm, h.2.mono hm⟩
  | mul _ _, h => ⟨h.1.mono hm, h.2.mono hm⟩
  | sq a, h => ContUp.mono (e := a) hm h
  | sum _ f, h => fun i => ContUp.mono (e := f i) hm (h i)
  | mean _ f, h => fun i => ContUp.mono (e := f i) hm (h i)
  | unary _ _ _, h => ⟨h.1.mono hm, fun i hi => h.2 i (hi.trans hm)⟩

lemma contUp_back [DecidableEq ι] {m : ℕ} {ρ : ι → ℝ} (j : ι) : ∀ {e ct : Node ι}, e.ContUp (m + 1) ρ → ct.ContUp m ρ →
    (e.back ct j).ContUp m ρ
  | source i, ct, _, hc => by
    by_cases h : i = j <;> simp [back, h, hc, ContUp]
  | const _, _, _, _ => trivial
  | add a b, ct, h, hc => ⟨contUp_back j h.1 hc, contUp_back j h.2 hc⟩
  | sub a b, ct, h, hc => ⟨contUp_back j h.1 hc, contUp_back (e := b) j h.2 ⟨trivial, hc⟩⟩
  | mul a b, ct, h, hc => ⟨contUp_back (e := a) j h.1 ⟨hc, h.2.mono (by omega)⟩,
      contUp_back (e := b) j h.2 ⟨hc, h.1.mono (by omega)⟩⟩
  | sq a, ct, h, hc => contUp_back (e := a) j h ⟨hc, trivial, ContUp.mono (e := a) (by omega) h⟩
  | sum _ f, ct, h, hc => fun i => contUp_back (e := f i) j (h i) hc
  | mean _ f, ct, h, hc => fun i => contUp_back (e := f i) j (h i) ⟨hc, trivial⟩
  | unary f k a, ct, h, hc => contUp_back (e := a) j h.1 ⟨hc, h.1.mono (by omega), fun i hi => by
      have := h.2 (i + 1) (by omega)
      rwa [show k + (i + 1) = k + 1 + i by omega] at this⟩

end Node

/-- All entries are continuous. -/
def ContBatch {n : ℕ} (m : ℕ) (ρ : Source n → ℝ) (x : NodeBatch n) : Prop := ∀ row ∈ x, ∀ e ∈ row, e.ContUp m ρ

section
variable {n : ℕ} (act : String → ℕ → ℝ → ℝ) (X : Fin n → ℝ × ℝ) (θ : Weights)

lemma Spec.NoJumpOf.contUp {f : ℕ → ℝ → ℝ} {z : ℝ} (h : NoJumpOf f z) : ∀ i ≤ 2, ContinuousAt (f (0 + i)) z := by
  intro i hi
  rw [Nat.zero_add]
  exact h i hi

lemma contUp_unary_smooth {ι : Type} {m : ℕ} {ρ : ι → ℝ} {f : ℕ → ℝ → ℝ} (hf : SmoothOps f) {k : ℕ} {e : Node ι}
    (he : e.ContUp m ρ) : (Node.unary f k e).ContUp m ρ :=
  ⟨he, fun i _ => (hf (k + i) _).continuousAt⟩

lemma tanhOps_continuous {k : ℕ} (hk : k ≤ 2) : Continuous (tanhOps k) := by
  unfold tanhOps
  exact contDiff_tanh.continuous_iteratedDeriv k (by exact_mod_cast hk)

lemma applyLayerN_contUp (k inDim : ℕ) (s : LayerSpec) {x y : List (Node (Source n))}
    (h : applyLayerN act k inDim s x = .ok y) (hx : ∀ e ∈ x, e.ContUp 2 (Source.at X θ))
    (L : DenseLayer) (hL : L = ⟨inDim, s.units, fun i j => θ (.kernel k i j), fun j => θ (.bias k j), s.activation⟩)
    (hs : ∀ a, L.activation = some a → ∀ j, NoJumpOf (act a) (preActivation L (x.map (Node.value (Source.at X θ))) j)) :
    (∀ e ∈ y, e.ContUp 2 (Source.at X θ)) ∧ y.map (Node.value (Source.at X θ)) = List.ofFn fun j =>
      match L.activation with
      | none => preActivation L (x.map (Node.value (Source.at X θ))) j
      | some a => act a 0 (preActivation L (x.map (Node.value (Source.at X θ))) j) := by
  subst hL
  unfold applyLayerN at h
  split at h
  · rename_i hl
    subst hl
    simp only [Except.ok.injEq] at h
    subst h
    have hz : ∀ j : Fin s.units, (Node.add (.sum x.length fun i => .mul (x[i.val]) (.source (.var (.kernel k i j))))
        (.source (.var (.bias k j)))).value (Source.at X θ) = preActivation ⟨x.length, s.units,
          fun i j => θ (.kernel k i j), fun j => θ (.bias k j), s.activation⟩ (x.map (Node.value (Source.at X θ))) j := by
      intro j
      simp [Node.value, Source.at, preActivation]
    constructor
    · intro e he
      obtain ⟨j, rfl⟩ := (List.mem_ofFn).1 he
      have hr : (Node.add (.sum x.length fun i => .mul (x[i.val]) (.source (.var (.kernel k i j))))
          (.source (.var (.bias k j)))).ContUp 2 (Source.at X θ) :=
        ⟨fun i => ⟨hx _ (List.getElem_mem _), trivial⟩, trivial⟩
      cases ha : s.activation with
      | none => exact hr
      | some a =>
        refine ⟨hr, ?_⟩
        rw [hz j]
        exact (hs a ha j).contUp
    · rw [List.map_ofFn]
      congr 1
      funext j
      dsimp only [Function.comp]
      cases ha : s.activation with
      | none => dsimp only; rw [hz j, ha]
      | some a =>
        show act a 0 (Node.value _ _) = _
        rw [hz j, ha]
  · cases h

lemma applyLayersN_contUp : ∀ (specs : List LayerSpec) (k inDim : ℕ) {x y : NodeBatch n},
    applyLayersN act k inDim specs x = .ok y → ContBatch 2 (Source.at X θ) x →
    (∀ row ∈ valBatch (Source.at X θ) x, NoJump act (layersAt θ k inDim specs) row) → ContBatch 2 (Source.at X θ) y
  | [], _, _, _, _, h, hx, _ => by
    cases h
    exact hx
  | s :: rest, k, inDim, x, y, h, hx, hs => by
    simp only [applyLayersN] at h
    cases hm : mapE (applyLayerN act k inDim s) x with
    | error e => simp [hm] at h
    | ok z =>
      rw [hm] at h
      have hrow : ∀ row ∈ z, ∃ r ∈ x, applyLayerN act k inDim s r = .ok row := mapE_nodes_forall₂ hm
      refine applyLayersN_contUp rest (k + 1) s.units h (fun row hrow' => ?_) (fun row hrow' => ?_)
      · obtain ⟨r, hr, he⟩ := hrow row hrow'
        have hk := hs (r.map (Node.value (Source.at X θ))) (List.mem_map_of_mem hr)
        exact (applyLayerN_contUp act X θ k inDim s he (hx r hr) _ rfl hk.1).1
      · obtain ⟨row', hr', rfl⟩ := List.mem_map.1 hrow'
        obtain ⟨r, hr, he⟩ := hrow row' hr'
        have hk := hs (r.map (Node.value (Source.at X θ))) (List.mem_map_of_mem hr)
        rw [(applyLayerN_contUp act X θ k inDim s he (hx r hr) _ rfl hk.1).2]
        exact hk.2

lemma contUp_sumList {ι : Type} {m : ℕ} {ρ : ι → ℝ} {l : List (Node ι)} (h : ∀ e ∈ l, e.ContUp m ρ) :
    (Node.sumList l).ContUp m ρ := fun _ => h _ (List.getElem_mem _)

lemma attentionN_contUp {m : ℕ} (ρ : Source n → ℝ) {x y : NodeBatch n} (h : attentionN x = .ok y)
    (hx : ContBatch m ρ x) : ContBatch m ρ y := by
  unfold attentionN at h
  cases h
  intro row hrow e he
  obtain ⟨q, hq, rfl⟩ := List.mem_map.1 hrow
  obtain ⟨j, -, rfl⟩ := List.mem_map.1 he
  have hscore : ∀ s ∈ x.map fun v => Node.sumList (List.zipWith .mul q v), s.ContUp m ρ := by
    intro s hs
    obtain ⟨v, hv, rfl⟩ := List.mem_map.1 hs
    refine contUp_sumList fun e he => ?_
    obtain ⟨i, hi, rfl⟩ := List.mem_iff_getElem.1 he
    rw [List.getElem_zipWith]
    exact ⟨hx q hq _ (List.getElem_mem _), hx v hv _ (List.getElem_mem _)⟩
  have hsum : ∀ e ∈ (x.map fun v => Node.sumList (List.zipWith .mul q v)).map (Node.unary expOps 0),
      e.ContUp m ρ := by
    intro e he
    obtain ⟨s, hs, rfl⟩ := List.mem_map.1 he
    exact contUp_unary_smooth expOps_smooth (hscore s hs)
  refine contUp_sumList fun e he => ?_
  obtain ⟨i, hi, rfl⟩ := List.mem_iff_getElem.1 he
  rw [List.getElem_zipWith, List.getElem_map]
  refine ⟨⟨contUp_unary_smooth expOps_smooth (hscore _ (List.getElem_mem _)), contUp_sumList hsum, ?_⟩, ?_⟩
  · intro k _
    have hpos : 0 < (Node.sumList ((x.map fun v => Node.sumList (List.zipWith .mul q v)).map
        (Node.unary expOps 0))).value ρ := by
      rw [value_sumList]
      refine List.sum_pos _ (fun z hz => ?_) ?_
      · obtain ⟨e, he, rfl⟩ := List.mem_map.1 hz
        obtain ⟨s, -, rfl⟩ := List.mem_map.1 he
        exact Real.exp_pos _
      · intro h0
        simp only [List.map_eq_nil_iff] at h0
        rw [h0] at hq
        cases hq
    exact (invOps_hasDerivAt _ hpos.ne').continuousAt
  · by_cases hj : j < (x[i]'(by simpa using hi)).length
    · rw [List.getD_eq_getElem _ _ hj]
      exact hx _ (List.getElem_mem _) _ (List.getElem_mem _)
    · rw [List.getD_eq_default _ _ (by omega)]
      trivial

lemma callN_contUp (useAttention : Bool) (inDim : ℕ) (specs : List LayerSpec) {x y : NodeBatch n}
    (h : callN act useAttention inDim specs x = .ok y) (hx : ContBatch 2 (Source.at X θ) x)
    (hs : ∀ rows, (if useAttention then attentionDot (valBatch (Source.at X θ) x)
      else .ok (valBatch (Source.at X θ) x)) = .ok rows → ∀ r ∈ rows, NoJump act (layersAt θ 0 inDim specs) r) :
    ContBatch 2 (Source.at X θ) y := by
  unfold callN at h
  cases useAttention with
  | false => exact applyLayersN_contUp act X θ specs 0 inDim h hx (hs _ rfl)
  | true =>
    simp only [if_true] at h hs
    cases ha : attentionN x with
    | error e => simp [ha] at h
    | ok z =>
      rw [ha] at h
      refine applyLayersN_contUp act X θ specs 0 inDim h (attentionN_contUp _ ha hx) (hs _ ?_)
      rw [attentionN_value X θ x, ha]
      rfl

lemma hardN_contUp {ρ : Source n → ℝ} {inputs x : NodeBatch n} (hi : ContBatch 2 ρ inputs) (hx : ContBatch 2 ρ x) :
    ContBatch 2 ρ (hardN inputs x) := by
  intro row hrow e he
  unfold hardN at hrow
  obtain ⟨i, hi', rfl⟩ := List.mem_iff_getElem.1 hrow
  rw [List.getElem_zipWith] at he
  obtain ⟨v, hv, rfl⟩ := List.mem_map.1 he
  have hg : ∀ j, ((inputs[i]'(by simp at hi'; omega)).getD j (.const 0)).ContUp 2 ρ := by
    intro j
    by_cases hj : j < (inputs[i]'(by simp at hi'; omega)).length
    · rw [List.getD_eq_getElem _ _ hj]
      exact hi _ (List.getElem_mem _) _ (List.getElem_mem _)
    · rw [List.getD_eq_default _ _ (by omega)]
      trivial
  have ht : ∀ e : Node (Source n), e.ContUp 2 ρ → (Node.unary tanhOps 0 e).ContUp 2 ρ := fun e he =>
    ⟨he, fun k hk => by rw [Nat.zero_add]; exact (tanhOps_continuous hk).continuousAt⟩
  exact ⟨⟨⟨⟨ht _ ⟨trivial, hg 0⟩, ht _ ⟨trivial, hg 1⟩⟩, ht _ ⟨trivial, hg 0, trivial⟩⟩, ht _ ⟨trivial, hg 1, trivial⟩⟩,
    hx _ (List.getElem_mem _) v hv⟩

lemma callHardN_contUp (useAttention : Bool) (inDim : ℕ) (specs : List LayerSpec) {x y : NodeBatch n}
    (h : callHardN act useAttention inDim specs x = .ok y) (hx : ContBatch 2 (Source.at X θ) x)
    (hs : ∀ rows, (if useAttention then attentionDot (valBatch (Source.at X θ) x)
      else .ok (valBatch (Source.at X θ) x)) = .ok rows → ∀ r ∈ rows, NoJump act (layersAt θ 0 inDim specs) r) :
    ContBatch 2 (Source.at X θ) y := by
  unfold callHardN at h
  cases hc : callN act useAttention inDim specs x with
  | error e => simp [hc] at h
  | ok z =>
    simp only [hc, Except.ok.injEq] at h
    subst h
    exact hardN_contUp hx (callN_contUp act X θ useAttention inDim specs hc hx hs)

lemma contBatch_sourceRows (m : ℕ) (ρ : Source n → ℝ) : ContBatch m ρ (sourceRows n) := by
  intro row hrow e he
  obtain ⟨r, rfl⟩ := (List.mem_ofFn).1 hrow
  simp only [List.mem_cons, List.not_mem_nil, or_false] at he
  rcases he with rfl | rfl <;> trivial

lemma contBatch_constRows (m : ℕ) {k : ℕ} (ρ : Source n → ℝ) (P : Fin k → ℝ × ℝ) :
    ContBatch m ρ (constRows P : NodeBatch n) := by
  intro row hrow e he
  obtain ⟨r, rfl⟩ := (List.mem_ofFn).1 hrow
  simp only [List.mem_cons, List.not_mem_nil, or_false] at he
  rcases he with rfl | rfl <;> trivial

lemma nodeEntry_contUp {m : ℕ} {ρ : Source n → ℝ} {out : Except PyErr (NodeBatch n)}
    (h : ∀ y, out = .ok y → ContBatch m ρ y) (r j : ℕ) : (nodeEntry out r j).ContUp m ρ := by
  cases out with
  | error e => trivial
  | ok b =>
    simp only [nodeEntry]
    by_cases hr : r < b.length
    · rw [List.getD_eq_getElem _ _ hr]
      by_cases hj : j < b[r].length
      · rw [List.getD_eq_getElem _ _ hj]
        exact h b rfl _ (List.getElem_mem _) _ (List.getElem_mem _)
      · rw [List.getD_eq_default _ _ (by omega)]
        trivial
    · rw [List.getD_eq_default b _ (by omega)]
      trivial

end

/-- The numbers read are continuous, and no absolute value is taken. -/
def ExprOf.ContIn {ι : Type} (m : ℕ) (ρ : ι → ℝ) : ExprOf (Node ι) → Prop
  | .val _ x => x.ContUp m ρ
  | .add a b => a.ContIn m ρ ∧ b.ContIn m ρ
  | .sub a b => a.ContIn m ρ ∧ b.ContIn m ρ
  | .mul a b => a.ContIn m ρ ∧ b.ContIn m ρ
  | .sq a => a.ContIn m ρ
  | .abs _ => False
  | .sum _ f => ∀ i, (f i).ContIn m ρ
  | .mean _ f => ∀ i, (f i).ContIn m ρ

lemma contUp_ofExpr {ι : Type} {m : ℕ} {ρ : ι → ℝ} : ∀ {e : ExprOf (Node ι)}, e.ContIn m ρ →
    (Node.ofExpr e).ContUp m ρ
  | .val _ _, h => h
  | .add _ _, h => ⟨contUp_ofExpr h.1, contUp_ofExpr h.2⟩
  | .sub _ _, h => ⟨contUp_ofExpr h.1, contUp_ofExpr h.2⟩
  | .mul _ _, h => ⟨contUp_ofExpr h.1, contUp_ofExpr h.2⟩
  | .sq a, h => contUp_ofExpr (e := a) h
  | .abs _, h => h.elim
  | .sum _ f, h => fun i => contUp_ofExpr (e := f i) (h i)
  | .mean _ f, h => fun i => contUp_ofExpr (e := f i) (h i)

section
variable {nc nt nq nIn nBd dout : ℕ} (M : ModelData nc nt nq nIn nBd) (ρ : Source nIn → ℝ) (p : ParamDict) {m : ℕ}

lemma lossN_contUp {kind : LossKind} {coeffs : List (Fin nc → Fin nq → Node (Source nIn))}
    {u ux uy : Fin nc → Fin nq → Node (Source nIn)} {es : Fin nc → ExprOf (Node (Source nIn))}
    (h : lossN M p kind coeffs u ux uy = .ok es) (hu : ∀ c q, (u c q).ContUp m ρ) (hx : ∀ c q, (ux c q).ContUp m ρ)
    (hy : ∀ c q, (uy c q).ContUp m ρ) (hk : ∀ k ∈ coeffs, ∀ c q, (k c q).ContUp m ρ) (c : Fin nc) :
    (es c).ContIn m ρ := by
  have hc : ∀ x : ℝ, (Node.const x : Node (Source nIn)).ContUp m ρ := fun _ => trivial
  cases kind <;> simp only [lossN, lossE, pdeLossPoissonE, pdeLossCd2dE, pdeLossCd2dRestE,
    pdeLossHelmholtzE, paramGetE, pdeLossCd2dInverseDomainE] at h
  case poisson =>
    cases h1 : paramGet p "eps" <;> simp only [h1] at h <;> cases h
    simp [meanSquare0E, ExprOf.ContIn, transposeE, matvecE, readMat, readPred, Leaf.ofReal, constMat, hc, hx, hy]
  case poissonInverse => simp [paramGet] at h
  case cd2dInverse => simp [paramGet] at h
  case helmholtz =>
    cases h1 : paramGet p "eps" <;> cases h2 : paramGet p "k" <;> simp only [h1, h2] at h <;> cases h
    simp [meanSquare0E, ExprOf.ContIn, transposeE, matvecE, readMat, readPred, Leaf.ofReal, constMat, hc, hx, hy, hu]
  case cd2d =>
    cases h1 : paramGet p "eps" <;> cases h2 : paramGet p "b_x" <;> cases h3 : paramGet p "b_y" <;>
      cases h4 : paramGet p "c" <;> simp only [h1, h2, h3, h4] at h <;> cases h
    simp [meanSquare0E, ExprOf.ContIn, transposeE, matvecE, readMat, readPred, Leaf.ofReal, constMat, hc, hx, hy, hu]
  case cd2dInverseDomain =>
    cases h1 : pyIndex coeffs 0 with
    | error e => simp [h1] at h
    | ok k =>
      have hk' : ∀ c q, (k c q).ContUp m ρ := hk k (by
        cases coeffs with
        | nil => simp [pyIndex] at h1
        | cons a l =>
          simp [pyIndex] at h1
          simp [h1])
      cases h2 : paramGet p "b_x" <;> cases h3 : paramGet p "b_y" <;>
        cases h4 : paramGet p "c" <;> simp only [h1, h2, h3, h4] at h <;> cases h
      simp [meanSquare0E, ExprOf.ContIn, transposeE, matvecE, readMat, readPred, Leaf.ofReal, constMat, hc, hx, hy, hu, hk']

lemma poissonInverseN_contUp {keys : List String} {ux uy : Fin nc → Fin nq → Node (Source nIn)}
    {es : Fin nc → ExprOf (Node (Source nIn))} (h : poissonInverseN M keys ux uy = .ok es)
    (hx : ∀ c q, (ux c q).ContUp m ρ) (hy : ∀ c q, (uy c q).ContUp m ρ) (c : Fin nc) : (es c).ContIn m ρ := by
  have hc : ∀ x : ℝ, (Node.const x : Node (Source nIn)).ContUp m ρ := fun _ => trivial
  have hs : ∀ x, (Node.source x : Node (Source nIn)).ContUp m ρ := fun _ => trivial
  simp only [poissonInverseN] at h
  split_ifs at h
  cases h
  simp [meanSquare0E, ExprOf.ContIn, transposeE, matvecE, readMat, readPred, constMat, hc, hs, hx, hy]

lemma totalPdeE_contUp {es : Fin nc → ExprOf (Node (Source nIn))} (h : ∀ c, (es c).ContIn m ρ) :
    (Node.ofExpr (totalPdeE es)).ContUp m ρ := ⟨trivial, fun c => contUp_ofExpr (h c)⟩

lemma dataLossN_contUp (net : NodeBatch nIn → Except PyErr (NodeBatch nIn)) {k : ℕ} (points : Fin k → ℝ × ℝ)
    (values : Fin k → ℝ) (column : Fin dout → ℕ) (j : Fin dout)
    (h : ∀ r j, (nodeEntry (net (constRows points)) r j).ContUp m ρ) :
    (dataLossN net points values column j).ContUp m ρ := fun _ => ⟨h _ _, trivial⟩

end

section
variable {nc nt nq nIn nBd dout : ℕ} (M : ModelData nc nt nq nIn nBd) {netN : NodeBatch nIn → Except PyErr (NodeBatch nIn)}

lemma innerGradient_contUp {k m : ℕ} {e : Fin nIn → Fin k → Node (Source nIn)} {ρ : Source nIn → ℝ}
    (hr : ∀ r j, (e r j).ContUp (m + 1) ρ) (s : Source nIn) : (innerGradient e s).ContUp m ρ :=
  fun r j => Node.contUp_back s (hr r j) trivial

lemma cellsResidualN_contUp
    {loss : (u ux uy : Fin nc → Fin nq → Node (Source nIn)) → Except PyErr (Fin nc → ExprOf (Node (Source nIn)))}
    {m : ℕ} {ρ : Source nIn → ℝ}
    (hloss : ∀ u ux uy es, loss u ux uy = .ok es → (∀ c q, (u c q).ContUp m ρ) → (∀ c q, (ux c q).ContUp m ρ) →
      (∀ c q, (uy c q).ContUp m ρ) → ∀ c, (es c).ContIn m ρ)
    (hr : ∀ (r : Fin nIn) (j : Fin dout), (nodeEntry (netN (sourceRows nIn)) r j).ContUp (m + 1) ρ)
    {es : Fin nc → ExprOf (Node (Source nIn))} (h : cellsResidualN M netN dout loss = .ok es) (c : Fin nc) :
    (es c).ContIn m ρ := by
  unfold cellsResidualN at h
  dsimp only at h
  split at h
  · rename_i gx gy v h1 h2 h3
    refine hloss _ _ _ _ h (fun c q => ?_) (fun c q => ?_) (fun c q => ?_) c
    · obtain ⟨r, hr'⟩ := reshapeCellsN_mem h3 c q
      rw [hr']
      exact (hr _ _).mono (by omega)
    · obtain ⟨r, hr'⟩ := reshapeCellsN_mem h1 c q
      rw [hr']
      exact innerGradient_contUp hr _
    · obtain ⟨r, hr'⟩ := reshapeCellsN_mem h2 c q
      rw [hr']
      exact innerGradient_contUp hr _
  all_goals cases h

end

section
variable {nc nt nq nIn nBd : ℕ} {M : ModelData nc nt nq nIn nBd} {act : String → ℕ → ℝ → ℝ}
  {useAttention : Bool} {inDim : ℕ} {specs : List LayerSpec} {dout : ℕ} {beta : ℝ} {p : ParamDict}
  {netN : NodeBatch nIn → Except PyErr (NodeBatch nIn)}

lemma dense_source_contUp {X : Fin nIn → ℝ × ℝ} {θ : Weights}
    (h : NoJumpAt act useAttention (layersAt θ 0 inDim specs) X) (r j : ℕ) :
    (nodeEntry (callN act useAttention inDim specs (sourceRows nIn)) r j).ContUp 2 (Source.at X θ) :=
  nodeEntry_contUp (fun y hy => callN_contUp act X θ useAttention inDim specs hy (contBatch_sourceRows 2 _) (by
    rw [valBatch_sourceRows]
    exact h)) r j

lemma dense_const_contUp {X : Fin nIn → ℝ × ℝ} {θ : Weights} {m : ℕ} {P : Fin m → ℝ × ℝ}
    (h : NoJumpAt act useAttention (layersAt θ 0 inDim specs) P) (r j : ℕ) :
    (nodeEntry (callN act useAttention inDim specs (constRows P)) r j).ContUp 2 (Source.at X θ) :=
  nodeEntry_contUp (fun y hy => callN_contUp act X θ useAttention inDim specs hy (contBatch_constRows 2 _ _) (by
    rw [valBatch_constRows]
    exact h)) r j

lemma hard_source_contUp {X : Fin nIn → ℝ × ℝ} {θ : Weights}
    (h : NoJumpAt act useAttention (layersAt θ 0 inDim specs) X) (r j : ℕ) :
    (nodeEntry (callHardN act useAttention inDim specs (sourceRows nIn)) r j).ContUp 2 (Source.at X θ) :=
  nodeEntry_contUp (fun y hy => callHardN_contUp act X θ useAttention inDim specs hy (contBatch_sourceRows 2 _) (by
    rw [valBatch_sourceRows]
    exact h)) r j

/-- All losses are continuous. -/
def ContRec (m : ℕ) (ρ : Source nIn → ℝ) (R : Recorded nIn dout) : Prop :=
  R.lossPde.ContUp m ρ ∧ (∀ j, (R.lossDirichlet j).ContUp m ρ) ∧ (∀ j, (R.sensorLoss j).ContUp m ρ) ∧
    ∀ j, (R.loss j).ContUp m ρ

lemma ContRec.program {ρ : Source nIn → ℝ} {R : Recorded nIn dout} (h : ContRec 1 ρ R) : ContinuousProgram R.program ρ :=
  ⟨h.1.continuous, fun j => (h.2.1 j).continuous, fun j => (h.2.2.1 j).continuous, fun j => (h.2.2.2 j).continuous,
    fun v => Node.ContUp.continuous (m := 0) (e := outerGradient R v)
      fun j => Node.contUp_back (.var v) (ct := .const 1) (h.2.2.2 j) trivial⟩

lemma recordDense_contUp {kind : LossKind} {ρ : Source nIn → ℝ}
    (hr : ∀ r j, (nodeEntry (netN (sourceRows nIn)) r j).ContUp 2 ρ)
    (hb : ∀ r j, (nodeEntry (netN (constRows M.dirichletInput)) r j).ContUp 2 ρ) {R : Recorded nIn dout}
    (h : recordDense M netN beta p dout kind = .ok R) : ContRec 1 ρ R := by
  unfold recordDense at h
  cases hc : cellsResidualN M netN dout (lossN M p kind []) with
  | error e => simp [hc] at h
  | ok es =>
    simp only [hc, Except.ok.injEq] at h
    subst h
    have he := fun c => cellsResidualN_contUp (m := 1) (ρ := ρ) M
      (fun u ux uy es h hu hx hy => lossN_contUp M ρ p h hu hx hy (fun _ h => by cases h)) (fun r j => hr r j) hc c
    exact ⟨totalPdeE_contUp ρ he, fun j => dataLossN_contUp (m := 1) ρ netN _ _ _ j fun r j => (hb r j).mono (by omega),
      fun _ => trivial, fun j => ⟨totalPdeE_contUp ρ he, trivial, dataLossN_contUp (m := 1) ρ netN _ _ _ j fun r j => (hb r j).mono (by omega)⟩⟩

lemma recordHard_contUp {kind : LossKind} {ρ : Source nIn → ℝ}
    (hr : ∀ r j, (nodeEntry (netN (sourceRows nIn)) r j).ContUp 2 ρ) {R : Recorded nIn 1}
    (h : recordHard M netN p dout kind = .ok R) : ContRec 1 ρ R := by
  unfold recordHard at h
  cases hc : cellsResidualN M netN dout (lossN M p kind []) with
  | error e => simp [hc] at h
  | ok es =>
    simp only [hc, Except.ok.injEq] at h
    subst h
    have he := fun c => cellsResidualN_contUp (m := 1) (ρ := ρ) M
      (fun u ux uy es h hu hx hy => lossN_contUp M ρ p h hu hx hy (fun _ h => by cases h)) (fun r j => hr r j) hc c
    exact ⟨totalPdeE_contUp ρ he, fun _ => trivial, fun _ => trivial, fun _ => totalPdeE_contUp ρ he⟩

lemma recordInverse_contUp {nS : ℕ} {sp : Fin nS → ℝ × ℝ} {sv : Fin nS → ℝ} {keys : List String}
    {ρ : Source nIn → ℝ} (hr : ∀ r j, (nodeEntry (netN (sourceRows nIn)) r j).ContUp 2 ρ)
    (hb : ∀ r j, (nodeEntry (netN (constRows M.dirichletInput)) r j).ContUp 2 ρ)
    (hs : ∀ r j, (nodeEntry (netN (constRows sp)) r j).ContUp 2 ρ) {R : Recorded nIn dout}
    (h : recordInverse M netN beta dout sp sv keys = .ok R) : ContRec 1 ρ R := by
  unfold recordInverse at h
  cases hc : cellsResidualN M netN dout (fun _ ux uy => poissonInverseN M keys ux uy) with
  | error e => simp [hc] at h
  | ok es =>
    simp only [hc, Except.ok.injEq] at h
    subst h
    have he := fun c => cellsResidualN_contUp (m := 1) (ρ := ρ) M
      (fun u ux uy es h hu hx hy => poissonInverseN_contUp M ρ h hx hy) (fun r j => hr r j) hc c
    exact ⟨totalPdeE_contUp ρ he, fun j => dataLossN_contUp (m := 1) ρ netN _ _ _ j fun r j => (hb r j).mono (by omega),
      fun j => dataLossN_contUp (m := 1) ρ netN _ _ _ j fun r j => (hs r j).mono (by omega),
      fun j => ⟨⟨totalPdeE_contUp ρ he, trivial, dataLossN_contUp (m := 1) ρ netN _ _ _ j fun r j => (hb r j).mono (by omega)⟩, trivial,
        dataLossN_contUp (m := 1) ρ netN _ _ _ j fun r j => (hs r j).mono (by omega)⟩⟩

lemma recordInverseDomain_contUp {nS : ℕ} {sp : Fin nS → ℝ × ℝ} {sv : Fin nS → ℝ}
    {ρ : Source nIn → ℝ} (hr : ∀ r j, (nodeEntry (netN (sourceRows nIn)) r j).ContUp 2 ρ)
    (hb : ∀ r j, (nodeEntry (netN (constRows M.dirichletInput)) r j).ContUp 2 ρ)
    (hs : ∀ r j, (nodeEntry (netN (constRows sp)) r j).ContUp 2 ρ) {R : Recorded nIn 1}
    (h : recordInverseDomain M netN beta p dout sp sv = .ok R) : ContRec 1 ρ R := by
  unfold recordInverseDomain at h
  split_ifs at h
  dsimp only at h
  split at h
  · rename_i gx gy v k h1 h2 h3 h4
    cases hc : lossN M p .cd2dInverseDomain [k] v gx gy with
    | error e => simp [hc] at h
    | ok es =>
      simp only [hc, Except.ok.injEq] at h
      subst h
      have he := lossN_contUp (m := 1) M ρ p hc (fun c q => by
          obtain ⟨r, hr'⟩ := reshapeCellsN_mem h3 c q
          rw [hr']
          exact (hr _ _).mono (by omega)) (fun c q => by
          obtain ⟨r, hr'⟩ := reshapeCellsN_mem h1 c q
          rw [hr']
          exact innerGradient_contUp (fun r _ => hr r 0) _) (fun c q => by
          obtain ⟨r, hr'⟩ := reshapeCellsN_mem h2 c q
          rw [hr']
          exact innerGradient_contUp (fun r _ => hr r 0) _) (fun k' hk' c q => by
          rw [List.mem_singleton] at hk'
          subst hk'
          obtain ⟨r, hr'⟩ := reshapeCellsN_mem h4 c q
          rw [hr']
          exact (hr _ _).mono (by omega))
      exact ⟨totalPdeE_contUp ρ he, fun j => dataLossN_contUp (m := 1) ρ netN _ _ (fun _ => 0) j fun r j => (hb r j).mono (by omega),
      fun j => dataLossN_contUp (m := 1) ρ netN _ _ (fun _ => 0) j fun r j => (hs r j).mono (by omega),
      fun j => ⟨⟨totalPdeE_contUp ρ he, trivial, dataLossN_contUp (m := 1) ρ netN _ _ (fun _ => 0) j fun r j => (hb r j).mono (by omega)⟩, trivial,
        dataLossN_contUp (m := 1) ρ netN _ _ (fun _ => 0) j fun r j => (hs r j).mono (by omega)⟩⟩
  all_goals cases h

lemma noJump_of_continuous (act : String → ℕ → ℝ → ℝ) : ∀ (layers : List DenseLayer),
    (∀ L ∈ layers, ∀ a, L.activation = some a → ∀ z, NoJumpOf (act a) z) → ∀ x, NoJump act layers x
  | [], _, _ => trivial
  | L :: rest, h, x => ⟨fun a ha j => h L (by simp) a ha _,
      noJump_of_continuous act rest (fun L' hL' => h L' (by simp [hL'])) _⟩

lemma noJumpAt_of_continuous (hact : ∀ l ∈ specs, ∀ a, l.activation = some a → ∀ z, NoJumpOf (act a) z) (θ : Weights)
    {k : ℕ} (P : Fin k → ℝ × ℝ) : NoJumpAt act useAttention (layersAt θ 0 inDim specs) P := by
  intro rows _ x _
  refine noJump_of_continuous act _ (fun L hL a ha z => ?_) x
  obtain ⟨l, hl, e⟩ := layersAt_activation θ specs 0 inDim L hL
  exact hact l hl a (e ▸ ha) z

end

end FastVPINNs
