import Verif.Lemmas.TapeStep

/-! # The taped steps of the four models -/

namespace FastVPINNs

open Filter Topology Spec

section
variable {nc nt nq nIn nBd : ℕ} (M : ModelData nc nt nq nIn nBd) (act : String → ℕ → ℝ → ℝ)
  (useAttention : Bool) (inDim : ℕ) (specs : List LayerSpec) (dout : ℕ) (beta : ℝ) (p : ParamDict)

lemma records_dense : Records (n := nIn) (callN act useAttention inDim specs)
    (networkAt (fun a => act a 0) attentionDot useAttention inDim specs dout) where
  source X θ r j := by
    rw [nodeEntry_value, ← callN_value, valBatch_sourceRows]
    rfl
  const X θ m P r j := by
    rw [nodeEntry_value, ← callN_value, valBatch_constRows]
    rfl

lemma records_hard : Records (n := nIn) (callHardN act useAttention inDim specs)
    (fun θ => networkHard (fun a => act a 0) attentionDot useAttention (layersAt θ 0 inDim specs)
      applyHardBoundaryConstraints dout) where
  source X θ r j := by
    rw [nodeEntry_value, ← callHardN_value, valBatch_sourceRows]
    rfl
  const X θ m P r j := by
    rw [nodeEntry_value, ← callHardN_value, valBatch_constRows]
    rfl

variable {M act useAttention inDim specs}

lemma dense_source_regular {X : Fin nIn → ℝ × ℝ} {θ : Weights}
    (h : NoKinkAt act useAttention (layersAt θ 0 inDim specs) X) (r j : ℕ) :
    (nodeEntry (callN act useAttention inDim specs (sourceRows nIn)) r j).Regular 2 (Source.at X θ) :=
  nodeEntry_regular (fun y hy => callN_regular act X θ useAttention inDim specs hy (regBatch_sourceRows 2 _) (by
    rw [valBatch_sourceRows]
    exact h)) r j

lemma dense_const_regular {X : Fin nIn → ℝ × ℝ} {θ : Weights} {m : ℕ} {P : Fin m → ℝ × ℝ}
    (h : NoKinkAt act useAttention (layersAt θ 0 inDim specs) P) (r j : ℕ) :
    (nodeEntry (callN act useAttention inDim specs (constRows P)) r j).Regular 2 (Source.at X θ) :=
  nodeEntry_regular (fun y hy => callN_regular act X θ useAttention inDim specs hy (regBatch_constRows 2 _ _) (by
    rw [valBatch_constRows]
    exact h)) r j

lemma hard_source_regular {X : Fin nIn → ℝ × ℝ} {θ : Weights}
    (h : NoKinkAt act useAttention (layersAt θ 0 inDim specs) X) (r j : ℕ) :
    (nodeEntry (callHardN act useAttention inDim specs (sourceRows nIn)) r j).Regular 2 (Source.at X θ) :=
  nodeEntry_regular (fun y hy => callHardN_regular act X θ useAttention inDim specs hy (regBatch_sourceRows 2 _) (by
    rw [valBatch_sourceRows]
    exact h)) r j

variable {dout beta p} {netN : NodeBatch nIn → Except PyErr (NodeBatch nIn)} {net : Weights → Network dout}

/-! ## Values -/

lemma recordDense_forward {kind : LossKind} (hk : kind.forward) {θ : Weights}
    (hr : ∀ (r : Fin nIn) (j : Fin dout),
      (nodeEntry (callN act useAttention inDim specs (sourceRows nIn)) r j).Regular 1 (Source.at M.inputTensor θ)) :
    forwardDense (lossOf kind nc nt nq) M (fun a => act a 0) attentionDot useAttention inDim specs dout beta p θ
      = match recordDense M (callN act useAttention inDim specs) beta p dout kind with
        | .error e => .error e
        | .ok R => .ok (⟨R.lossPde.value (Source.at M.inputTensor θ),
            fun j => (R.lossDirichlet j).value (Source.at M.inputTensor θ),
            fun j => (R.loss j).value (Source.at M.inputTensor θ)⟩,
          ∑ j, (R.loss j).value (Source.at M.inputTensor θ)) := by
  have hN := records_dense (nIn := nIn) act useAttention inDim specs dout
  have hc := cellsResidualN_value (lossOf kind nc nt nq) M hN p [] (lossN M p kind []) θ
    (fun u ux uy => lossN_value M _ p kind hk u ux uy) hr
  unfold forwardDense trainStepDense recordDense
  rw [hc]
  cases cellsResidualN M (callN act useAttention inDim specs) dout (lossN M p kind []) with
  | error e => rfl
  | ok es =>
    have hb : ∀ j, (dataLossN (callN act useAttention inDim specs) M.dirichletInput M.dirichletActual
        (fun j : Fin dout => j) j).value (Source.at M.inputTensor θ)
        = meanSquareError (networkAt (fun a => act a 0) attentionDot useAttention inDim specs dout θ _
          M.dirichletInput) M.dirichletActual j := by
      intro j
      rw [dataLossN_value]
      congr 1
      funext r j
      exact hN.const _ θ _ r j
    simp only [Except.map, Node.value, hb, totalPdeE_value]

lemma recordHard_forward {kind : LossKind} (hk : kind.forward) {θ : Weights}
    (hr : ∀ (r : Fin nIn) (j : Fin dout),
      (nodeEntry (callHardN act useAttention inDim specs (sourceRows nIn)) r j).Regular 1 (Source.at M.inputTensor θ)) :
    forwardHard (lossOf kind nc nt nq) M (fun a => act a 0) attentionDot useAttention inDim specs dout beta p
        applyHardBoundaryConstraints θ
      = match recordHard M (callHardN act useAttention inDim specs) p dout kind with
        | .error e => .error e
        | .ok R => .ok (⟨R.lossPde.value (Source.at M.inputTensor θ),
            (R.lossDirichlet 0).value (Source.at M.inputTensor θ), (R.loss 0).value (Source.at M.inputTensor θ)⟩,
          ∑ j, (R.loss j).value (Source.at M.inputTensor θ)) := by
  have hN := records_hard (nIn := nIn) act useAttention inDim specs dout
  have hc := cellsResidualN_value (lossOf kind nc nt nq) M hN p [] (lossN M p kind []) θ
    (fun u ux uy => lossN_value M _ p kind hk u ux uy) hr
  unfold forwardHard trainStepHard recordHard
  rw [hc]
  cases cellsResidualN M (callHardN act useAttention inDim specs) dout (lossN M p kind []) with
  | error e => rfl
  | ok es => simp [Except.map, Node.value, totalPdeE_value]

lemma recordInverse_forward {nS : ℕ} (sp : Fin nS → ℝ × ℝ) (sv : Fin nS → ℝ) (keys : List String) {θ : Weights}
    (hr : ∀ (r : Fin nIn) (j : Fin dout),
      (nodeEntry (callN act useAttention inDim specs (sourceRows nIn)) r j).Regular 1 (Source.at M.inputTensor θ)) :
    forwardInverse (lossOf .poissonInverse nc nt nq) M (fun a => act a 0) attentionDot useAttention inDim specs dout
        beta p sp sv keys θ
      = match recordInverse M (callN act useAttention inDim specs) beta dout sp sv keys with
        | .error e => .error e
        | .ok R => .ok (⟨R.lossPde.value (Source.at M.inputTensor θ),
            fun j => (R.lossDirichlet j).value (Source.at M.inputTensor θ),
            fun j => (R.loss j).value (Source.at M.inputTensor θ), inverseAt θ keys,
            fun j => (R.sensorLoss j).value (Source.at M.inputTensor θ)⟩,
          ∑ j, (R.loss j).value (Source.at M.inputTensor θ)) := by
  have hN := records_dense (nIn := nIn) act useAttention inDim specs dout
  have hc := cellsResidualN_value (lossOf .poissonInverse nc nt nq) M hN p
    [("inverse_params_dict", .params (inverseAt θ keys))] (fun _ ux uy => poissonInverseN M keys ux uy) θ
    (fun u ux uy => inverseN_value M p _ θ keys u ux uy) hr
  unfold forwardInverse trainStepInverse recordInverse
  rw [hc]
  cases cellsResidualN M (callN act useAttention inDim specs) dout (fun _ ux uy => poissonInverseN M keys ux uy) with
  | error e => rfl
  | ok es =>
    have hb : ∀ {m : ℕ} (P : Fin m → ℝ × ℝ) (V : Fin m → ℝ) j, (dataLossN (callN act useAttention inDim specs) P V
        (fun j : Fin dout => j) j).value (Source.at M.inputTensor θ)
        = meanSquareError (networkAt (fun a => act a 0) attentionDot useAttention inDim specs dout θ _ P) V j := by
      intro m P V j
      rw [dataLossN_value]
      congr 1
      funext r j
      exact hN.const _ θ _ r j
    simp only [Except.map, Node.value, hb, totalPdeE_value]

lemma recordInverseDomain_forward {nS : ℕ} (sp : Fin nS → ℝ × ℝ) (sv : Fin nS → ℝ) {θ : Weights}
    (hr : ∀ r : Fin nIn,
      (nodeEntry (callN act useAttention inDim specs (sourceRows nIn)) r 0).Regular 1 (Source.at M.inputTensor θ)) :
    forwardInverseDomain (lossOf .cd2dInverseDomain nc nt nq) M (fun a => act a 0) attentionDot useAttention inDim specs
        dout beta p sp sv θ
      = match recordInverseDomain M (callN act useAttention inDim specs) beta p dout sp sv with
        | .error e => .error e
        | .ok R => .ok (⟨R.lossPde.value (Source.at M.inputTensor θ),
            fun j => (R.lossDirichlet j).value (Source.at M.inputTensor θ),
            fun j => (R.loss j).value (Source.at M.inputTensor θ), none,
            fun j => (R.sensorLoss j).value (Source.at M.inputTensor θ)⟩,
          ∑ j, (R.loss j).value (Source.at M.inputTensor θ)) := by
  have hN := records_dense (nIn := nIn) act useAttention inDim specs dout
  unfold forwardInverseDomain trainStepInverseDomain recordInverseDomain
  by_cases hd : 2 ≤ dout
  · simp only [hd, dif_pos, if_true]
    have hg := innerGradient_value (e := fun (r : Fin nIn) (_ : Fin 1) =>
        nodeEntry (callN act useAttention inDim specs (sourceRows nIn)) r 0)
      (g := fun θ X r _ => networkAt (fun a => act a 0) attentionDot useAttention inDim specs dout θ nIn X r
        ⟨0, by omega⟩) (fun X θ r _ => hN.source X θ r ⟨0, by omega⟩) M.inputTensor θ (fun r _ => hr r)
    have ht : tapeGradient (ι := Fin nIn) (fun X r => networkAt (fun a => act a 0) attentionDot useAttention inDim specs
        dout θ nIn X r ⟨0, by omega⟩) M.inputTensor
        = fun r => ((innerGradient (fun (r : Fin nIn) (_ : Fin 1) =>
            nodeEntry (callN act useAttention inDim specs (sourceRows nIn)) r 0) (.x r)).value
              (Source.at M.inputTensor θ),
          (innerGradient (fun (r : Fin nIn) (_ : Fin 1) =>
            nodeEntry (callN act useAttention inDim specs (sourceRows nIn)) r 0) (.y r)).value
              (Source.at M.inputTensor θ)) := by
      funext r
      rw [hg r]
      unfold tapeGradient
      simp [Fintype.sum_prod_type]
    have h0 : (fun r : Fin nIn => networkAt (fun a => act a 0) attentionDot useAttention inDim specs dout θ nIn
        M.inputTensor r ⟨0, by omega⟩) = fun r : Fin nIn => (nodeEntry (callN act useAttention inDim specs
          (sourceRows nIn)) r 0).value (Source.at M.inputTensor θ) := by
      funext r
      exact (hN.source M.inputTensor θ r ⟨0, by omega⟩).symm
    have h1 : (fun r : Fin nIn => networkAt (fun a => act a 0) attentionDot useAttention inDim specs dout θ nIn
        M.inputTensor r ⟨1, by omega⟩) = fun r : Fin nIn => (nodeEntry (callN act useAttention inDim specs
          (sourceRows nIn)) r 1).value (Source.at M.inputTensor θ) := by
      funext r
      exact (hN.source M.inputTensor θ r ⟨1, by omega⟩).symm
    have hb : ∀ {m : ℕ} (P : Fin m → ℝ × ℝ) (V : Fin m → ℝ) j, (dataLossN (callN act useAttention inDim specs) P V
        (fun _ : Fin 1 => 0) j).value (Source.at M.inputTensor θ)
        = meanSquareError (fun r _ => networkAt (fun a => act a 0) attentionDot useAttention inDim specs dout θ _ P r
          ⟨0, by omega⟩) V j := by
      intro m P V j
      rw [dataLossN_value]
      congr 1
      funext r j
      exact hN.const _ θ _ r ⟨0, by omega⟩
    rw [ht, h0, h1, reshapeCellsN_value, reshapeCellsN_value, reshapeCellsN_value, reshapeCellsN_value]
    generalize reshapeCellsN nc nq M.nCells (fun r => innerGradient (fun (r : Fin nIn) (_ : Fin 1) =>
        nodeEntry (callN act useAttention inDim specs (sourceRows nIn)) r 0) (.x r)) = a
    generalize reshapeCellsN nc nq M.nCells (fun r => innerGradient (fun (r : Fin nIn) (_ : Fin 1) =>
        nodeEntry (callN act useAttention inDim specs (sourceRows nIn)) r 0) (.y r)) = b
    generalize reshapeCellsN nc nq M.nCells (fun r : Fin nIn =>
        nodeEntry (callN act useAttention inDim specs (sourceRows nIn)) r 0) = c
    generalize reshapeCellsN nc nq M.nCells (fun r : Fin nIn =>
        nodeEntry (callN act useAttention inDim specs (sourceRows nIn)) r 1) = d
    rcases a with _ | a <;> rcases b with _ | b <;> rcases c with _ | c <;> rcases d with _ | d <;> try rfl
    simp only [Except.map]
    rw [← domainN_value M (Source.at M.inputTensor θ) p c a b d]
    cases lossN M p .cd2dInverseDomain [d] c a b with
    | error e => rfl
    | ok es => simp only [Except.map, Node.value, hb, totalPdeE_value]
  · simp only [hd, dif_neg, if_false, not_false_eq_true]

/-! ## Regularity -/

lemma recordDense_regular {kind : LossKind} {ρ : Source nIn → ℝ}
    (hr : ∀ r j, (nodeEntry (netN (sourceRows nIn)) r j).Regular 2 ρ)
    (hb : ∀ r j, (nodeEntry (netN (constRows M.dirichletInput)) r j).Regular 2 ρ) {R : Recorded nIn dout}
    (h : recordDense M netN beta p dout kind = .ok R) (j : Fin dout) : (R.loss j).Regular 1 ρ := by
  unfold recordDense at h
  cases hc : cellsResidualN M netN dout (lossN M p kind []) with
  | error e => simp [hc] at h
  | ok es =>
    simp only [hc, Except.ok.injEq] at h
    subst h
    have he := fun c => cellsResidualN_regular (m := 1) (ρ := ρ) M
      (fun u ux uy es h hu hx hy => lossN_regular M ρ p h hu hx hy (fun _ h => by cases h)) (fun r j => hr r j) hc c
    exact ⟨totalPdeE_regular ρ he, trivial,
      dataLossN_regular ρ netN _ _ _ j fun r j => (hb r j).mono (by omega)⟩

lemma recordHard_regular {kind : LossKind} {ρ : Source nIn → ℝ}
    (hr : ∀ r j, (nodeEntry (netN (sourceRows nIn)) r j).Regular 2 ρ) {R : Recorded nIn 1}
    (h : recordHard M netN p dout kind = .ok R) (j : Fin 1) : (R.loss j).Regular 1 ρ := by
  unfold recordHard at h
  cases hc : cellsResidualN M netN dout (lossN M p kind []) with
  | error e => simp [hc] at h
  | ok es =>
    simp only [hc, Except.ok.injEq] at h
    subst h
    have he := fun c => cellsResidualN_regular (m := 1) (ρ := ρ) M
      (fun u ux uy es h hu hx hy => lossN_regular M ρ p h hu hx hy (fun _ h => by cases h)) (fun r j => hr r j) hc c
    exact totalPdeE_regular ρ he

lemma recordInverse_regular {nS : ℕ} {sp : Fin nS → ℝ × ℝ} {sv : Fin nS → ℝ} {keys : List String}
    {ρ : Source nIn → ℝ} (hr : ∀ r j, (nodeEntry (netN (sourceRows nIn)) r j).Regular 2 ρ)
    (hb : ∀ r j, (nodeEntry (netN (constRows M.dirichletInput)) r j).Regular 2 ρ)
    (hs : ∀ r j, (nodeEntry (netN (constRows sp)) r j).Regular 2 ρ) {R : Recorded nIn dout}
    (h : recordInverse M netN beta dout sp sv keys = .ok R) (j : Fin dout) : (R.loss j).Regular 1 ρ := by
  unfold recordInverse at h
  cases hc : cellsResidualN M netN dout (fun _ ux uy => poissonInverseN M keys ux uy) with
  | error e => simp [hc] at h
  | ok es =>
    simp only [hc, Except.ok.injEq] at h
    subst h
    have he := fun c => cellsResidualN_regular (m := 1) (ρ := ρ) M
      (fun u ux uy es h hu hx hy => poissonInverseN_regular M ρ h hx hy) (fun r j => hr r j) hc c
    exact ⟨⟨totalPdeE_regular ρ he, trivial, dataLossN_regular ρ netN _ _ _ j fun r j => (hb r j).mono (by omega)⟩,
      trivial, dataLossN_regular ρ netN _ _ _ j fun r j => (hs r j).mono (by omega)⟩

lemma recordInverseDomain_regular {nS : ℕ} {sp : Fin nS → ℝ × ℝ} {sv : Fin nS → ℝ}
    {ρ : Source nIn → ℝ} (hr : ∀ r j, (nodeEntry (netN (sourceRows nIn)) r j).Regular 2 ρ)
    (hb : ∀ r j, (nodeEntry (netN (constRows M.dirichletInput)) r j).Regular 2 ρ)
    (hs : ∀ r j, (nodeEntry (netN (constRows sp)) r j).Regular 2 ρ) {R : Recorded nIn 1}
    (h : recordInverseDomain M netN beta p dout sp sv = .ok R) (j : Fin 1) : (R.loss j).Regular 1 ρ := by
  unfold recordInverseDomain at h
  split_ifs at h
  dsimp only at h
  split at h
  · rename_i gx gy v k h1 h2 h3 h4
    cases hc : lossN M p .cd2dInverseDomain [k] v gx gy with
    | error e => simp [hc] at h
    | ok es =>
      simp only [hc, Except.ok.injEq] at h
      subst h
      have he := lossN_regular (m := 1) M ρ p hc (fun c q => by
          obtain ⟨r, hr'⟩ := reshapeCellsN_mem h3 c q
          rw [hr']
          exact (hr _ _).mono (by omega)) (fun c q => by
          obtain ⟨r, hr'⟩ := reshapeCellsN_mem h1 c q
          rw [hr']
          exact innerGradient_regular (fun r _ => hr r 0) _) (fun c q => by
          obtain ⟨r, hr'⟩ := reshapeCellsN_mem h2 c q
          rw [hr']
          exact innerGradient_regular (fun r _ => hr r 0) _) (fun k' hk' c q => by
          rw [List.mem_singleton] at hk'
          subst hk'
          obtain ⟨r, hr'⟩ := reshapeCellsN_mem h4 c q
          rw [hr']
          exact (hr _ _).mono (by omega))
      exact ⟨⟨totalPdeE_regular ρ he, trivial, dataLossN_regular ρ netN _ _ _ j fun r j => (hb r j).mono (by omega)⟩,
        trivial, dataLossN_regular ρ netN _ _ _ j fun r j => (hs r j).mono (by omega)⟩
  all_goals cases h

lemma layersAt_activation (θ : Weights) : ∀ (specs : List LayerSpec) (k inDim : ℕ) (L : DenseLayer),
    L ∈ layersAt θ k inDim specs → ∃ l ∈ specs, L.activation = l.activation
  | [], _, _, _, h => by cases h
  | s :: rest, k, inDim, L, h => by
    rcases List.mem_cons.1 h with rfl | h
    · exact ⟨s, by simp, rfl⟩
    · obtain ⟨l, hl, e⟩ := layersAt_activation θ rest (k + 1) s.units L h
      exact ⟨l, by simp [hl], e⟩

lemma noKink_of_smooth (act : String → ℕ → ℝ → ℝ) : ∀ (layers : List DenseLayer),
    (∀ L ∈ layers, ∀ a, L.activation = some a → ∀ z, SmoothAt (act a) z) → ∀ x, NoKink act layers x
  | [], _, _ => trivial
  | L :: rest, h, x => ⟨fun a ha _ => h L (by simp) a ha _, noKink_of_smooth act rest (fun L' hL' => h L' (by simp [hL'])) _⟩

end

end FastVPINNs
