import Verif.Lemmas.Pyplot
import Verif.Lemmas.Driver
import Verif.Lemmas.Quantile
import Verif.Props.GeometryObject
import Verif.Props.Constructor
import Verif.Props.Train
import Verif.Props.ModelConfig
import Verif.Props.DataHandler
import Verif.Props.Tuning
import Std.Data.String.ToNat

/-! # C76: the driver scripts for forward problems

With the attention layer (computing what `attentionDot` does) the network is evaluated at averaged points: `batchValue`
in `Spec/Driver.lean`. -/

namespace FastVPINNs

open Spec

/-! ## From the loop to the record -/

section
variable {α : Type} (mc : Machine) (cfg : ForwardConfig) (M : DriverModel α)
  (value : Weights → ℝ × ℝ → ℝ) (losses : α → ℝ × ℝ × ℝ) (pts : List (ℝ × ℝ)) (u : ℝ × ℝ → ℝ)

/-- The part of a report on the console. -/
lemma reportBlock_ok (hpred : ∀ θ, M.predict θ pts = .ok (pts.map (value θ)))
    (hfl : ∀ out, M.floats out = .ok (losses out)) (e : ℕ) (out : α) (s : TrainState) (files files' : Files)
    (r : Report) (h : reportBlock M pts (pts.map u) e out s files = .ok (r, files')) :
    files' = files ∧ pts ≠ [] ∧ r.epoch = e ∧ (r.lossPde, r.lossDirichlet, r.totalLoss) = losses out ∧
      (∃ l2 linf l2r linfr l1 l1r, r.errors = (l2, linf, l2r, linfr, l1, l1r) ∧
        ErrorsAt pts u (value s.weights) l2 linf l2r linfr l1 l1r) ∧
      r.yPred = pts.map (value s.weights) ∧ r.error = pts.map fun p => |u p - value s.weights p| := by
  have hne : pts ≠ [] := by
    rintro rfl
    simp only [reportBlock, hpred, bind, Except.bind, List.map_nil, npSub, computeErrorsCombined,
      computeL2Error, computeLinfError, NDArray.flatten, array1, npMax, List.length_nil, if_true,
      List.zipWith_nil_left] at h
    exact absurd h (by simp)
  obtain ⟨l2, linf, l2r, linfr, l1, l1r, h1, h2⟩ := errors_at pts hne u (value s.weights)
  simp only [reportBlock, hpred, bind, Except.bind, npSub_map, h1, hfl, pure, Except.pure, Except.ok.injEq,
    Prod.mk.injEq] at h
  obtain ⟨rfl, rfl⟩ := h
  refine ⟨rfl, hne, rfl, rfl, ⟨l2, linf, l2r, linfr, l1, l1r, rfl, h2⟩, rfl, ?_⟩
  simp only [List.map_map]
  rfl

/-- With at least one test point a report can always be made. -/
lemma reportBlock_succeeds (hpred : ∀ θ, M.predict θ pts = .ok (pts.map (value θ)))
    (hfl : ∀ out, M.floats out = .ok (losses out)) (hne : pts ≠ []) (e : ℕ) (out : α) (s : TrainState)
    (files : Files) : ∃ r, reportBlock M pts (pts.map u) e out s files = .ok (r, files) := by
  obtain ⟨l2, linf, l2r, linfr, l1, l1r, h1, -⟩ := errors_at pts hne u (value s.weights)
  simp only [reportBlock, hpred, bind, Except.bind, npSub_map, h1, hfl, pure, Except.pure]
  exact ⟨_, rfl⟩

lemma writeFile_same (files : Files) (p : String) (c : List String) : writeFile files p c p = some c := by
  simp [writeFile]

lemma writeFile_other (files : Files) (p q : String) (c : List String) (h : q ≠ p) :
    writeFile files p c q = files q := by
  simp [writeFile, h]

/-- The names of the text files. -/
def resultNames : List String :=
  ["loss_function.txt", "prediction.txt", "exact.txt", "error.txt", "time_per_epoch.txt"]

/-- The last part of a script. -/
lemma finish_record (hjoin : ∀ a b, mc.env.join cfg.outputPath a = mc.env.join cfg.outputPath b → a = b)
    (hline : ∀ fmt out, M.lossLine fmt out = fmt (losses out).2.2) (st : ℕ → TrainState)
    (s : LoopState α Report) (R : RunResult) (hlen : s.losses.length = cfg.epochs)
    (hst : st cfg.epochs = s.model)
    (hrep : List.Forall₂ (fun e r => r.epoch = e ∧
      (∃ out, s.losses[e]? = some out ∧ (r.lossPde, r.lossDirichlet, r.totalLoss) = losses out) ∧
      (∃ l2 linf l2r linfr l1 l1r, r.errors = (l2, linf, l2r, linfr, l1, l1r) ∧
        ErrorsAt pts u (value (st (e + 1)).weights) l2 linf l2r linfr l1 l1r) ∧
      r.yPred = pts.map (value (st (e + 1)).weights) ∧
      r.error = pts.map fun p => |u p - value (st (e + 1)).weights p|)
      (reportEpochs cfg.updateConsoleOutput cfg.epochs) s.reports)
    (h : finishRun mc cfg M (pts.map u) s = .ok R) :
    IsRecord mc cfg pts u value losses st s.losses R ∧
      (∀ path, (∀ name ∈ resultNames, path ≠ mc.env.join cfg.outputPath name) →
        R.files path = s.files path) ∧ R.reports = s.reports := by
  unfold finishRun at h
  split at h
  · exact absurd h (by simp)
  rename_i r hr
  have hN : 0 < cfg.epochs := by
    rcases Nat.eq_zero_or_pos cfg.epochs with h0 | h0
    · rw [h0] at hrep
      have : reportEpochs cfg.updateConsoleOutput 0 = [] := rfl
      rw [this, List.forall₂_nil_left_iff] at hrep
      rw [hrep] at hr
      exact absurd hr (by simp)
    · exact h0
  have hlast := reportEpochs_last cfg.updateConsoleOutput cfg.epochs hN
  obtain ⟨b, hb, h1, h2, ⟨l2, linf, l2r, linfr, l1, l1r, h3, h4⟩, h5, h6⟩ : ∃ b : Report,
      s.reports.getLast? = some b ∧ b.epoch = cfg.epochs - 1 ∧
      (∃ out, s.losses[cfg.epochs - 1]? = some out ∧
        (b.lossPde, b.lossDirichlet, b.totalLoss) = losses out) ∧
      (∃ l2 linf l2r linfr l1 l1r, b.errors = (l2, linf, l2r, linfr, l1, l1r) ∧
        ErrorsAt pts u (value (st cfg.epochs).weights) l2 linf l2r linfr l1 l1r) ∧
      b.yPred = pts.map (value (st cfg.epochs).weights) ∧
      b.error = pts.map fun p => |u p - value (st cfg.epochs).weights p| := by
    rcases forall₂_getLast hrep with ⟨h0, -⟩ | ⟨a, b, h1, h2, h3⟩
    · rw [h0] at hlast
      exact absurd hlast (by simp)
    · obtain rfl : cfg.epochs - 1 = a := Option.some.inj (hlast.symm.trans h1)
      rw [show cfg.epochs - 1 + 1 = cfg.epochs by omega] at h3
      exact ⟨b, h2, h3⟩
  obtain rfl : r = b := Option.some.inj (hr.symm.trans hb)
  unfold timeColumn epochsPerSecond at h
  rw [hlen] at h
  have htne : (List.range cfg.epochs).map mc.elapsed ≠ [] := by
    simp only [ne_eq, List.map_eq_nil_iff, List.range_eq_nil]
    omega
  have hsum : ((List.range cfg.epochs).map mc.elapsed).sum = ∑ e ∈ Finset.range cfg.epochs, mc.elapsed e := by
    simp [Finset.sum, Finset.range, Multiset.range]
  dsimp only at h
  by_cases ht0 : ((List.range cfg.epochs).map mc.elapsed).sum = 0
  · rw [if_pos ht0, if_neg (by omega)] at h
    exact absurd h (by simp)
  rw [if_neg ht0] at h
  dsimp only at h
  obtain rfl := Except.ok.inj h
  have hne : ∀ a b : String, a ≠ b → mc.env.join cfg.outputPath a ≠ mc.env.join cfg.outputPath b :=
    fun a b hab hc => hab (hjoin a b hc)
  have hNpos : (0 : ℝ) < cfg.epochs := by exact_mod_cast hN
  have hmed := median_eq_percentile ((List.range cfg.epochs).map mc.elapsed) htne
  refine ⟨⟨by simp only [hst], hrep, ?_, ?_, ?_, ?_, ?_, ?_, ?_⟩, ?_, rfl⟩
  · simp only [saveAll, saveText]
    rw [writeFile_other _ _ _ _ (hne _ _ (by decide)), writeFile_other _ _ _ _ (hne _ _ (by decide)),
      writeFile_other _ _ _ _ (hne _ _ (by decide)), writeFile_other _ _ _ _ (hne _ _ (by decide)),
      writeFile_same]
    congr 1
    exact List.map_congr_left fun o _ => hline _ o
  · simp only [saveAll, saveText]
    rw [writeFile_other _ _ _ _ (hne _ _ (by decide)), writeFile_other _ _ _ _ (hne _ _ (by decide)),
      writeFile_other _ _ _ _ (hne _ _ (by decide)), writeFile_same, h5, List.map_map]
    rfl
  · simp only [saveAll, saveText]
    rw [writeFile_other _ _ _ _ (hne _ _ (by decide)), writeFile_other _ _ _ _ (hne _ _ (by decide)),
      writeFile_same, List.map_map]
    rfl
  · simp only [saveAll, saveText]
    rw [writeFile_other _ _ _ _ (hne _ _ (by decide)), writeFile_same, h6, List.map_map]
    rfl
  · simp only [saveAll, saveText]
    rw [writeFile_same, List.map_map]
    rfl
  · refine ⟨l2, linf, l2r, linfr, l1, l1r, h4, ?_⟩
    rw [h3]
    rfl
  · refine ⟨_, _, _, _, _, _, ?_, ?_, ?_, ?_, ?_, hsum, ?_, ?_, rfl⟩
    · have := percentile_isQuantile _ htne 50 (by norm_num) (by norm_num)
      rw [hmed]
      convert this using 1
      norm_num
    · have := percentile_isQuantile _ htne 25 (by norm_num) (by norm_num)
      convert this using 1
      norm_num
    · have := percentile_isQuantile _ htne 75 (by norm_num) (by norm_num)
      convert this using 1
      norm_num
    · rw [hmed]; exact percentile_mono _ htne 25 50 (by norm_num) (by norm_num) (by norm_num)
    · rw [hmed]; exact percentile_mono _ htne 50 75 (by norm_num) (by norm_num) (by norm_num)
    · unfold npMean
      rw [List.length_map, List.length_range]
      field_simp
    · intro hpos
      unfold pyInt
      rw [if_pos (by positivity)]
      constructor
      · rw [← le_div_iff₀ hpos]
        exact Int.floor_le _
      · rw [← div_lt_iff₀ hpos]
        exact Int.lt_floor_add_one _
  · intro path hp
    simp only [resultNames, List.mem_cons, List.not_mem_nil, or_false, forall_eq_or_imp, forall_eq] at hp
    obtain ⟨p1, p2, p3, p4, p5⟩ := hp
    simp only [saveAll, saveText]
    rw [writeFile_other _ _ _ _ p5, writeFile_other _ _ _ _ p4, writeFile_other _ _ _ _ p3,
      writeFile_other _ _ _ _ p2, writeFile_other _ _ _ _ p1]

/-- A script on a uniform mesh, from the model on. -/
lemma runUniform_record (hjoin : ∀ a b, mc.env.join cfg.outputPath a = mc.env.join cfg.outputPath b → a = b)
    (pb : Problem) (P : Prepared) (o' : GeometryObject) (hpred : ∀ θ, M.predict θ pts = .ok (pts.map (value θ)))
    (hfl : ∀ out, M.floats out = .ok (losses out))
    (hline : ∀ fmt out, M.lossLine fmt out = fmt (losses out).2.2)
    (hpts : P.geometry.getTestPoints mc.env P.files = (.ok (.points pts), o', P.files)) (θ : Weights)
    (R : RunResult) (h : runUniform mc cfg pb P M θ = .ok R) :
    ∃ (st : ℕ → TrainState) (outs : List α), st 0 = ⟨θ, AdamState.init⟩ ∧ outs.length = cfg.epochs ∧
      IsRun M.step st outs ∧
      IsRecord mc cfg pts (fun p => pb.exactSolution p.1 p.2) value losses st outs R ∧
      (∀ path, (∀ name ∈ resultNames, path ≠ mc.env.join cfg.outputPath name) →
        R.files path = P.files path) ∧
      ∃ model files', epochLoop M.step (reportBlock M pts (pts.map fun p => pb.exactSolution p.1 p.2))
        cfg.updateConsoleOutput cfg.epochs (List.range cfg.epochs) ⟨⟨θ, AdamState.init⟩, [], [], P.files⟩
          = .ok ⟨model, outs, R.reports, files'⟩ := by
  unfold runUniform at h
  rw [hpts] at h
  dsimp only at h
  split at h
  · exact absurd h (by simp)
  split at h
  · exact absurd h (by simp)
  split at h
  · exact absurd h (by simp)
  rename_i s hs
  obtain ⟨hu, hlen, st, fs, h0, hN, hf0, hfN, hrun, hrep, hquiet⟩ := epochLoop_ok _ _ _ _ _ _ rfl rfl hs
  have hok := reportBlock_ok M value losses pts (fun p => pb.exactSolution p.1 p.2) hpred hfl
  have hfiles : ∀ n ≤ cfg.epochs, fs n = P.files := by
    intro n
    induction n with
    | zero => intro _; exact hf0
    | succ n ih =>
      intro hn
      by_cases hm : n ∈ reportEpochs cfg.updateConsoleOutput cfg.epochs
      · obtain ⟨r, -, out, -, hr⟩ := forall₂_mem_left hrep hm
        rw [(hok _ _ _ _ _ _ hr).1]
        exact ih (by omega)
      · rw [hquiet n (by omega) hm]
        exact ih (by omega)
  obtain ⟨hrec, hoth, -⟩ := finish_record mc cfg M value losses pts (fun p => pb.exactSolution p.1 p.2) hjoin
    hline st s R hlen hN (hrep.imp fun e r ⟨out, ho, hr⟩ => by
      obtain ⟨-, -, h3, h4, h5, h6, h7⟩ := hok _ _ _ _ _ _ hr
      exact ⟨h3, ⟨out, ho, h4⟩, h5, h6, h7⟩) h
  have hR : R.reports = s.reports := by
    unfold finishRun at h
    split at h
    · exact absurd h (by simp)
    · dsimp only at h
      split at h
      · exact absurd h (by simp)
      · rw [← Except.ok.inj h]
  refine ⟨st, s.losses, h0, hlen, hrun, hrec, fun path hp => ?_, s.model, s.files, ?_⟩
  · rw [hoth path hp, ← hfN, hfiles _ le_rfl]
  · rw [hR, hs]

end

/-! ## The objects built before the training -/

lemma prepareModel_ok (mc : Machine) (cfg : ForwardConfig) (pb : Problem) (ld : List ℕ)
    (lrFn : List (String × PyVal) → Except PyErr LearningRate) (o : GeometryObject) (files : Files)
    (cells : List Quad) (bd : BdDict) (hmt : o.meshType = "quadrilateral") (P : Prepared)
    (h : prepareModel mc cfg pb ld lrFn o files cells bd = .ok P) :
    ∃ (mp : List (ℝ × ℝ)) (nq : ℕ) (S S' : Fespace2D (ℝ → ℝ → ℝ) ℝ (cfg.feOrder.toNat ^ 2) nq)
      (D : DataHandler2D (cfg.feOrder.toNat ^ 2) nq) (bdv : List (ℝ × ℝ) × List ℝ) (lr : LearningRate)
      (specs : List LayerSpec) (inDim : ℕ),
      Assembled mc cfg pb ld mp cells bd S S' D bdv specs ∧ lrFn cfg.learningRate = .ok lr ∧
      pyIndex ld 0 = .ok inDim ∧ P = ⟨_, nq, D, bdv, cells.length, inDim, specs, lr, o, files⟩ := by
  unfold prepareModel at h
  rw [hmt] at h
  split at h
  · exact absurd h (by simp)
  rename_i nq S hS
  split at h
  · exact absurd h (by simp)
  rename_i D S' hD
  split at h
  · exact absurd h (by simp)
  rename_i bdv hbdv
  split at h
  · exact absurd h (by simp)
  rename_i lr hlr
  split at h
  · exact absurd h (by simp)
  rename_i specs hspecs
  split at h
  · exact absurd h (by simp)
  rename_i inDim hin
  obtain rfl := Except.ok.inj h
  have hn : S'.nCells = cells.length := by
    obtain ⟨-, hn', -⟩ := reachable_forall₂ (dataHandler_reachable _ _ _ _ _ _ _ _ hS hD)
    rw [hn', (fespace_ok hS).2.2.2.2.1]
  exact ⟨_, nq, S, S', D, bdv, lr, specs, inDim, ⟨hS, hD, hbdv, hspecs⟩, hlr, hin, by rw [hn]⟩

/-- A geometry can only have quadrilateral cells. -/
lemma newGeometry_meshType {mt method : String} {tx ty : ℕ} {folder : String} {opt : Bool}
    {o : GeometryObject} (h : newGeometry mt method tx ty folder opt = .ok o) :
    o.meshType = "quadrilateral" := by
  have h1 := (newGeometry_ok h).1
  unfold geometry2D at h1
  split_ifs at h1 with h2 h3
  rw [← Except.ok.inj h1]
  simpa using h3

/-! ## Models -/

/-- The network of the drivers with fixed layers. -/
lemma fixedLayers_specs (a : String) :
    layerSpecs fixedLayers a = .ok [⟨30, some a⟩, ⟨30, some a⟩, ⟨30, some a⟩, ⟨1, none⟩] := rfl

lemma dense_predict (P : Prepared) (mc : Machine) (cfg : ForwardConfig) (pb : Problem) (dims : List ℕ)
    (hatt : cfg.useAttention = true → mc.attention = attentionDot) (hin : P.inDim = 2) (h2 : 2 ≤ dims.length)
    (hs : layerSpecs dims cfg.activation = .ok P.specs) (h0 : dims.getD 0 0 = 2)
    (hl : dims.getD (dims.length - 1) 0 = 1) (pts : List (ℝ × ℝ)) (θ : Weights) :
    (P.dense mc cfg pb 1).predict θ pts = .ok (pts.map (batchValue cfg.useAttention pts (mc.act cfg.activation) dims θ)) := by
  simp only [DriverModel.predict, Prepared.dense, hin]
  rw [callDense_batch mc.act mc.attention cfg.useAttention hatt dims cfg.activation P.specs h2 hs h0 hl θ pts]
  simp only [flatten_singletons]

lemma dense_floats (P : Prepared) (mc : Machine) (cfg : ForwardConfig) (pb : Problem) (out : TrainOut 1) :
    (P.dense mc cfg pb 1).floats out = .ok (out.lossPde, out.lossDirichlet 0, out.loss 0) := rfl

lemma dense_lossLine (P : Prepared) (mc : Machine) (cfg : ForwardConfig) (pb : Problem) (fmt : ℝ → String)
    (out : TrainOut 1) : (P.dense mc cfg pb 1).lossLine fmt out = fmt (out.loss 0) := by
  simp only [Prepared.dense, List.ofFn_succ, List.ofFn_zero]
  rfl

lemma hardAnsatz_eq (p : ℝ × ℝ) : hardAnsatz [p.1, p.2] = squareFactor p := by
  simp only [hardAnsatz, squareFactor, List.getD_cons_zero, List.getD_cons_succ]
  rw [show (4.0 : ℝ) = 4 by norm_num, show (1.0 : ℝ) = 1 by norm_num]

lemma hard_predict (P : Prepared) (mc : Machine) (cfg : ForwardConfig) (pb : Problem) (dims : List ℕ)
    (hatt : cfg.useAttention = true → mc.attention = attentionDot) (hin : P.inDim = 2) (h2 : 2 ≤ dims.length)
    (hs : layerSpecs dims cfg.activation = .ok P.specs) (h0 : dims.getD 0 0 = 2)
    (hl : dims.getD (dims.length - 1) 0 = 1) (pts : List (ℝ × ℝ)) (θ : Weights) :
    (P.hard mc cfg pb 1).predict θ pts = .ok (pts.map fun p =>
      squareFactor p * batchValue cfg.useAttention pts (mc.act cfg.activation) dims θ p) := by
  simp only [DriverModel.predict, Prepared.hard, hin, callHard]
  rw [callDense_batch mc.act mc.attention cfg.useAttention hatt dims cfg.activation P.specs h2 hs h0 hl θ pts]
  simp only [applyHardBoundaryConstraints, List.map_map, List.zipWith_map, List.zipWith_self, hardAnsatz_eq]
  congr 1
  rw [← flatten_singletons (pts.map _), List.map_map]
  rfl

/-! ## The uniform mesh -/

/-- The values of the configuration before the mesh is built, inverted. -/
lemma prepareUniform_ok (mc : Machine) (cfg : ForwardConfig) (pb : Problem) (ld : List ℕ)
    (lrFn : List (String × PyVal) → Except PyErr LearningRate)
    (sample : Fin 4 → Fin (cfg.nBoundaryPoints / 4) → ℝ) (files : Files) (P : Prepared)
    (hint : cfg.meshGenerationMethod = "internal")
    (h : prepareUniform mc cfg pb ld lrFn sample files = .ok P) :
    ∃ (o o' : GeometryObject) (files' : Files) (cells : List Quad) (bd : List (ℤ × List (List ℝ)))
      (mp : List (ℝ × ℝ)) (nq : ℕ) (S S' : Fespace2D (ℝ → ℝ → ℝ) ℝ (cfg.feOrder.toNat ^ 2) nq)
      (D : DataHandler2D (cfg.feOrder.toNat ^ 2) nq) (bdv : List (ℝ × ℝ) × List ℝ) (lr : LearningRate)
      (specs : List LayerSpec) (inDim : ℕ) (pts : List (ℝ × ℝ)) (o'' : GeometryObject),
      cfg.dtype ∈ ["float64", "float32"] ∧
      newGeometry cfg.meshType cfg.meshGenerationMethod cfg.nTestPointsX cfg.nTestPointsY cfg.outputPath false
        = .ok o ∧
      o.generateInternal mc.env files (cfg.xMin, cfg.xMax) (cfg.yMin, cfg.yMax) cfg.nCellsX cfg.nCellsY
        cfg.nBoundaryPoints sample = (.ok (.mesh cells bd), o', files') ∧
      Assembled mc cfg pb ld mp cells (bdPairs bd) S S' D bdv specs ∧ lrFn cfg.learningRate = .ok lr ∧
      pyIndex ld 0 = .ok inDim ∧ P = ⟨_, nq, D, bdv, cells.length, inDim, specs, lr, o', files'⟩ ∧
      IsTensorGrid (cfg.xMin, cfg.xMax) (cfg.yMin, cfg.yMax) cfg.nTestPointsX cfg.nTestPointsY pts ∧
      o'.getTestPoints mc.env files' = (.ok (.points pts), o'', files') := by
  unfold prepareUniform at h
  split_ifs at h with hd
  split at h
  · exact absurd h (by simp)
  rename_i o ho
  split at h
  · exact absurd h (by simp)
  · rename_i cells bd o' files' hg
    have hg' := generateInternal_object mc.env o files (cfg.xMin, cfg.xMax) (cfg.yMin, cfg.yMax) cfg.nCellsX
      cfg.nCellsY cfg.nBoundaryPoints sample
    rw [hg] at hg'
    dsimp only at hg'
    have hmt : o'.meshType = "quadrilateral" := by
      rw [hg']
      exact (newGeometry_meshType ho : o.meshType = "quadrilateral")
    obtain ⟨mp, nq, S, S', D, bdv, lr, specs, inDim, h1, h2, h3, h4⟩ := prepareModel_ok _ _ _ _ _ _ _ _ _ hmt P h
    have ho' := ho
    rw [hint] at ho'
    obtain ⟨pts, hp1, hp2⟩ := C66_internal_points mc.env _ _ _ _ _ o ho' files [] [] (cfg.xMin, cfg.xMax)
      (cfg.yMin, cfg.yMax) cfg.nCellsX cfg.nCellsY cfg.nBoundaryPoints sample (by simp)
    simp only [runCalls, GeometryCall.exec, hg] at hp2
    have hp3 : ∃ o'', o'.getTestPoints mc.env files' = (.ok (.points pts), o'', files') := by
      unfold GeometryObject.getTestPoints at hp2 ⊢
      dsimp only at hp2 ⊢
      split at hp2
      · exact absurd hp2 (by simp)
      · rename_i p hp
        dsimp only at hp2
        rw [Except.ok.inj hp2]
        exact ⟨_, rfl⟩
    obtain ⟨o'', hp3⟩ := hp3
    exact ⟨o, o', files', cells, bd, mp, nq, S, S', D, bdv, lr, specs, inDim, pts, o'', by simpa using hd, ho, hg,
      h1, h2, h3, h4, hp1, hp3⟩
  · exact absurd h (by simp)

/-- **C76** (uniform mesh).  Whenever the script for the Poisson or Helmholtz problem on the rectangle
finishes, it has trained the network with widths 2, 30, 30, 30, 1 - the configured architecture is not
used - with the loss, tensors, boundary data and learning rate assembled from the configuration for the
cells of the generated mesh, for the configured number of epochs from the initial weights `θ` and a new
optimizer, and everything it leaves behind belongs to this training, evaluated at the tensor grid of test
points.  Files other than the five text files are those left by the geometry. -/
theorem C76_uniform (mc : Machine) (pb : Problem) (cfg : ForwardConfig)
    (sample : Fin 4 → Fin (cfg.nBoundaryPoints / 4) → ℝ) (θ : Weights) (files : Files) (R : RunResult)
    (hatt : cfg.useAttention = true → mc.attention = attentionDot) (hint : cfg.meshGenerationMethod = "internal")
    (hjoin : ∀ a b, mc.env.join cfg.outputPath a = mc.env.join cfg.outputPath b → a = b)
    (h : mainUniform mc pb cfg sample θ files = .ok R) :
    ∃ (o o' : GeometryObject) (files' : Files) (cells : List Quad) (bd : List (ℤ × List (List ℝ)))
      (mp : List (ℝ × ℝ)) (nq : ℕ) (S S' : Fespace2D (ℝ → ℝ → ℝ) ℝ (cfg.feOrder.toNat ^ 2) nq)
      (D : DataHandler2D (cfg.feOrder.toNat ^ 2) nq) (bdv : List (ℝ × ℝ) × List ℝ) (specs : List LayerSpec)
      (lr : LearningRate) (pts : List (ℝ × ℝ)) (st : ℕ → TrainState) (outs : List (TrainOut 1)),
      newGeometry cfg.meshType "internal" cfg.nTestPointsX cfg.nTestPointsY cfg.outputPath false = .ok o ∧
      o.generateInternal mc.env files (cfg.xMin, cfg.xMax) (cfg.yMin, cfg.yMax) cfg.nCellsX cfg.nCellsY
        cfg.nBoundaryPoints sample = (.ok (.mesh cells bd), o', files') ∧
      Assembled mc cfg pb [2, 30, 30, 30, 1] mp cells (bdPairs bd) S S' D bdv specs ∧
      learningRateFn cfg.learningRate = .ok lr ∧
      IsTensorGrid (cfg.xMin, cfg.xMax) (cfg.yMin, cfg.yMax) cfg.nTestPointsX cfg.nTestPointsY pts ∧
      st 0 = ⟨θ, AdamState.init⟩ ∧ outs.length = cfg.epochs ∧
      IsRun (trainStepWith (forwardDense (pb.loss D.nCells _ nq) (modelDataOf D bdv cells.length) mc.act
        mc.attention cfg.useAttention 2 specs 1 cfg.beta (some pb.bilinearParams)) (trainableVariables 2 specs []) lr)
        st outs ∧
      IsRecord mc cfg pts (fun p => pb.exactSolution p.1 p.2)
        (batchValue cfg.useAttention pts (mc.act cfg.activation) [2, 30, 30, 30, 1])
        (fun out => (out.lossPde, out.lossDirichlet 0, out.loss 0)) st outs R ∧
      ∀ path, (∀ name ∈ resultNames, path ≠ mc.env.join cfg.outputPath name) → R.files path = files' path := by
  unfold mainUniform at h
  split at h
  · exact absurd h (by simp)
  rename_i P hP
  obtain ⟨o, o', files', cells, bd, mp, nq, S, S', D, bdv, lr, specs, inDim, pts, o'', -, h1, h2, h3, h4, h5, rfl,
    h7, h8⟩ := prepareUniform_ok mc cfg pb _ _ sample files P hint hP
  obtain rfl : 2 = inDim := Except.ok.inj h5
  obtain rfl : specs = [⟨30, some cfg.activation⟩, ⟨30, some cfg.activation⟩, ⟨30, some cfg.activation⟩, ⟨1, none⟩] :=
    Except.ok.inj (h3.layers.symm.trans (fixedLayers_specs cfg.activation))
  obtain ⟨st, outs, k1, k2, k3, k4, k5, -⟩ := runUniform_record mc cfg _ (batchValue cfg.useAttention pts (mc.act cfg.activation) fixedLayers)
    (fun out : TrainOut 1 => (out.lossPde, out.lossDirichlet 0, out.loss 0)) pts hjoin pb _ o''
    (dense_predict _ mc cfg pb fixedLayers hatt rfl (by decide) (fixedLayers_specs cfg.activation) rfl rfl pts)
    (dense_floats _ mc cfg pb) (dense_lossLine _ mc cfg pb) h8 θ R h
  refine ⟨o, o', files', cells, bd, mp, nq, S, S', D, bdv, _, lr, pts, st, outs, hint ▸ h1, h2, h3, h4, h7, k1, k2,
    ?_, k4, k5⟩
  intro k hk
  have := k3 k hk
  simp only [Prepared.dense, if_true] at this
  rw [show paramsAsTensors pb.bilinearParams = pb.bilinearParams by simp [paramsAsTensors]] at this
  exact this


/-- **C76** (hard boundary constraints).  The same for the script with hard constraints: the function that
is trained, evaluated and saved is the product of the network with the factor that vanishes on the sides of
the unit square, and the key `staircase` is needed for the learning rate. -/
theorem C76_hard (mc : Machine) (pb : Problem) (cfg : ForwardConfig)
    (sample : Fin 4 → Fin (cfg.nBoundaryPoints / 4) → ℝ) (θ : Weights) (files : Files) (R : RunResult)
    (hatt : cfg.useAttention = true → mc.attention = attentionDot) (hint : cfg.meshGenerationMethod = "internal")
    (hjoin : ∀ a b, mc.env.join cfg.outputPath a = mc.env.join cfg.outputPath b → a = b)
    (h : mainHard mc pb cfg sample θ files = .ok R) :
    ∃ (o o' : GeometryObject) (files' : Files) (cells : List Quad) (bd : List (ℤ × List (List ℝ)))
      (mp : List (ℝ × ℝ)) (nq : ℕ) (S S' : Fespace2D (ℝ → ℝ → ℝ) ℝ (cfg.feOrder.toNat ^ 2) nq)
      (D : DataHandler2D (cfg.feOrder.toNat ^ 2) nq) (bdv : List (ℝ × ℝ) × List ℝ) (specs : List LayerSpec)
      (lr : LearningRate) (pts : List (ℝ × ℝ)) (st : ℕ → TrainState) (outs : List TrainOutHard),
      newGeometry cfg.meshType "internal" cfg.nTestPointsX cfg.nTestPointsY cfg.outputPath false = .ok o ∧
      o.generateInternal mc.env files (cfg.xMin, cfg.xMax) (cfg.yMin, cfg.yMax) cfg.nCellsX cfg.nCellsY
        cfg.nBoundaryPoints sample = (.ok (.mesh cells bd), o', files') ∧
      Assembled mc cfg pb [2, 30, 30, 30, 1] mp cells (bdPairs bd) S S' D bdv specs ∧
      learningRateFnStaircase cfg.learningRate = .ok lr ∧
      IsTensorGrid (cfg.xMin, cfg.xMax) (cfg.yMin, cfg.yMax) cfg.nTestPointsX cfg.nTestPointsY pts ∧
      st 0 = ⟨θ, AdamState.init⟩ ∧ outs.length = cfg.epochs ∧
      IsRun (trainStepWith (forwardHard (pb.loss D.nCells _ nq) (modelDataOf D bdv cells.length) mc.act
        mc.attention cfg.useAttention 2 specs 1 cfg.beta (some pb.bilinearParams) applyHardBoundaryConstraints)
        (trainableVariables 2 specs []) lr) st outs ∧
      IsRecord mc cfg pts (fun p => pb.exactSolution p.1 p.2)
        (fun w p => squareFactor p * batchValue cfg.useAttention pts (mc.act cfg.activation) [2, 30, 30, 30, 1] w p)
        (fun out => (out.lossPde, out.lossDirichlet, out.loss)) st outs R ∧
      ∀ path, (∀ name ∈ resultNames, path ≠ mc.env.join cfg.outputPath name) → R.files path = files' path := by
  unfold mainHard at h
  split at h
  · exact absurd h (by simp)
  rename_i P hP
  obtain ⟨o, o', files', cells, bd, mp, nq, S, S', D, bdv, lr, specs, inDim, pts, o'', -, h1, h2, h3, h4, h5, rfl,
    h7, h8⟩ := prepareUniform_ok mc cfg pb _ _ sample files P hint hP
  obtain rfl : 2 = inDim := Except.ok.inj h5
  obtain rfl : specs = [⟨30, some cfg.activation⟩, ⟨30, some cfg.activation⟩, ⟨30, some cfg.activation⟩, ⟨1, none⟩] :=
    Except.ok.inj (h3.layers.symm.trans (fixedLayers_specs cfg.activation))
  obtain ⟨st, outs, k1, k2, k3, k4, k5, -⟩ := runUniform_record mc cfg _ (fun w p =>
      squareFactor p * batchValue cfg.useAttention pts (mc.act cfg.activation) fixedLayers w p)
    (fun out : TrainOutHard => (out.lossPde, out.lossDirichlet, out.loss)) pts hjoin pb _ o''
    (hard_predict _ mc cfg pb fixedLayers hatt rfl (by decide) (fixedLayers_specs cfg.activation) rfl rfl pts)
    (fun _ => rfl) (fun _ _ => rfl) h8 θ R h
  refine ⟨o, o', files', cells, bd, mp, nq, S, S', D, bdv, _, lr, pts, st, outs, hint ▸ h1, h2, h3, h4, h7, k1,
    k2, ?_, k4, k5⟩
  intro k hk
  have := k3 k hk
  simp only [Prepared.hard, if_true] at this
  rw [show paramsAsTensors pb.bilinearParams = pb.bilinearParams by simp [paramsAsTensors]] at this
  exact this

/-- Whatever the network, the residuals are the loss function at some values. -/
lemma cellsResidual_some {nc nt nq nIn nBd : ℕ} (L : LossFunction nc nt nq) (M : ModelData nc nt nq nIn nBd)
    (net : Network 1) (pt : Fin nc → Fin nq → ℝ × ℝ) (hM : Shaped M pt) (p : ParamDict)
    (extra : List (String × LossArg nc nt nq)) :
    ∃ v gx gy, cellsResidual L M net p extra = L.call (lossKwargs M v gx gy p ++ extra) := by
  obtain ⟨gx, hgx, -⟩ := reshapeCells_ok (nc := nc) (nq := nq) M.nCells
    (fun r => (tapeGradient (ι := Fin nIn × Fin 1) (fun X i => net _ X i.1 i.2) M.inputTensor r).1) hM.cells hM.rows
  obtain ⟨gy, hgy, -⟩ := reshapeCells_ok (nc := nc) (nq := nq) M.nCells
    (fun r => (tapeGradient (ι := Fin nIn × Fin 1) (fun X i => net _ X i.1 i.2) M.inputTensor r).2) hM.cells hM.rows
  obtain ⟨v, hv, -⟩ := reshapeCells_ok (nc := nc) (nq := nq) M.nCells
    (flatten (net _ M.inputTensor)) hM.cells (by rw [Nat.mul_one]; exact hM.rows)
  refine ⟨v, gx, gy, ?_⟩
  unfold cellsResidual
  simp only [hgx, hgy, hv]

/-- Whatever the network, the residuals can be computed exactly if the parameters are given. -/
lemma cellsResidual_iff {nc nt nq nIn nBd : ℕ} (M : ModelData nc nt nq nIn nBd) (net : Network 1)
    (pt : Fin nc → Fin nq → ℝ × ℝ) (hM : Shaped M pt) (p : ParamDict) (kind : LossKind) (hk : kind.forward) :
    (∃ out, cellsResidual (lossOf kind nc nt nq) M net p [] = .ok out) ↔
      ∃ a b r, Coefficients (nc := nc) (nq := nq) kind p none [] a b r := by
  obtain ⟨v, gx, gy, hres⟩ := cellsResidual_some (lossOf kind nc nt nq) M net pt hM p []
  rw [hres, forward_call hk]
  constructor
  · rintro ⟨out, h⟩
    obtain ⟨a, b, r, hc, -⟩ := (runLoss_ok_iff _ _ _ _ _ _ _ _ _ _ _ _).1 h
    exact ⟨a, b, r, hc⟩
  · rintro ⟨a, b, r, hc⟩
    exact ⟨_, (runLoss_ok_iff _ _ _ _ _ _ _ _ _ _ _ _).2 ⟨a, b, r, hc, rfl⟩⟩

/-- With or without attention, a step of `DenseModel` succeeds exactly if the parameters are given. -/
lemma dense_step_iff {nc nt nq nIn nBd : ℕ} (L : LossFunction nc nt nq) (kind : LossKind) (hk : kind.forward)
    (hL : L = lossOf kind nc nt nq) (M : ModelData nc nt nq nIn nBd) (pt : Fin nc → Fin nq → ℝ × ℝ) (hM : Shaped M pt)
    (act : String → ℝ → ℝ) (attention : Batch → Except PyErr Batch) (att : Bool) (specs : List LayerSpec) (beta : ℝ)
    (p : ParamDict) (vars : List Var) (lr : LearningRate) (s : TrainState) :
    (∃ r, trainStepWith (forwardDense L M act attention att 2 specs 1 beta p) vars lr s = .ok r) ↔
      ∃ a b r, Coefficients (nc := nc) (nq := nq) kind p none [] a b r := by
  subst hL
  rw [← cellsResidual_iff M (networkAt act attention att 2 specs 1 s.weights) pt hM p kind hk]
  simp only [trainStepWith, forwardDense, trainStepDense]
  cases cellsResidual (lossOf kind nc nt nq) M (networkAt act attention att 2 specs 1 s.weights) p [] with
  | error e => simp
  | ok r => simp

/-- The same for `DenseModel_Hard`. -/
lemma hard_step_iff {nc nt nq nIn nBd : ℕ} (L : LossFunction nc nt nq) (kind : LossKind) (hk : kind.forward)
    (hL : L = lossOf kind nc nt nq) (M : ModelData nc nt nq nIn nBd) (pt : Fin nc → Fin nq → ℝ × ℝ) (hM : Shaped M pt)
    (act : String → ℝ → ℝ) (attention : Batch → Except PyErr Batch) (att : Bool) (specs : List LayerSpec) (beta : ℝ)
    (p : ParamDict) (hard : Batch → Batch → Batch) (vars : List Var) (lr : LearningRate) (s : TrainState) :
    (∃ r, trainStepWith (forwardHard L M act attention att 2 specs 1 beta p hard) vars lr s = .ok r) ↔
      ∃ a b r, Coefficients (nc := nc) (nq := nq) kind p none [] a b r := by
  subst hL
  rw [← cellsResidual_iff M (networkHard act attention att (layersAt s.weights 0 2 specs) hard 1) pt hM p kind hk]
  simp only [trainStepWith, forwardHard, trainStepHard]
  cases cellsResidual (lossOf kind nc nt nq) M (networkHard act attention att (layersAt s.weights 0 2 specs) hard 1) p []
    with
  | error e => simp
  | ok r => simp

/-- Without attention, the network of the training is `networkValue`. -/
lemma networkAt_rowWise (act : String → ℝ → ℝ) (attention : Batch → Except PyErr Batch) (dims : List ℕ)
    (a : String) (specs : List LayerSpec) (h : 2 ≤ dims.length) (hs : layerSpecs dims a = .ok specs)
    (h0 : dims.getD 0 0 = 2) (hl : dims.getD (dims.length - 1) 0 = 1) (θ : Weights) :
    RowWise (networkAt act attention false 2 specs 1 θ) (fun _ => networkValue (act a) dims θ) := by
  have harch := layersAt_arch dims a specs h hs θ
  obtain ⟨u, hu, hval, -⟩ := C51_network act a dims _ harch h0 1 hl attention
  intro n X r j
  have h1 := hu n X r j
  obtain rfl : j = 0 := Subsingleton.elim _ _
  have h2 := outputValue_layersAt (act a) dims a specs h hs θ
    (fun i => if i = 0 then (X r).1 else (X r).2) 0 (by rw [hl]; norm_num)
  rw [hval] at h1
  rw [h0] at h1 h2
  unfold networkAt
  rw [h1]
  exact h2

/-- **C76** (the losses, without attention layer).  In every epoch of the scripts the losses are those of the weights before the
epoch: the sum over the cells of the mean squared residuals of the weak form, and the mean squared error at
the boundary points, weighted with `beta`; the step succeeds exactly if the example file gives the parameters
of the equation. -/
theorem C76_losses (mc : Machine) (pb : Problem) (cfg : ForwardConfig) (kind : LossKind) (hk : kind.forward)
    (hloss : ∀ nc nt nq, pb.loss nc nt nq = lossOf kind nc nt nq) (dims : List ℕ) (h2 : 2 ≤ dims.length)
    (h0 : dims.getD 0 0 = 2) (hl : dims.getD (dims.length - 1) 0 = 1) (mp : List (ℝ × ℝ)) (cells : List Quad)
    (bd : BdDict) (nq : ℕ) (S S' : Fespace2D (ℝ → ℝ → ℝ) ℝ (cfg.feOrder.toNat ^ 2) nq)
    (D : DataHandler2D (cfg.feOrder.toNat ^ 2) nq) (bdv : List (ℝ × ℝ) × List ℝ) (specs : List LayerSpec)
    (hA : Assembled mc cfg pb dims mp cells bd S S' D bdv specs) (lr : LearningRate) :
    ∃ pt, Shaped (modelDataOf D bdv cells.length) pt ∧ ∀ s : TrainState,
      ((∃ r, trainStepWith (forwardDense (pb.loss D.nCells _ nq) (modelDataOf D bdv cells.length) mc.act
        mc.attention false 2 specs 1 cfg.beta (some pb.bilinearParams)) (trainableVariables 2 specs []) lr s = .ok r)
        ↔ ∃ a b r, Coefficients (nc := D.nCells) (nq := nq) kind (some pb.bilinearParams) none [] a b r) ∧
      ∀ out s', trainStepWith (forwardDense (pb.loss D.nCells _ nq) (modelDataOf D bdv cells.length) mc.act
        mc.attention false 2 specs 1 cfg.beta (some pb.bilinearParams)) (trainableVariables 2 specs []) lr s
          = .ok (out, s') →
        ∃ a b r, Coefficients kind (some pb.bilinearParams) none [] a b r ∧
          out.lossPde = pdeLoss (modelDataOf D bdv cells.length) pt
            (networkValue (mc.act cfg.activation) dims s.weights) a b r ∧
          out.lossDirichlet 0 = meanSq (fun i => networkValue (mc.act cfg.activation) dims s.weights
            ((modelDataOf D bdv cells.length).dirichletInput i)
              - (modelDataOf D bdv cells.length).dirichletActual i) ∧
          out.loss 0 = out.lossPde + cfg.beta * out.lossDirichlet 0 := by
  obtain ⟨pt, hpt⟩ := shaped_modelData hA.space hA.handler bdv
  rw [(fespace_ok hA.space).2.2.2.2.1] at hpt
  refine ⟨pt, hpt, fun s => ?_⟩
  obtain ⟨c1, c2⟩ := C47_dense (modelDataOf D bdv cells.length) pt hpt cfg.beta (some pb.bilinearParams) kind hk _ _
    (networkAt_rowWise mc.act mc.attention dims cfg.activation specs h2 hA.layers h0 hl s.weights)
  simp only [trainStepWith, forwardDense, hloss]
  constructor
  · rw [← c1]
    constructor
    · rintro ⟨r, hr⟩
      split at hr
      · exact absurd hr (by simp)
      · rename_i hf
        split at hf
        · exact absurd hf (by simp)
        · exact ⟨_, by assumption⟩
    · rintro ⟨out, ho⟩
      rw [ho]
      exact ⟨_, rfl⟩
  · intro out s' hr
    split at hr
    · exact absurd hr (by simp)
    · rename_i hf
      split at hf
      · exact absurd hf (by simp)
      · rename_i o ho
        obtain ⟨rfl, -⟩ := Prod.mk.inj (Except.ok.inj hr)
        obtain ⟨rfl, -⟩ := Prod.mk.inj (Except.ok.inj hf)
        obtain ⟨a, b, r, d1, d2, d3, d4, -⟩ := c2 _ ho
        exact ⟨a, b, r, d1, d2, d3, d4⟩

/-- Without attention, the constrained network of the training is the factor times `networkValue`. -/
lemma networkHard_rowWise (act : String → ℝ → ℝ) (attention : Batch → Except PyErr Batch) (dims : List ℕ)
    (a : String) (specs : List LayerSpec) (h : 2 ≤ dims.length) (hs : layerSpecs dims a = .ok specs)
    (h0 : dims.getD 0 0 = 2) (hl : dims.getD (dims.length - 1) 0 = 1) (θ : Weights) :
    RowWise (networkHard act attention false (layersAt θ 0 2 specs) applyHardBoundaryConstraints 1)
      (fun _ p => squareFactor p * networkValue (act a) dims θ p) := by
  have harch := layersAt_arch dims a specs h hs θ
  obtain ⟨u, hu, hg⟩ := C48_network act a dims _ harch h0 hl attention
    (fun p v => squareFactor p * v)
  simp only [← hardAnsatz_eq] at hg ⊢
  have hr := networkAt_rowWise act attention dims a specs h hs h0 hl θ
  rw [h0] at hu hg
  have e : u = networkValue (act a) dims θ := by
    funext p
    exact (hu 1 (fun _ => p) 0 0).symm.trans (hr 1 (fun _ => p) 0 0)
  rw [e] at hg
  exact hg

/-- **C76** (the losses with hard constraints, without attention layer).  The loss is the sum over the cells of the mean squared
residuals of the product of factor and network, and nothing else. -/
theorem C76_hard_losses (mc : Machine) (pb : Problem) (cfg : ForwardConfig) (kind : LossKind) (hk : kind.forward)
    (hloss : ∀ nc nt nq, pb.loss nc nt nq = lossOf kind nc nt nq) (dims : List ℕ) (h2 : 2 ≤ dims.length)
    (h0 : dims.getD 0 0 = 2) (hl : dims.getD (dims.length - 1) 0 = 1) (mp : List (ℝ × ℝ)) (cells : List Quad)
    (bd : BdDict) (nq : ℕ) (S S' : Fespace2D (ℝ → ℝ → ℝ) ℝ (cfg.feOrder.toNat ^ 2) nq)
    (D : DataHandler2D (cfg.feOrder.toNat ^ 2) nq) (bdv : List (ℝ × ℝ) × List ℝ) (specs : List LayerSpec)
    (hA : Assembled mc cfg pb dims mp cells bd S S' D bdv specs) (lr : LearningRate) :
    ∃ pt, Shaped (modelDataOf D bdv cells.length) pt ∧ ∀ s : TrainState,
      ((∃ r, trainStepWith (forwardHard (pb.loss D.nCells _ nq) (modelDataOf D bdv cells.length) mc.act
        mc.attention false 2 specs 1 cfg.beta (some pb.bilinearParams) applyHardBoundaryConstraints)
        (trainableVariables 2 specs []) lr s = .ok r)
        ↔ ∃ a b r, Coefficients (nc := D.nCells) (nq := nq) kind (some pb.bilinearParams) none [] a b r) ∧
      ∀ out s', trainStepWith (forwardHard (pb.loss D.nCells _ nq) (modelDataOf D bdv cells.length) mc.act
        mc.attention false 2 specs 1 cfg.beta (some pb.bilinearParams) applyHardBoundaryConstraints)
        (trainableVariables 2 specs []) lr s = .ok (out, s') →
        ∃ a b r, Coefficients kind (some pb.bilinearParams) none [] a b r ∧
          out.lossPde = pdeLoss (modelDataOf D bdv cells.length) pt
            (fun p => squareFactor p * networkValue (mc.act cfg.activation) dims s.weights p) a b r ∧
          out.lossDirichlet = 0 ∧ out.loss = out.lossPde := by
  obtain ⟨pt, hpt⟩ := shaped_modelData hA.space hA.handler bdv
  rw [(fespace_ok hA.space).2.2.2.2.1] at hpt
  refine ⟨pt, hpt, fun s => ?_⟩
  obtain ⟨c1, c2⟩ := C47_hard (modelDataOf D bdv cells.length) pt hpt cfg.beta (some pb.bilinearParams) kind hk _ _
    (networkHard_rowWise mc.act mc.attention dims cfg.activation specs h2 hA.layers h0 hl s.weights)
  simp only [trainStepWith, forwardHard, hloss]
  constructor
  · rw [← c1]
    constructor
    · rintro ⟨r, hr⟩
      split at hr
      · exact absurd hr (by simp)
      · rename_i hf
        split at hf
        · exact absurd hf (by simp)
        · exact ⟨_, by assumption⟩
    · rintro ⟨out, ho⟩
      rw [ho]
      exact ⟨_, rfl⟩
  · intro out s' hr
    split at hr
    · exact absurd hr (by simp)
    · rename_i hf
      split at hf
      · exact absurd hf (by simp)
      · rename_i o ho
        obtain ⟨rfl, -⟩ := Prod.mk.inj (Except.ok.inj hr)
        obtain ⟨rfl, -⟩ := Prod.mk.inj (Except.ok.inj hf)
        obtain ⟨-, a, b, r, d1, d2, d3, d4, -⟩ := c2 _ ho
        exact ⟨a, b, r, d1, d2, d3, d4⟩

/-! ## When the scripts finish -/

/-- A space that can be built with plot can be built without. -/
lemma fespace_plot_iff {F V : Type} (ext : QuadRoutines) (mp : List (ℝ × ℝ)) (cells : List Quad) (bd : BdDict)
    (s : FESettings) (dict : List (ℤ × (ℝ → ℝ → V))) (f : F) (plot : Bool) :
    (∃ nq S, fespace2D ext mp cells bd s dict f plot = .ok ⟨nq, S⟩) ↔
      (∃ nq S, fespace2D ext mp cells bd s dict f false = .ok ⟨nq, S⟩) ∧
        (plot = true → bd.length < 16 ∧ ∀ e ∈ bd, e.2 ≠ []) := by
  cases plot with
  | false => simp
  | true =>
    have hback : (∃ nq S, fespace2D ext mp cells bd s dict f true = .ok ⟨nq, S⟩) →
        ∃ nq S, fespace2D ext mp cells bd s dict f false = .ok ⟨nq, S⟩ := by
      rintro ⟨nq, S, h⟩
      unfold fespace2D at h ⊢
      by_cases ht : s.cellType = "triangle"
      · rw [if_pos ht] at h
        exact absurd h (by simp)
      rw [if_neg ht] at h ⊢
      cases hfe : setFiniteElements ext s f cells with
      | error e =>
        rw [hfe] at h
        exact absurd h (by simp)
      | ok r =>
        rw [hfe] at h
        simp only [if_true] at h
        split at h
        · exact absurd h (by simp)
        · split at h
          · exact absurd h (by simp)
          · simp only [Bool.false_eq_true, if_false]
            exact ⟨_, _, rfl⟩
    constructor
    · intro h
      obtain ⟨nq, S, hS⟩ := hback h
      refine ⟨⟨nq, S, hS⟩, fun _ => ?_⟩
      by_contra hc
      rw [(C38_plot ext mp cells bd s dict f _ hS).2.1 (by
        by_contra hn
        push Not at hn
        exact hc ⟨hn.1, hn.2⟩)] at h
      obtain ⟨_, _, h⟩ := h
      exact absurd h (by simp)
    · rintro ⟨⟨nq, S, hS⟩, h⟩
      obtain ⟨S', h', -⟩ := (C38_plot ext mp cells bd s dict f _ hS).2.2 (by
        rintro (h1 | ⟨e, h1, h2⟩)
        · have := (h rfl).1; omega
        · exact (h rfl).2 e h1 h2)
      exact ⟨nq, S', h'⟩


/-- Whether the parameters are there does not depend on the mesh. -/
lemma coefficients_exist (kind : LossKind) (hk : kind.forward) (d : List (String × ℝ)) (nc nq : ℕ) :
    (∃ a b r, Coefficients (nc := nc) (nq := nq) kind (some d) none [] a b r) ↔
      ∀ k ∈ requiredParams kind, ∃ v, d.lookup k = some v := by
  rcases hk with rfl | rfl | rfl
  · simp only [Coefficients, HasParam, requiredParams, List.mem_singleton, forall_eq]
    constructor
    · rintro ⟨a, b, r, eps, ⟨l, hl, h⟩, -⟩
      cases hl
      exact ⟨eps, h⟩
    · rintro ⟨eps, h⟩
      exact ⟨_, _, _, eps, ⟨d, rfl, h⟩, rfl, rfl, rfl⟩
  · simp only [Coefficients, HasParam, requiredParams, List.mem_cons, List.not_mem_nil, or_false,
      forall_eq_or_imp, forall_eq]
    constructor
    · rintro ⟨a, b, r, eps, ⟨l, hl, h⟩, -, ⟨l', hl', h'⟩, ⟨l2, hl2, h2⟩, l3, hl3, h3⟩
      cases hl; cases hl'; cases hl2; cases hl3
      exact ⟨⟨_, h⟩, ⟨_, h'⟩, ⟨_, h2⟩, _, h3⟩
    · rintro ⟨⟨e, h⟩, ⟨x, h'⟩, ⟨y, h2⟩, r, h3⟩
      exact ⟨_, (x, y), r, e, ⟨d, rfl, h⟩, rfl, ⟨d, rfl, h'⟩, ⟨d, rfl, h2⟩, d, rfl, h3⟩
  · simp only [Coefficients, HasParam, requiredParams, List.mem_cons, List.not_mem_nil, or_false,
      forall_eq_or_imp, forall_eq]
    constructor
    · rintro ⟨a, b, r, eps, k, ⟨l, hl, h⟩, ⟨l', hl', h'⟩, -⟩
      cases hl; cases hl'
      exact ⟨⟨_, h⟩, _, h'⟩
    · rintro ⟨⟨e, h⟩, k, h'⟩
      exact ⟨_, _, _, e, k, ⟨d, rfl, h⟩, ⟨d, rfl, h'⟩, rfl, rfl, rfl⟩

lemma layerSpecs_exists (ld : List ℕ) (hld : ld ≠ []) (a : String) :
    ∃ specs n, layerSpecs ld a = .ok specs ∧ pyIndex ld 0 = .ok n := by
  match ld, hld with
  | [n], _ => exact ⟨_, n, rfl, rfl⟩
  | n :: m :: l, _ => exact ⟨_, n, layerSpecs_eq _ a (by simp), (pyIndex_zero _ _).2 rfl⟩

/-- When the part from the function space to the model succeeds. -/
lemma prepareModel_iff (mc : Machine) (cfg : ForwardConfig) (pb : Problem) (ld : List ℕ) (hld : ld ≠ [])
    (lrFn : List (String × PyVal) → Except PyErr LearningRate) (o : GeometryObject) (files : Files)
    (cells : List Quad) (bd : BdDict) (hmt : o.meshType = "quadrilateral") :
    (∃ P, prepareModel mc cfg pb ld lrFn o files cells bd = .ok P) ↔
      (cells ≠ [] ∧ (2 ≤ cfg.feOrder ∧ cfg.feOrder < 1000) ∧ supportedFeType cfg.feType ∧
        (3 ≤ cfg.quadOrder ∧ cfg.quadOrder ≤ 9999) ∧
        (cfg.quadType = "gauss-legendre" ∨ cfg.quadType = "gauss-jacobi") ∧
        ∀ e ∈ bd, e.2 ≠ [] → ∃ g, pb.boundaryFunctionDict.lookup e.1 = some g) ∧
      (cfg.generateMeshPlot = true → bd.length < 16 ∧ ∀ e ∈ bd, e.2 ≠ []) ∧
      ∃ lr, lrFn cfg.learningRate = .ok lr := by
  have hsp := fespace_plot_iff mc.quad ((o.mesh.map StoredMesh.planePoints).getD []) cells bd
    ⟨"quadrilateral", cfg.feOrder, cfg.feType, cfg.quadOrder, cfg.quadType, "bilinear"⟩
    pb.boundaryFunctionDict pb.rhs cfg.generateMeshPlot
  rw [C63_constructor] at hsp
  have hsp' : (∃ nq S, fespace2D mc.quad ((o.mesh.map StoredMesh.planePoints).getD []) cells bd
      ⟨"quadrilateral", cfg.feOrder, cfg.feType, cfg.quadOrder, cfg.quadType, "bilinear"⟩
      pb.boundaryFunctionDict pb.rhs cfg.generateMeshPlot = .ok ⟨nq, S⟩) ↔
      (cells ≠ [] ∧ (2 ≤ cfg.feOrder ∧ cfg.feOrder < 1000) ∧ supportedFeType cfg.feType ∧
        (3 ≤ cfg.quadOrder ∧ cfg.quadOrder ≤ 9999) ∧
        (cfg.quadType = "gauss-legendre" ∨ cfg.quadType = "gauss-jacobi") ∧
        ∀ e ∈ bd, e.2 ≠ [] → ∃ g, pb.boundaryFunctionDict.lookup e.1 = some g) ∧
      (cfg.generateMeshPlot = true → bd.length < 16 ∧ ∀ e ∈ bd, e.2 ≠ []) := by
    rw [hsp]
    simp
  rw [← and_assoc, ← hsp']
  constructor
  · rintro ⟨P, hP⟩
    unfold prepareModel at hP
    rw [hmt] at hP
    split at hP
    · exact absurd hP (by simp)
    rename_i nq S hS
    split at hP
    · exact absurd hP (by simp)
    split at hP
    · exact absurd hP (by simp)
    split at hP
    · exact absurd hP (by simp)
    rename_i lr hlr
    exact ⟨⟨nq, S, hS⟩, lr, hlr⟩
  · rintro ⟨⟨nq, S, hS⟩, lr, hlr⟩
    obtain ⟨-, D, S', hD, -, -, -⟩ := C41_layout mc.quad _ cells bd _
      pb.boundaryFunctionDict pb.rhs _ S hS
    obtain ⟨-, hn', -, -, hb', hf'⟩ := reachable_forall₂ (dataHandler_reachable _ _ _ _ _ _ _ _ hS hD)
    have hbd : getDirichletInput S' = .ok S.dirichletBoundaryData := by
      obtain ⟨-, -, -, -, -, h1, h2, h3, -⟩ := fespace_ok hS
      unfold getDirichletInput
      rw [hb', hf', h1, h2, h3]
    obtain ⟨specs, n, hsp, hin⟩ := layerSpecs_exists ld hld cfg.activation
    unfold prepareModel
    rw [hmt, hS]
    simp only [hD, hbd, hlr, hsp, hin]
    exact ⟨_, rfl⟩


/-- How a script on the rectangle ends if the training steps and the errors can be computed. -/
lemma runUniform_outcome {α : Type} (mc : Machine) (cfg : ForwardConfig) (M : DriverModel α)
    (value : Weights → ℝ × ℝ → ℝ) (losses : α → ℝ × ℝ × ℝ) (pts : List (ℝ × ℝ)) (pb : Problem) (P : Prepared)
    (o' : GeometryObject) (hpred : ∀ θ, M.predict θ pts = .ok (pts.map (value θ)))
    (hfl : ∀ out, M.floats out = .ok (losses out))
    (hpts : P.geometry.getTestPoints mc.env P.files = (.ok (.points pts), o', P.files))
    (hlen : pts.length = cfg.nTestPointsX * cfg.nTestPointsY)
    (htwo : 2 ≤ cfg.nTestPointsX ∧ 2 ≤ cfg.nTestPointsY) (hne : pts ≠ [])
    (hstep : ∀ s, ∃ r, M.step s = .ok r) (θ : Weights) :
    (cfg.epochs = 0 → runUniform mc cfg pb P M θ = .error .nameError) ∧
    (0 < cfg.epochs → cfg.updateConsoleOutput = 0 → runUniform mc cfg pb P M θ = .error .zeroDivisionError) ∧
    (0 < cfg.epochs → cfg.updateConsoleOutput ≠ 0 → ∑ e ∈ Finset.range cfg.epochs, mc.elapsed e = 0 →
      runUniform mc cfg pb P M θ = .error .overflowError) ∧
    (0 < cfg.epochs → cfg.updateConsoleOutput ≠ 0 → ∑ e ∈ Finset.range cfg.epochs, mc.elapsed e ≠ 0 →
      ∃ R, runUniform mc cfg pb P M θ = .ok R) := by
  have hcont : ∃ m, contourMatrices cfg.nTestPointsX cfg.nTestPointsY pb.exactSolution pts = .ok m := by
    simp only [contourMatrices, reshapeMatrix, List.length_map, hlen, if_true, bind, Except.bind, pure,
      Except.pure]
    exact ⟨_, rfl⟩
  obtain ⟨m, hm⟩ := hcont
  have hsum : ((List.range cfg.epochs).map mc.elapsed).sum = ∑ e ∈ Finset.range cfg.epochs, mc.elapsed e := by
    simp [Finset.sum, Finset.range, Multiset.range]
  have hend : 0 < cfg.epochs → cfg.updateConsoleOutput ≠ 0 → ∃ s r, epochLoop M.step
      (reportBlock M pts (pts.map fun p => pb.exactSolution p.1 p.2)) cfg.updateConsoleOutput cfg.epochs
      (List.range cfg.epochs) ⟨⟨θ, AdamState.init⟩, [], [], P.files⟩ = .ok s ∧ s.losses.length = cfg.epochs ∧
      s.reports.getLast? = some r := by
    intro h0 hu
    obtain ⟨s, hs⟩ := epochLoop_succeeds (N := cfg.epochs) M.step
      (reportBlock M pts (pts.map fun p => pb.exactSolution p.1 p.2)) cfg.updateConsoleOutput hu hstep
      (fun e l s f => by
        obtain ⟨r, hr⟩ := reportBlock_succeeds M value losses pts (fun p => pb.exactSolution p.1 p.2) hpred hfl hne
          e l s f
        exact ⟨_, hr⟩) (List.range cfg.epochs) ⟨⟨θ, AdamState.init⟩, [], [], P.files⟩
    obtain ⟨-, hl, st, fs, -, -, -, -, -, hrep, -⟩ := epochLoop_ok _ _ _ _ _ _ rfl rfl hs
    rcases forall₂_getLast hrep with ⟨h1, -⟩ | ⟨a, b, -, h2, -⟩
    · have := reportEpochs_last cfg.updateConsoleOutput cfg.epochs h0
      rw [h1] at this
      exact absurd this (by simp)
    · exact ⟨s, b, hs, hl, h2⟩
  obtain ⟨fig, hfig⟩ := plotContour_succeeds m.1 m.2.1 m.2.2 cfg.outputPath "exact_solution" "Exact Solution"
    ⟨[], fun _ => none⟩ htwo
  unfold runUniform
  rw [hpts]
  dsimp only
  rw [hm]
  dsimp only
  rw [hfig]
  dsimp only
  refine ⟨fun h0 => ?_, fun h0 hu => ?_, fun h0 hu ht => ?_, fun h0 hu ht => ?_⟩
  · rw [h0]
    rfl
  · obtain ⟨n, hn⟩ := Nat.exists_eq_succ_of_ne_zero h0.ne'
    obtain ⟨⟨l, t⟩, hr⟩ := hstep ⟨θ, AdamState.init⟩
    have : epochLoop M.step (reportBlock M pts (pts.map fun p => pb.exactSolution p.1 p.2))
        cfg.updateConsoleOutput cfg.epochs (List.range cfg.epochs) ⟨⟨θ, AdamState.init⟩, [], [], P.files⟩
        = .error .zeroDivisionError := by
      rw [hn, List.range_succ_eq_map]
      simp only [epochLoop, epochBody, hr, hu, reportDue, if_true]
    rw [this]
  · obtain ⟨s, r, h1, h2, h3⟩ := hend h0 hu
    rw [h1]
    simp only [finishRun, h3, h2, timeColumn, epochsPerSecond, hsum, ht, if_true, h0.ne', if_false]
  · obtain ⟨s, r, h1, h2, h3⟩ := hend h0 hu
    rw [h1]
    simp only [finishRun, h3, h2, timeColumn, epochsPerSecond, hsum, ht, if_false]
    exact ⟨_, rfl⟩

/-- If no training step can be computed, the script fails in the first epoch. -/
lemma runUniform_step_error {α : Type} (mc : Machine) (cfg : ForwardConfig) (M : DriverModel α) (pb : Problem)
    (P : Prepared) (hstep : ∀ s r, M.step s ≠ .ok r) (h0 : 0 < cfg.epochs) (θ : Weights) (R : RunResult) :
    runUniform mc cfg pb P M θ ≠ .ok R := by
  intro h
  unfold runUniform at h
  split at h
  · exact absurd h (by simp)
  · dsimp only at h
    split at h
    · exact absurd h (by simp)
    · split at h
      · exact absurd h (by simp)
      · split at h
        · exact absurd h (by simp)
        · rename_i hs
          obtain ⟨n, hn⟩ := Nat.exists_eq_succ_of_ne_zero h0.ne'
          rw [hn, List.range_succ_eq_map] at hs
          simp only [epochLoop, epochBody] at hs
          split at hs
          · exact absurd hs (by simp)
          · rename_i hb
            split at hb
            · exact absurd hb (by simp)
            · rename_i hb'
              exact hstep _ _ hb'
  · exact absurd h (by simp)

/-- The contour plot of the exact solution needs two test points in each direction. -/
lemma runUniform_points {α : Type} (mc : Machine) (cfg : ForwardConfig) (M : DriverModel α) (pb : Problem)
    (P : Prepared) (θ : Weights) (R : RunResult) (h : runUniform mc cfg pb P M θ = .ok R) :
    2 ≤ cfg.nTestPointsX ∧ 2 ≤ cfg.nTestPointsY := by
  by_contra hc
  unfold runUniform at h
  split at h
  · exact absurd h (by simp)
  · dsimp only at h
    split at h
    · exact absurd h (by simp)
    · rw [plotContour_fails _ _ _ _ _ _ _ hc] at h
      exact absurd h (by simp)
  · exact absurd h (by simp)

/-- When the part up to the model succeeds. -/
lemma prepareUniform_iff (mc : Machine) (cfg : ForwardConfig) (pb : Problem) (ld : List ℕ) (hld : ld ≠ [])
    (lrFn : List (String × PyVal) → Except PyErr LearningRate)
    (sample : Fin 4 → Fin (cfg.nBoundaryPoints / 4) → ℝ) (files : Files)
    (hint : cfg.meshGenerationMethod = "internal")
    (hmsh : ∀ x y hx hy, ∃ m, mc.env.parseMsh (mc.env.gmsh x y hx hy) = .ok m) :
    (∃ P, prepareUniform mc cfg pb ld lrFn sample files = .ok P) ↔
      (cfg.dtype = "float64" ∨ cfg.dtype = "float32") ∧ cfg.meshType = "quadrilateral" ∧
      (0 < cfg.nCellsX ∧ 0 < cfg.nCellsY) ∧ (0 < cfg.nTestPointsX ∧ 0 < cfg.nTestPointsY) ∧
      (2 ≤ cfg.feOrder ∧ cfg.feOrder < 1000) ∧ supportedFeType cfg.feType ∧
      (3 ≤ cfg.quadOrder ∧ cfg.quadOrder ≤ 9999) ∧
      (cfg.quadType = "gauss-legendre" ∨ cfg.quadType = "gauss-jacobi") ∧
      (4 ≤ cfg.nBoundaryPoints →
        ∀ tag ∈ [(1000 : ℤ), 1001, 1002, 1003], ∃ g, pb.boundaryFunctionDict.lookup tag = some g) ∧
      (cfg.generateMeshPlot = true → 4 ≤ cfg.nBoundaryPoints) ∧
      ∃ lr, lrFn cfg.learningRate = .ok lr := by
  unfold prepareUniform
  by_cases hd : cfg.dtype ∈ ["float64", "float32"]
  swap
  · rw [if_pos hd]
    simp only [List.mem_cons, List.not_mem_nil, or_false] at hd
    simp [hd]
  rw [if_neg (not_not.2 hd)]
  have hd' : cfg.dtype = "float64" ∨ cfg.dtype = "float32" := by simpa using hd
  by_cases hmt : cfg.meshType = "quadrilateral"
  swap
  · rw [show newGeometry cfg.meshType cfg.meshGenerationMethod cfg.nTestPointsX cfg.nTestPointsY cfg.outputPath
      false = .error (.valueError, "mesh_type") by simp [newGeometry, geometry2D, hint, hmt]]
    simp [hmt]
  obtain ⟨o, ho⟩ : ∃ o, newGeometry cfg.meshType cfg.meshGenerationMethod cfg.nTestPointsX cfg.nTestPointsY
      cfg.outputPath false = .ok o := by
    simp only [newGeometry, geometry2D, hint, hmt]
    exact ⟨_, rfl⟩
  rw [ho]
  dsimp only
  have hof : o.meshGenerationMethod = "internal" ∧ o.nTestPointsX = cfg.nTestPointsX ∧
      o.nTestPointsY = cfg.nTestPointsY ∧ o.isOptimized = false ∧ o.meshType = "quadrilateral" := by
    have ho' := ho
    simp only [newGeometry, geometry2D, hint, hmt] at ho'
    simp only [List.mem_cons, true_or, not_true, if_false] at ho'
    obtain rfl := Except.ok.inj ho'
    exact ⟨rfl, rfl, rfl, rfl, rfl⟩
  obtain ⟨o1, o2, o3, o4, o5⟩ := hof
  by_cases htp : 0 < cfg.nTestPointsX ∧ 0 < cfg.nTestPointsY
  swap
  · have : (o.generateInternal mc.env files (cfg.xMin, cfg.xMax) (cfg.yMin, cfg.yMax) cfg.nCellsX cfg.nCellsY
        cfg.nBoundaryPoints sample).1 = .error .zeroDivisionError := by
      unfold GeometryObject.generateInternal GeometryObject.generateVtk
      simp only [generateQuadMeshInternal, o1, o2, o3, o4, if_true, Bool.false_eq_true, if_false]
      rw [if_pos (by omega)]
    constructor
    · rintro ⟨P, hP⟩
      split at hP
      · exact absurd hP (by simp)
      · rename_i hg
        rw [hg] at this
        exact absurd this (by simp)
      · exact absurd hP (by simp)
    · rintro ⟨-, -, -, h, -⟩
      exact absurd h htp
  obtain ⟨o', files', hg⟩ : ∃ o' files', o.generateInternal mc.env files (cfg.xMin, cfg.xMax)
      (cfg.yMin, cfg.yMax) cfg.nCellsX cfg.nCellsY cfg.nBoundaryPoints sample
      = (.ok (.mesh (generateQuadMeshInternal o.toGeometry2D (cfg.xMin, cfg.xMax) (cfg.yMin, cfg.yMax) cfg.nCellsX
          cfg.nCellsY cfg.nBoundaryPoints sample).cells
          ((generateQuadMeshInternal o.toGeometry2D (cfg.xMin, cfg.xMax) (cfg.yMin, cfg.yMax) cfg.nCellsX
          cfg.nCellsY cfg.nBoundaryPoints sample).bdDict.map fun e => (e.1, e.2.map fun p => [p.1, p.2]))),
          o', files') := by
    obtain ⟨m, hm⟩ := hmsh (cfg.xMin, cfg.xMax) (cfg.yMin, cfg.yMax)
      ((cfg.xMax - cfg.xMin) / cfg.nTestPointsX) ((cfg.yMax - cfg.yMin) / cfg.nTestPointsY)
    unfold GeometryObject.generateInternal GeometryObject.generateVtk
    simp only [generateQuadMeshInternal, o1, o2, o3, o4, if_true, Bool.false_eq_true, if_false]
    rw [if_neg (by omega)]
    simp only [hm]
    exact ⟨_, _, rfl⟩
  have hmt' : o'.meshType = "quadrilateral" := by
    have hg' := generateInternal_object mc.env o files (cfg.xMin, cfg.xMax) (cfg.yMin, cfg.yMax) cfg.nCellsX
      cfg.nCellsY cfg.nBoundaryPoints sample
    rw [hg] at hg'
    dsimp only at hg'
    rw [hg']
    exact o5
  rw [hg]
  dsimp only
  rw [prepareModel_iff _ _ _ _ hld _ _ _ _ _ hmt']
  have hcells : (generateQuadMeshInternal o.toGeometry2D (cfg.xMin, cfg.xMax) (cfg.yMin, cfg.yMax) cfg.nCellsX
      cfg.nCellsY cfg.nBoundaryPoints sample).cells ≠ [] ↔ 0 < cfg.nCellsX ∧ 0 < cfg.nCellsY := by
    rw [← List.length_pos_iff]
    simp [generateQuadMeshInternal, internalCellsLoop, List.length_flatMap]
  have hbd : bdPairs ((generateQuadMeshInternal o.toGeometry2D (cfg.xMin, cfg.xMax) (cfg.yMin, cfg.yMax)
      cfg.nCellsX cfg.nCellsY cfg.nBoundaryPoints sample).bdDict.map fun e => (e.1, e.2.map fun p => [p.1, p.2]))
      = internalBoundary (cfg.xMin, cfg.xMax) (cfg.yMin, cfg.yMax) cfg.nBoundaryPoints sample := by
    simp only [generateQuadMeshInternal, bdPairs, List.map_map]
    conv_rhs => rw [← List.map_id (internalBoundary _ _ _ _)]
    refine List.map_congr_left fun e _ => ?_
    simp only [Function.comp_apply, List.map_map, id]
    refine Prod.ext rfl ?_
    conv_rhs => rw [← List.map_id e.2]
    rfl
  rw [hcells, hbd]
  have hfour : 4 ≤ cfg.nBoundaryPoints ↔ 0 < cfg.nBoundaryPoints / 4 := by omega
  simp only [internalBoundary, List.mem_cons, List.not_mem_nil, or_false, forall_eq_or_imp, forall_eq, ne_eq,
    List.ofFn_eq_nil_iff, List.length_cons, List.length_nil, hfour, Nat.pos_iff_ne_zero, hd', hmt, htp.1.ne', htp.2.ne']
  constructor
  · rintro ⟨⟨a1, a2, a3, a4, a5, b0, b1, b2, b3⟩, a6, a7⟩
    exact ⟨trivial, trivial, a1, ⟨not_false, not_false⟩, a2, a3, a4, a5,
      fun h => ⟨b0 h, b1 h, b2 h, b3 h⟩, fun h => (a6 h).2.1, a7⟩
  · rintro ⟨-, -, a1, -, a2, a3, a4, a5, b, a6, a7⟩
    exact ⟨⟨a1, a2, a3, a4, a5, fun h => (b h).1, fun h => (b h).2.1, fun h => (b h).2.2.1, fun h => (b h).2.2.2⟩,
      fun h => ⟨by norm_num, a6 h, a6 h, a6 h, a6 h⟩, a7⟩


/-- How a script on the rectangle ends, with the parts in which the two models differ as hypotheses. -/
lemma main_outcome {α : Type} (mc : Machine) (pb : Problem) (cfg : ForwardConfig) (kind : LossKind)
    (sample : Fin 4 → Fin (cfg.nBoundaryPoints / 4) → ℝ) (θ : Weights) (files : Files)
    (hint : cfg.meshGenerationMethod = "internal")
    (hmsh : ∀ x y hx hy, ∃ m, mc.env.parseMsh (mc.env.gmsh x y hx hy) = .ok m)
    (lrFn : List (String × PyVal) → Except PyErr LearningRate) (keys : List String)
    (hlr : (∃ lr, lrFn cfg.learningRate = .ok lr) ↔ ∀ k ∈ keys, ∃ v, cfg.learningRate.lookup k = some v)
    (model : Prepared → DriverModel α) (value : List (ℝ × ℝ) → Weights → ℝ × ℝ → ℝ) (losses : α → ℝ × ℝ × ℝ)
    (hmodel : ∀ P, prepareUniform mc cfg pb fixedLayers lrFn sample files = .ok P →
      (∀ θ pts, (model P).predict θ pts = .ok (pts.map (value pts θ))) ∧
      (∀ out, (model P).floats out = .ok (losses out)) ∧
      ∀ s, (∃ r, (model P).step s = .ok r) ↔
        ∀ k ∈ requiredParams kind, ∃ v, pb.bilinearParams.lookup k = some v) (out : Except PyErr RunResult)
    (hout : out = match prepareUniform mc cfg pb fixedLayers lrFn sample files with
      | .error e => .error e
      | .ok P => runUniform mc cfg pb P (model P) θ) :
    (∀ R, out = .ok R → ValidSetup pb cfg kind keys ∧ 0 < cfg.epochs ∧ cfg.updateConsoleOutput ≠ 0 ∧
      ∑ e ∈ Finset.range cfg.epochs, mc.elapsed e ≠ 0) ∧
    (ValidSetup pb cfg kind keys →
      (cfg.epochs = 0 → out = .error .nameError) ∧
      (0 < cfg.epochs → cfg.updateConsoleOutput = 0 → out = .error .zeroDivisionError) ∧
      (0 < cfg.epochs → cfg.updateConsoleOutput ≠ 0 → ∑ e ∈ Finset.range cfg.epochs, mc.elapsed e = 0 →
        out = .error .overflowError) ∧
      (0 < cfg.epochs → cfg.updateConsoleOutput ≠ 0 → ∑ e ∈ Finset.range cfg.epochs, mc.elapsed e ≠ 0 →
        ∃ R, out = .ok R)) := by
  have hprep := prepareUniform_iff mc cfg pb fixedLayers (by decide) lrFn sample files hint hmsh
  have hrest : ∀ P, prepareUniform mc cfg pb fixedLayers lrFn sample files = .ok P →
      (2 ≤ cfg.nTestPointsX ∧ 2 ≤ cfg.nTestPointsY) →
      (∀ k ∈ requiredParams kind, ∃ v, pb.bilinearParams.lookup k = some v) →
      (cfg.epochs = 0 → runUniform mc cfg pb P (model P) θ = .error .nameError) ∧
      (0 < cfg.epochs → cfg.updateConsoleOutput = 0 →
        runUniform mc cfg pb P (model P) θ = .error .zeroDivisionError) ∧
      (0 < cfg.epochs → cfg.updateConsoleOutput ≠ 0 → ∑ e ∈ Finset.range cfg.epochs, mc.elapsed e = 0 →
        runUniform mc cfg pb P (model P) θ = .error .overflowError) ∧
      (0 < cfg.epochs → cfg.updateConsoleOutput ≠ 0 → ∑ e ∈ Finset.range cfg.epochs, mc.elapsed e ≠ 0 →
        ∃ R, runUniform mc cfg pb P (model P) θ = .ok R) := by
    intro P hP htp hpar
    obtain ⟨m1, m2, m3⟩ := hmodel P hP
    obtain ⟨o, o', files', cells, bd, mp, nq, S, S', D, bdv, lr, specs, inDim, pts, o'', -, h1, h2, h3, h4, h5, rfl,
      h7, h8⟩ := prepareUniform_ok mc cfg pb _ _ sample files P hint hP
    have hne : pts ≠ [] := by
      rw [← List.length_pos_iff, h7.1]
      exact Nat.mul_pos (by omega) (by omega)
    exact runUniform_outcome mc cfg _ (value pts) losses pts pb _ o'' (fun θ => m1 θ pts) m2 h8 h7.1 htp hne (fun s => (m3 s).2 hpar) θ
  constructor
  · intro R hR
    rw [hout] at hR
    split at hR
    · exact absurd hR (by simp)
    rename_i P hP
    obtain ⟨p1, p2, p3, p4, p5, p6, p7, p8, p9, p10, p11⟩ := hprep.1 ⟨P, hP⟩
    have hpos : 0 < cfg.epochs := by
      rcases Nat.eq_zero_or_pos cfg.epochs with h0 | h0
      · exfalso
        unfold runUniform at hR
        split at hR
        · exact absurd hR (by simp)
        · dsimp only at hR
          split at hR
          · exact absurd hR (by simp)
          · split at hR
            · exact absurd hR (by simp)
            · rw [h0] at hR
              exact absurd hR (by simp [epochLoop, finishRun])
        · exact absurd hR (by simp)
      · exact h0
    have hpar : ∀ k ∈ requiredParams kind, ∃ v, pb.bilinearParams.lookup k = some v := by
      by_contra hpar
      exact absurd hR (runUniform_step_error mc cfg _ pb _
        (fun s r hr => hpar (((hmodel P hP).2.2 s).1 ⟨r, hr⟩)) hpos θ R)
    have htwo := runUniform_points mc cfg _ pb _ θ R hR
    obtain ⟨-, r2, r3, -⟩ := hrest P hP htwo hpar
    refine ⟨⟨p1, p2, p3, htwo, p5, p6, p7, p8, p9, p10, hlr.1 p11, hpar⟩, hpos, fun hu => ?_, fun ht => ?_⟩
    · rw [r2 hpos hu] at hR
      exact absurd hR (by simp)
    · by_cases hu : cfg.updateConsoleOutput = 0
      · rw [r2 hpos hu] at hR
        exact absurd hR (by simp)
      · rw [r3 hpos hu ht] at hR
        exact absurd hR (by simp)
  · intro hv
    obtain ⟨P, hP⟩ := hprep.2 ⟨hv.dtype, hv.meshType, hv.nCells,
      ⟨by have := hv.testPoints; omega, by have := hv.testPoints; omega⟩, hv.feOrder, hv.feType, hv.quadOrder,
      hv.quadType, hv.boundary, hv.plot, hlr.2 hv.learningRate⟩
    rw [hout, hP]
    exact hrest P hP hv.testPoints hv.parameters

/-- **C76** (completion, uniform mesh).  If gmsh's file can be read, the script finishes exactly for the valid
configurations with at least one epoch and a non-zero reporting interval (and a clock that has advanced).
In a valid configuration zero epochs are a `NameError`, as the errors to be printed have never been computed,
and the reporting interval zero is a `ZeroDivisionError`. -/
theorem C76_uniform_completes (mc : Machine) (pb : Problem) (cfg : ForwardConfig) (kind : LossKind)
    (hk : kind.forward) (hloss : ∀ nc nt nq, pb.loss nc nt nq = lossOf kind nc nt nq)
    (sample : Fin 4 → Fin (cfg.nBoundaryPoints / 4) → ℝ) (θ : Weights) (files : Files)
    (hatt : cfg.useAttention = true → mc.attention = attentionDot) (hint : cfg.meshGenerationMethod = "internal")
    (hmsh : ∀ x y hx hy, ∃ m, mc.env.parseMsh (mc.env.gmsh x y hx hy) = .ok m) :
    ((∃ R, mainUniform mc pb cfg sample θ files = .ok R) ↔
      ValidSetup pb cfg kind ["initial_learning_rate", "use_lr_scheduler", "decay_steps", "decay_rate"] ∧
      0 < cfg.epochs ∧ cfg.updateConsoleOutput ≠ 0 ∧ ∑ e ∈ Finset.range cfg.epochs, mc.elapsed e ≠ 0) ∧
    (ValidSetup pb cfg kind ["initial_learning_rate", "use_lr_scheduler", "decay_steps", "decay_rate"] →
      (cfg.epochs = 0 → mainUniform mc pb cfg sample θ files = .error .nameError) ∧
      (0 < cfg.epochs → cfg.updateConsoleOutput = 0 →
        mainUniform mc pb cfg sample θ files = .error .zeroDivisionError)) := by
  have hmain : mainUniform mc pb cfg sample θ files
      = match prepareUniform mc cfg pb fixedLayers learningRateFn sample files with
        | .error e => .error e
        | .ok P => runUniform mc cfg pb P (P.dense mc cfg pb 1) θ := by
    unfold mainUniform
    cases hP : prepareUniform mc cfg pb fixedLayers learningRateFn sample files with
    | error e => rfl
    | ok P =>
      obtain ⟨o, o', files', cells, bd, mp, nq, S, S', D, bdv, lr, specs, inDim, pts, o'', -, h1, h2, h3, h4, h5, rfl,
        h7, h8⟩ := prepareUniform_ok mc cfg pb _ _ sample files P hint hP
      obtain rfl : specs = [⟨30, some cfg.activation⟩, ⟨30, some cfg.activation⟩, ⟨30, some cfg.activation⟩,
        ⟨1, none⟩] := Except.ok.inj (h3.layers.symm.trans (fixedLayers_specs cfg.activation))
      rfl
  have key := main_outcome mc pb cfg kind sample θ files hint hmsh learningRateFn
    ["initial_learning_rate", "use_lr_scheduler", "decay_steps", "decay_rate"] (C50_keys cfg.learningRate).2
    (fun P => P.dense mc cfg pb 1) (fun pts => batchValue cfg.useAttention pts (mc.act cfg.activation) fixedLayers)
    (fun out : TrainOut 1 => (out.lossPde, out.lossDirichlet 0, out.loss 0)) (fun P hP => by
      obtain ⟨o, o', files', cells, bd, mp, nq, S, S', D, bdv, lr, specs, inDim, pts, o'', -, h1, h2, h3, h4, h5, rfl,
        h7, h8⟩ := prepareUniform_ok mc cfg pb _ _ sample files P hint hP
      obtain rfl : 2 = inDim := Except.ok.inj h5
      obtain rfl : specs = [⟨30, some cfg.activation⟩, ⟨30, some cfg.activation⟩, ⟨30, some cfg.activation⟩,
        ⟨1, none⟩] := Except.ok.inj (h3.layers.symm.trans (fixedLayers_specs cfg.activation))
      obtain ⟨pt, hpt, -⟩ := C76_losses mc pb cfg kind hk hloss fixedLayers (by decide) rfl rfl mp cells
        (bdPairs bd) nq S S' D bdv _ h3 lr
      refine ⟨fun θ pts => dense_predict _ mc cfg pb fixedLayers hatt rfl (by decide) (fixedLayers_specs cfg.activation)
          rfl rfl pts θ,
        dense_floats _ mc cfg pb, fun s => ?_⟩
      rw [← coefficients_exist kind hk pb.bilinearParams D.nCells nq]
      simp only [Prepared.dense, if_true]
      rw [show paramsAsTensors pb.bilinearParams = pb.bilinearParams by simp [paramsAsTensors]]
      exact dense_step_iff _ kind hk (hloss _ _ _) _ pt hpt _ _ _ _ _ _ _ _ s) _ hmain
  exact ⟨⟨fun ⟨R, hR⟩ => key.1 R hR, fun ⟨h1, h2, h3, h4⟩ => (key.2 h1).2.2.2 h2 h3 h4⟩,
    fun hv => ⟨(key.2 hv).1, (key.2 hv).2.1⟩⟩

/-- **C76** (completion, hard constraints).  The same for the script with hard constraints, with the key
`staircase` among those needed. -/
theorem C76_hard_completes (mc : Machine) (pb : Problem) (cfg : ForwardConfig) (kind : LossKind)
    (hk : kind.forward) (hloss : ∀ nc nt nq, pb.loss nc nt nq = lossOf kind nc nt nq)
    (sample : Fin 4 → Fin (cfg.nBoundaryPoints / 4) → ℝ) (θ : Weights) (files : Files)
    (hatt : cfg.useAttention = true → mc.attention = attentionDot) (hint : cfg.meshGenerationMethod = "internal")
    (hmsh : ∀ x y hx hy, ∃ m, mc.env.parseMsh (mc.env.gmsh x y hx hy) = .ok m) :
    ((∃ R, mainHard mc pb cfg sample θ files = .ok R) ↔
      ValidSetup pb cfg kind
        ["initial_learning_rate", "use_lr_scheduler", "decay_steps", "decay_rate", "staircase"] ∧
      0 < cfg.epochs ∧ cfg.updateConsoleOutput ≠ 0 ∧ ∑ e ∈ Finset.range cfg.epochs, mc.elapsed e ≠ 0) ∧
    (ValidSetup pb cfg kind
        ["initial_learning_rate", "use_lr_scheduler", "decay_steps", "decay_rate", "staircase"] →
      (cfg.epochs = 0 → mainHard mc pb cfg sample θ files = .error .nameError) ∧
      (0 < cfg.epochs → cfg.updateConsoleOutput = 0 →
        mainHard mc pb cfg sample θ files = .error .zeroDivisionError)) := by
  have hmain : mainHard mc pb cfg sample θ files
      = match prepareUniform mc cfg pb fixedLayers learningRateFnStaircase sample files with
        | .error e => .error e
        | .ok P => runUniform mc cfg pb P (P.hard mc cfg pb 1) θ := by
    unfold mainHard
    cases hP : prepareUniform mc cfg pb fixedLayers learningRateFnStaircase sample files with
    | error e => rfl
    | ok P =>
      obtain ⟨o, o', files', cells, bd, mp, nq, S, S', D, bdv, lr, specs, inDim, pts, o'', -, h1, h2, h3, h4, h5, rfl,
        h7, h8⟩ := prepareUniform_ok mc cfg pb _ _ sample files P hint hP
      obtain rfl : specs = [⟨30, some cfg.activation⟩, ⟨30, some cfg.activation⟩, ⟨30, some cfg.activation⟩,
        ⟨1, none⟩] := Except.ok.inj (h3.layers.symm.trans (fixedLayers_specs cfg.activation))
      rfl
  have key := main_outcome mc pb cfg kind sample θ files hint hmsh learningRateFnStaircase
    ["initial_learning_rate", "use_lr_scheduler", "decay_steps", "decay_rate", "staircase"]
    (C50_keys_staircase cfg.learningRate).2 (fun P => P.hard mc cfg pb 1)
    (fun pts w p => squareFactor p * batchValue cfg.useAttention pts (mc.act cfg.activation) fixedLayers w p)
    (fun out : TrainOutHard => (out.lossPde, out.lossDirichlet, out.loss)) (fun P hP => by
      obtain ⟨o, o', files', cells, bd, mp, nq, S, S', D, bdv, lr, specs, inDim, pts, o'', -, h1, h2, h3, h4, h5, rfl,
        h7, h8⟩ := prepareUniform_ok mc cfg pb _ _ sample files P hint hP
      obtain rfl : 2 = inDim := Except.ok.inj h5
      obtain rfl : specs = [⟨30, some cfg.activation⟩, ⟨30, some cfg.activation⟩, ⟨30, some cfg.activation⟩,
        ⟨1, none⟩] := Except.ok.inj (h3.layers.symm.trans (fixedLayers_specs cfg.activation))
      obtain ⟨pt, hpt, -⟩ := C76_hard_losses mc pb cfg kind hk hloss fixedLayers (by decide) rfl rfl mp cells
        (bdPairs bd) nq S S' D bdv _ h3 lr
      refine ⟨fun θ pts => hard_predict _ mc cfg pb fixedLayers hatt rfl (by decide) (fixedLayers_specs cfg.activation)
          rfl rfl pts θ,
        fun _ => rfl, fun s => ?_⟩
      rw [← coefficients_exist kind hk pb.bilinearParams D.nCells nq]
      simp only [Prepared.hard, if_true]
      rw [show paramsAsTensors pb.bilinearParams = pb.bilinearParams by simp [paramsAsTensors]]
      exact hard_step_iff _ kind hk (hloss _ _ _) _ pt hpt _ _ _ _ _ _ _ _ _ s) _ hmain
  exact ⟨⟨fun ⟨R, hR⟩ => key.1 R hR, fun ⟨h1, h2, h3, h4⟩ => (key.2 h1).2.2.2 h2 h3 h4⟩,
    fun hv => ⟨(key.2 hv).1, (key.2 hv).2.1⟩⟩

end FastVPINNs
