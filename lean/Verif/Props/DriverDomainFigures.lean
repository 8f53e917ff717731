import Verif.Lemmas.DriverDomainFigures
import Verif.Props.DriverDomainGrid

/-! # C83: the figures of the scripts for a coefficient field -/

namespace FastVPINNs

open Pyplot Spec

lemma reshapeMatrix_length {nx ny : ℕ} {v : List ℝ} {A : Fin nx → Fin ny → ℝ} (h : reshapeMatrix nx ny v = .ok A) :
    v.length = nx * ny := by
  unfold reshapeMatrix at h
  split at h
  · assumption
  · exact absurd h (by simp)

lemma outputDomain_fits (mc : Machine) (cfg : InverseConfig) (o : GeometryObject) (y ye k ac : List ℝ) (e : ℕ)
    (f f' : Files) (h : outputDomain mc cfg o y ye k ac e f = .ok f') (hm : cfg.meshGenerationMethod = "internal") :
    y.length = cfg.nTestPointsX * cfg.nTestPointsY ∧ k.length = cfg.nTestPointsX * cfg.nTestPointsY ∧
      ac.length = cfg.nTestPointsX * cfg.nTestPointsY := by
  unfold outputDomain at h
  rw [if_pos hm] at h
  simp only [bind, Except.bind] at h
  split at h
  · exact absurd h (by simp)
  rename_i A hA
  split at h
  · exact absurd h (by simp)
  rename_i B hB
  split at h
  · exact absurd h (by simp)
  rename_i C hC
  exact ⟨reshapeMatrix_length hA, reshapeMatrix_length hB, reshapeMatrix_length hC⟩

/-- The epoch of a report, and its arrays. -/
lemma reportDomain_fits (mc : Machine) (cfg : InverseConfig) (lr : LearningRate) (o : GeometryObject)
    (M : DriverModel (TrainOutInverse 1)) (pts : List (ℝ × ℝ)) (ye ac : List ℝ) (e : ℕ) (out : TrainOutInverse 1)
    (t : TrainState) (f f' : Files) (r : DomainReport)
    (h : reportDomain mc cfg lr o M pts ye ac e out t f = .ok (r, f')) :
    r.epoch = e ∧ (cfg.meshGenerationMethod = "internal" → FitsPoints cfg r) := by
  unfold reportDomain at h
  simp only [bind, Except.bind, pure, Except.pure] at h
  repeat (split at h; · exact absurd h (by simp))
  rename_i hout
  obtain ⟨rfl, rfl⟩ := Prod.mk.inj (Except.ok.inj h)
  exact ⟨rfl, fun hm => ⟨(outputDomain_fits _ _ _ _ _ _ _ _ _ _ hout hm).1,
    (outputDomain_fits _ _ _ _ _ _ _ _ _ _ hout hm).2.1⟩⟩

/-- The reports and the loss file. -/
lemma finishDomain_reports (mc : Machine) (cfg : InverseConfig) (M : DriverModel (TrainOutInverse 1))
    (hjoin : ∀ a b, mc.env.join cfg.outputPath a = mc.env.join cfg.outputPath b → a = b)
    (ye ac : List ℝ) (s : LoopState (TrainOutInverse 1) DomainReport) (R : DomainResult)
    (h : finishDomain mc cfg M ye ac s = .ok R) :
    R.reports = s.reports ∧ s.reports ≠ [] ∧
      R.files (mc.env.join cfg.outputPath "loss_function.txt") = some (s.losses.map (M.lossLine mc.env.fmt)) := by
  unfold finishDomain at h
  split at h
  · exact absurd h (by simp)
  rename_i rl hrl
  simp only [bind, Except.bind, pure, Except.pure] at h
  repeat (split at h; · exact absurd h (by simp))
  obtain rfl := Except.ok.inj h
  have hne' : ∀ a b : String, a ≠ b → mc.env.join cfg.outputPath a ≠ mc.env.join cfg.outputPath b :=
    fun a b hab hc => hab (hjoin a b hc)
  refine ⟨rfl, fun hc => by rw [hc] at hrl; exact absurd hrl (by simp), ?_⟩
  simp only [saveText]
  rw [writeFile_other _ _ _ _ (hne' _ _ (by decide)), writeFile_other _ _ _ _ (hne' _ _ (by decide)),
    writeFile_other _ _ _ _ (hne' _ _ (by decide)), writeFile_other _ _ _ _ (hne' _ _ (by decide)),
    writeFile_other _ _ _ _ (hne' _ _ (by decide)), writeFile_other _ _ _ _ (hne' _ _ (by decide)),
    writeFile_other _ _ _ _ (hne' _ _ (by decide)), writeFile_same]

/-- The figures of a run that finishes. -/
lemma figuresRunDomain_ok (mc : Machine) (cfg : InverseConfig) (pb : DomainProblem)
    (src : DomainSource cfg.numSensorPoints) (P : PreparedDomain) (M : DriverModel (TrainOutInverse 1)) (θ : Weights)
    (hjoin : ∀ a b, mc.env.join cfg.outputPath a = mc.env.join cfg.outputPath b → a = b)
    (hfl : ∀ out, M.floats out = .ok (out.lossPde, out.lossDirichlet 0, out.loss 0))
    (hline : ∀ fmt out, M.lossLine fmt out = fmt (out.loss 0))
    (R : DomainResult) (h : runDomain mc cfg pb src P M θ = .ok R) (s : Pyplot) :
    ∃ (pts : List (ℝ × ℝ)) (o' : GeometryObject) (files' : Files) (ye losses : List ℝ) (T : Pyplot),
      P.geometry.getTestPoints mc.env P.base.files = (.ok (.points pts), o', files') ∧ src.exact pb pts = .ok ye ∧
      figuresRunDomain mc cfg pb src P M θ s = .ok T ∧ T.figures = s.figures ∧ losses.length = cfg.epochs ∧
      R.files (mc.env.join cfg.outputPath "loss_function.txt") = some (losses.map mc.env.fmt) ∧
      ShowsCurves cfg.outputPath R.reports losses T ∧
      (cfg.meshGenerationMethod = "internal" →
        IsDomainFigures cfg.outputPath cfg.nTestPointsX cfg.nTestPointsY pts ye
          (pts.map fun p => pb.actualEps p.1 p.2) R.reports losses s T) ∧
      (cfg.meshGenerationMethod ≠ "internal" → ∀ p, p ≠ pngPath cfg.outputPath "loss_function" →
        p ≠ pngPath cfg.outputPath "test_loss_function" → T.images p = s.images p) := by
  unfold runDomain at h
  split at h
  · exact absurd h (by simp)
  swap
  · exact absurd h (by simp)
  rename_i pts o' files' hpts
  split at h
  · exact absurd h (by simp)
  rename_i ye hye
  split at h
  · exact absurd h (by simp)
  rename_i hcon
  dsimp only at h
  split at h
  · exact absurd h (by simp)
  rename_i S hS
  obtain ⟨hu, hlen, st, fs, h0, hN, hf0, hfN, hrun, hrep, hquiet⟩ := epochLoop_ok _ _ _ _ _ _ rfl rfl hS
  obtain ⟨hR, hne, hfile⟩ := finishDomain_reports mc cfg M hjoin ye _ S R h
  rw [hR]
  have hrep' : List.Forall₂ (fun e (r : DomainReport) => r.epoch = e ∧
      (cfg.meshGenerationMethod = "internal" → FitsPoints cfg r))
      (reportEpochs cfg.updateConsoleOutput cfg.epochs) S.reports :=
    hrep.imp fun e r ⟨out, _, hr⟩ => reportDomain_fits _ _ _ _ _ _ _ _ _ _ _ _ _ _ hr
  have hepochs : S.reports.map (fun r => r.epoch) = reportEpochs cfg.updateConsoleOutput cfg.epochs := by
    have : ∀ {l : List ℕ} {m : List DomainReport}, List.Forall₂ (fun e (r : DomainReport) => r.epoch = e ∧
        (cfg.meshGenerationMethod = "internal" → FitsPoints cfg r)) l m → m.map (fun r => r.epoch) = l := by
      intro l m h
      induction h with
      | nil => rfl
      | cons h _ ih => rw [List.map_cons, ih, h.1]
    exact this hrep'
  have hfits : ∀ r ∈ S.reports, cfg.meshGenerationMethod = "internal" → FitsPoints cfg r := by
    intro r hr
    obtain ⟨e, -, -, h⟩ := forall₂_mem_left hrep'.flip hr
    exact h
  have hnd : (S.reports.map fun r => r.epoch).Nodup := by rw [hepochs]; exact reportEpochs_nodup _ _
  have hpos : 0 < cfg.epochs := by
    rcases Nat.eq_zero_or_pos cfg.epochs with h1 | h1
    · rw [h1] at hepochs
      have h2 : reportEpochs cfg.updateConsoleOutput 0 = [] := rfl
      rw [h2, List.map_eq_nil_iff] at hepochs
      exact absurd hepochs hne
    · exact h1
  have hlast : ∃ r, S.reports.getLast? = some r ∧ r.epoch + 1 = cfg.epochs := by
    have h := reportEpochs_last cfg.updateConsoleOutput cfg.epochs hpos
    rw [← hepochs, List.getLast?_map] at h
    obtain ⟨r, hr, h⟩ := Option.map_eq_some_iff.1 h
    exact ⟨r, hr, by omega⟩
  have hgrid : cfg.meshGenerationMethod = "internal" →
      GridArrays cfg pts ye (pts.map fun p => pb.actualEps p.1 p.2) := by
    intro hm
    obtain ⟨c1, c2, c3⟩ := (domainContour_grid cfg pts ye hm).1 hcon
    exact ⟨c3, c1, c2, by rw [List.length_map, c1]⟩
  have hexact : ∀ hm : cfg.meshGenerationMethod = "internal", plotDomainExact cfg pts ye s = .ok
      (saved (pngPath cfg.outputPath "exact_solution") (valuesFigure cfg pts ye "Exact Solution") s) := by
    intro hm
    obtain ⟨h2, hp, hy, ha⟩ := hgrid hm
    unfold plotDomainExact
    simp only [if_pos hm, bind, Except.bind, reshape_rowsOf hy,
      reshape_rowsOf (by simpa using hp : (pts.map Prod.fst).length = cfg.nTestPointsX * cfg.nTestPointsY),
      reshape_rowsOf (by simpa using hp : (pts.map Prod.snd).length = cfg.nTestPointsX * cfg.nTestPointsY),
      plotContour_eq _ _ _ _ _ _ _ h2]
    rfl
  have hrunfig : ∀ s₁, plotDomainExact cfg pts ye s = .ok s₁ → figuresRunDomain mc cfg pb src P M θ s = .ok
      (savedKeys cfg.outputPath (allImages cfg pts ye (pts.map fun p => pb.actualEps p.1 p.2)
        (S.losses.map fun o => o.loss 0) [] S.reports) s₁) := by
    intro s₁ hs₁
    unfold figuresRunDomain
    rw [hpts]
    simp only [bind, Except.bind, hye, hs₁, hS, mapM_ok _ _ hfl, List.map_map]
    exact plotDomainReports_eq _ _ _ _ _ hgrid _ hfits _ _
  have hll : (S.losses.map fun o => o.loss 0).length = cfg.epochs := by rw [List.length_map, hlen]
  have hff : R.files (mc.env.join cfg.outputPath "loss_function.txt")
      = some ((S.losses.map fun o => o.loss 0).map mc.env.fmt) := by
    rw [hfile, List.map_map]
    congr 1
    exact List.map_congr_left fun o _ => hline _ o
  by_cases hm : cfg.meshGenerationMethod = "internal"
  · obtain ⟨-, hp, hy, ha⟩ := hgrid hm
    refine ⟨pts, o', files', ye, S.losses.map fun o => o.loss 0, _, hpts, hye, hrunfig _ (hexact hm),
      savedKeys_figures _ _ _, hll, hff, allImages_curves _ _ _ _ _ _ _ hll hlast _, fun _ => ?_, fun hc => absurd hm hc⟩
    have himg := allImages_image cfg pts ye (pts.map fun p => pb.actualEps p.1 p.2)
      (S.losses.map fun o => o.loss 0) S.reports hnd [] (saved (pngPath cfg.outputPath "exact_solution")
        (valuesFigure cfg pts ye "Exact Solution") s)
    have hkeys : ∀ e ∈ allImages cfg pts ye (pts.map fun p => pb.actualEps p.1 p.2)
        (S.losses.map fun o => o.loss 0) [] S.reports, e.1 ≠ .solution ∧ e.1.name ∈ domainFigureNames S.reports := by
      intro e he
      obtain ⟨r, hr, t, ht⟩ := mem_allImages _ _ _ _ _ _ _ _ he
      unfold reportImages at ht
      rw [if_pos hm] at ht
      simp only [List.cons_append, List.nil_append, List.mem_cons, List.not_mem_nil, or_false] at ht
      have hmem : ∀ x ∈ ["prediction_" ++ toString (r.epoch + 1), "error_" ++ toString (r.epoch + 1),
          "inverse_prediction_" ++ toString (r.epoch + 1), "inverse_error_" ++ toString (r.epoch + 1)],
          x ∈ domainFigureNames S.reports := fun x hx =>
        List.mem_append_right _ (List.mem_flatMap.2 ⟨r, hr, hx⟩)
      rcases ht with rfl | rfl | rfl | rfl | rfl | rfl
      · exact ⟨by simp, List.mem_append_left _ (.tail _ (.head _))⟩
      · exact ⟨by simp, List.mem_append_left _ (.tail _ (.tail _ (.head _)))⟩
      · exact ⟨by simp, hmem _ (.head _)⟩
      · exact ⟨by simp, hmem _ (.tail _ (.head _))⟩
      · exact ⟨by simp, hmem _ (.tail _ (.tail _ (.head _)))⟩
      · exact ⟨by simp, hmem _ (.tail _ (.tail _ (.tail _ (.head _))))⟩
    refine ⟨⟨_, ?_, valuesFigure_shows cfg pts hp ye hy _⟩, fun r hr => ⟨_, himg r hr (.pred r.epoch) (by simp) _ ?_,
      valuesFigure_shows cfg pts hp _ (hfits r hr hm).1 _⟩, fun r hr => ⟨_, himg r hr (.err r.epoch) (by simp) _ ?_,
      diffFigure_shows cfg pts hp _ _ hy (hfits r hr hm).1 _⟩, fun r hr => ⟨_, himg r hr (.invPred r.epoch) (by simp) _ ?_,
      valuesFigure_shows cfg pts hp _ (hfits r hr hm).2 _⟩, fun r hr => ⟨_, himg r hr (.invErr r.epoch) (by simp) _ ?_,
      diffFigure_shows cfg pts hp _ _ ha (hfits r hr hm).2 _⟩, allImages_curves _ _ _ _ _ _ _ hll hlast _, ?_⟩
    · rw [savedKeys_others]
      · exact (saved_oneImage _ _ _).image
      · intro e he hc
        exact (hkeys e he).1 (ImageKey.name_inj (a := .solution) (pngPath_inj hc)).symm
    · intro t; simp [reportImages, hm]
    · intro t; simp [reportImages, hm]
    · intro t; simp [reportImages, hm]
    · intro t; simp [reportImages, hm]
    · intro p hp
      rw [savedKeys_others _ _ _ _ fun e he => hp _ (hkeys e he).2]
      exact (saved_oneImage _ _ _).others _ (hp _ (by simp [domainFigureNames]))
  · refine ⟨pts, o', files', ye, S.losses.map fun o => o.loss 0, _, hpts, hye, hrunfig s (if_neg hm),
      savedKeys_figures _ _ _, hll, hff, allImages_curves _ _ _ _ _ _ _ hll hlast _, fun hc => absurd hc hm,
      fun _ p p1 p2 => ?_⟩
    apply savedKeys_others
    intro e he
    obtain ⟨r, hr, t, ht⟩ := mem_allImages _ _ _ _ _ _ _ _ he
    unfold reportImages at ht
    rw [if_neg hm] at ht
    simp only [List.append_nil, List.mem_cons, List.not_mem_nil, or_false] at ht
    rcases ht with rfl | rfl
    · exact p1
    · exact p2

/-- The figures of the two scripts on an internal mesh. -/
lemma figuresDomain_internal (mc : Machine) (pb : DomainProblem) (cfg : InverseConfig)
    (src : DomainSource cfg.numSensorPoints) (sample : Fin 4 → Fin (cfg.nBoundaryPoints / 4) → ℝ)
    (lhs : ℕ → Fin (2 ^ cfg.boundaryRefinementLevel + 1) → ℝ × ℝ) (θ : Weights) (files : Files) (R : DomainResult)
    (hint : cfg.meshGenerationMethod = "internal")
    (hjoin : ∀ a b, mc.env.join cfg.outputPath a = mc.env.join cfg.outputPath b → a = b)
    (h : mainDomain mc pb cfg src sample lhs θ files = .ok R) (s : Pyplot) :
    ∃ (pts : List (ℝ × ℝ)) (ye losses : List ℝ) (T : Pyplot),
      IsTensorGrid (cfg.xMin, cfg.xMax) (cfg.yMin, cfg.yMax) cfg.nTestPointsX cfg.nTestPointsY pts ∧
      src.exact pb pts = .ok ye ∧ losses.length = cfg.epochs ∧
      R.files (mc.env.join cfg.outputPath "loss_function.txt") = some (losses.map mc.env.fmt) ∧
      figuresDomain mc pb cfg src sample lhs θ files s = .ok T ∧ T.figures = s.figures ∧
      IsDomainFigures cfg.outputPath cfg.nTestPointsX cfg.nTestPointsY pts ye
        (pts.map fun p => pb.actualEps p.1 p.2) R.reports losses s T := by
  unfold mainDomain at h
  split at h
  · exact absurd h (by simp)
  rename_i P hP
  obtain ⟨pts, o, f, ye, losses, T, k1, k2, k3, k4, k5, k6, -, k8, -⟩ := figuresRunDomain_ok mc cfg pb src P _ θ hjoin
    (domain_floats _ mc cfg pb _) (domain_lossLine _ mc cfg pb _) R h s
  obtain ⟨-, o₁, o', files', cells, bd, nq, S, S', D, bdv, lr, specs, inDim, pts', o'', -, -, -, -, -, h6, -, h8, h9,
    h10⟩ := prepareGrid_ok mc cfg pb src sample lhs files P hint hP
  have h11 := sensors_geometry src mc.env "internal" pb S' o' P.geometry o'' files' pts' P.sensor h10 h6
  have h12 : P.base.files = files' := by rw [h8]
  rw [h12, h11] at k1
  obtain rfl : pts' = pts := by
    have := (Prod.mk.inj k1).1
    simpa using this
  refine ⟨pts', ye, losses, T, h9, k2, k5, k6, ?_, k4, k8 hint⟩
  unfold figuresDomain
  rw [hP]
  exact k3

/-- **C83** (the images of the first script for a coefficient field, internal mesh).  Whenever the script finishes, so do
its plotting commands, and they leave no figure open.  The images in the output folder show the exact solution at the
test points, for every report the reported values of solution and coefficient and their absolute errors, the losses of
all epochs (those of `loss_function.txt`) and the mean absolute errors of all reports; no other image is written.
(`C98_usa` says what the reported values are.) -/
theorem C83_usa (mc : Machine) (pb : DomainProblem) (cfg : InverseConfig)
    (shuffle : List (ℝ × ℝ) → List (ℝ × ℝ)) (sample : Fin 4 → Fin (cfg.nBoundaryPoints / 4) → ℝ)
    (lhs : ℕ → Fin (2 ^ cfg.boundaryRefinementLevel + 1) → ℝ × ℝ) (θ : Weights) (files : Files) (R : DomainResult)
    (hint : cfg.meshGenerationMethod = "internal")
    (hjoin : ∀ a b, mc.env.join cfg.outputPath a = mc.env.join cfg.outputPath b → a = b)
    (h : mainUsa mc pb cfg shuffle sample lhs θ files = .ok R) (s : Pyplot) :
    ∃ (pts : List (ℝ × ℝ)) (losses : List ℝ) (T : Pyplot),
      IsTensorGrid (cfg.xMin, cfg.xMax) (cfg.yMin, cfg.yMax) cfg.nTestPointsX cfg.nTestPointsY pts ∧
      losses.length = cfg.epochs ∧
      R.files (mc.env.join cfg.outputPath "loss_function.txt") = some (losses.map mc.env.fmt) ∧
      figuresDomain mc pb cfg (.usa shuffle) sample lhs θ files s = .ok T ∧ T.figures = s.figures ∧
      IsDomainFigures cfg.outputPath cfg.nTestPointsX cfg.nTestPointsY pts (pts.map fun p => pb.exactSolution p.1 p.2)
        (pts.map fun p => pb.actualEps p.1 p.2) R.reports losses s T := by
  obtain ⟨pts, ye, losses, T, h1, h2, h3, h4, h5, h6, h7⟩ := figuresDomain_internal mc pb cfg (.usa shuffle) sample lhs
    θ files R hint hjoin h s
  obtain rfl : (pts.map fun p => pb.exactSolution p.1 p.2) = ye := Except.ok.inj h2
  exact ⟨pts, losses, T, h1, h3, h4, h5, h6, h7⟩

/-- **C83** (the same for the second script).  The image called exact solution and the errors use the third column of the
data file, in the order of the file. -/
theorem C83_circle (mc : Machine) (pb : DomainProblem) (cfg : InverseConfig)
    (csv : List (ℝ × ℝ × ℝ)) (sensorLhs : (k : ℕ) → Fin k → ℝ × ℝ) (randint : ℕ → Fin cfg.numSensorPoints → ℤ)
    (sample : Fin 4 → Fin (cfg.nBoundaryPoints / 4) → ℝ)
    (lhs : ℕ → Fin (2 ^ cfg.boundaryRefinementLevel + 1) → ℝ × ℝ) (θ : Weights) (files : Files) (R : DomainResult)
    (hint : cfg.meshGenerationMethod = "internal")
    (hjoin : ∀ a b, mc.env.join cfg.outputPath a = mc.env.join cfg.outputPath b → a = b)
    (h : mainCircle mc pb cfg csv sensorLhs randint sample lhs θ files = .ok R) (s : Pyplot) :
    ∃ (pts : List (ℝ × ℝ)) (losses : List ℝ) (T : Pyplot),
      IsTensorGrid (cfg.xMin, cfg.xMax) (cfg.yMin, cfg.yMax) cfg.nTestPointsX cfg.nTestPointsY pts ∧
      losses.length = cfg.epochs ∧
      R.files (mc.env.join cfg.outputPath "loss_function.txt") = some (losses.map mc.env.fmt) ∧
      figuresDomain mc pb cfg (.circle csv sensorLhs randint) sample lhs θ files s = .ok T ∧ T.figures = s.figures ∧
      IsDomainFigures cfg.outputPath cfg.nTestPointsX cfg.nTestPointsY pts (csv.map fun r => r.2.2)
        (pts.map fun p => pb.actualEps p.1 p.2) R.reports losses s T := by
  obtain ⟨pts, ye, losses, T, h1, h2, h3, h4, h5, h6, h7⟩ := figuresDomain_internal mc pb cfg
    (.circle csv sensorLhs randint) sample lhs θ files R hint hjoin h s
  obtain rfl : (csv.map fun r => r.2.2) = ye := by
    unfold DomainSource.exact at h2
    dsimp only at h2
    split_ifs at h2
    exact Except.ok.inj h2
  exact ⟨pts, losses, T, h1, h3, h4, h5, h6, h7⟩

/-- The figures of the two scripts on a mesh file. -/
lemma figuresDomain_external (mc : Machine) (pb : DomainProblem) (cfg : InverseConfig)
    (src : DomainSource cfg.numSensorPoints) (sample : Fin 4 → Fin (cfg.nBoundaryPoints / 4) → ℝ)
    (lhs : ℕ → Fin (2 ^ cfg.boundaryRefinementLevel + 1) → ℝ × ℝ) (θ : Weights) (files : Files) (R : DomainResult)
    (hext : cfg.meshGenerationMethod = "external")
    (hjoin : ∀ a b, mc.env.join cfg.outputPath a = mc.env.join cfg.outputPath b → a = b)
    (h : mainDomain mc pb cfg src sample lhs θ files = .ok R) (s : Pyplot) :
    ∃ (losses : List ℝ) (T : Pyplot), losses.length = cfg.epochs ∧
      R.files (mc.env.join cfg.outputPath "loss_function.txt") = some (losses.map mc.env.fmt) ∧
      figuresDomain mc pb cfg src sample lhs θ files s = .ok T ∧ T.figures = s.figures ∧
      ShowsCurves cfg.outputPath R.reports losses T ∧
      ∀ p, p ≠ pngPath cfg.outputPath "loss_function" → p ≠ pngPath cfg.outputPath "test_loss_function" →
        T.images p = s.images p := by
  unfold mainDomain at h
  split at h
  · exact absurd h (by simp)
  rename_i P hP
  obtain ⟨pts, o, f, ye, losses, T, k1, k2, k3, k4, k5, k6, k7, -, k9⟩ := figuresRunDomain_ok mc cfg pb src P _ θ hjoin
    (domain_floats _ mc cfg pb _) (domain_lossLine _ mc cfg pb _) R h s
  refine ⟨losses, T, k5, k6, ?_, k4, k7, k9 (by rw [hext]; decide)⟩
  unfold figuresDomain
  rw [hP]
  exact k3

/-- **C83** (the images of the first script for a coefficient field on a mesh file, as shipped).  Only the two curves are
drawn: the losses of all epochs and the mean absolute errors of all reports. -/
theorem C83_usa_external (mc : Machine) (pb : DomainProblem) (cfg : InverseConfig)
    (shuffle : List (ℝ × ℝ) → List (ℝ × ℝ)) (sample : Fin 4 → Fin (cfg.nBoundaryPoints / 4) → ℝ)
    (lhs : ℕ → Fin (2 ^ cfg.boundaryRefinementLevel + 1) → ℝ × ℝ) (θ : Weights) (files : Files) (R : DomainResult)
    (hext : cfg.meshGenerationMethod = "external")
    (hjoin : ∀ a b, mc.env.join cfg.outputPath a = mc.env.join cfg.outputPath b → a = b)
    (h : mainUsa mc pb cfg shuffle sample lhs θ files = .ok R) (s : Pyplot) :
    ∃ (losses : List ℝ) (T : Pyplot), losses.length = cfg.epochs ∧
      R.files (mc.env.join cfg.outputPath "loss_function.txt") = some (losses.map mc.env.fmt) ∧
      figuresDomain mc pb cfg (.usa shuffle) sample lhs θ files s = .ok T ∧ T.figures = s.figures ∧
      ShowsCurves cfg.outputPath R.reports losses T ∧
      ∀ p, p ≠ pngPath cfg.outputPath "loss_function" → p ≠ pngPath cfg.outputPath "test_loss_function" →
        T.images p = s.images p :=
  figuresDomain_external mc pb cfg _ sample lhs θ files R hext hjoin h s

/-- **C83** (the same for the second script). -/
theorem C83_circle_external (mc : Machine) (pb : DomainProblem) (cfg : InverseConfig)
    (csv : List (ℝ × ℝ × ℝ)) (sensorLhs : (k : ℕ) → Fin k → ℝ × ℝ) (randint : ℕ → Fin cfg.numSensorPoints → ℤ)
    (sample : Fin 4 → Fin (cfg.nBoundaryPoints / 4) → ℝ)
    (lhs : ℕ → Fin (2 ^ cfg.boundaryRefinementLevel + 1) → ℝ × ℝ) (θ : Weights) (files : Files) (R : DomainResult)
    (hext : cfg.meshGenerationMethod = "external")
    (hjoin : ∀ a b, mc.env.join cfg.outputPath a = mc.env.join cfg.outputPath b → a = b)
    (h : mainCircle mc pb cfg csv sensorLhs randint sample lhs θ files = .ok R) (s : Pyplot) :
    ∃ (losses : List ℝ) (T : Pyplot), losses.length = cfg.epochs ∧
      R.files (mc.env.join cfg.outputPath "loss_function.txt") = some (losses.map mc.env.fmt) ∧
      figuresDomain mc pb cfg (.circle csv sensorLhs randint) sample lhs θ files s = .ok T ∧ T.figures = s.figures ∧
      ShowsCurves cfg.outputPath R.reports losses T ∧
      ∀ p, p ≠ pngPath cfg.outputPath "loss_function" → p ≠ pngPath cfg.outputPath "test_loss_function" →
        T.images p = s.images p :=
  figuresDomain_external mc pb cfg _ sample lhs θ files R hext hjoin h s

/-- The images of the example of `C98`. -/
example (quad : QuadRoutines) (sample : Fin 4 → Fin (1500 / 4) → ℝ) (lhs : ℕ → Fin (2 ^ 2 + 1) → ℝ × ℝ)
    (θ : Weights) (s : Pyplot) :
    ∃ T fig x y z, figuresDomain (demoMachine quad) demoGridProblem demoGridConfig (.usa List.reverse) sample lhs θ
        demoFiles s = .ok T ∧ T.images "output/usa_2/exact_solution.png" = some fig ∧
      fig.drawn = [.contour 3 4 x y z] ∧ ∃ fig' ys, T.images "output/usa_2/loss_function.png" = some fig' ∧
        ShowsCurve fig' ys "Epochs" "Loss" "Loss Function" ∧ ys.length = 7 := by
  have hjoin : ∀ a b, (demoMachine quad).env.join demoGridConfig.outputPath a
      = (demoMachine quad).env.join demoGridConfig.outputPath b → a = b := fun a b h => by
    simpa [demoMachine, demoEnv] using h
  have hmsh : ∀ x y hx hy, ∃ m, (demoMachine quad).env.parseMsh ((demoMachine quad).env.gmsh x y hx hy) = .ok m :=
    fun _ _ _ _ => ⟨_, rfl⟩
  have hv : ValidDomainGrid demoGridProblem demoGridConfig := by
    refine ⟨⟨Or.inr rfl, rfl, ?_, ?_, ?_, ?_, ?_, Or.inr rfl, ?_, ?_, ?_, ?_⟩, ?_, rfl, ?_⟩
    all_goals simp [demoGridConfig, demoGridProblem, configDomainUsa, problemDomainUsa, InverseConfig.forward,
      DomainInverseUSA.bilinearParamsDict, List.lookup, requiredParams]
  have hd : 2 ≤ demoGridConfig.modelArchitecture.length := by simp [demoGridConfig, configDomainUsa]
  obtain ⟨R, hR⟩ := ((C98_completes_usa (demoMachine quad) demoGridProblem demoGridConfig (fun _ _ _ => rfl)
      List.reverse sample lhs θ demoFiles nofun rfl hd hjoin hmsh
      (fun _ => by simp [demoMachine])).1 (by norm_num [demoGridConfig])).2
      ⟨hv, by simp [demoGridConfig], fun _ _ => rfl⟩
  obtain ⟨pts, losses, T, -, h2, -, h4, -, h6⟩ := C83_usa (demoMachine quad) demoGridProblem demoGridConfig List.reverse
    sample lhs θ demoFiles R rfl hjoin hR s
  obtain ⟨fig, f1, ⟨x, y, z, f2, -⟩, -, -⟩ := h6.exactImage
  obtain ⟨fig', g1, g2⟩ := h6.curves.loss
  exact ⟨T, fig, x, y, z, h4, f1, f2, fig', losses, g1, g2, h2⟩

end FastVPINNs
