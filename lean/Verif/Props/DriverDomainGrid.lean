import Verif.Spec.DriverDomainGrid
import Verif.Props.DriverDomain

/-! # C98: the driver scripts for a space-dependent coefficient on the rectangle -/

namespace FastVPINNs

open Spec

/-! ## From the loop to the record -/

section
variable (mc : Machine) (cfg : InverseConfig) (lr : LearningRate) (o : GeometryObject)
  (M : DriverModel (TrainOutInverse 1)) (u k : Weights → ℝ × ℝ → ℝ) (pts : List (ℝ × ℝ)) (ye : List ℝ)
  (actual : ℝ × ℝ → ℝ)

lemma arrayLines_grid (fmt : ℝ → String) (hmet : cfg.meshGenerationMethod = "internal") (a : List ℝ)
    (hlen : a.length = cfg.nTestPointsX * cfg.nTestPointsY) :
    arrayLines fmt cfg a = .ok (gridLines cfg fun n => fmt (a.getD n 0)) := by
  unfold arrayLines reshapeMatrix
  rw [if_pos hmet, if_pos hlen]
  rfl

lemma gridLines_congr (f g : ℕ → String) (h : ∀ n < cfg.nTestPointsX * cfg.nTestPointsY, f n = g n) :
    gridLines cfg f = gridLines cfg g := by
  unfold gridLines
  congr 1
  funext i
  congr 2
  funext j
  exact h _ (index_lt i j)

lemma arrayLines_map (fmt : ℝ → String) (hmet : cfg.meshGenerationMethod = "internal")
    (hlen : pts.length = cfg.nTestPointsX * cfg.nTestPointsY) (f : ℝ × ℝ → ℝ) :
    arrayLines fmt cfg (pts.map f) = .ok (gridLines cfg fun n => fmt (f (pts.getD n (0, 0)))) := by
  rw [arrayLines_grid cfg fmt hmet _ (by simpa using hlen)]
  congr 1
  refine gridLines_congr cfg _ _ fun n hn => ?_
  rw [getD_map_pts pts _ (by omega)]

lemma arrayLines_error (fmt : ℝ → String) (hmet : cfg.meshGenerationMethod = "internal")
    (hlen : pts.length = cfg.nTestPointsX * cfg.nTestPointsY) (hl : ye.length = pts.length) (f : ℝ × ℝ → ℝ) :
    arrayLines fmt cfg (List.zipWith (fun a b => |a - b|) ye (pts.map f))
      = .ok (gridLines cfg fun n => fmt |ye.getD n 0 - f (pts.getD n (0, 0))|) := by
  rw [arrayLines_grid cfg fmt hmet _ (by simpa [hl] using hlen)]
  congr 1
  refine gridLines_congr cfg _ _ fun n hn => ?_
  rw [List.getD_eq_getElem _ _ (by simp [hl]; omega), List.getElem_zipWith, List.getElem_map,
    List.getD_eq_getElem _ _ (show n < ye.length by omega), List.getD_eq_getElem _ _ (show n < pts.length by omega)]

/-- A report on an internal mesh. -/
lemma reportGrid_ok
    (hcall : ∀ θ, ∃ b, M.call θ (pts.map fun p => [p.1, p.2]) = .ok b ∧ batchColumn b 0 = .ok (pts.map (u θ)) ∧
      batchColumn b 1 = .ok (pts.map (k θ)))
    (hfl : ∀ out, M.floats out = .ok (out.lossPde, out.lossDirichlet 0, out.loss 0))
    (hmet : cfg.meshGenerationMethod = "internal") (hl : ye.length = pts.length) (hne : pts ≠ [])
    (e : ℕ) (out : TrainOutInverse 1) (s : TrainState) (files files' : Files) (r : DomainReport)
    (h : reportDomain mc cfg lr o M pts ye (pts.map actual) e out s files = .ok (r, files')) :
    files' = files ∧ mc.lrNumpy lr = .ok () ∧
      DomainReportAt mc cfg u k pts ye actual e out s.weights r := by
  obtain ⟨b, c1, c2, c3⟩ := hcall s.weights
  unfold reportDomain at h
  simp only [bind, Except.bind, pure, Except.pure, c1, c2, c3, hfl, floatOf, dif_pos] at h
  split at h
  · exact absurd h (by simp)
  rename_i errors herr
  split at h
  · exact absurd h (by simp)
  rename_i invErrors hinv
  split at h
  · exact absurd h (by simp)
  rename_i rate hrate
  split at h
  · exact absurd h (by simp)
  rename_i hlr
  split at h
  · exact absurd h (by simp)
  rename_i diff hdiff
  split at h
  · exact absurd h (by simp)
  rename_i f hf
  obtain ⟨rfl, rfl⟩ := Prod.mk.inj (Except.ok.inj h)
  obtain ⟨l2, linf, l2r, linfr, l1, l1r, e1, e2⟩ := errors_zip ye (pts.map (u s.weights)) (by simpa using hl)
    (by simpa using hne)
  obtain ⟨i2, iinf, i2r, iinfr, i1, i1r, f1, f2⟩ := errors_at pts hne actual (k s.weights)
  obtain rfl := Except.ok.inj (herr.symm.trans e1)
  obtain rfl := Except.ok.inj (hinv.symm.trans f1)
  refine ⟨?_, hlr, ⟨rfl, ⟨rfl, rfl, rfl, rfl⟩, ⟨_, _, _, _, _, _, rfl, e2⟩, ⟨_, _, _, _, _, _, rfl, f2⟩, rfl, rfl,
    ?_, fun hu => ?_⟩⟩
  · unfold outputDomain at hf
    rw [if_pos hmet] at hf
    simp only [bind, Except.bind, pure, Except.pure] at hf
    repeat' split at hf
    all_goals first | exact (Except.ok.inj hf).symm | exact absurd hf (by simp)
  · rw [npSub_eq _ _ (by simpa using hl)] at hdiff
    obtain rfl := Except.ok.inj hdiff
    simp only [List.map_zipWith]
  · obtain ⟨t1, t2⟩ := pyTail_range mc.elapsed (e + 1) cfg.updateConsoleOutput hu
    have hun : (0 : ℝ) ≤ cfg.updateConsoleOutput := by exact_mod_cast hu.le
    refine ⟨_, rfl, ?_, fun hT => ?_⟩
    · dsimp only [npMean]
      rw [t1, t2]
      have : ((min (e + 1) cfg.updateConsoleOutput.toNat : ℕ) : ℝ) ≠ 0 := by
        rw [Nat.cast_ne_zero]
        omega
      field_simp
    · unfold ratePerSecond at hrate
      rw [t1, if_neg hT.ne'] at hrate
      obtain rfl := Except.ok.inj hrate
      exact pyInt_div _ _ hun hT

/-- A report can be made if the clock advances. -/
lemma reportGrid_succeeds
    (hcall : ∀ θ, ∃ b, M.call θ (pts.map fun p => [p.1, p.2]) = .ok b ∧ batchColumn b 0 = .ok (pts.map (u θ)) ∧
      batchColumn b 1 = .ok (pts.map (k θ)))
    (hfl : ∀ out, M.floats out = .ok (out.lossPde, out.lossDirichlet 0, out.loss 0))
    (hmet : cfg.meshGenerationMethod = "internal") (hlen : pts.length = cfg.nTestPointsX * cfg.nTestPointsY)
    (hl : ye.length = pts.length) (hne : pts ≠ []) (hlr : mc.lrNumpy lr = .ok ()) (hu : 0 < cfg.updateConsoleOutput)
    (e : ℕ) (hT : ∑ k ∈ Finset.Ico (e + 1 - cfg.updateConsoleOutput.toNat) (e + 1), mc.elapsed k ≠ 0)
    (out : TrainOutInverse 1) (s : TrainState) (files : Files) :
    ∃ r files', reportDomain mc cfg lr o M pts ye (pts.map actual) e out s files = .ok (r, files') := by
  obtain ⟨b, c1, c2, c3⟩ := hcall s.weights
  obtain ⟨l2, linf, l2r, linfr, l1, l1r, e1, -⟩ := errors_zip ye (pts.map (u s.weights)) (by simpa using hl)
    (by simpa using hne)
  obtain ⟨i2, iinf, i2r, iinfr, i1, i1r, f1, -⟩ := errors_at pts hne actual (k s.weights)
  obtain ⟨t1, -⟩ := pyTail_range mc.elapsed (e + 1) cfg.updateConsoleOutput hu
  unfold reportDomain outputDomain
  simp only [if_pos hmet, bind, Except.bind, pure, Except.pure, c1, c2, c3, hfl, floatOf, dif_pos, e1, f1, ratePerSecond,
    t1, if_neg hT, hlr, npSub_eq ye (pts.map (u s.weights)) (by simpa using hl), reshapeMatrix, List.length_map, hlen,
    if_true]
  exact ⟨_, _, rfl⟩

/-- The last part of the scripts (internal mesh). -/
lemma finishGrid_record
    (hjoin : ∀ a b, mc.env.join cfg.outputPath a = mc.env.join cfg.outputPath b → a = b)
    (hline : ∀ fmt out, M.lossLine fmt out = fmt (out.loss 0))
    (hmet : cfg.meshGenerationMethod = "internal") (hpl : pts.length = cfg.nTestPointsX * cfg.nTestPointsY)
    (hyl : ye.length = pts.length) (st : ℕ → TrainState)
    (s : LoopState (TrainOutInverse 1) DomainReport) (R : DomainResult)
    (hlen : s.losses.length = cfg.epochs) (hst : st cfg.epochs = s.model)
    (hrep : List.Forall₂ (fun e r => ∃ out, s.losses[e]? = some out ∧
      DomainReportAt mc cfg u k pts ye actual e out (st (e + 1)).weights r)
      (reportEpochs cfg.updateConsoleOutput cfg.epochs) s.reports)
    (h : finishDomain mc cfg M ye (pts.map actual) s = .ok R) :
    IsDomainGridRecord mc cfg pts ye actual u k st s.losses R ∧
      (∀ path, (∀ name ∈ domainNames, path ≠ mc.env.join cfg.outputPath name) →
        R.files path = s.files path) ∧ 2 ≤ cfg.epochs := by
  unfold finishDomain at h
  split at h
  · exact absurd h (by simp)
  rename_i rl hrl
  simp only [bind, Except.bind, pure, Except.pure] at h
  split at h
  · exact absurd h (by simp)
  rename_i column hcol
  unfold timeColumnInverse epochsPerSecond at hcol
  rw [hlen] at hcol
  simp only [drop_range_map, List.length_map, List.length_range, sum_range_map] at hcol
  split_ifs at hcol with hN h0 h0'
  have hN2 : 2 ≤ cfg.epochs := by omega
  simp only [Except.ok.injEq] at hcol
  subst hcol
  obtain ⟨out, ho, hl⟩ : ∃ out, s.losses[cfg.epochs - 1]? = some out ∧
      DomainReportAt mc cfg u k pts ye actual (cfg.epochs - 1) out (st cfg.epochs).weights rl := by
    rcases forall₂_getLast hrep with ⟨h1, -⟩ | ⟨a, b, h1, h2, out, h3, h4⟩
    · have := reportEpochs_last cfg.updateConsoleOutput cfg.epochs (by omega)
      rw [h1] at this
      exact absurd this (by simp)
    · obtain rfl := Option.some.inj
        ((reportEpochs_last cfg.updateConsoleOutput cfg.epochs (by omega)).symm.trans h1)
      obtain rfl := Option.some.inj (hrl.symm.trans h2)
      rw [show cfg.epochs - 1 + 1 = cfg.epochs by omega] at h4
      exact ⟨out, h3, h4⟩
  rw [hl.invPred, hl.yPred, hl.error, npSub_map, arrayLines_map cfg pts _ hmet hpl, arrayLines_map cfg pts _ hmet hpl,
    arrayLines_error cfg pts ye _ hmet hpl hyl] at h
  dsimp only at h
  rw [List.map_map, arrayLines_map cfg pts _ hmet hpl] at h
  dsimp only at h
  obtain rfl := Except.ok.inj h
  have hne' : ∀ a b : String, a ≠ b → mc.env.join cfg.outputPath a ≠ mc.env.join cfg.outputPath b :=
    fun a b hab hc => hab (hjoin a b hc)
  have htne : (List.range (cfg.epochs - 1)).map (fun i => mc.elapsed (1 + i)) ≠ [] := by
    simp only [ne_eq, List.map_eq_nil_iff, List.range_eq_nil]
    omega
  have hmed := median_eq_percentile _ htne
  have hcomm : (fun i => mc.elapsed (1 + i)) = fun e => mc.elapsed (e + 1) := by
    funext i
    rw [add_comm]
  refine ⟨⟨by simp only [hst], ?_, ?_, ?_, ?_, ?_, ?_, ?_, ?_, ?_, ?_, ?_⟩, ?_, hN2⟩
  · exact hrep.imp fun e r ⟨out, h1, h2⟩ => ⟨h2.epoch, ⟨out, h1, h2.losses⟩, h2.errors, h2.invErrors, h2.yPred,
      h2.invPred, h2.times⟩
  · simp only [saveText]
    rw [writeFile_other _ _ _ _ (hne' _ _ (by decide)), writeFile_other _ _ _ _ (hne' _ _ (by decide)),
      writeFile_other _ _ _ _ (hne' _ _ (by decide)), writeFile_other _ _ _ _ (hne' _ _ (by decide)),
      writeFile_other _ _ _ _ (hne' _ _ (by decide)), writeFile_other _ _ _ _ (hne' _ _ (by decide)),
      writeFile_other _ _ _ _ (hne' _ _ (by decide)), writeFile_same]
    congr 1
    exact List.map_congr_left fun o _ => hline _ o
  · simp only [saveText]
    rw [writeFile_other _ _ _ _ (hne' _ _ (by decide)), writeFile_other _ _ _ _ (hne' _ _ (by decide)),
      writeFile_other _ _ _ _ (hne' _ _ (by decide)), writeFile_other _ _ _ _ (hne' _ _ (by decide)),
      writeFile_other _ _ _ _ (hne' _ _ (by decide)), writeFile_other _ _ _ _ (hne' _ _ (by decide)), writeFile_same]
    congr 1
  · simp only [saveText]
    rw [writeFile_other _ _ _ _ (hne' _ _ (by decide)), writeFile_other _ _ _ _ (hne' _ _ (by decide)),
      writeFile_other _ _ _ _ (hne' _ _ (by decide)), writeFile_other _ _ _ _ (hne' _ _ (by decide)),
      writeFile_other _ _ _ _ (hne' _ _ (by decide)), writeFile_same]
  · simp only [saveText]
    rw [writeFile_other _ _ _ _ (hne' _ _ (by decide)), writeFile_other _ _ _ _ (hne' _ _ (by decide)),
      writeFile_other _ _ _ _ (hne' _ _ (by decide)), writeFile_other _ _ _ _ (hne' _ _ (by decide)), writeFile_same]
  · simp only [saveText]
    rw [writeFile_other _ _ _ _ (hne' _ _ (by decide)), writeFile_other _ _ _ _ (hne' _ _ (by decide)),
      writeFile_other _ _ _ _ (hne' _ _ (by decide)), writeFile_same]
  · simp only [saveText]
    rw [writeFile_other _ _ _ _ (hne' _ _ (by decide)), writeFile_other _ _ _ _ (hne' _ _ (by decide)), writeFile_same,
      List.map_map, hlen]
    rfl
  · simp only [saveText]
    rw [writeFile_other _ _ _ _ (hne' _ _ (by decide)), writeFile_same]
  · simp only [saveText]
    rw [writeFile_same]
    rfl
  · obtain ⟨l2, linf, l2r, linfr, l1, l1r, e1, e2⟩ := hl.errors
    exact ⟨l2, linf, l2r, linfr, l1, l1r, e2, by rw [e1]; rfl⟩
  · refine ⟨_, _, _, _, _, _, _, ?_, ?_, ?_, ?_, ?_, rfl, ?_, ?_, ?_, rfl⟩
    · have := percentile_isQuantile _ htne 50 (by norm_num) (by norm_num)
      rw [hmed, ← hcomm]
      convert this using 1
      norm_num
    · have := percentile_isQuantile _ htne 25 (by norm_num) (by norm_num)
      rw [← hcomm]
      convert this using 1
      norm_num
    · have := percentile_isQuantile _ htne 75 (by norm_num) (by norm_num)
      rw [← hcomm]
      convert this using 1
      norm_num
    · rw [hmed]; exact percentile_mono _ htne 25 50 (by norm_num) (by norm_num) (by norm_num)
    · rw [hmed]; exact percentile_mono _ htne 50 75 (by norm_num) (by norm_num) (by norm_num)
    · obtain ⟨n, hn⟩ : ∃ n, cfg.epochs = n + 1 := ⟨cfg.epochs - 1, by omega⟩
      unfold npMean
      rw [sum_range_map, List.length_map, List.length_range, Nat.cast_sub (by omega), Nat.cast_one]
      have : ((cfg.epochs : ℝ) - 1) ≠ 0 := by
        have : (2 : ℝ) ≤ cfg.epochs := by exact_mod_cast hN2
        linarith
      rw [mul_div_cancel₀ _ this, hn, Finset.sum_range_succ', add_comm, hcomm]
      rfl
    · unfold npMean
      rw [sum_range_map, List.length_map, List.length_range]
      have : (cfg.epochs : ℝ) ≠ 0 := by
        rw [Nat.cast_ne_zero]; omega
      field_simp
    · exact fun hpos => pyInt_div _ _ (by positivity) hpos
  · intro path hp
    simp only [domainNames, List.mem_cons, List.not_mem_nil, or_false, forall_eq_or_imp, forall_eq] at hp
    obtain ⟨p1, p2, p3, p4, p5, p6, p7, p8⟩ := hp
    simp only [saveText]
    rw [writeFile_other _ _ _ _ p8, writeFile_other _ _ _ _ p7, writeFile_other _ _ _ _ p6, writeFile_other _ _ _ _ p5,
      writeFile_other _ _ _ _ p4, writeFile_other _ _ _ _ p3, writeFile_other _ _ _ _ p2, writeFile_other _ _ _ _ p1]


/-- The contour plot of the exact values. -/
lemma domainContour_grid (hmet : cfg.meshGenerationMethod = "internal") :
    domainContour cfg pts ye = .ok () ↔ (pts.length = cfg.nTestPointsX * cfg.nTestPointsY ∧
      ye.length = cfg.nTestPointsX * cfg.nTestPointsY ∧ 2 ≤ cfg.nTestPointsX ∧ 2 ≤ cfg.nTestPointsY) := by
  unfold domainContour
  rw [if_pos hmet]
  simp only [bind, Except.bind, pure, Except.pure, reshapeMatrix, List.length_map]
  by_cases h1 : pts.length = cfg.nTestPointsX * cfg.nTestPointsY
  swap
  · simp [h1]
  by_cases h2 : ye.length = cfg.nTestPointsX * cfg.nTestPointsY
  swap
  · simp [h1, h2]
  simp only [h1, h2, if_true, true_and]
  by_cases h3 : 2 ≤ cfg.nTestPointsX ∧ 2 ≤ cfg.nTestPointsY
  · obtain ⟨fig, hfig⟩ := plotContour_succeeds
      (fun (i : Fin cfg.nTestPointsX) (j : Fin cfg.nTestPointsY) => (pts.map Prod.fst).getD (i.val * cfg.nTestPointsY + j.val) 0)
      (fun i j => (pts.map Prod.snd).getD (i.val * cfg.nTestPointsY + j.val) 0)
      (fun i j => ye.getD (i.val * cfg.nTestPointsY + j.val) 0) cfg.outputPath "exact_solution" "Exact Solution"
      ⟨[], fun _ => none⟩ h3
    rw [hfig]
    simp [h3]
  · rw [plotContour_fails _ _ _ _ _ _ _ h3]
    simp [h3]

/-- The scripts from the model on (internal mesh). -/
lemma runGrid_record
    (hjoin : ∀ a b, mc.env.join cfg.outputPath a = mc.env.join cfg.outputPath b → a = b)
    (pb : DomainProblem) (src : DomainSource cfg.numSensorPoints) (P : PreparedDomain) (o' : GeometryObject)
    (hcall : ∀ θ, ∃ b, M.call θ (pts.map fun p => [p.1, p.2]) = .ok b ∧ batchColumn b 0 = .ok (pts.map (u θ)) ∧
      batchColumn b 1 = .ok (pts.map (k θ)))
    (hfl : ∀ out, M.floats out = .ok (out.lossPde, out.lossDirichlet 0, out.loss 0))
    (hline : ∀ fmt out, M.lossLine fmt out = fmt (out.loss 0))
    (hmet : cfg.meshGenerationMethod = "internal")
    (hpts : P.geometry.getTestPoints mc.env P.base.files = (.ok (.points pts), o', P.base.files)) (θ : Weights)
    (R : DomainResult) (h : runDomain mc cfg pb src P M θ = .ok R) :
    ∃ (ye : List ℝ) (st : ℕ → TrainState) (outs : List (TrainOutInverse 1)),
      src.exact pb pts = .ok ye ∧ ye.length = cfg.nTestPointsX * cfg.nTestPointsY ∧
      (2 ≤ cfg.nTestPointsX ∧ 2 ≤ cfg.nTestPointsY) ∧ 2 ≤ cfg.epochs ∧ mc.lrNumpy P.base.lr = .ok () ∧
      cfg.updateConsoleOutput ≠ 0 ∧
      st 0 = ⟨θ, AdamState.init⟩ ∧ outs.length = cfg.epochs ∧ IsRun M.step st outs ∧
      IsDomainGridRecord mc cfg pts ye (fun p => pb.actualEps p.1 p.2) u k st outs R ∧
      ∀ path, (∀ name ∈ domainNames, path ≠ mc.env.join cfg.outputPath name) →
        R.files path = P.base.files path := by
  unfold runDomain at h
  rw [hpts] at h
  dsimp only at h
  split at h
  · exact absurd h (by simp)
  rename_i ye hye
  split at h
  · exact absurd h (by simp)
  rename_i hcon
  obtain ⟨c1, c2, c3⟩ := (domainContour_grid cfg pts ye hmet).1 hcon
  have hne : pts ≠ [] := by
    rw [← List.length_pos_iff, c1]
    exact Nat.mul_pos (by omega) (by omega)
  split at h
  · exact absurd h (by simp)
  rename_i s hs
  obtain ⟨hu, hlen, st, fs, h0, hN, hf0, hfN, hrun, hrep, hquiet⟩ := epochLoop_ok _ _ _ _ _ _ rfl rfl hs
  have hone : ∀ e out t f r f',
      reportDomain mc cfg P.base.lr o' M pts ye (pts.map fun p => pb.actualEps p.1 p.2) e out t f = .ok (r, f') → _ :=
    fun e out t f r f' hr => reportGrid_ok mc cfg P.base.lr o' M u k pts ye (fun p => pb.actualEps p.1 p.2) hcall
      hfl hmet (c2.trans c1.symm) hne e out t f f' r hr
  have hfiles : ∀ n ≤ cfg.epochs, fs n = P.base.files := by
    intro n
    induction n with
    | zero => intro _; exact hf0
    | succ n ih =>
      intro hn
      by_cases hm : n ∈ reportEpochs cfg.updateConsoleOutput cfg.epochs
      · obtain ⟨r, -, out, -, hr⟩ := forall₂_mem_left hrep hm
        rw [(hone _ _ _ _ _ _ hr).1]
        exact ih (by omega)
      · rw [hquiet n (by omega) hm]
        exact ih (by omega)
  obtain ⟨hrec, hoth, h2⟩ := finishGrid_record mc cfg M u k pts ye (fun p => pb.actualEps p.1 p.2) hjoin hline hmet c1
    (c2.trans c1.symm) st s R hlen hN (hrep.imp fun e r ⟨out, a, b⟩ => ⟨out, a, (hone _ _ _ _ _ _ b).2.2⟩) h
  have hlast := reportEpochs_last cfg.updateConsoleOutput cfg.epochs (by omega)
  obtain ⟨r, -, out, -, hr⟩ := forall₂_mem_left hrep (List.mem_of_getLast? hlast)
  refine ⟨ye, st, s.losses, hye, c2, c3, h2, (hone _ _ _ _ _ _ hr).2.1, hu (by omega), h0, hlen, hrun, hrec,
    fun path hp => ?_⟩
  rw [hoth path hp, ← hfN, hfiles _ le_rfl]

end

/-! ## The objects built before the training -/

/-- The test points are the same when they are asked for again. -/
lemma getTestPoints_again (env : MeshFiles) (o o' : GeometryObject) (files files' : Files) (pts : List (ℝ × ℝ))
    (h : o.getTestPoints env files = (.ok (.points pts), o', files')) :
    o'.getTestPoints env files = (.ok (.points pts), o', files) := by
  unfold GeometryObject.getTestPoints at h
  dsimp only at h
  split at h
  · exact absurd h (by simp)
  rename_i p hp
  simp only [Prod.mk.injEq, Except.ok.injEq, GeometryValue.points.injEq] at h
  obtain ⟨rfl, rfl, rfl⟩ := h
  unfold GeometryObject.getTestPoints
  split_ifs with hi
  · dsimp only
    rw [hp]
  · dsimp only
    rw [hp]

lemma prepareDomainModel_space (mc : Machine) (cfg : InverseConfig) (pb : DomainProblem)
    (src : DomainSource cfg.numSensorPoints) (o : GeometryObject) (hmt : o.meshType = "quadrilateral")
    (files : Files) (cells : List Quad) (bd : BdDict) (P : PreparedDomain)
    (h : prepareDomainModel mc cfg pb src o files cells bd = .ok P) :
    ∃ (nq : ℕ) (S S' : Fespace2D (ℝ → ℝ → ℝ) ℝ (cfg.feOrder.toNat ^ 2) nq)
      (D : DataHandler2D (cfg.feOrder.toNat ^ 2) nq) (bdv : List (ℝ × ℝ) × List ℝ) (lr : LearningRate)
      (specs : List LayerSpec) (inDim : ℕ),
      Assembled mc cfg.forward pb.toProblem cfg.modelArchitecture ((o.mesh.map StoredMesh.planePoints).getD []) cells
        bd S S' D bdv specs ∧ learningRateFn cfg.learningRate = .ok lr ∧
      pyIndex cfg.modelArchitecture 0 = .ok inDim ∧
      src.sensors mc.env cfg.meshGenerationMethod pb S' o files = .ok (P.sensor, P.geometry) ∧
      S'.meshPoints = (o.mesh.map StoredMesh.planePoints).getD [] ∧
      P.base = ⟨_, nq, D, bdv, cells.length, inDim, specs, lr, o, files⟩ ∧
      prepareModel mc cfg.forward pb.toProblem cfg.modelArchitecture learningRateFn o files cells bd = .ok P.base := by
  unfold prepareDomainModel at h
  unfold prepareModel
  rw [hmt] at h ⊢
  split at h
  · exact absurd h (by simp)
  rename_i nq S hS
  split at h
  · exact absurd h (by simp)
  rename_i D S' hD
  split at h
  · exact absurd h (by simp)
  rename_i bdv hbdv
  split at h
  · exact absurd h (by simp)
  rename_i sensor o' hsensor
  split at h
  · exact absurd h (by simp)
  rename_i lr hlr
  split at h
  · exact absurd h (by simp)
  rename_i specs hspecs
  split at h
  · exact absurd h (by simp)
  rename_i inDim hin
  obtain rfl := Except.ok.inj h
  obtain ⟨-, hn', -, hmp, -⟩ := reachable_forall₂ (dataHandler_reachable _ _ _ _ _ _ _ _ hS hD)
  have hn : S'.nCells = cells.length := by rw [hn', (fespace_ok hS).2.2.2.2.1]
  refine ⟨nq, S, S', D, bdv, lr, specs, inDim, ⟨hS, hD, hbdv, hspecs⟩, hlr, hin, hsensor,
    hmp.trans (fespace_ok hS).2.2.2.1, by rw [hn], ?_⟩
  simp only [InverseConfig.forward] at hS ⊢
  rw [hS]
  simp only [hD, hbdv, hlr, hspecs, hin]

/-- Everything before the training (internal mesh), inverted. -/
lemma prepareGrid_ok (mc : Machine) (cfg : InverseConfig) (pb : DomainProblem)
    (src : DomainSource cfg.numSensorPoints) (sample : Fin 4 → Fin (cfg.nBoundaryPoints / 4) → ℝ)
    (lhs : ℕ → Fin (2 ^ cfg.boundaryRefinementLevel + 1) → ℝ × ℝ) (files : Files) (P : PreparedDomain)
    (hint : cfg.meshGenerationMethod = "internal")
    (h : prepareDomain mc cfg pb src sample lhs files = .ok P) :
    prepareUniform mc cfg.forward pb.toProblem cfg.modelArchitecture learningRateFn sample files = .ok P.base ∧
    ∃ (o o' : GeometryObject) (files' : Files) (cells : List Quad) (bd : List (ℤ × List (List ℝ)))
      (nq : ℕ) (S S' : Fespace2D (ℝ → ℝ → ℝ) ℝ (cfg.feOrder.toNat ^ 2) nq)
      (D : DataHandler2D (cfg.feOrder.toNat ^ 2) nq) (bdv : List (ℝ × ℝ) × List ℝ) (lr : LearningRate)
      (specs : List LayerSpec) (inDim : ℕ) (pts : List (ℝ × ℝ)) (o'' : GeometryObject),
      newGeometry cfg.meshType cfg.meshGenerationMethod cfg.nTestPointsX cfg.nTestPointsY cfg.outputPath false
        = .ok o ∧
      o.generateInternal mc.env files (cfg.xMin, cfg.xMax) (cfg.yMin, cfg.yMax) cfg.nCellsX cfg.nCellsY
        cfg.nBoundaryPoints sample = (.ok (.mesh cells bd), o', files') ∧
      Assembled mc cfg.forward pb.toProblem cfg.modelArchitecture (cells.flatMap fun c => List.ofFn c) cells
        (bdPairs bd) S S' D bdv specs ∧ learningRateFn cfg.learningRate = .ok lr ∧
      pyIndex cfg.modelArchitecture 0 = .ok inDim ∧
      src.sensors mc.env "internal" pb S' o' files' = .ok (P.sensor, P.geometry) ∧
      S'.meshPoints = (cells.flatMap fun c => List.ofFn c) ∧
      P.base = ⟨_, nq, D, bdv, cells.length, inDim, specs, lr, o', files'⟩ ∧
      IsTensorGrid (cfg.xMin, cfg.xMax) (cfg.yMin, cfg.yMax) cfg.nTestPointsX cfg.nTestPointsY pts ∧
      o'.getTestPoints mc.env files' = (.ok (.points pts), o'', files') := by
  have hne : ¬ ("internal" : String) = "external" := by decide
  unfold prepareDomain at h
  by_cases hd : cfg.dtype ∈ ["float64", "float32"]
  swap
  · rw [if_pos hd] at h
    exact absurd h (by simp)
  rw [if_neg (not_not.2 hd)] at h
  split at h
  · exact absurd h (by simp)
  rename_i o ho
  rw [if_neg (by rw [hint]; exact hne), if_pos hint] at h
  split at h
  · exact absurd h (by simp)
  · rename_i cells bd o' files' hg
    have hg' := generateInternal_object mc.env o files (cfg.xMin, cfg.xMax) (cfg.yMin, cfg.yMax) cfg.nCellsX
      cfg.nCellsY cfg.nBoundaryPoints sample
    rw [hg] at hg'
    dsimp only at hg'
    have hmt : o'.meshType = "quadrilateral" := by
      rw [hg']
      exact (newGeometry_meshType ho : o.meshType = "quadrilateral")
    obtain ⟨nq, S, S', D, bdv, lr, specs, inDim, h1, h2, h3, h4, h6, h7, h8⟩ :=
      prepareDomainModel_space _ _ _ _ _ hmt _ _ _ P h
    have hcells : cells = (generateQuadMeshInternal o.toGeometry2D (cfg.xMin, cfg.xMax) (cfg.yMin, cfg.yMax)
        cfg.nCellsX cfg.nCellsY cfg.nBoundaryPoints sample).cells := by
      unfold GeometryObject.generateInternal at hg
      dsimp only at hg
      split_ifs at hg
      · simp only [Prod.mk.injEq, Except.ok.injEq, GeometryValue.mesh.injEq] at hg
        exact hg.1.1.symm
      · split at hg
        · simp at hg
        · simp only [Prod.mk.injEq, Except.ok.injEq, GeometryValue.mesh.injEq] at hg
          exact hg.1.1.symm
    have hmp : (o'.mesh.map StoredMesh.planePoints).getD [] = cells.flatMap fun c => List.ofFn c := by
      rw [hg', hcells]
      rfl
    rw [hmp] at h1 h6
    have hU : prepareUniform mc cfg.forward pb.toProblem cfg.modelArchitecture learningRateFn sample files
        = .ok P.base := by
      unfold prepareUniform
      rw [if_neg (show ¬ (cfg.forward.dtype ∉ ["float64", "float32"]) from not_not.2 hd)]
      have ho2 : newGeometry cfg.forward.meshType cfg.forward.meshGenerationMethod cfg.forward.nTestPointsX
        cfg.forward.nTestPointsY cfg.forward.outputPath false = .ok o := ho
      have hg2 : o.generateInternal mc.env files (cfg.forward.xMin, cfg.forward.xMax)
        (cfg.forward.yMin, cfg.forward.yMax) cfg.forward.nCellsX cfg.forward.nCellsY cfg.forward.nBoundaryPoints sample
        = (.ok (.mesh cells bd), o', files') := hg
      rw [ho2]
      dsimp only
      rw [hg2]
      exact h8
    obtain ⟨o2, o3, files2, cells2, bd2, mp2, nq2, S2, S2', D2, bdv2, lr2, specs2, inDim2, pts, o'', -, e1, e2, -, -, -,
      e3, e4, e5⟩ := prepareUniform_ok mc cfg.forward pb.toProblem _ _ sample files P.base hint hU
    have hgeo : o3 = o' ∧ files2 = files' := by
      have := e3.symm.trans h7
      exact ⟨congrArg Prepared.geometry this, congrArg Prepared.files this⟩
    obtain ⟨rfl, rfl⟩ := hgeo
    exact ⟨hU, o, o3, files2, cells, bd, nq, S, S', D, bdv, lr, specs, inDim, pts, o'', ho, hg, h1, h2, h3, hint ▸ h4, h6,
      h7, e4, e5⟩
  · exact absurd h (by simp)

/-- The geometry after the sensors have been chosen has the same test points. -/
lemma sensors_geometry {n : ℕ} (src : DomainSource n) (env : MeshFiles) (m : String) (pb : DomainProblem) {nt nq : ℕ}
    (S : Fespace2D (ℝ → ℝ → ℝ) ℝ nt nq) (o o' o'' : GeometryObject) (files : Files) (pts : List (ℝ × ℝ))
    (sensor : List (ℝ × ℝ) × List ℝ)
    (hpts : o.getTestPoints env files = (.ok (.points pts), o'', files))
    (h : src.sensors env m pb S o files = .ok (sensor, o')) :
    o'.getTestPoints env files = (.ok (.points pts), o'', files) := by
  cases src with
  | usa shuffle =>
    simp only [DomainSource.sensors, hpts] at h
    obtain ⟨-, h2⟩ := Prod.mk.inj (Except.ok.inj h)
    rw [← h2]
    exact getTestPoints_again env o o'' files files pts hpts
  | circle csv lhs randint =>
    simp only [DomainSource.sensors] at h
    split at h
    · exact absurd h (by simp)
    obtain ⟨-, h2⟩ := Prod.mk.inj (Except.ok.inj h)
    rw [← h2]
    exact hpts

/-! ## The record -/

/-- What a finished run on an internal mesh is, for either script. -/
lemma domain_internal (mc : Machine) (pb : DomainProblem) (cfg : InverseConfig)
    (src : DomainSource cfg.numSensorPoints) (sample : Fin 4 → Fin (cfg.nBoundaryPoints / 4) → ℝ)
    (lhs : ℕ → Fin (2 ^ cfg.boundaryRefinementLevel + 1) → ℝ × ℝ) (θ : Weights) (files : Files) (R : DomainResult)
    (hatt : cfg.useAttention = true → mc.attention = attentionDot) (hint : cfg.meshGenerationMethod = "internal")
    (hdepth : 2 ≤ cfg.modelArchitecture.length)
    (hjoin : ∀ a b, mc.env.join cfg.outputPath a = mc.env.join cfg.outputPath b → a = b)
    (h : mainDomain mc pb cfg src sample lhs θ files = .ok R) :
    ∃ (o o' o'' : GeometryObject) (files' : Files) (cells : List Quad) (bd : List (ℤ × List (List ℝ)))
      (nq : ℕ) (S S' : Fespace2D (ℝ → ℝ → ℝ) ℝ (cfg.feOrder.toNat ^ 2) nq)
      (D : DataHandler2D (cfg.feOrder.toNat ^ 2) nq) (bdv : List (ℝ × ℝ) × List ℝ) (specs : List LayerSpec)
      (lr : LearningRate) (sensor : List (ℝ × ℝ) × List ℝ) (exact : List ℝ) (pts : List (ℝ × ℝ)) (st : ℕ → TrainState)
      (outs : List (TrainOutInverse 1)),
      (cfg.modelArchitecture.getD 0 0 = 2 ∧
        2 ≤ cfg.modelArchitecture.getD (cfg.modelArchitecture.length - 1) 0) ∧ 2 ≤ cfg.epochs ∧
      (2 ≤ cfg.nTestPointsX ∧ 2 ≤ cfg.nTestPointsY) ∧
      newGeometry cfg.meshType "internal" cfg.nTestPointsX cfg.nTestPointsY cfg.outputPath false = .ok o ∧
      o.generateInternal mc.env files (cfg.xMin, cfg.xMax) (cfg.yMin, cfg.yMax) cfg.nCellsX cfg.nCellsY
        cfg.nBoundaryPoints sample = (.ok (.mesh cells bd), o', files') ∧
      Assembled mc cfg.forward pb.toProblem cfg.modelArchitecture (cells.flatMap fun c => List.ofFn c) cells
        (bdPairs bd) S S' D bdv specs ∧
      learningRateFn cfg.learningRate = .ok lr ∧ mc.lrNumpy lr = .ok () ∧ cfg.updateConsoleOutput ≠ 0 ∧
      (∃ g, src.sensors mc.env "internal" pb S' o' files' = .ok (sensor, g)) ∧
      S'.meshPoints = (cells.flatMap fun c => List.ofFn c) ∧
      o'.getTestPoints mc.env files' = (.ok (.points pts), o'', files') ∧
      src.exact pb pts = .ok exact ∧ exact.length = cfg.nTestPointsX * cfg.nTestPointsY ∧
      IsTensorGrid (cfg.xMin, cfg.xMax) (cfg.yMin, cfg.yMax) cfg.nTestPointsX cfg.nTestPointsY pts ∧
      st 0 = ⟨θ, AdamState.init⟩ ∧ outs.length = cfg.epochs ∧
      IsRun (trainStepWith (forwardInverseDomain (pb.loss D.nCells _ nq) (modelDataOf D bdv cells.length) mc.act
        mc.attention cfg.useAttention 2 specs (cfg.modelArchitecture.getD (cfg.modelArchitecture.length - 1) 0) cfg.beta
        (some pb.bilinearParams) (fun i => sensor.1.get i) (fun i => sensor.2.getD i.val 0))
        (trainableVariables 2 specs []) lr) st outs ∧
      IsDomainGridRecord mc cfg pts exact (fun p => pb.actualEps p.1 p.2)
        (fun θ => batchOutput cfg.useAttention pts (mc.act cfg.activation) cfg.modelArchitecture θ 0)
        (fun θ => batchOutput cfg.useAttention pts (mc.act cfg.activation) cfg.modelArchitecture θ 1) st outs R ∧
      ∀ path, (∀ name ∈ domainNames, path ≠ mc.env.join cfg.outputPath name) → R.files path = files' path := by
  unfold mainDomain at h
  split at h
  · exact absurd h (by simp)
  rename_i P hP
  obtain ⟨hU, o, o', files', cells, bd, nq, S, S', D, bdv, lr, specs, inDim, pts, o'', h1, h2, h3, h4, h5, h6, h7, h8, h9,
    h10⟩ := prepareGrid_ok mc cfg pb src sample lhs files P hint hP
  obtain ⟨base, sensor, geometry⟩ := P
  dsimp only at h6 h8
  subst h8
  have h11 := sensors_geometry src mc.env "internal" pb S' o' geometry o'' files' pts sensor h10 h6
  -- the dimensions
  have hdims : inDim = 2 ∧ 2 ≤ outDim specs := by
    unfold runDomain at h
    dsimp only at h
    rw [h11] at h
    dsimp only at h
    split at h
    · exact absurd h (by simp)
    split at h
    · exact absurd h (by simp)
    split at h
    · exact absurd h (by simp)
    rename_i s hs
    obtain ⟨hu, hlen, st, fs, h0, hN, hf0, hfN, hrun, hrep, hquiet⟩ := epochLoop_ok _ _ _ _ _ _ rfl rfl hs
    rcases Nat.eq_zero_or_pos cfg.epochs with h1 | h1
    · rw [h1] at hrep
      have h2 : reportEpochs cfg.updateConsoleOutput 0 = [] := rfl
      rw [h2, List.forall₂_nil_left_iff] at hrep
      unfold finishDomain at h
      rw [hrep] at h
      exact absurd h (by simp)
    · exact domain_step_dims _ mc cfg pb _ _ _ (hrun 0 (by omega))
  obtain ⟨rfl, hout⟩ := hdims
  rw [outDim_layerSpecs _ _ _ h3.layers] at hout
  have hd0 : cfg.modelArchitecture.getD 0 0 = 2 := by
    rw [pyIndex_zero, List.head?_eq_getElem?] at h5
    rw [List.getD_eq_getElem?_getD, h5]
    rfl
  have hcall := domain_call ⟨⟨_, nq, D, bdv, cells.length, 2, specs, lr, o', files'⟩, sensor, geometry⟩ mc cfg pb
    cfg.modelArchitecture hatt rfl hdepth h3.layers hd0 (outDim specs) hout pts
  obtain ⟨ye, st, outs, k1, k2, k3, k4, k5, k6, k7, k8, k9, k10, k11⟩ := runGrid_record mc cfg _
    (fun θ => batchOutput cfg.useAttention pts (mc.act cfg.activation) cfg.modelArchitecture θ 0)
    (fun θ => batchOutput cfg.useAttention pts (mc.act cfg.activation) cfg.modelArchitecture θ 1) pts hjoin pb src
    _ o'' hcall (domain_floats _ mc cfg pb _) (domain_lossLine _ mc cfg pb _) hint h11 θ R h
  refine ⟨o, o', o'', files', cells, bd, nq, S, S', D, bdv, specs, lr, sensor, ye, pts, st, outs, ⟨hd0, hout⟩, k4, k3,
    hint ▸ h1, h2, h3, h4, k5, k6, ⟨_, h6⟩, h7, h10, k1, k2, h9, k7, k8, ?_, k10, k11⟩
  intro k hk
  have := k9 k hk
  rw [domain_step _ mc cfg pb _ rfl] at this
  rw [outDim_layerSpecs _ _ _ h3.layers] at this
  exact this

/-- **C98** (record, first script).  Whenever the script `main_inverse_domain_usa.py` on an internal mesh finishes, the
network has two inputs and at least two outputs, there are at least two epochs and at least two test points in each
direction.  Output 0, the solution, and output 1, the coefficient, have been trained with the loss, tensors, boundary
data and learning rate assembled from the configuration for the generated cells.  The sensors are the configured number
of test points (or all, if there are fewer), none twice if the test points are different, and their values are those of
the exact solution.  Everything left behind belongs to this training.  Files other than the eight text files are those
left by the geometry. -/
theorem C98_usa (mc : Machine) (pb : DomainProblem) (cfg : InverseConfig)
    (shuffle : List (ℝ × ℝ) → List (ℝ × ℝ)) (hshuffle : ∀ l, (shuffle l).Perm l)
    (sample : Fin 4 → Fin (cfg.nBoundaryPoints / 4) → ℝ)
    (lhs : ℕ → Fin (2 ^ cfg.boundaryRefinementLevel + 1) → ℝ × ℝ) (θ : Weights) (files : Files) (R : DomainResult)
    (hatt : cfg.useAttention = true → mc.attention = attentionDot) (hint : cfg.meshGenerationMethod = "internal")
    (hdepth : 2 ≤ cfg.modelArchitecture.length)
    (hjoin : ∀ a b, mc.env.join cfg.outputPath a = mc.env.join cfg.outputPath b → a = b)
    (h : mainUsa mc pb cfg shuffle sample lhs θ files = .ok R) :
    ∃ (o o' : GeometryObject) (files' : Files) (cells : List Quad) (bd : List (ℤ × List (List ℝ)))
      (nq : ℕ) (S S' : Fespace2D (ℝ → ℝ → ℝ) ℝ (cfg.feOrder.toNat ^ 2) nq)
      (D : DataHandler2D (cfg.feOrder.toNat ^ 2) nq) (bdv : List (ℝ × ℝ) × List ℝ) (specs : List LayerSpec)
      (lr : LearningRate) (sensors pts : List (ℝ × ℝ)) (st : ℕ → TrainState) (outs : List (TrainOutInverse 1)),
      (cfg.modelArchitecture.getD 0 0 = 2 ∧
        2 ≤ cfg.modelArchitecture.getD (cfg.modelArchitecture.length - 1) 0) ∧ 2 ≤ cfg.epochs ∧
      (2 ≤ cfg.nTestPointsX ∧ 2 ≤ cfg.nTestPointsY) ∧
      newGeometry cfg.meshType "internal" cfg.nTestPointsX cfg.nTestPointsY cfg.outputPath false = .ok o ∧
      o.generateInternal mc.env files (cfg.xMin, cfg.xMax) (cfg.yMin, cfg.yMax) cfg.nCellsX cfg.nCellsY
        cfg.nBoundaryPoints sample = (.ok (.mesh cells bd), o', files') ∧
      Assembled mc cfg.forward pb.toProblem cfg.modelArchitecture (cells.flatMap fun c => List.ofFn c) cells
        (bdPairs bd) S S' D bdv specs ∧
      learningRateFn cfg.learningRate = .ok lr ∧
      IsTensorGrid (cfg.xMin, cfg.xMax) (cfg.yMin, cfg.yMax) cfg.nTestPointsX cfg.nTestPointsY pts ∧
      sensors.length = min cfg.numSensorPoints (cfg.nTestPointsX * cfg.nTestPointsY) ∧ sensors.Subperm pts ∧
      st 0 = ⟨θ, AdamState.init⟩ ∧ outs.length = cfg.epochs ∧
      IsRun (trainStepWith (forwardInverseDomain (pb.loss D.nCells _ nq) (modelDataOf D bdv cells.length) mc.act
        mc.attention cfg.useAttention 2 specs (cfg.modelArchitecture.getD (cfg.modelArchitecture.length - 1) 0) cfg.beta
        (some pb.bilinearParams) (fun i => sensors.get i)
        (fun i => pb.exactSolution (sensors.get i).1 (sensors.get i).2)) (trainableVariables 2 specs []) lr) st outs ∧
      IsDomainGridRecord mc cfg pts (pts.map fun p => pb.exactSolution p.1 p.2)
        (fun p => pb.actualEps p.1 p.2)
        (fun θ => batchOutput cfg.useAttention pts (mc.act cfg.activation) cfg.modelArchitecture θ 0)
        (fun θ => batchOutput cfg.useAttention pts (mc.act cfg.activation) cfg.modelArchitecture θ 1) st outs R ∧
      ∀ path, (∀ name ∈ domainNames, path ≠ mc.env.join cfg.outputPath name) → R.files path = files' path := by
  obtain ⟨o, o', o'', files', cells, bd, nq, S, S', D, bdv, specs, lr, sensor, exact, pts, st, outs, h1, h2, h3, h4, h5, h6,
    h7, -, -, ⟨g, h8⟩, -, h9, h10, -, h11, h12, h13, h14, h15, h16⟩ := domain_internal mc pb cfg (.usa shuffle) sample lhs θ
      files R hatt hint hdepth hjoin h
  simp only [DomainSource.sensors, h9] at h8
  obtain ⟨rfl, -⟩ := Prod.mk.inj (Except.ok.inj h8)
  obtain rfl := Except.ok.inj h10
  refine ⟨o, o', files', cells, bd, nq, S, S', D, bdv, specs, lr, (shuffle pts).take cfg.numSensorPoints, pts, st, outs, h1,
    h2, h3, h4, h5, h6, h7, h11, ?_, (List.take_sublist _ _).subperm.trans (hshuffle _).subperm, h12, h13, ?_, h15, h16⟩
  · simp only [List.length_take, (hshuffle pts).length_eq, h11.1]
  · dsimp only at h14
    rw [show (fun i : Fin ((shuffle pts).take cfg.numSensorPoints).length =>
        pb.exactSolution (((shuffle pts).take cfg.numSensorPoints).get i).1 (((shuffle pts).take cfg.numSensorPoints).get i).2)
      = fun i : Fin ((shuffle pts).take cfg.numSensorPoints).length =>
        (((shuffle pts).take cfg.numSensorPoints).map fun p => pb.exactSolution p.1 p.2).getD i.val 0 from funext fun i => ?_]
    · exact h14
    · rw [getD_map_pts _ _ i.isLt, List.getD_eq_getElem _ _ i.isLt]
      rfl

/-- **C98** (record, second script; a finding).  The same for `main_inverse_domain_circle.py`, except for sensors and
exact values.  There are `⌊0.9 n⌋` sensors in the domain, with the values of the exact solution of the example file; the
CSV file is not used for the training.  The errors, however, are computed against the third column of the CSV file, line
by line, at the points of the tensor grid (of which there are as many as lines), whatever the points in the first two
columns are. -/
theorem C98_circle (mc : Machine) (pb : DomainProblem) (cfg : InverseConfig)
    (csv : List (ℝ × ℝ × ℝ)) (sensorLhs : (k : ℕ) → Fin k → ℝ × ℝ)
    (hlhs : ∀ k i, (sensorLhs k i).1 ∈ Set.Icc (0 : ℝ) 1 ∧ (sensorLhs k i).2 ∈ Set.Icc (0 : ℝ) 1)
    (randint : ℕ → Fin cfg.numSensorPoints → ℤ)
    (sample : Fin 4 → Fin (cfg.nBoundaryPoints / 4) → ℝ)
    (lhs : ℕ → Fin (2 ^ cfg.boundaryRefinementLevel + 1) → ℝ × ℝ) (θ : Weights) (files : Files) (R : DomainResult)
    (hatt : cfg.useAttention = true → mc.attention = attentionDot) (hint : cfg.meshGenerationMethod = "internal")
    (hdepth : 2 ≤ cfg.modelArchitecture.length)
    (hjoin : ∀ a b, mc.env.join cfg.outputPath a = mc.env.join cfg.outputPath b → a = b)
    (h : mainCircle mc pb cfg csv sensorLhs randint sample lhs θ files = .ok R) :
    ∃ (o o' : GeometryObject) (files' : Files) (cells : List Quad) (bd : List (ℤ × List (List ℝ)))
      (nq : ℕ) (S S' : Fespace2D (ℝ → ℝ → ℝ) ℝ (cfg.feOrder.toNat ^ 2) nq)
      (D : DataHandler2D (cfg.feOrder.toNat ^ 2) nq) (bdv : List (ℝ × ℝ) × List ℝ) (specs : List LayerSpec)
      (lr : LearningRate) (sensors pts : List (ℝ × ℝ)) (st : ℕ → TrainState) (outs : List (TrainOutInverse 1)),
      (cfg.modelArchitecture.getD 0 0 = 2 ∧
        2 ≤ cfg.modelArchitecture.getD (cfg.modelArchitecture.length - 1) 0) ∧ 2 ≤ cfg.epochs ∧
      (2 ≤ cfg.nTestPointsX ∧ 2 ≤ cfg.nTestPointsY) ∧
      newGeometry cfg.meshType "internal" cfg.nTestPointsX cfg.nTestPointsY cfg.outputPath false = .ok o ∧
      o.generateInternal mc.env files (cfg.xMin, cfg.xMax) (cfg.yMin, cfg.yMax) cfg.nCellsX cfg.nCellsY
        cfg.nBoundaryPoints sample = (.ok (.mesh cells bd), o', files') ∧
      Assembled mc cfg.forward pb.toProblem cfg.modelArchitecture (cells.flatMap fun c => List.ofFn c) cells
        (bdPairs bd) S S' D bdv specs ∧
      learningRateFn cfg.learningRate = .ok lr ∧
      IsTensorGrid (cfg.xMin, cfg.xMax) (cfg.yMin, cfg.yMax) cfg.nTestPointsX cfg.nTestPointsY pts ∧
      csv.length = cfg.nTestPointsX * cfg.nTestPointsY ∧
      sensors.length = 9 * cfg.numSensorPoints / 10 ∧
      (∀ p ∈ sensors, InBoundingBox (cells.flatMap fun c => List.ofFn c) p) ∧
      (cfg.xMin < cfg.xMax → cfg.yMin < cfg.yMax →
        ∀ p ∈ sensors, p ∈ domain (cfg.xMin, cfg.xMax) (cfg.yMin, cfg.yMax)) ∧
      st 0 = ⟨θ, AdamState.init⟩ ∧ outs.length = cfg.epochs ∧
      IsRun (trainStepWith (forwardInverseDomain (pb.loss D.nCells _ nq) (modelDataOf D bdv cells.length) mc.act
        mc.attention cfg.useAttention 2 specs (cfg.modelArchitecture.getD (cfg.modelArchitecture.length - 1) 0) cfg.beta
        (some pb.bilinearParams) (fun i => sensors.get i)
        (fun i => pb.exactSolution (sensors.get i).1 (sensors.get i).2)) (trainableVariables 2 specs []) lr) st outs ∧
      IsDomainGridRecord mc cfg pts (csv.map fun r => r.2.2) (fun p => pb.actualEps p.1 p.2)
        (fun θ => batchOutput cfg.useAttention pts (mc.act cfg.activation) cfg.modelArchitecture θ 0)
        (fun θ => batchOutput cfg.useAttention pts (mc.act cfg.activation) cfg.modelArchitecture θ 1) st outs R ∧
      ∀ path, (∀ name ∈ domainNames, path ≠ mc.env.join cfg.outputPath name) → R.files path = files' path := by
  obtain ⟨o, o', o'', files', cells, bd, nq, S, S', D, bdv, specs, lr, sensor, exact, pts, st, outs, h1, h2, h3, h4, h5, h6,
    h7, -, -, ⟨g, h8⟩, h8', h9, h10, h10', h11, h12, h13, h14, h15, h16⟩ := domain_internal mc pb cfg
      (.circle csv sensorLhs randint) sample lhs θ files R hatt hint hdepth hjoin h
  simp only [DomainSource.sensors] at h8
  have hsen := C40_internal S' pb.exactSolution cfg.numSensorPoints sensorLhs (some csv) randint hlhs
  have hmp : S'.meshPoints ≠ [] := by
    intro hc
    rw [hsen.2 hc] at h8
    exact absurd h8 (by simp)
  obtain ⟨sp, sv, s1, s2, s3, rfl⟩ := hsen.1 hmp
  rw [s1] at h8
  obtain ⟨rfl, -⟩ := Prod.mk.inj (Except.ok.inj h8)
  rw [h8'] at s3
  unfold DomainSource.exact at h10
  dsimp only at h10
  split_ifs at h10
  obtain rfl := Except.ok.inj h10
  refine ⟨o, o', files', cells, bd, nq, S, S', D, bdv, specs, lr, sp, pts, st, outs, h1, h2, h3, h4, h5, h6, h7, h11,
    by simpa using h10', s2, s3, fun hx hy p hp => ?_, h12, h13, ?_, h15, h16⟩
  · obtain ⟨⟨a, ha, ha'⟩, ⟨b, hb, hb'⟩, ⟨c, hc, hc'⟩, e, he, he'⟩ := s3 p hp
    have hdom := corners_in_domain o mc.env files (cfg.xMin, cfg.xMax) (cfg.yMin, cfg.yMax) hx hy cfg.nCellsX cfg.nCellsY
      cfg.nBoundaryPoints sample h5
    exact ⟨⟨(hdom a ha).1.1.trans ha', hb'.trans (hdom b hb).1.2⟩, (hdom c hc).2.1.trans hc', he'.trans (hdom e he).2.2⟩
  · dsimp only at h14
    rw [show (fun i : Fin sp.length => pb.exactSolution (sp.get i).1 (sp.get i).2)
      = fun i : Fin sp.length => (sp.map fun p => pb.exactSolution p.1 p.2).getD i.val 0 from
      funext fun i => by rw [getD_map_pts sp _ i.isLt, List.getD_eq_getElem _ _ i.isLt]; rfl]
    exact h14

/-! ## Completion -/

/-- How the scripts on an internal mesh end if the training steps and the errors can be computed and the clock
advances. -/
lemma runGrid_outcome (mc : Machine) (cfg : InverseConfig) (M : DriverModel (TrainOutInverse 1))
    (u k : Weights → ℝ × ℝ → ℝ) (pts : List (ℝ × ℝ)) (pb : DomainProblem) (src : DomainSource cfg.numSensorPoints)
    (P : PreparedDomain) (o' : GeometryObject)
    (hcall : ∀ θ, ∃ b, M.call θ (pts.map fun p => [p.1, p.2]) = .ok b ∧ batchColumn b 0 = .ok (pts.map (u θ)) ∧
      batchColumn b 1 = .ok (pts.map (k θ)))
    (hfl : ∀ out, M.floats out = .ok (out.lossPde, out.lossDirichlet 0, out.loss 0))
    (hmet : cfg.meshGenerationMethod = "internal")
    (hpts : P.geometry.getTestPoints mc.env P.base.files = (.ok (.points pts), o', P.base.files))
    (hlen : pts.length = cfg.nTestPointsX * cfg.nTestPointsY) (htp : 2 ≤ cfg.nTestPointsX ∧ 2 ≤ cfg.nTestPointsY)
    (ye : List ℝ) (hye : src.exact pb pts = .ok ye) (hl : ye.length = pts.length)
    (hstep : ∀ s, ∃ r, M.step s = .ok r) (hclock : ∀ e, 0 < mc.elapsed e) (θ : Weights) :
    (cfg.epochs = 0 → runDomain mc cfg pb src P M θ = .error .nameError) ∧
    (0 < cfg.epochs → cfg.updateConsoleOutput = 0 → runDomain mc cfg pb src P M θ = .error .zeroDivisionError) ∧
    (mc.lrNumpy P.base.lr = .ok () → 0 < cfg.updateConsoleOutput → cfg.epochs = 1 →
      runDomain mc cfg pb src P M θ = .error .indexError) ∧
    (mc.lrNumpy P.base.lr = .ok () → 0 < cfg.updateConsoleOutput → 2 ≤ cfg.epochs →
      ∃ R, runDomain mc cfg pb src P M θ = .ok R) := by
  have hne : pts ≠ [] := by
    rw [← List.length_pos_iff, hlen]
    exact Nat.mul_pos (by omega) (by omega)
  have hend : mc.lrNumpy P.base.lr = .ok () → 0 < cfg.updateConsoleOutput → 0 < cfg.epochs → ∃ s r, epochLoop M.step
      (reportDomain mc cfg P.base.lr o' M pts ye (pts.map fun p => pb.actualEps p.1 p.2))
      cfg.updateConsoleOutput cfg.epochs (List.range cfg.epochs) ⟨⟨θ, AdamState.init⟩, [], [], P.base.files⟩ = .ok s ∧
      s.losses.length = cfg.epochs ∧ s.reports.getLast? = some r ∧ ∃ w, r.invPred = pts.map (k w) ∧
        r.yPred = pts.map (u w) ∧ r.error.length = pts.length := by
    intro hlr hu h0
    obtain ⟨s, hs, hI, hJ⟩ := epochLoop_invariant (N := cfg.epochs) M.step
      (reportDomain mc cfg P.base.lr o' M pts ye (pts.map fun p => pb.actualEps p.1 p.2)) cfg.updateConsoleOutput hu.ne'
      hstep (fun _ => True)
      (fun r => ∃ w, r.invPred = pts.map (k w) ∧ r.yPred = pts.map (u w) ∧ r.error.length = pts.length)
      (fun e l s f hf => by
        have hT : ∑ k ∈ Finset.Ico (e + 1 - cfg.updateConsoleOutput.toNat) (e + 1), mc.elapsed k ≠ 0 := by
          refine (Finset.sum_pos (fun k _ => hclock k) ?_).ne'
          rw [Finset.nonempty_Ico]
          omega
        obtain ⟨r, f', hr⟩ := reportGrid_succeeds mc cfg P.base.lr o' M u k pts ye (fun p => pb.actualEps p.1 p.2) hcall
          hfl hmet hlen hl hne hlr hu e hT l s f
        have hat := (reportGrid_ok mc cfg P.base.lr o' M u k pts ye
          (fun p => pb.actualEps p.1 p.2) hcall hfl hmet hl hne e l s f f' r hr).2.2
        refine ⟨r, f', hr, trivial, _, hat.invPred, hat.yPred, ?_⟩
        rw [hat.error]
        simp [hl]) (List.range cfg.epochs) ⟨⟨θ, AdamState.init⟩, [], [], P.base.files⟩ trivial (by simp)
    obtain ⟨-, hl, st, fs, -, -, -, -, -, hrep, -⟩ := epochLoop_ok _ _ _ _ _ _ rfl rfl hs
    rcases forall₂_getLast hrep with ⟨h1, -⟩ | ⟨a, b, -, h2, -⟩
    · have := reportEpochs_last cfg.updateConsoleOutput cfg.epochs h0
      rw [h1] at this
      exact absurd this (by simp)
    · exact ⟨s, b, hs, hl, h2, hJ b (List.mem_of_getLast? h2)⟩
  unfold runDomain
  rw [hpts]
  dsimp only
  rw [hye]
  dsimp only
  rw [(domainContour_grid cfg pts ye hmet).2 ⟨hlen, hl.trans hlen, htp⟩]
  dsimp only
  refine ⟨fun h0 => ?_, fun h0 hu => ?_, fun hlr hu h1 => ?_, fun hlr hu h2 => ?_⟩
  · rw [h0]
    rfl
  · obtain ⟨n, hn⟩ := Nat.exists_eq_succ_of_ne_zero h0.ne'
    obtain ⟨⟨l, t⟩, hr⟩ := hstep ⟨θ, AdamState.init⟩
    have : epochLoop M.step (reportDomain mc cfg P.base.lr o' M pts ye (pts.map fun p => pb.actualEps p.1 p.2))
        cfg.updateConsoleOutput cfg.epochs (List.range cfg.epochs) ⟨⟨θ, AdamState.init⟩, [], [], P.base.files⟩
        = .error .zeroDivisionError := by
      rw [hn, List.range_succ_eq_map]
      simp only [epochLoop, epochBody, hr, hu, reportDue, if_true]
    rw [this]
  · obtain ⟨s, r, e1, e2, e3, w, e4, -⟩ := hend hlr hu (by omega)
    rw [e1]
    simp only [finishDomain, e3, bind, Except.bind, timeColumnInverse, drop_range_map, List.length_map,
      List.length_range, e2, h1]
    rfl
  · obtain ⟨s, r, e1, e2, e3, w, e4, e5, e6⟩ := hend hlr hu (by omega)
    have hT : ∑ e ∈ Finset.range cfg.epochs, mc.elapsed e ≠ 0 := by
      refine (Finset.sum_pos (fun k _ => hclock k) ?_).ne'
      rw [Finset.nonempty_range_iff]
      omega
    rw [e1]
    simp only [finishDomain, e3, bind, Except.bind, pure, Except.pure, timeColumnInverse, drop_range_map, List.length_map,
      List.length_range, e2, epochsPerSecond, sum_range_map, if_neg hT, arrayLines, if_pos hmet, e4, e5, e6, npSub_map,
      reshapeMatrix, hlen, if_true]
    rw [if_neg (by omega)]
    exact ⟨_, rfl⟩

lemma prepareGrid_of (mc : Machine) (cfg : InverseConfig) (pb : DomainProblem)
    (src : DomainSource cfg.numSensorPoints) (sample : Fin 4 → Fin (cfg.nBoundaryPoints / 4) → ℝ)
    (lhs : ℕ → Fin (2 ^ cfg.boundaryRefinementLevel + 1) → ℝ × ℝ) (files : Files) (B : Prepared)
    (hint : cfg.meshGenerationMethod = "internal")
    (h : prepareUniform mc cfg.forward pb.toProblem cfg.modelArchitecture learningRateFn sample files = .ok B) :
    ∃ P, prepareDomain mc cfg pb src sample lhs files = .ok P := by
  obtain ⟨o2, o3, files2, cells2, bd2, mp2, nq2, S2, S2', D2, bdv2, lr2, specs2, inDim2, pts, o'', -, e1, e2, -, -, -,
    e3, e4, e5⟩ := prepareUniform_ok mc cfg.forward pb.toProblem _ _ sample files B hint h
  have hB' := h
  unfold prepareUniform at hB'
  by_cases hd : cfg.forward.dtype ∈ ["float64", "float32"]
  swap
  · rw [if_pos hd] at hB'
    exact absurd hB' (by simp)
  rw [if_neg (not_not.2 hd)] at hB'
  split at hB'
  · exact absurd hB' (by simp)
  rename_i o ho
  split at hB'
  · exact absurd hB' (by simp)
  · rename_i cells bd o' files' hg
    have hg' := generateInternal_object mc.env o files (cfg.xMin, cfg.xMax) (cfg.yMin, cfg.yMax) cfg.nCellsX
      cfg.nCellsY cfg.nBoundaryPoints sample
    have hg2 : o.generateInternal mc.env files (cfg.xMin, cfg.xMax) (cfg.yMin, cfg.yMax) cfg.nCellsX
      cfg.nCellsY cfg.nBoundaryPoints sample = (.ok (.mesh cells bd), o', files') := hg
    rw [hg2] at hg'
    dsimp only at hg'
    have hmt : o'.meshType = "quadrilateral" := by
      rw [hg']
      exact (newGeometry_meshType ho : o.meshType = "quadrilateral")
    have hcells : cells = (generateQuadMeshInternal o.toGeometry2D (cfg.xMin, cfg.xMax) (cfg.yMin, cfg.yMax)
        cfg.nCellsX cfg.nCellsY cfg.nBoundaryPoints sample).cells := by
      unfold GeometryObject.generateInternal at hg2
      dsimp only at hg2
      split_ifs at hg2
      · simp only [Prod.mk.injEq, Except.ok.injEq, GeometryValue.mesh.injEq] at hg2
        exact hg2.1.1.symm
      · split at hg2
        · simp at hg2
        · simp only [Prod.mk.injEq, Except.ok.injEq, GeometryValue.mesh.injEq] at hg2
          exact hg2.1.1.symm
    obtain ⟨mp, nq, S, S', D, bdv, lr, specs, inDim, h1, -, -, hBo⟩ := prepareModel_ok _ _ _ _ _ _ _ _ _ hmt B hB'
    have hgeo : o3 = o' ∧ files2 = files' := by
      have := e3.symm.trans hBo
      exact ⟨congrArg Prepared.geometry this, congrArg Prepared.files this⟩
    obtain ⟨rfl, rfl⟩ := hgeo
    have hne : (o3.mesh.map StoredMesh.planePoints).getD [] ≠ [] := by
      rw [hg']
      show (generateQuadMeshInternal _ _ _ _ _ _ _).meshPoints ≠ []
      have hc : cells ≠ [] := (fespace_ok h1.space).2.1
      obtain ⟨c, hc'⟩ := List.exists_mem_of_ne_nil _ hc
      rw [hcells] at hc'
      refine List.ne_nil_of_mem (a := c 0) ?_
      exact List.mem_flatMap.2 ⟨c, hc', List.mem_ofFn.2 ⟨0, rfl⟩⟩
    have hP : ∃ P, prepareDomainModel mc cfg pb src o3 files2 cells (bdPairs bd) = .ok P := by
      unfold prepareModel at hB'
      unfold prepareDomainModel
      simp only [InverseConfig.forward] at hB'
      split at hB'
      · exact absurd hB' (by simp)
      rename_i nq S hS
      split at hB'
      · exact absurd hB' (by simp)
      rename_i D S' hD
      split at hB'
      · exact absurd hB' (by simp)
      rename_i bdv hbdv
      split at hB'
      · exact absurd hB' (by simp)
      rename_i lr hlr
      split at hB'
      · exact absurd hB' (by simp)
      rename_i specs hspecs
      split at hB'
      · exact absurd hB' (by simp)
      rename_i inDim hin
      have hr : ∃ r, src.sensors mc.env cfg.meshGenerationMethod pb S' o3 files2 = .ok r := by
        cases src with
        | usa shuffle =>
          simp only [DomainSource.sensors, e5]
          exact ⟨_, rfl⟩
        | circle csv slhs randint =>
          obtain ⟨-, -, -, hmp, -⟩ := reachable_forall₂ (dataHandler_reachable _ _ _ _ _ _ _ _ hS hD)
          have hmp' : S'.meshPoints ≠ [] := by
            rw [hmp, (fespace_ok hS).2.2.2.1]
            exact hne
          have hmin : ∀ l : List ℝ, l ≠ [] → (∃ x, l.min? = some x) ∧ ∃ x, l.max? = some x := by
            intro l hl
            exact ⟨Option.isSome_iff_exists.1 (List.isSome_min?_of_ne_nil hl),
              Option.isSome_iff_exists.1 (List.isSome_max?_of_ne_nil hl)⟩
          obtain ⟨⟨a, ha⟩, b, hb⟩ := hmin (S'.meshPoints.map Prod.fst) (by simpa using hmp')
          obtain ⟨⟨c, hc⟩, d, hd⟩ := hmin (S'.meshPoints.map Prod.snd) (by simpa using hmp')
          rw [hint]
          simp only [DomainSource.sensors, getSensorData, if_true, Fespace2D.getSensorData, ha, hb, hc, hd]
          exact ⟨_, rfl⟩
      obtain ⟨r, hr⟩ := hr
      rw [hS]
      simp only [hD, hbdv, hr, hlr, hspecs, hin]
      exact ⟨_, rfl⟩
    obtain ⟨P, hP⟩ := hP
    refine ⟨P, ?_⟩
    unfold prepareDomain
    have ho2 : newGeometry cfg.meshType cfg.meshGenerationMethod cfg.nTestPointsX cfg.nTestPointsY cfg.outputPath
      false = .ok o := ho
    rw [if_neg (show ¬ (cfg.dtype ∉ ["float64", "float32"]) from not_not.2 hd), ho2]
    dsimp only
    rw [if_neg (by rw [hint]; decide), if_pos hint, hg2]
    exact hP
  · exact absurd hB' (by simp)

/-- Whether there are as many exact values as test points. -/
def SourceFitsGrid (cfg : InverseConfig) (src : DomainSource cfg.numSensorPoints) : Prop :=
  match src with
  | .usa _ => True
  | .circle csv _ _ => csv.length = cfg.nTestPointsX * cfg.nTestPointsY

/-- When either script on an internal mesh finishes. -/
lemma grid_completes (mc : Machine) (pb : DomainProblem) (cfg : InverseConfig)
    (hloss : ∀ nc nt nq, pb.loss nc nt nq = lossCd2dInverseDomain nc nt nq)
    (src : DomainSource cfg.numSensorPoints)
    (sample : Fin 4 → Fin (cfg.nBoundaryPoints / 4) → ℝ)
    (lhs : ℕ → Fin (2 ^ cfg.boundaryRefinementLevel + 1) → ℝ × ℝ) (θ : Weights) (files : Files)
    (hatt : cfg.useAttention = true → mc.attention = attentionDot) (hint : cfg.meshGenerationMethod = "internal")
    (hdepth : 2 ≤ cfg.modelArchitecture.length)
    (hjoin : ∀ a b, mc.env.join cfg.outputPath a = mc.env.join cfg.outputPath b → a = b)
    (hmsh : ∀ x y hx hy, ∃ m, mc.env.parseMsh (mc.env.gmsh x y hx hy) = .ok m)
    (hclock : ∀ e, 0 < mc.elapsed e) :
    (0 < cfg.updateConsoleOutput → ((∃ R, mainDomain mc pb cfg src sample lhs θ files = .ok R) ↔
      ValidDomainGrid pb cfg ∧ SourceFitsGrid cfg src ∧
      2 ≤ cfg.epochs ∧ ∀ lr, learningRateFn cfg.learningRate = .ok lr → mc.lrNumpy lr = .ok ())) ∧
    (ValidDomainGrid pb cfg → SourceFitsGrid cfg src →
      (cfg.epochs = 0 → mainDomain mc pb cfg src sample lhs θ files = .error .nameError) ∧
      (0 < cfg.epochs → cfg.updateConsoleOutput = 0 →
        mainDomain mc pb cfg src sample lhs θ files = .error .zeroDivisionError) ∧
      ((∀ lr, learningRateFn cfg.learningRate = .ok lr → mc.lrNumpy lr = .ok ()) → 0 < cfg.updateConsoleOutput →
        cfg.epochs = 1 → mainDomain mc pb cfg src sample lhs θ files = .error .indexError)) := by
  have hld : cfg.modelArchitecture ≠ [] := by
    intro h
    rw [h] at hdepth
    simp at hdepth
  have hgood : ValidDomainGrid pb cfg → SourceFitsGrid cfg src →
      (cfg.epochs = 0 → mainDomain mc pb cfg src sample lhs θ files = .error .nameError) ∧
      (0 < cfg.epochs → cfg.updateConsoleOutput = 0 →
        mainDomain mc pb cfg src sample lhs θ files = .error .zeroDivisionError) ∧
      ((∀ lr, learningRateFn cfg.learningRate = .ok lr → mc.lrNumpy lr = .ok ()) → 0 < cfg.updateConsoleOutput →
        cfg.epochs = 1 → mainDomain mc pb cfg src sample lhs θ files = .error .indexError) ∧
      ((∀ lr, learningRateFn cfg.learningRate = .ok lr → mc.lrNumpy lr = .ok ()) → 0 < cfg.updateConsoleOutput →
        2 ≤ cfg.epochs → ∃ R, mainDomain mc pb cfg src sample lhs θ files = .ok R) := by
    intro hv hfit
    obtain ⟨B, hB⟩ := (prepareUniform_iff mc cfg.forward pb.toProblem cfg.modelArchitecture hld learningRateFn sample files
        hint hmsh).2 ⟨hv.setup.dtype, hv.setup.meshType, hv.setup.nCells,
          ⟨by have := hv.setup.testPoints; omega, by have := hv.setup.testPoints; omega⟩, hv.setup.feOrder,
          hv.setup.feType, hv.setup.quadOrder, hv.setup.quadType, hv.setup.boundary, hv.setup.plot,
          (C50_keys _).2.2 hv.setup.learningRate⟩
    obtain ⟨P, hP⟩ := prepareGrid_of mc cfg pb src sample lhs files B hint hB
    unfold mainDomain
    rw [hP]
    dsimp only
    obtain ⟨hU, o, o', files', cells, bd, nq, S, S', D, bdv, lr, specs, inDim, pts, o'', h1, h2, h3, h4, h5, h6, h7, h8, h9,
      h10⟩ := prepareGrid_ok mc cfg pb src sample lhs files P hint hP
    obtain ⟨base, sensor, geometry⟩ := P
    dsimp only at h6 h8 ⊢
    subst h8
    have h11 := sensors_geometry src mc.env "internal" pb S' o' geometry o'' files' pts sensor h10 h6
    obtain rfl : inDim = 2 := by
      have := hv.input
      rw [pyIndex_zero, List.head?_eq_getElem?] at h5
      rw [List.getD_eq_getElem?_getD, h5] at this
      exact this
    have hye : ∃ ye, src.exact pb pts = .ok ye ∧ ye.length = pts.length := by
      cases src with
      | usa shuffle => exact ⟨_, rfl, by simp⟩
      | circle csv slhs randint =>
        simp only [SourceFitsGrid] at hfit
        refine ⟨csv.map fun r => r.2.2, ?_, by rw [List.length_map, hfit, h9.1]⟩
        rw [DomainSource.exact, if_neg]
        rintro rfl
        have := hv.setup.testPoints
        have h0 : 0 < cfg.nTestPointsX * cfg.nTestPointsY :=
          Nat.mul_pos (lt_of_lt_of_le (by norm_num) this.1) (lt_of_lt_of_le (by norm_num) this.2)
        rw [← hfit] at h0
        exact absurd h0 (by simp)
    obtain ⟨ye, hye, hyl⟩ := hye
    dsimp only at h3 ⊢
    rw [outDim_layerSpecs _ _ _ h3.layers]
    obtain ⟨pt, hpt, -⟩ := C79_losses mc pb cfg hloss cfg.modelArchitecture hdepth hv.input hv.output _ cells
      (bdPairs bd) nq S S' D bdv specs h3 lr (fun i => sensor.1.get i) (fun i => sensor.2.getD i.val 0)
    have hcall := domain_call ⟨⟨_, nq, D, bdv, cells.length, 2, specs, lr, o', files'⟩, sensor, geometry⟩ mc cfg pb
      cfg.modelArchitecture hatt rfl hdepth h3.layers hv.input
      (cfg.modelArchitecture.getD (cfg.modelArchitecture.length - 1) 0) hv.output pts
    have hout := runGrid_outcome mc cfg _
      (fun θ => batchOutput cfg.useAttention pts (mc.act cfg.activation) cfg.modelArchitecture θ 0)
      (fun θ => batchOutput cfg.useAttention pts (mc.act cfg.activation) cfg.modelArchitecture θ 1) pts pb src
      ⟨⟨_, nq, D, bdv, cells.length, 2, specs, lr, o', files'⟩, sensor, geometry⟩ o'' hcall
      (domain_floats _ mc cfg pb _) hint h11 h9.1 hv.setup.testPoints ye hye hyl (fun s => ?_) hclock θ
    · exact ⟨hout.1, hout.2.1, fun hlr => hout.2.2.1 (hlr lr h4), fun hlr => hout.2.2.2 (hlr lr h4)⟩
    rw [domain_step _ mc cfg pb _ rfl]
    exact (domain_step_iff hv.output _ (hloss _ _ _) _ pt hpt _ _ _ _ _ _ _ _ _ _ s).2 hv.parameters
  refine ⟨fun hu => ⟨fun ⟨R, hR⟩ => ?_, fun ⟨h1, h2, h3, h4⟩ => (hgood h1 h2).2.2.2 h4 hu h3⟩,
    fun h1 h2 => ⟨(hgood h1 h2).1, (hgood h1 h2).2.1, (hgood h1 h2).2.2.1⟩⟩
  obtain ⟨o, o', o'', files', cells, bd, nq, S, S', D, bdv, specs, lr, sensor, exact, pts, st, outs, ⟨d0, dl⟩, k2, k3, k4, k5,
    k6, k7, k8, k9, -, -, -, k10, k11, -, k12, k13, k14, -⟩ := domain_internal mc pb cfg src sample lhs θ files R hatt hint
      hdepth hjoin hR
  obtain ⟨pt, hpt, -⟩ := C79_losses mc pb cfg hloss cfg.modelArchitecture hdepth d0 dl _ cells
    (bdPairs bd) nq S S' D bdv specs k6 lr (fun i => sensor.1.get i) (fun i => sensor.2.getD i.val 0)
  have hpar := (domain_step_iff dl _ (hloss _ _ _) _ pt hpt _ _ _ _ _ _ _ _ _ _ (st 0)).1 ⟨_, k14 0 (by omega)⟩
  unfold mainDomain at hR
  split at hR
  · exact absurd hR (by simp)
  rename_i P hP
  obtain ⟨hU, -⟩ := prepareGrid_ok mc cfg pb src sample lhs files P hint hP
  obtain ⟨p1, p2, p3, p4, p5, p6, p7, p8, p9, p10, p11⟩ := (prepareUniform_iff mc cfg.forward pb.toProblem
    cfg.modelArchitecture hld learningRateFn sample files hint hmsh).1 ⟨_, hU⟩
  refine ⟨⟨⟨p1, p2, p3, k3, p5, p6, p7, p8, p9, p10, (C50_keys _).2.1 p11, by simp [requiredParams]⟩, hpar, d0, dl⟩, ?_, k2,
    fun lr' h' => Except.ok.inj (k7.symm.trans h') ▸ k8⟩
  cases src with
  | usa shuffle => trivial
  | circle csv slhs randint =>
    unfold DomainSource.exact at k10
    dsimp only at k10
    split_ifs at k10
    obtain rfl := Except.ok.inj k10
    simpa [SourceFitsGrid] using k11

/-- **C98** (completion, first script).  If gmsh's file can be read, the clock advances and the report interval is
positive, the script on an internal mesh finishes exactly if the configuration is valid, there are at least two epochs
and the learning rate of the optimiser can be read.  Otherwise, with a valid configuration: no epoch, an unbound
variable; report interval zero, a division by zero; a single epoch, an index error after the training. -/
theorem C98_completes_usa (mc : Machine) (pb : DomainProblem) (cfg : InverseConfig)
    (hloss : ∀ nc nt nq, pb.loss nc nt nq = lossCd2dInverseDomain nc nt nq)
    (shuffle : List (ℝ × ℝ) → List (ℝ × ℝ))
    (sample : Fin 4 → Fin (cfg.nBoundaryPoints / 4) → ℝ)
    (lhs : ℕ → Fin (2 ^ cfg.boundaryRefinementLevel + 1) → ℝ × ℝ) (θ : Weights) (files : Files)
    (hatt : cfg.useAttention = true → mc.attention = attentionDot) (hint : cfg.meshGenerationMethod = "internal")
    (hdepth : 2 ≤ cfg.modelArchitecture.length)
    (hjoin : ∀ a b, mc.env.join cfg.outputPath a = mc.env.join cfg.outputPath b → a = b)
    (hmsh : ∀ x y hx hy, ∃ m, mc.env.parseMsh (mc.env.gmsh x y hx hy) = .ok m)
    (hclock : ∀ e, 0 < mc.elapsed e) :
    (0 < cfg.updateConsoleOutput → ((∃ R, mainUsa mc pb cfg shuffle sample lhs θ files = .ok R) ↔
      ValidDomainGrid pb cfg ∧
      2 ≤ cfg.epochs ∧ ∀ lr, learningRateFn cfg.learningRate = .ok lr → mc.lrNumpy lr = .ok ())) ∧
    (ValidDomainGrid pb cfg →
      (cfg.epochs = 0 → mainUsa mc pb cfg shuffle sample lhs θ files = .error .nameError) ∧
      (0 < cfg.epochs → cfg.updateConsoleOutput = 0 →
        mainUsa mc pb cfg shuffle sample lhs θ files = .error .zeroDivisionError) ∧
      ((∀ lr, learningRateFn cfg.learningRate = .ok lr → mc.lrNumpy lr = .ok ()) → 0 < cfg.updateConsoleOutput →
        cfg.epochs = 1 → mainUsa mc pb cfg shuffle sample lhs θ files = .error .indexError)) := by
  have h := grid_completes mc pb cfg hloss (.usa shuffle) sample lhs θ files hatt hint hdepth hjoin hmsh hclock
  exact ⟨fun hu => (h.1 hu).trans ⟨fun ⟨h1, _, h2⟩ => ⟨h1, h2⟩, fun ⟨h1, h2⟩ => ⟨h1, trivial, h2⟩⟩,
    fun h1 => h.2 h1 trivial⟩

/-- **C98** (completion, second script).  Likewise; in addition the CSV file must have as many lines as there are test
points. -/
theorem C98_completes_circle (mc : Machine) (pb : DomainProblem) (cfg : InverseConfig)
    (hloss : ∀ nc nt nq, pb.loss nc nt nq = lossCd2dInverseDomain nc nt nq)
    (csv : List (ℝ × ℝ × ℝ)) (sensorLhs : (k : ℕ) → Fin k → ℝ × ℝ) (randint : ℕ → Fin cfg.numSensorPoints → ℤ)
    (sample : Fin 4 → Fin (cfg.nBoundaryPoints / 4) → ℝ)
    (lhs : ℕ → Fin (2 ^ cfg.boundaryRefinementLevel + 1) → ℝ × ℝ) (θ : Weights) (files : Files)
    (hatt : cfg.useAttention = true → mc.attention = attentionDot) (hint : cfg.meshGenerationMethod = "internal")
    (hdepth : 2 ≤ cfg.modelArchitecture.length)
    (hjoin : ∀ a b, mc.env.join cfg.outputPath a = mc.env.join cfg.outputPath b → a = b)
    (hmsh : ∀ x y hx hy, ∃ m, mc.env.parseMsh (mc.env.gmsh x y hx hy) = .ok m)
    (hclock : ∀ e, 0 < mc.elapsed e) :
    (0 < cfg.updateConsoleOutput → ((∃ R, mainCircle mc pb cfg csv sensorLhs randint sample lhs θ files = .ok R) ↔
      ValidDomainGrid pb cfg ∧ csv.length = cfg.nTestPointsX * cfg.nTestPointsY ∧
      2 ≤ cfg.epochs ∧ ∀ lr, learningRateFn cfg.learningRate = .ok lr → mc.lrNumpy lr = .ok ())) ∧
    (ValidDomainGrid pb cfg → csv.length = cfg.nTestPointsX * cfg.nTestPointsY →
      (cfg.epochs = 0 → mainCircle mc pb cfg csv sensorLhs randint sample lhs θ files = .error .nameError) ∧
      (0 < cfg.epochs → cfg.updateConsoleOutput = 0 →
        mainCircle mc pb cfg csv sensorLhs randint sample lhs θ files = .error .zeroDivisionError) ∧
      ((∀ lr, learningRateFn cfg.learningRate = .ok lr → mc.lrNumpy lr = .ok ()) → 0 < cfg.updateConsoleOutput →
        cfg.epochs = 1 → mainCircle mc pb cfg csv sensorLhs randint sample lhs θ files = .error .indexError)) :=
  grid_completes mc pb cfg hloss (.circle csv sensorLhs randint) sample lhs θ files hatt hint hdepth hjoin hmsh hclock

/-! ## The CSV file is not used in the training -/

/-- States and outputs of a run are determined by the first state. -/
lemma isRun_unique {O : Type} (step : TrainState → Except PyErr (O × TrainState)) (st st' : ℕ → TrainState)
    (outs outs' : List O) (hl : outs.length = outs'.length) (h0 : st 0 = st' 0) (h : IsRun step st outs)
    (h' : IsRun step st' outs') : outs = outs' ∧ ∀ n ≤ outs.length, st n = st' n := by
  have hst : ∀ n ≤ outs.length, st n = st' n := by
    intro n
    induction n with
    | zero => exact fun _ => h0
    | succ n ih =>
      intro hn
      have e1 := h n (by omega)
      rw [ih (by omega), h' n (by omega)] at e1
      exact (Prod.mk.inj (Except.ok.inj e1)).2.symm
  refine ⟨List.ext_getElem hl fun n h1 h2 => ?_, hst⟩
  have e1 := h n h1
  rw [hst n h1.le, h' n h2] at e1
  exact (Prod.mk.inj (Except.ok.inj e1)).1.symm

/-- The training of a finished run is that of the prepared model. -/
lemma domain_internal_run (mc : Machine) (pb : DomainProblem) (cfg : InverseConfig)
    (src : DomainSource cfg.numSensorPoints) (sample : Fin 4 → Fin (cfg.nBoundaryPoints / 4) → ℝ)
    (lhs : ℕ → Fin (2 ^ cfg.boundaryRefinementLevel + 1) → ℝ × ℝ) (θ : Weights) (files : Files) (R : DomainResult)
    (hatt : cfg.useAttention = true → mc.attention = attentionDot) (hint : cfg.meshGenerationMethod = "internal")
    (hdepth : 2 ≤ cfg.modelArchitecture.length)
    (hjoin : ∀ a b, mc.env.join cfg.outputPath a = mc.env.join cfg.outputPath b → a = b)
    (h : mainDomain mc pb cfg src sample lhs θ files = .ok R) :
    ∃ (P : PreparedDomain) (o'' : GeometryObject) (exact : List ℝ) (pts : List (ℝ × ℝ)) (st : ℕ → TrainState)
      (outs : List (TrainOutInverse 1)), prepareDomain mc cfg pb src sample lhs files = .ok P ∧
      P.geometry.getTestPoints mc.env P.base.files = (.ok (.points pts), o'', P.base.files) ∧
      src.exact pb pts = .ok exact ∧
      st 0 = ⟨θ, AdamState.init⟩ ∧ outs.length = cfg.epochs ∧
      IsRun (P.model mc cfg pb (outDim P.base.specs)).step st outs ∧
      IsDomainGridRecord mc cfg pts exact (fun p => pb.actualEps p.1 p.2)
        (fun θ => batchOutput cfg.useAttention pts (mc.act cfg.activation) cfg.modelArchitecture θ 0)
        (fun θ => batchOutput cfg.useAttention pts (mc.act cfg.activation) cfg.modelArchitecture θ 1) st outs R := by
  obtain ⟨-, -, -, -, -, -, -, -, -, -, -, -, -, -, -, -, -, -, ⟨d0, dl⟩, -⟩ := domain_internal mc pb cfg src sample lhs θ
    files R hatt hint hdepth hjoin h
  unfold mainDomain at h
  split at h
  · exact absurd h (by simp)
  rename_i P hP
  obtain ⟨hU, o, o', files', cells, bd, nq, S, S', D, bdv, lr, specs, inDim, pts, o'', h1, h2, h3, h4, h5, h6, h7, h8, h9,
    h10⟩ := prepareGrid_ok mc cfg pb src sample lhs files P hint hP
  obtain ⟨base, sensor, geometry⟩ := P
  dsimp only at h6 h8
  subst h8
  have h11 := sensors_geometry src mc.env "internal" pb S' o' geometry o'' files' pts sensor h10 h6
  obtain rfl : inDim = 2 := by
    rw [pyIndex_zero, List.head?_eq_getElem?] at h5
    rw [List.getD_eq_getElem?_getD, h5] at d0
    exact d0
  have hcall := domain_call ⟨⟨_, nq, D, bdv, cells.length, 2, specs, lr, o', files'⟩, sensor, geometry⟩ mc cfg pb
    cfg.modelArchitecture hatt rfl hdepth h3.layers d0 (outDim specs)
    dl pts
  obtain ⟨ye, st, outs, k1, k2, k3, k4, k5, k6, k7, k8, k9, k10, k11⟩ := runGrid_record mc cfg _
    (fun θ => batchOutput cfg.useAttention pts (mc.act cfg.activation) cfg.modelArchitecture θ 0)
    (fun θ => batchOutput cfg.useAttention pts (mc.act cfg.activation) cfg.modelArchitecture θ 1) pts hjoin pb src
    _ o'' hcall (domain_floats _ mc cfg pb _) (domain_lossLine _ mc cfg pb _) hint h11 θ R h
  exact ⟨_, o'', ye, pts, st, outs, hP, h11, k1, k7, k8, k9, k10⟩

/-- **C98** (the CSV file; a finding).  On an internal mesh two runs of `main_inverse_domain_circle.py` with different
CSV files save the same weights and write the same losses, the same prediction and the same coefficient, while
`exact.txt` has the third column of the file. -/
theorem C98_circle_reference (mc : Machine) (pb : DomainProblem) (cfg : InverseConfig)
    (csv csv' : List (ℝ × ℝ × ℝ)) (sensorLhs : (k : ℕ) → Fin k → ℝ × ℝ)
    (randint randint' : ℕ → Fin cfg.numSensorPoints → ℤ)
    (sample : Fin 4 → Fin (cfg.nBoundaryPoints / 4) → ℝ)
    (lhs : ℕ → Fin (2 ^ cfg.boundaryRefinementLevel + 1) → ℝ × ℝ) (θ : Weights) (files : Files) (R R' : DomainResult)
    (hatt : cfg.useAttention = true → mc.attention = attentionDot) (hint : cfg.meshGenerationMethod = "internal")
    (hdepth : 2 ≤ cfg.modelArchitecture.length)
    (hjoin : ∀ a b, mc.env.join cfg.outputPath a = mc.env.join cfg.outputPath b → a = b)
    (h : mainCircle mc pb cfg csv sensorLhs randint sample lhs θ files = .ok R)
    (h' : mainCircle mc pb cfg csv' sensorLhs randint' sample lhs θ files = .ok R') :
    R.savedWeights = R'.savedWeights ∧
    (∀ name ∈ ["loss_function.txt", "sensor_loss.txt", "prediction.txt", "inverse_prediction.txt", "inverse_error.txt",
      "time_per_epoch.txt"],
      R.files (mc.env.join cfg.outputPath name) = R'.files (mc.env.join cfg.outputPath name)) ∧
    R.files (mc.env.join cfg.outputPath "exact.txt") = some (csv.map fun r => mc.env.fmt r.2.2) := by
  have hprep : prepareDomain mc cfg pb (.circle csv sensorLhs randint) sample lhs files
      = prepareDomain mc cfg pb (.circle csv' sensorLhs randint') sample lhs files := by
    unfold prepareDomain prepareDomainModel
    simp only [DomainSource.sensors, hint, getSensorData, if_true]
  obtain ⟨P, o1, ex, pts, st, outs, a1, a2, a3, a4, a5, a6, a7⟩ := domain_internal_run mc pb cfg _ sample lhs θ files R hatt
    hint hdepth hjoin h
  obtain ⟨P', o1', ex', pts', st', outs', b1, b2, b3, b4, b5, b6, b7⟩ := domain_internal_run mc pb cfg _ sample lhs θ files
    R' hatt hint hdepth hjoin h'
  rw [hprep, b1] at a1
  obtain rfl := Except.ok.inj a1
  rw [a2] at b2
  simp only [Prod.mk.injEq, Except.ok.injEq, GeometryValue.points.injEq] at b2
  obtain ⟨rfl, -⟩ := b2
  obtain ⟨rfl, hst⟩ := isRun_unique _ st st' outs outs' (a5.trans b5.symm) (a4.trans b4.symm) a6 b6
  have hN : st cfg.epochs = st' cfg.epochs := hst _ a5.ge
  refine ⟨by rw [a7.saved, b7.saved, hN], ?_, ?_⟩
  · simp only [List.mem_cons, List.not_mem_nil, or_false, forall_eq_or_imp, forall_eq]
    refine ⟨?_, ?_, ?_, ?_, ?_, ?_⟩
    · rw [a7.lossFile, b7.lossFile]
    · rw [a7.sensorFile, b7.sensorFile]
    · rw [a7.predictionFile, b7.predictionFile, hN]
    · rw [a7.coefficientFile, b7.coefficientFile, hN]
    · rw [a7.coefficientErrorFile, b7.coefficientErrorFile, hN]
    · rw [a7.timeFile, b7.timeFile]
  · unfold DomainSource.exact at a3
    dsimp only at a3
    split_ifs at a3
    obtain rfl := Except.ok.inj a3
    rw [a7.exactFile, List.map_map]
    rfl

/-! ## A concrete run -/

/-- A configuration for the rectangle. -/
noncomputable def demoGridConfig : InverseConfig :=
  { configDomainUsa with meshGenerationMethod := "internal", epochs := 7, updateConsoleOutput := 3,
                         nTestPointsX := 3, nTestPointsY := 4 }

noncomputable def demoGridProblem : DomainProblem :=
  { problemDomainUsa with boundaryFunctionDict := [(1000, fun x _ => x), (1001, fun _ _ => 1), (1002, fun _ _ => 0),
                                                   (1003, fun _ _ => 0)] }

/-- The hypotheses of the theorems are met; the second script finishes for a CSV file with 12 lines. -/
example (quad : QuadRoutines) (sample : Fin 4 → Fin (1500 / 4) → ℝ) (lhs : ℕ → Fin (2 ^ 2 + 1) → ℝ × ℝ)
    (θ : Weights) :
    (∀ a b, (demoMachine quad).env.join demoGridConfig.outputPath a
      = (demoMachine quad).env.join demoGridConfig.outputPath b → a = b) ∧
    (∃ R, mainUsa (demoMachine quad) demoGridProblem demoGridConfig List.reverse sample lhs θ demoFiles = .ok R) ∧
    (∃ R, mainCircle (demoMachine quad) demoGridProblem demoGridConfig
      (List.replicate 12 (0, 0, 3)) (fun _ _ => (0, 0)) (fun _ _ => 0) sample lhs θ demoFiles = .ok R ∧
      R.files ((demoMachine quad).env.join demoGridConfig.outputPath "exact.txt")
        = some (List.replicate 12 ((demoMachine quad).env.fmt 3))) := by
  have hjoin : ∀ a b, (demoMachine quad).env.join demoGridConfig.outputPath a
      = (demoMachine quad).env.join demoGridConfig.outputPath b → a = b := fun a b h => by
    simpa [demoMachine, demoEnv] using h
  have hmsh : ∀ x y hx hy, ∃ m, (demoMachine quad).env.parseMsh ((demoMachine quad).env.gmsh x y hx hy) = .ok m :=
    fun _ _ _ _ => ⟨_, rfl⟩
  have hv : ValidDomainGrid demoGridProblem demoGridConfig := by
    refine ⟨⟨Or.inr rfl, rfl, ?_, ?_, ?_, ?_, ?_, Or.inr rfl, ?_, ?_, ?_, ?_⟩, ?_, rfl, ?_⟩
    all_goals simp [demoGridConfig, demoGridProblem, configDomainUsa, problemDomainUsa, InverseConfig.forward,
      DomainInverseUSA.bilinearParamsDict, List.lookup, requiredParams]
  have hd : 2 ≤ demoGridConfig.modelArchitecture.length := by simp [demoGridConfig, configDomainUsa]
  refine ⟨hjoin, ?_, ?_⟩
  · exact ((C98_completes_usa (demoMachine quad) demoGridProblem demoGridConfig (fun _ _ _ => rfl)
      List.reverse sample lhs θ demoFiles nofun rfl hd hjoin hmsh
      (fun _ => by simp [demoMachine])).1 (by norm_num [demoGridConfig])).2
      ⟨hv, by simp [demoGridConfig], fun _ _ => rfl⟩
  · obtain ⟨R, hR⟩ := ((C98_completes_circle (demoMachine quad) demoGridProblem demoGridConfig (fun _ _ _ => rfl)
      (List.replicate 12 (0, 0, 3)) (fun _ _ => (0, 0)) (fun _ _ => 0) sample lhs θ demoFiles nofun rfl hd hjoin hmsh
      (fun _ => by simp [demoMachine])).1 (by norm_num [demoGridConfig])).2
      ⟨hv, by simp [demoGridConfig], by simp [demoGridConfig], fun _ _ => rfl⟩
    refine ⟨R, hR, ?_⟩
    rw [(C98_circle_reference (demoMachine quad) _ demoGridConfig _ _ _ _ _ _ _ _ _ R R nofun rfl hd hjoin hR hR).2.2, List.map_replicate]

end FastVPINNs
