import Verif.Spec.DriverDomain
import Verif.Props.DriverInverse

/-! # C79: the driver scripts for the inverse problem with a space-dependent coefficient -/

namespace FastVPINNs

open Spec

/-! ## The network -/

/-- The values a model without attention predicts at a list of points, all outputs. -/
lemma callDense_outputs (act : String → ℝ → ℝ) (attention : Batch → Except PyErr Batch) (dims : List ℕ)
    (a : String) (specs : List LayerSpec) (h : 2 ≤ dims.length) (hs : layerSpecs dims a = .ok specs)
    (h0 : dims.getD 0 0 = 2) (θ : Weights) (pts : List (ℝ × ℝ)) :
    callDense act attention false (layersAt θ 0 2 specs) (pts.map fun z => [z.1, z.2])
      = .ok (pts.map fun p => List.ofFn fun j : Fin (dims.getD (dims.length - 1) 0) =>
          networkOutput (act a) dims θ j p) := by
  have harch := layersAt_arch dims a specs h hs θ
  obtain ⟨Y, hY, hlen, hrow⟩ := C51_call act a dims _ harch attention (pts.map fun z => [z.1, z.2]) (by
      intro x hx
      obtain ⟨z, -, rfl⟩ := List.mem_map.1 hx
      rw [h0]; rfl)
  rw [h0] at hY
  rw [hY]
  congr 1
  refine List.ext_getElem (by simpa using hlen) fun k hk hk' => ?_
  obtain ⟨h1, h2⟩ := hrow k (by rw [← hlen]; exact hk) hk
  refine List.ext_getElem (by simpa using h1) fun j hj hj' => ?_
  have hj1 : j < dims.getD (dims.length - 1) 0 := by rw [← h1]; exact hj
  have h3 := h2 j hj1
  rw [List.getD_eq_getElem _ _ hj] at h3
  rw [h3, outputValue_layersAt (act a) dims a specs h hs θ _ j hj1]
  simp only [List.getElem_map, List.getElem_ofFn]
  unfold networkOutput
  refine outputValue_congr _ _ _ _ _ _ (fun i hi => ?_) _ _
  rw [h0] at hi
  interval_cases i <;> simp

/-- The outputs of a model at a list of points. -/
lemma callDense_batchOutputs (act : String → ℝ → ℝ) (attention : Batch → Except PyErr Batch) (att : Bool)
    (hatt : att = true → attention = attentionDot) (dims : List ℕ)
    (a : String) (specs : List LayerSpec) (h : 2 ≤ dims.length) (hs : layerSpecs dims a = .ok specs)
    (h0 : dims.getD 0 0 = 2) (θ : Weights) (pts : List (ℝ × ℝ)) :
    callDense act attention att (layersAt θ 0 2 specs) (pts.map fun z => [z.1, z.2])
      = .ok (pts.map fun p => List.ofFn fun j : Fin (dims.getD (dims.length - 1) 0) =>
          batchOutput att pts (act a) dims θ j p) := by
  rw [callDense_attend act attention att hatt, callDense_outputs act attention dims a specs h hs h0, List.map_map]
  rfl

lemma networkAt_outputs (act : String → ℝ → ℝ) (attention : Batch → Except PyErr Batch) (dims : List ℕ)
    (a : String) (specs : List LayerSpec) (h : 2 ≤ dims.length) (hs : layerSpecs dims a = .ok specs)
    (h0 : dims.getD 0 0 = 2) (d : ℕ) (hl : dims.getD (dims.length - 1) 0 = d) (θ : Weights) :
    RowWise (networkAt act attention false 2 specs d θ) (fun j => networkOutput (act a) dims θ j) := by
  have harch := layersAt_arch dims a specs h hs θ
  obtain ⟨u, hu, hval, -⟩ := C51_network act a dims _ harch h0 d hl attention
  intro n X r j
  have h1 := hu n X r j
  have h2 := outputValue_layersAt (act a) dims a specs h hs θ
    (fun i => if i = 0 then (X r).1 else (X r).2) j (by rw [hl]; exact j.isLt)
  rw [hval] at h1
  rw [h0] at h1 h2
  unfold networkAt
  rw [h1]
  exact h2

lemma batchColumn_ofFn (pts : List (ℝ × ℝ)) (f : ℕ → ℝ × ℝ → ℝ) (d j : ℕ) (hj : j < d) :
    batchColumn (pts.map fun p => List.ofFn fun i : Fin d => f i p) j = .ok (pts.map (f j)) := by
  unfold batchColumn
  induction pts with
  | nil => rfl
  | cons p l ih =>
    simp only [List.map_cons, mapE]
    rw [ih]
    simp [hj]

/-! ## The file with the prediction -/

lemma ofFn_getD (l : List ℝ) (n : ℕ) (h : l.length = n) : (List.ofFn fun k : Fin n => l.getD k 0) = l := by
  refine List.ext_getElem (by simp [h]) fun i h1 h2 => ?_
  rw [List.getElem_ofFn, List.getD_eq_getElem _ _ h2]

lemma ofFn_getD_abs (a b : List ℝ) (n : ℕ) (ha : a.length = n) (hb : b.length = n) :
    (List.ofFn fun k : Fin n => |a.getD k 0 - b.getD k 0|) = List.zipWith (fun x y => |x - y|) a b := by
  refine List.ext_getElem (by simp [ha, hb]) fun i h1 h2 => ?_
  simp only [List.length_ofFn] at h1
  rw [List.getElem_ofFn, List.getD_eq_getElem _ _ (by omega), List.getD_eq_getElem _ _ (by omega),
    List.getElem_zipWith]

lemma zipWith_map_same (pts : List (ℝ × ℝ)) (a b : ℝ × ℝ → ℝ) :
    List.zipWith (fun x y => |x - y|) (pts.map a) (pts.map b) = pts.map fun p => |a p - b p| := by
  induction pts with
  | nil => rfl
  | cons p l ih => simp only [List.map_cons, List.zipWith_cons_cons, ih]

lemma writeDomain_ok (env : MeshFiles) (o : GeometryObject) (out : String) (pts : List (ℝ × ℝ)) (ye : List ℝ)
    (v k a : ℝ × ℝ → ℝ) (e : ℕ) (files : Files) (base : List String) (hext : o.meshGenerationMethod ≠ "internal")
    (hb : files (env.join o.outputFolder "external.vtk") = some base) (hl : ye.length = pts.length) :
    ∃ content, IsFieldFile env.fmt base pts.length [("Sol", pts.map v), ("Exact", ye),
        ("Error", List.zipWith (fun a b => |a - b|) ye (pts.map v)), ("Inv", pts.map k), ("ExactInv", pts.map a),
        ("InvError", pts.map fun p => |a p - k p|)] content ∧
      writeDomain env o out (pts.map v) ye (pts.map k) (pts.map a) e files
        = .ok (Function.update files (env.join out (predictionName e)) (some content)) := by
  have hn : (pts.map v).length = pts.length := List.length_map _
  have hsol : domainArray (pts.map v) ye (pts.map k) (pts.map a) = .ok (fun j => ![(pts.map v).getD j 0, ye.getD j 0,
      |ye.getD j 0 - (pts.map v).getD j 0|, (pts.map k).getD j 0, (pts.map a).getD j 0,
      |(pts.map a).getD j 0 - (pts.map k).getD j 0|]) := by
    unfold domainArray
    rw [if_pos (by simp [hl])]
  obtain ⟨pre, body, h1, h2, -, h4⟩ := (C11_write_vtk env.fmt files (env.join o.outputFolder "external.vtk")
    (env.join out (predictionName e)) (fun j : Fin (pts.map v).length => ![(pts.map v).getD j 0, ye.getD j 0,
      |ye.getD j 0 - (pts.map v).getD j 0|, (pts.map k).getD j 0, (pts.map a).getD j 0,
      |(pts.map a).getD j 0 - (pts.map k).getD j 0|]) ["Sol", "Exact", "Error", "Inv", "ExactInv", "InvError"]
      base hb).2 rfl
  refine ⟨pre ++ body, ⟨pre, body, rfl, h2, fun parse hp => ?_⟩, ?_⟩
  · obtain ⟨h5, h6⟩ := h4 parse (fun k i => hp _) _ rfl
    rw [← hn]
    refine List.ext_getElem? fun i => ?_
    by_cases hi : i < 6
    swap
    · rw [List.getElem?_eq_none (by rw [h5]; omega), List.getElem?_eq_none (by simpa using by omega)]
    obtain ⟨n, m, c⟩ := h6 ⟨i, hi⟩
    dsimp only at m c
    rw [c]
    interval_cases i
    · obtain rfl : "Sol" = n := Option.some.inj m
      have : (List.ofFn fun j : Fin (pts.map v).length => (pts.map v).getD j 0) = pts.map v := ofFn_getD _ _ rfl
      exact congrArg (fun l => some ("Sol".toList, l)) this
    · obtain rfl : "Exact" = n := Option.some.inj m
      have : (List.ofFn fun j : Fin (pts.map v).length => ye.getD j 0) = ye := ofFn_getD _ _ (hl.trans hn.symm)
      exact congrArg (fun l => some ("Exact".toList, l)) this
    · obtain rfl : "Error" = n := Option.some.inj m
      have := ofFn_getD_abs ye (pts.map v) (pts.map v).length (hl.trans hn.symm) rfl
      exact congrArg (fun l => some ("Error".toList, l)) this
    · obtain rfl : "Inv" = n := Option.some.inj m
      have : (List.ofFn fun j : Fin (pts.map v).length => (pts.map k).getD j 0) = pts.map k :=
        ofFn_getD _ _ (by simp)
      exact congrArg (fun l => some ("Inv".toList, l)) this
    · obtain rfl : "ExactInv" = n := Option.some.inj m
      have : (List.ofFn fun j : Fin (pts.map v).length => (pts.map a).getD j 0) = pts.map a :=
        ofFn_getD _ _ (by simp)
      exact congrArg (fun l => some ("ExactInv".toList, l)) this
    · obtain rfl : "InvError" = n := Option.some.inj m
      have := ofFn_getD_abs (pts.map a) (pts.map k) (pts.map v).length (by simp) (by simp)
      rw [zipWith_map_same] at this
      exact congrArg (fun l => some ("InvError".toList, l)) this
  · unfold writeDomain
    rw [hsol]
    simp only [GeometryObject.writeVtk, if_neg hext]
    have h1' := h1
    unfold predictionName at h1' ⊢
    rw [h1']

/-! ## From the loop to the record -/

section
variable (mc : Machine) (cfg : InverseConfig) (lr : LearningRate) (o : GeometryObject)
  (M : DriverModel (TrainOutInverse 1)) (u k : Weights → ℝ × ℝ → ℝ) (pts : List (ℝ × ℝ)) (ye : List ℝ)
  (actual : ℝ × ℝ → ℝ)

/-- The fields of the VTK file for the weights `θ`. -/
noncomputable def domainFields (θ : Weights) : List (String × List ℝ) :=
  [("Sol", pts.map (u θ)), ("Exact", ye),
    ("Error", List.zipWith (fun a b => |a - b|) ye (pts.map (u θ))), ("Inv", pts.map (k θ)),
    ("ExactInv", pts.map actual), ("InvError", pts.map fun p => |actual p - k θ p|)]

lemma errors_zip (a b : List ℝ) (h : a.length = b.length) (hne : b ≠ []) :
    ∃ l2 linf l2r linfr l1 l1r,
      computeErrorsCombined (array1 a) (array1 b) = .ok (l2, linf, l2r, linfr, l1, l1r) ∧
      ErrorsAt (a.zip b) Prod.fst Prod.snd l2 linf l2r linfr l1 l1r := by
  have hne' : a.zip b ≠ [] := by
    intro hc
    have := congrArg List.length hc
    simp only [List.length_zip, h, min_self, List.length_nil] at this
    exact hne (List.length_eq_zero_iff.1 this)
  have := errors_at (a.zip b) hne' Prod.fst Prod.snd
  rw [List.map_fst_zip h.le, List.map_snd_zip h.ge] at this
  exact this

lemma npSub_eq (a b : List ℝ) (h : a.length = b.length) : npSub a b = .ok (List.zipWith (· - ·) a b) := by
  unfold npSub
  rw [if_pos h]

/-- What a report on an external mesh contains. -/
structure DomainReportAt (e : ℕ) (out : TrainOutInverse 1) (θ : Weights) (r : DomainReport) : Prop where
  epoch : r.epoch = e
  losses : r.lossPde = out.lossPde ∧ r.lossDirichlet = out.lossDirichlet 0 ∧
    r.sensorLoss = out.sensorLoss 0 ∧ r.totalLoss = out.loss 0
  errors : ∃ l2 linf l2r linfr l1 l1r, r.errors = (l2, linf, l2r, linfr, l1, l1r) ∧
    ErrorsAt (ye.zip (pts.map (u θ))) Prod.fst Prod.snd l2 linf l2r linfr l1 l1r
  invErrors : ∃ l2 linf l2r linfr l1 l1r, r.invErrors = (l2, linf, l2r, linfr, l1, l1r) ∧
    ErrorsAt pts actual (k θ) l2 linf l2r linfr l1 l1r
  yPred : r.yPred = pts.map (u θ)
  invPred : r.invPred = pts.map (k θ)
  error : r.error = List.zipWith (fun a b => |a - b|) ye (pts.map (u θ))
  times : 0 < cfg.updateConsoleOutput → ∃ T,
    T = ∑ k ∈ Finset.Ico (e + 1 - cfg.updateConsoleOutput.toNat) (e + 1), mc.elapsed k ∧
    min (e + 1) cfg.updateConsoleOutput.toNat * r.meanTime = T ∧
    (0 < T → r.perSecond * T ≤ cfg.updateConsoleOutput ∧
      cfg.updateConsoleOutput < (r.perSecond + 1) * T)

/-- A report on an external mesh. -/
lemma reportDomain_ok
    (hcall : ∀ θ, ∃ b, M.call θ (pts.map fun p => [p.1, p.2]) = .ok b ∧ batchColumn b 0 = .ok (pts.map (u θ)) ∧
      batchColumn b 1 = .ok (pts.map (k θ)))
    (hfl : ∀ out, M.floats out = .ok (out.lossPde, out.lossDirichlet 0, out.loss 0))
    (hmet : cfg.meshGenerationMethod = "external") (hext : o.meshGenerationMethod ≠ "internal")
    (e : ℕ) (out : TrainOutInverse 1) (s : TrainState) (files files' : Files) (base : List String)
    (hb : files (mc.env.join o.outputFolder "external.vtk") = some base) (r : DomainReport)
    (h : reportDomain mc cfg lr o M pts ye (pts.map actual) e out s files = .ok (r, files')) :
    ye.length = pts.length ∧ pts ≠ [] ∧ mc.lrNumpy lr = .ok () ∧
      DomainReportAt mc cfg u k pts ye actual e out s.weights r ∧
      ∃ content, IsFieldFile mc.env.fmt base pts.length (domainFields u k pts ye actual s.weights) content ∧
        files' = Function.update files (mc.env.join cfg.outputPath (predictionName e)) (some content) := by
  obtain ⟨b, c1, c2, c3⟩ := hcall s.weights
  unfold reportDomain at h
  simp only [bind, Except.bind, pure, Except.pure, c1, c2, c3, hfl, floatOf, dif_pos] at h
  split at h
  · exact absurd h (by simp)
  rename_i errors herr
  split at h
  · exact absurd h (by simp)
  rename_i invErrors hinv
  split at h
  · exact absurd h (by simp)
  rename_i rate hrate
  split at h
  · exact absurd h (by simp)
  rename_i hlr
  split at h
  · exact absurd h (by simp)
  rename_i diff hdiff
  split at h
  · exact absurd h (by simp)
  rename_i f hf
  obtain ⟨rfl, rfl⟩ := Prod.mk.inj (Except.ok.inj h)
  have hl : ye.length = pts.length := by
    unfold outputDomain at hf
    rw [if_neg (by rw [hmet]; decide), if_pos hmet] at hf
    unfold writeDomain domainArray at hf
    by_contra hc
    rw [if_neg (by simp [hc])] at hf
    exact absurd hf (by simp)
  have hne : pts ≠ [] := by
    rintro rfl
    exact absurd hinv (by
      simp [computeErrorsCombined, computeL2Error, computeLinfError, npSub, npMax, array1, NDArray.flatten, bind,
        Except.bind])
  obtain ⟨l2, linf, l2r, linfr, l1, l1r, e1, e2⟩ := errors_zip ye (pts.map (u s.weights)) (by simpa using hl)
    (by simpa using hne)
  obtain ⟨i2, iinf, i2r, iinfr, i1, i1r, f1, f2⟩ := errors_at pts hne actual (k s.weights)
  obtain rfl := Except.ok.inj (herr.symm.trans e1)
  obtain rfl := Except.ok.inj (hinv.symm.trans f1)
  obtain ⟨content, w1, w2⟩ := writeDomain_ok mc.env o cfg.outputPath pts ye (u s.weights) (k s.weights) actual e files
    base hext hb hl
  refine ⟨hl, hne, hlr, ⟨rfl, ⟨rfl, rfl, rfl, rfl⟩, ⟨_, _, _, _, _, _, rfl, e2⟩, ⟨_, _, _, _, _, _, rfl, f2⟩, rfl, rfl,
    ?_, fun hu => ?_⟩, content, w1, ?_⟩
  · rw [npSub_eq _ _ (by simpa using hl)] at hdiff
    obtain rfl := Except.ok.inj hdiff
    simp only [List.map_zipWith]
  · obtain ⟨t1, t2⟩ := pyTail_range mc.elapsed (e + 1) cfg.updateConsoleOutput hu
    have hun : (0 : ℝ) ≤ cfg.updateConsoleOutput := by exact_mod_cast hu.le
    refine ⟨_, rfl, ?_, fun hT => ?_⟩
    · dsimp only [npMean]
      rw [t1, t2]
      have : ((min (e + 1) cfg.updateConsoleOutput.toNat : ℕ) : ℝ) ≠ 0 := by
        rw [Nat.cast_ne_zero]
        omega
      field_simp
    · unfold ratePerSecond at hrate
      rw [t1, if_neg hT.ne'] at hrate
      obtain rfl := Except.ok.inj hrate
      exact pyInt_div _ _ hun hT
  · unfold outputDomain at hf
    rw [if_neg (by rw [hmet]; decide), if_pos hmet, w2] at hf
    exact (Except.ok.inj hf).symm

/-- A report can be made if the clock advances. -/
lemma reportDomain_succeeds
    (hcall : ∀ θ, ∃ b, M.call θ (pts.map fun p => [p.1, p.2]) = .ok b ∧ batchColumn b 0 = .ok (pts.map (u θ)) ∧
      batchColumn b 1 = .ok (pts.map (k θ)))
    (hfl : ∀ out, M.floats out = .ok (out.lossPde, out.lossDirichlet 0, out.loss 0))
    (hmet : cfg.meshGenerationMethod = "external") (hext : o.meshGenerationMethod ≠ "internal")
    (hl : ye.length = pts.length) (hne : pts ≠ []) (hlr : mc.lrNumpy lr = .ok ()) (hu : 0 < cfg.updateConsoleOutput)
    (e : ℕ) (hT : ∑ k ∈ Finset.Ico (e + 1 - cfg.updateConsoleOutput.toNat) (e + 1), mc.elapsed k ≠ 0)
    (out : TrainOutInverse 1) (s : TrainState) (files : Files) (base : List String)
    (hb : files (mc.env.join o.outputFolder "external.vtk") = some base) :
    ∃ r files', reportDomain mc cfg lr o M pts ye (pts.map actual) e out s files = .ok (r, files') := by
  obtain ⟨b, c1, c2, c3⟩ := hcall s.weights
  obtain ⟨l2, linf, l2r, linfr, l1, l1r, e1, -⟩ := errors_zip ye (pts.map (u s.weights)) (by simpa using hl)
    (by simpa using hne)
  obtain ⟨i2, iinf, i2r, iinfr, i1, i1r, f1, -⟩ := errors_at pts hne actual (k s.weights)
  obtain ⟨content, -, w2⟩ := writeDomain_ok mc.env o cfg.outputPath pts ye (u s.weights) (k s.weights) actual e files
    base hext hb hl
  obtain ⟨t1, -⟩ := pyTail_range mc.elapsed (e + 1) cfg.updateConsoleOutput hu
  have hni : ¬cfg.meshGenerationMethod = "internal" := by rw [hmet]; decide
  unfold reportDomain outputDomain
  simp only [if_neg hni, if_pos hmet, bind, Except.bind, pure, Except.pure, c1, c2, c3, hfl, floatOf, dif_pos, e1, f1, ratePerSecond, t1,
    if_neg hT, hlr, npSub_eq ye (pts.map (u s.weights)) (by simpa using hl), w2]
  exact ⟨_, _, rfl⟩

/-- The names of the text files. -/
def domainNames : List String :=
  ["loss_function.txt", "sensor_loss.txt", "prediction.txt", "exact.txt", "error.txt", "time_per_epoch.txt",
   "inverse_prediction.txt", "inverse_error.txt"]

lemma predictionName_domain (e : ℕ) : ∀ name ∈ domainNames, predictionName e ≠ name := by
  intro name hn h
  have h1 := congrArg (fun s => s.toList.getLast?) h
  simp only [predictionName_toList] at h1
  simp only [domainNames, List.mem_cons, List.not_mem_nil, or_false] at hn
  rw [List.getLast?_append] at h1
  rcases hn with rfl | rfl | rfl | rfl | rfl | rfl | rfl | rfl <;> exact absurd h1 (by simp)

/-- The last part of the scripts (mesh file). -/
lemma finishDomain_record
    (hjoin : ∀ a b, mc.env.join cfg.outputPath a = mc.env.join cfg.outputPath b → a = b)
    (hline : ∀ fmt out, M.lossLine fmt out = fmt (out.loss 0))
    (hmet : cfg.meshGenerationMethod = "external") (st : ℕ → TrainState)
    (s : LoopState (TrainOutInverse 1) DomainReport) (R : DomainResult)
    (hlen : s.losses.length = cfg.epochs) (hst : st cfg.epochs = s.model)
    (hrep : List.Forall₂ (fun e r => ∃ out, s.losses[e]? = some out ∧
      DomainReportAt mc cfg u k pts ye actual e out (st (e + 1)).weights r)
      (reportEpochs cfg.updateConsoleOutput cfg.epochs) s.reports)
    (hvtk : ∀ base, s.files (mc.env.join cfg.outputPath "external.vtk") = some base →
      ∀ e ∈ reportEpochs cfg.updateConsoleOutput cfg.epochs, ∃ content,
        s.files (mc.env.join cfg.outputPath (predictionName e)) = some content ∧
        IsFieldFile mc.env.fmt base pts.length (domainFields u k pts ye actual (st (e + 1)).weights) content)
    (h : finishDomain mc cfg M ye (pts.map actual) s = .ok R) :
    IsDomainRecord mc cfg pts ye actual u k st s.losses R ∧
      (∀ path, (∀ name ∈ domainNames, path ≠ mc.env.join cfg.outputPath name) →
        R.files path = s.files path) ∧ 2 ≤ cfg.epochs := by
  unfold finishDomain at h
  split at h
  · exact absurd h (by simp)
  rename_i rl hrl
  have hni : ¬cfg.meshGenerationMethod = "internal" := by rw [hmet]; decide
  simp only [bind, Except.bind, pure, Except.pure, arrayLines, if_neg hni] at h
  split at h
  · exact absurd h (by simp)
  rename_i column hcol
  unfold timeColumnInverse epochsPerSecond at hcol
  rw [hlen] at hcol
  simp only [drop_range_map, List.length_map, List.length_range, sum_range_map] at hcol
  split_ifs at hcol with hN h0 h0'
  have hN2 : 2 ≤ cfg.epochs := by omega
  simp only [Except.ok.injEq] at hcol
  subst hcol
  obtain ⟨out, ho, hl⟩ : ∃ out, s.losses[cfg.epochs - 1]? = some out ∧
      DomainReportAt mc cfg u k pts ye actual (cfg.epochs - 1) out (st cfg.epochs).weights rl := by
    rcases forall₂_getLast hrep with ⟨h1, -⟩ | ⟨a, b, h1, h2, out, h3, h4⟩
    · have := reportEpochs_last cfg.updateConsoleOutput cfg.epochs (by omega)
      rw [h1] at this
      exact absurd this (by simp)
    · obtain rfl := Option.some.inj
        ((reportEpochs_last cfg.updateConsoleOutput cfg.epochs (by omega)).symm.trans h1)
      obtain rfl := Option.some.inj (hrl.symm.trans h2)
      rw [show cfg.epochs - 1 + 1 = cfg.epochs by omega] at h4
      exact ⟨out, h3, h4⟩
  rw [hl.invPred, npSub_map] at h
  dsimp only at h
  obtain rfl := Except.ok.inj h
  have hne' : ∀ a b : String, a ≠ b → mc.env.join cfg.outputPath a ≠ mc.env.join cfg.outputPath b :=
    fun a b hab hc => hab (hjoin a b hc)
  have htne : (List.range (cfg.epochs - 1)).map (fun i => mc.elapsed (1 + i)) ≠ [] := by
    simp only [ne_eq, List.map_eq_nil_iff, List.range_eq_nil]
    omega
  have hmed := median_eq_percentile _ htne
  have hcomm : (fun i => mc.elapsed (1 + i)) = fun e => mc.elapsed (e + 1) := by
    funext i
    rw [add_comm]
  refine ⟨⟨by simp only [hst], ?_, ?_, ?_, ?_, ?_, ?_, ?_, ?_, ?_, ?_, ?_, ?_⟩, ?_, hN2⟩
  · exact hrep.imp fun e r ⟨out, h1, h2⟩ => ⟨h2.epoch, ⟨out, h1, h2.losses⟩, h2.errors, h2.invErrors, h2.yPred,
      h2.invPred, h2.times⟩
  · intro base hb e he
    simp only [saveText] at hb ⊢
    rw [writeFile_other _ _ _ _ (hne' _ _ (by decide)), writeFile_other _ _ _ _ (hne' _ _ (by decide)),
      writeFile_other _ _ _ _ (hne' _ _ (by decide)), writeFile_other _ _ _ _ (hne' _ _ (by decide)),
      writeFile_other _ _ _ _ (hne' _ _ (by decide)), writeFile_other _ _ _ _ (hne' _ _ (by decide)),
      writeFile_other _ _ _ _ (hne' _ _ (by decide)), writeFile_other _ _ _ _ (hne' _ _ (by decide))] at hb
    obtain ⟨content, c1, c2⟩ := hvtk base hb e he
    refine ⟨content, ?_, c2⟩
    have hp : ∀ name ∈ domainNames, mc.env.join cfg.outputPath (predictionName e) ≠ mc.env.join cfg.outputPath name :=
      fun name hn => hne' _ _ (predictionName_domain e name hn)
    simp only [domainNames, List.mem_cons, List.not_mem_nil, or_false, forall_eq_or_imp, forall_eq] at hp
    obtain ⟨p1, p2, p3, p4, p5, p6, p7, p8⟩ := hp
    show writeFile _ _ _ (mc.env.join cfg.outputPath (predictionName e)) = some content
    rw [writeFile_other _ _ _ _ p8, writeFile_other _ _ _ _ p7, writeFile_other _ _ _ _ p6, writeFile_other _ _ _ _ p5,
      writeFile_other _ _ _ _ p4, writeFile_other _ _ _ _ p3, writeFile_other _ _ _ _ p2, writeFile_other _ _ _ _ p1]
    exact c1
  · simp only [saveText]
    rw [writeFile_other _ _ _ _ (hne' _ _ (by decide)), writeFile_other _ _ _ _ (hne' _ _ (by decide)),
      writeFile_other _ _ _ _ (hne' _ _ (by decide)), writeFile_other _ _ _ _ (hne' _ _ (by decide)),
      writeFile_other _ _ _ _ (hne' _ _ (by decide)), writeFile_other _ _ _ _ (hne' _ _ (by decide)),
      writeFile_other _ _ _ _ (hne' _ _ (by decide)), writeFile_same]
    congr 1
    exact List.map_congr_left fun o _ => hline _ o
  · simp only [saveText]
    rw [writeFile_other _ _ _ _ (hne' _ _ (by decide)), writeFile_other _ _ _ _ (hne' _ _ (by decide)),
      writeFile_other _ _ _ _ (hne' _ _ (by decide)), writeFile_other _ _ _ _ (hne' _ _ (by decide)),
      writeFile_other _ _ _ _ (hne' _ _ (by decide)), writeFile_other _ _ _ _ (hne' _ _ (by decide)), writeFile_same]
    congr 1
  · simp only [saveText]
    rw [writeFile_other _ _ _ _ (hne' _ _ (by decide)), writeFile_other _ _ _ _ (hne' _ _ (by decide)),
      writeFile_other _ _ _ _ (hne' _ _ (by decide)), writeFile_other _ _ _ _ (hne' _ _ (by decide)),
      writeFile_other _ _ _ _ (hne' _ _ (by decide)), writeFile_same, hl.yPred, List.map_map]
    rfl
  · simp only [saveText]
    rw [writeFile_other _ _ _ _ (hne' _ _ (by decide)), writeFile_other _ _ _ _ (hne' _ _ (by decide)),
      writeFile_other _ _ _ _ (hne' _ _ (by decide)), writeFile_other _ _ _ _ (hne' _ _ (by decide)), writeFile_same]
  · simp only [saveText]
    rw [writeFile_other _ _ _ _ (hne' _ _ (by decide)), writeFile_other _ _ _ _ (hne' _ _ (by decide)),
      writeFile_other _ _ _ _ (hne' _ _ (by decide)), writeFile_same, hl.error, List.map_zipWith, List.zipWith_map_right]
  · simp only [saveText]
    rw [writeFile_other _ _ _ _ (hne' _ _ (by decide)), writeFile_other _ _ _ _ (hne' _ _ (by decide)), writeFile_same,
      List.map_map, hlen]
    rfl
  · simp only [saveText]
    rw [writeFile_other _ _ _ _ (hne' _ _ (by decide)), writeFile_same, List.map_map]
    rfl
  · simp only [saveText]
    rw [writeFile_same, List.map_map, List.map_map]
    rfl
  · obtain ⟨l2, linf, l2r, linfr, l1, l1r, e1, e2⟩ := hl.errors
    exact ⟨l2, linf, l2r, linfr, l1, l1r, e2, by rw [e1]; rfl⟩
  · refine ⟨_, _, _, _, _, _, _, ?_, ?_, ?_, ?_, ?_, rfl, ?_, ?_, ?_, rfl⟩
    · have := percentile_isQuantile _ htne 50 (by norm_num) (by norm_num)
      rw [hmed, ← hcomm]
      convert this using 1
      norm_num
    · have := percentile_isQuantile _ htne 25 (by norm_num) (by norm_num)
      rw [← hcomm]
      convert this using 1
      norm_num
    · have := percentile_isQuantile _ htne 75 (by norm_num) (by norm_num)
      rw [← hcomm]
      convert this using 1
      norm_num
    · rw [hmed]; exact percentile_mono _ htne 25 50 (by norm_num) (by norm_num) (by norm_num)
    · rw [hmed]; exact percentile_mono _ htne 50 75 (by norm_num) (by norm_num) (by norm_num)
    · obtain ⟨n, hn⟩ : ∃ n, cfg.epochs = n + 1 := ⟨cfg.epochs - 1, by omega⟩
      unfold npMean
      rw [sum_range_map, List.length_map, List.length_range, Nat.cast_sub (by omega), Nat.cast_one]
      have : ((cfg.epochs : ℝ) - 1) ≠ 0 := by
        have : (2 : ℝ) ≤ cfg.epochs := by exact_mod_cast hN2
        linarith
      rw [mul_div_cancel₀ _ this, hn, Finset.sum_range_succ', add_comm, hcomm]
      rfl
    · unfold npMean
      rw [sum_range_map, List.length_map, List.length_range]
      have : (cfg.epochs : ℝ) ≠ 0 := by
        rw [Nat.cast_ne_zero]; omega
      field_simp
    · exact fun hpos => pyInt_div _ _ (by positivity) hpos
  · intro path hp
    simp only [domainNames, List.mem_cons, List.not_mem_nil, or_false, forall_eq_or_imp, forall_eq] at hp
    obtain ⟨p1, p2, p3, p4, p5, p6, p7, p8⟩ := hp
    simp only [saveText]
    rw [writeFile_other _ _ _ _ p8, writeFile_other _ _ _ _ p7, writeFile_other _ _ _ _ p6, writeFile_other _ _ _ _ p5,
      writeFile_other _ _ _ _ p4, writeFile_other _ _ _ _ p3, writeFile_other _ _ _ _ p2, writeFile_other _ _ _ _ p1]

/-- The scripts from the model on (mesh file). -/
lemma runDomain_record
    (hjoin : ∀ a b, mc.env.join cfg.outputPath a = mc.env.join cfg.outputPath b → a = b)
    (pb : DomainProblem) (src : DomainSource cfg.numSensorPoints) (P : PreparedDomain) (o' : GeometryObject)
    (hcall : ∀ θ, ∃ b, M.call θ (pts.map fun p => [p.1, p.2]) = .ok b ∧ batchColumn b 0 = .ok (pts.map (u θ)) ∧
      batchColumn b 1 = .ok (pts.map (k θ)))
    (hfl : ∀ out, M.floats out = .ok (out.lossPde, out.lossDirichlet 0, out.loss 0))
    (hline : ∀ fmt out, M.lossLine fmt out = fmt (out.loss 0))
    (hmet : cfg.meshGenerationMethod = "external")
    (hpts : P.geometry.getTestPoints mc.env P.base.files = (.ok (.points pts), o', P.base.files))
    (hext : o'.meshGenerationMethod ≠ "internal") (hfold : o'.outputFolder = cfg.outputPath) (base : List String)
    (hbase : P.base.files (mc.env.join cfg.outputPath "external.vtk") = some base) (θ : Weights)
    (R : DomainResult) (h : runDomain mc cfg pb src P M θ = .ok R) :
    ∃ (ye : List ℝ) (st : ℕ → TrainState) (outs : List (TrainOutInverse 1)),
      src.exact pb pts = .ok ye ∧ ye.length = pts.length ∧ 2 ≤ cfg.epochs ∧ mc.lrNumpy P.base.lr = .ok () ∧
      cfg.updateConsoleOutput ≠ 0 ∧
      st 0 = ⟨θ, AdamState.init⟩ ∧ outs.length = cfg.epochs ∧ IsRun M.step st outs ∧
      IsDomainRecord mc cfg pts ye (fun p => pb.actualEps p.1 p.2) u k st outs R ∧
      ∀ path, (∀ name ∈ domainNames, path ≠ mc.env.join cfg.outputPath name) →
        (∀ e ∈ reportEpochs cfg.updateConsoleOutput cfg.epochs,
          path ≠ mc.env.join cfg.outputPath ("prediction_" ++ toString (e + 1) ++ ".vtk")) →
        R.files path = P.base.files path := by
  unfold runDomain at h
  rw [hpts] at h
  dsimp only at h
  split at h
  · exact absurd h (by simp)
  rename_i ye hye
  split at h
  · exact absurd h (by simp)
  split at h
  · exact absurd h (by simp)
  rename_i s hs
  obtain ⟨hu, hlen, st, fs, h0, hN, hf0, hfN, hrun, hrep, hquiet⟩ := epochLoop_ok _ _ _ _ _ _ rfl rfl hs
  have hone : ∀ e out t f r f', f (mc.env.join cfg.outputPath "external.vtk") = some base →
      reportDomain mc cfg P.base.lr o' M pts ye (pts.map fun p => pb.actualEps p.1 p.2) e out t f = .ok (r, f') →
      _ :=
    fun e out t f r f' hf hr => reportDomain_ok mc cfg P.base.lr o' M u k pts ye (fun p => pb.actualEps p.1 p.2) hcall
      hfl hmet hext e out t f f' base (by rw [hfold]; exact hf) r hr
  have hneb : ∀ e, mc.env.join cfg.outputPath "external.vtk" ≠ mc.env.join cfg.outputPath (predictionName e) :=
    fun e hc => predictionName_base e (hjoin _ _ hc).symm
  have hfiles : ∀ n ≤ cfg.epochs, fs n (mc.env.join cfg.outputPath "external.vtk") = some base ∧
      (∀ e ∈ reportEpochs cfg.updateConsoleOutput cfg.epochs, e < n → ∃ content,
        fs n (mc.env.join cfg.outputPath (predictionName e)) = some content ∧
        IsFieldFile mc.env.fmt base pts.length
          (domainFields u k pts ye (fun p => pb.actualEps p.1 p.2) (st (e + 1)).weights) content) ∧
      ∀ path, (∀ e ∈ reportEpochs cfg.updateConsoleOutput cfg.epochs,
          path ≠ mc.env.join cfg.outputPath (predictionName e)) → fs n path = P.base.files path := by
    intro n
    induction n with
    | zero =>
      intro _
      rw [hf0]
      exact ⟨hbase, fun e _ he => absurd he (by omega), fun _ _ => rfl⟩
    | succ n ih =>
      intro hn
      obtain ⟨i1, i2, i3⟩ := ih (by omega)
      by_cases hm : n ∈ reportEpochs cfg.updateConsoleOutput cfg.epochs
      · obtain ⟨r, -, out, -, hr⟩ := forall₂_mem_left hrep hm
        obtain ⟨-, -, -, -, content, c1, c2⟩ := hone _ _ _ _ _ _ i1 hr
        rw [c2]
        refine ⟨?_, fun e he hen => ?_, fun path hp => ?_⟩
        · rw [Function.update_of_ne (hneb n)]
          exact i1
        · by_cases hne : e = n
          · subst hne
            exact ⟨content, by rw [Function.update_self], c1⟩
          · rw [Function.update_of_ne (fun hc => hne (predictionName_injective (hjoin _ _ hc)))]
            exact i2 e he (by omega)
        · rw [Function.update_of_ne (hp n hm)]
          exact i3 path hp
      · rw [hquiet n (by omega) hm]
        refine ⟨i1, fun e he hen => ?_, i3⟩
        rcases Nat.lt_succ_iff_lt_or_eq.1 hen with h1 | rfl
        · exact i2 e he h1
        · exact absurd he hm
  have hle : ∀ e ∈ reportEpochs cfg.updateConsoleOutput cfg.epochs, e < cfg.epochs := by
    intro e he
    simp only [reportEpochs, List.mem_filter, List.mem_range] at he
    exact he.1
  obtain ⟨g1, g2, g3⟩ := hfiles cfg.epochs le_rfl
  have hall : List.Forall₂ (fun e r => ∃ out, s.losses[e]? = some out ∧
      (ye.length = pts.length ∧ mc.lrNumpy P.base.lr = .ok ()) ∧
      DomainReportAt mc cfg u k pts ye (fun p => pb.actualEps p.1 p.2) e out (st (e + 1)).weights r)
      (reportEpochs cfg.updateConsoleOutput cfg.epochs) s.reports := by
    refine (forall₂_with_mem hrep).imp fun e r ⟨he, out, ho, hr⟩ => ?_
    obtain ⟨r1, -, r3, r4, -⟩ := hone _ _ _ _ _ _ (hfiles e (hle e he).le).1 hr
    exact ⟨out, ho, ⟨r1, r3⟩, r4⟩
  obtain ⟨hrec, hoth, h2⟩ := finishDomain_record mc cfg M u k pts ye (fun p => pb.actualEps p.1 p.2) hjoin hline hmet
    st s R hlen hN (hall.imp fun e r ⟨out, a, b, c⟩ => ⟨out, a, c⟩)
    (fun b hb e he => by
      rw [← hfN, g1] at hb
      obtain rfl := Option.some.inj hb
      rw [← hfN]
      exact g2 e he (hle e he)) h
  have hlast := reportEpochs_last cfg.updateConsoleOutput cfg.epochs (by omega)
  obtain ⟨r, -, out, -, ⟨q1, q2⟩, -⟩ := forall₂_mem_left hall (List.mem_of_getLast? hlast)
  refine ⟨ye, st, s.losses, hye, q1, h2, q2, hu (by omega), h0, hlen, hrun, hrec, fun path hp1 hp2 => ?_⟩
  rw [hoth path hp1, ← hfN]
  exact g3 path hp2

end

/-! ## The objects built before the training -/

lemma prepareDomainModel_ok (mc : Machine) (cfg : InverseConfig) (pb : DomainProblem)
    (src : DomainSource cfg.numSensorPoints) (o : GeometryObject)
    (files : Files) (cells : List Quad) (bd : BdDict) (P : PreparedDomain)
    (h : prepareDomainModel mc cfg pb src o files cells bd = .ok P) :
    P.base.geometry = o ∧ P.base.files = files ∧
    prepareModel mc cfg.forward pb.toProblem cfg.modelArchitecture learningRateFn o files cells bd = .ok P.base ∧
    ∃ (nt nq : ℕ) (S : Fespace2D (ℝ → ℝ → ℝ) ℝ nt nq),
      src.sensors mc.env cfg.meshGenerationMethod pb S o files = .ok (P.sensor, P.geometry) := by
  unfold prepareDomainModel at h
  unfold prepareModel
  split at h
  · exact absurd h (by simp)
  rename_i nq S hS
  split at h
  · exact absurd h (by simp)
  rename_i D S' hD
  split at h
  · exact absurd h (by simp)
  rename_i bdv hbdv
  split at h
  · exact absurd h (by simp)
  rename_i sensor o' hsensor
  split at h
  · exact absurd h (by simp)
  rename_i lr hlr
  split at h
  · exact absurd h (by simp)
  rename_i specs hspecs
  split at h
  · exact absurd h (by simp)
  rename_i inDim hin
  obtain rfl := Except.ok.inj h
  refine ⟨rfl, rfl, ?_, _, _, S', hsensor⟩
  simp only [InverseConfig.forward] at hS ⊢
  rw [hS]
  simp only [hD, hbdv, hlr, hspecs, hin]

lemma prepareDomainModel_of (mc : Machine) (cfg : InverseConfig) (pb : DomainProblem)
    (src : DomainSource cfg.numSensorPoints) (o : GeometryObject)
    (files : Files) (cells : List Quad) (bd : BdDict) (B : Prepared)
    (h : prepareModel mc cfg.forward pb.toProblem cfg.modelArchitecture learningRateFn o files cells bd = .ok B)
    (hs : ∀ (nt nq : ℕ) (S : Fespace2D (ℝ → ℝ → ℝ) ℝ nt nq), ∃ r,
      src.sensors mc.env cfg.meshGenerationMethod pb S o files = .ok r) :
    ∃ P, prepareDomainModel mc cfg pb src o files cells bd = .ok P := by
  unfold prepareModel at h
  unfold prepareDomainModel
  simp only [InverseConfig.forward] at h
  split at h
  · exact absurd h (by simp)
  rename_i nq S hS
  split at h
  · exact absurd h (by simp)
  rename_i D S' hD
  split at h
  · exact absurd h (by simp)
  rename_i bdv hbdv
  split at h
  · exact absurd h (by simp)
  rename_i lr hlr
  split at h
  · exact absurd h (by simp)
  rename_i specs hspecs
  split at h
  · exact absurd h (by simp)
  rename_i inDim hin
  obtain ⟨r, hr⟩ := hs _ _ S'
  rw [hS]
  simp only [hD, hbdv, hr, hlr, hspecs, hin]
  exact ⟨_, rfl⟩

/-- Everything before the training (mesh file): what the forward scripts on a mesh file build, and the sensors. -/
lemma prepareDomain_ok (mc : Machine) (cfg : InverseConfig) (pb : DomainProblem)
    (src : DomainSource cfg.numSensorPoints) (sample : Fin 4 → Fin (cfg.nBoundaryPoints / 4) → ℝ)
    (lhs : ℕ → Fin (2 ^ cfg.boundaryRefinementLevel + 1) → ℝ × ℝ) (files : Files) (P : PreparedDomain)
    (hmet : cfg.meshGenerationMethod = "external")
    (h : prepareDomain mc cfg pb src sample lhs files = .ok P) :
    prepareExternal mc cfg.forward pb.toProblem cfg.modelArchitecture lhs files = .ok P.base ∧
    ∃ (nt nq : ℕ) (S : Fespace2D (ℝ → ℝ → ℝ) ℝ nt nq),
      src.sensors mc.env "external" pb S P.base.geometry P.base.files = .ok (P.sensor, P.geometry) := by
  unfold prepareDomain at h
  unfold prepareExternal
  by_cases hd : cfg.dtype ∈ ["float64", "float32"]
  swap
  · rw [if_pos hd] at h
    exact absurd h (by simp)
  rw [if_neg (not_not.2 hd)] at h
  rw [if_neg (show ¬(cfg.forward.dtype ∉ ["float64", "float32"]) from not_not.2 hd)]
  split at h
  · exact absurd h (by simp)
  rename_i o ho
  rw [if_pos hmet] at h
  rw [show newGeometry cfg.forward.meshType cfg.forward.meshGenerationMethod cfg.forward.nTestPointsX
    cfg.forward.nTestPointsY cfg.forward.outputPath false = .ok o from ho]
  dsimp only
  split at h
  · exact absurd h (by simp)
  · rename_i cells bd o' files' hg
    obtain ⟨h1, h2, h3, h4⟩ := prepareDomainModel_ok mc cfg pb src o' files' cells (bdPairs bd) P h
    rw [hmet] at h4
    rw [h1, h2]
    refine ⟨?_, h4⟩
    rw [show GeometryObject.readMesh mc.env o files cfg.forward.meshFileName cfg.forward.boundaryRefinementLevel
      cfg.forward.boundarySamplingMethod lhs = _ from hg]
    exact h3
  · exact absurd h (by simp)

lemma prepareDomain_of (mc : Machine) (cfg : InverseConfig) (pb : DomainProblem)
    (src : DomainSource cfg.numSensorPoints) (sample : Fin 4 → Fin (cfg.nBoundaryPoints / 4) → ℝ)
    (lhs : ℕ → Fin (2 ^ cfg.boundaryRefinementLevel + 1) → ℝ × ℝ) (files : Files) (B : Prepared)
    (hmet : cfg.meshGenerationMethod = "external")
    (h : prepareExternal mc cfg.forward pb.toProblem cfg.modelArchitecture lhs files = .ok B)
    (hs : ∀ (nt nq : ℕ) (S : Fespace2D (ℝ → ℝ → ℝ) ℝ nt nq), ∃ r,
      src.sensors mc.env "external" pb S B.geometry B.files = .ok r) :
    ∃ P, prepareDomain mc cfg pb src sample lhs files = .ok P := by
  unfold prepareExternal at h
  unfold prepareDomain
  by_cases hd : cfg.dtype ∈ ["float64", "float32"]
  swap
  · rw [if_pos (show cfg.forward.dtype ∉ ["float64", "float32"] from hd)] at h
    exact absurd h (by simp)
  rw [if_neg (not_not.2 hd)]
  rw [if_neg (show ¬(cfg.forward.dtype ∉ ["float64", "float32"]) from not_not.2 hd)] at h
  split at h
  · exact absurd h (by simp)
  rename_i o ho
  rw [show newGeometry cfg.meshType cfg.meshGenerationMethod cfg.nTestPointsX cfg.nTestPointsY cfg.outputPath false
    = .ok o from ho]
  dsimp only
  rw [if_pos hmet]
  split at h
  · exact absurd h (by simp)
  · rename_i cells bd o' files' hg
    rw [show GeometryObject.readMesh mc.env o files cfg.meshFileName cfg.boundaryRefinementLevel
      cfg.boundarySamplingMethod lhs = _ from hg]
    dsimp only
    have hB : B.geometry = o' ∧ B.files = files' := by
      unfold prepareModel at h
      split at h
      · exact absurd h (by simp)
      split at h
      · exact absurd h (by simp)
      split at h
      · exact absurd h (by simp)
      split at h
      · exact absurd h (by simp)
      split at h
      · exact absurd h (by simp)
      split at h
      · exact absurd h (by simp)
      obtain rfl := Except.ok.inj h
      exact ⟨rfl, rfl⟩
    rw [hB.1, hB.2, ← hmet] at hs
    exact prepareDomainModel_of mc cfg pb src o' files' cells (bdPairs bd) B h hs
  · exact absurd h (by simp)

/-- The sensors on a mesh file with points `pts`. -/
def SensorsAre {n : ℕ} (src : DomainSource n) (pb : DomainProblem) (pts : List (ℝ × ℝ))
    (sensor : List (ℝ × ℝ) × List ℝ) : Prop :=
  match src with
  | .usa shuffle => sensor = ((shuffle pts).take n, ((shuffle pts).take n).map fun p => pb.exactSolution p.1 p.2)
  | .circle csv _ randint => getSensorDataExternal pb.exactSolution n (some csv) randint = .ok sensor

lemma sensors_external {n : ℕ} (src : DomainSource n) (env : MeshFiles) (pb : DomainProblem) {nt nq : ℕ}
    (S : Fespace2D (ℝ → ℝ → ℝ) ℝ nt nq) (o o' : GeometryObject) (files : Files) (pts : List (ℝ × ℝ))
    (sensor : List (ℝ × ℝ) × List ℝ)
    (hpts : o.getTestPoints env files = (.ok (.points pts), o, files))
    (h : src.sensors env "external" pb S o files = .ok (sensor, o')) :
    o' = o ∧ SensorsAre src pb pts sensor := by
  cases src with
  | usa shuffle =>
    simp only [DomainSource.sensors, hpts] at h
    obtain ⟨h1, h2⟩ := Prod.mk.inj (Except.ok.inj h)
    exact ⟨h2.symm, h1.symm⟩
  | circle csv lhs randint =>
    simp only [DomainSource.sensors] at h
    split at h
    · exact absurd h (by simp)
    rename_i s hs
    obtain ⟨h1, h2⟩ := Prod.mk.inj (Except.ok.inj h)
    subst h1
    refine ⟨h2.symm, ?_⟩
    simpa [SensorsAre, getSensorData] using hs

/-! ## The model -/

lemma domain_step (P : PreparedDomain) (mc : Machine) (cfg : InverseConfig) (pb : DomainProblem) (d : ℕ)
    (hin : P.base.inDim = 2) (s : TrainState) :
    (P.model mc cfg pb d).step s = trainStepWith (forwardInverseDomain (pb.loss P.base.data.nCells P.base.nt P.base.nq)
      (modelDataOf P.base.data P.base.dirichlet P.base.nCells) mc.act mc.attention cfg.useAttention
      P.base.inDim P.base.specs d cfg.beta (some pb.bilinearParams)
      (fun i => P.sensor.1.get i) (fun i => P.sensor.2.getD i.val 0))
      (trainableVariables P.base.inDim P.base.specs []) P.base.lr s := by
  simp only [PreparedDomain.model, if_pos hin, paramsAsTensors_eq]

lemma domain_step_dims (P : PreparedDomain) (mc : Machine) (cfg : InverseConfig) (pb : DomainProblem) (d : ℕ)
    (s : TrainState) (r : TrainOutInverse 1 × TrainState) (h : (P.model mc cfg pb d).step s = .ok r) :
    P.base.inDim = 2 ∧ 2 ≤ d := by
  simp only [PreparedDomain.model] at h
  split_ifs at h with hin
  refine ⟨hin, ?_⟩
  by_contra hd
  simp only [trainStepWith, forwardInverseDomain, trainStepInverseDomain, dif_neg hd] at h
  exact absurd h (by simp)

lemma domain_call (P : PreparedDomain) (mc : Machine) (cfg : InverseConfig) (pb : DomainProblem)
    (dims : List ℕ) (hatt : cfg.useAttention = true → mc.attention = attentionDot) (hin : P.base.inDim = 2) (h2 : 2 ≤ dims.length)
    (hs : layerSpecs dims cfg.activation = .ok P.base.specs) (h0 : dims.getD 0 0 = 2) (d : ℕ)
    (hl : 2 ≤ dims.getD (dims.length - 1) 0) (pts : List (ℝ × ℝ)) (θ : Weights) :
    ∃ b, (P.model mc cfg pb d).call θ (pts.map fun p => [p.1, p.2]) = .ok b ∧
      batchColumn b 0 = .ok (pts.map (batchOutput cfg.useAttention pts (mc.act cfg.activation) dims θ 0)) ∧
      batchColumn b 1 = .ok (pts.map (batchOutput cfg.useAttention pts (mc.act cfg.activation) dims θ 1)) := by
  simp only [PreparedDomain.model, hin]
  rw [callDense_batchOutputs mc.act mc.attention cfg.useAttention hatt dims cfg.activation P.base.specs h2 hs h0 θ pts]
  exact ⟨_, rfl, batchColumn_ofFn pts _ _ 0 (by omega), batchColumn_ofFn pts _ _ 1 (by omega)⟩

lemma domain_floats (P : PreparedDomain) (mc : Machine) (cfg : InverseConfig) (pb : DomainProblem) (d : ℕ)
    (out : TrainOutInverse 1) :
    (P.model mc cfg pb d).floats out = .ok (out.lossPde, out.lossDirichlet 0, out.loss 0) := rfl

lemma domain_lossLine (P : PreparedDomain) (mc : Machine) (cfg : InverseConfig) (pb : DomainProblem) (d : ℕ)
    (fmt : ℝ → String) (out : TrainOutInverse 1) :
    (P.model mc cfg pb d).lossLine fmt out = fmt (out.loss 0) := by
  simp only [PreparedDomain.model, List.ofFn_succ, List.ofFn_zero]
  rfl

/-! ## The record -/

/-- What a finished run on a mesh file is, for either script. -/
lemma domain_external (mc : Machine) (pb : DomainProblem) (cfg : InverseConfig)
    (src : DomainSource cfg.numSensorPoints) (sample : Fin 4 → Fin (cfg.nBoundaryPoints / 4) → ℝ)
    (lhs : ℕ → Fin (2 ^ cfg.boundaryRefinementLevel + 1) → ℝ × ℝ) (θ : Weights) (files : Files) (R : DomainResult)
    (hatt : cfg.useAttention = true → mc.attention = attentionDot) (hmet : cfg.meshGenerationMethod = "external")
    (hdepth : 2 ≤ cfg.modelArchitecture.length)
    (hjoin : ∀ a b, mc.env.join cfg.outputPath a = mc.env.join cfg.outputPath b → a = b)
    (hvtk : ∀ m, mc.env.read files cfg.meshFileName = .ok m → VtkRoundTrip mc.env m)
    (h : mainDomain mc pb cfg src sample lhs θ files = .ok R) :
    ∃ (m : MeshioMesh) (cells : List Quad) (bd : List (ℤ × List (List ℝ)))
      (mp : List (ℝ × ℝ)) (nq : ℕ) (S S' : Fespace2D (ℝ → ℝ → ℝ) ℝ (cfg.feOrder.toNat ^ 2) nq)
      (D : DataHandler2D (cfg.feOrder.toNat ^ 2) nq) (bdv : List (ℝ × ℝ) × List ℝ) (specs : List LayerSpec)
      (lr : LearningRate) (sensor : List (ℝ × ℝ) × List ℝ) (exact : List ℝ) (st : ℕ → TrainState)
      (outs : List (TrainOutInverse 1)),
      (cfg.modelArchitecture.getD 0 0 = 2 ∧
        2 ≤ cfg.modelArchitecture.getD (cfg.modelArchitecture.length - 1) 0) ∧ 2 ≤ cfg.epochs ∧
      mc.env.read files cfg.meshFileName = .ok m ∧
      readMesh (mc.env.read files) cfg.meshFileName cfg.boundaryRefinementLevel cfg.boundarySamplingMethod lhs
        = .ok (cells, bd) ∧
      Assembled mc cfg.forward pb.toProblem cfg.modelArchitecture mp cells (bdPairs bd) S S' D bdv specs ∧
      learningRateFn cfg.learningRate = .ok lr ∧ mc.lrNumpy lr = .ok () ∧ cfg.updateConsoleOutput ≠ 0 ∧
      SensorsAre src pb (planePoints m) sensor ∧
      src.exact pb (planePoints m) = .ok exact ∧ exact.length = (planePoints m).length ∧
      st 0 = ⟨θ, AdamState.init⟩ ∧ outs.length = cfg.epochs ∧
      IsRun (trainStepWith (forwardInverseDomain (pb.loss D.nCells _ nq) (modelDataOf D bdv cells.length) mc.act
        mc.attention cfg.useAttention 2 specs (cfg.modelArchitecture.getD (cfg.modelArchitecture.length - 1) 0) cfg.beta
        (some pb.bilinearParams) (fun i => sensor.1.get i) (fun i => sensor.2.getD i.val 0))
        (trainableVariables 2 specs []) lr) st outs ∧
      IsDomainRecord mc cfg (planePoints m) exact (fun p => pb.actualEps p.1 p.2)
        (fun θ => batchOutput cfg.useAttention (planePoints m) (mc.act cfg.activation) cfg.modelArchitecture θ 0)
        (fun θ => batchOutput cfg.useAttention (planePoints m) (mc.act cfg.activation) cfg.modelArchitecture θ 1) st outs R ∧
      R.files (mc.env.join cfg.outputPath "external.vtk") = some (mc.env.vtk m) ∧
      ∀ path, (∀ name ∈ "external.vtk" :: domainNames, path ≠ mc.env.join cfg.outputPath name) →
        (∀ e ∈ reportEpochs cfg.updateConsoleOutput cfg.epochs,
          path ≠ mc.env.join cfg.outputPath ("prediction_" ++ toString (e + 1) ++ ".vtk")) →
        R.files path = files path := by
  unfold mainDomain at h
  split at h
  · exact absurd h (by simp)
  rename_i P hP
  obtain ⟨hE, nt₀, nq₀, S₀, hsen⟩ := prepareDomain_ok mc cfg pb src sample lhs files P hmet hP
  obtain ⟨o', m, cells, bd, mp, nq, S, S', D, bdv, lr, specs, inDim, -, -, h1, h2, h3, h4, h5, h6, h7, h8, h9, -⟩ :=
    prepareExternal_ok mc cfg.forward pb.toProblem _ lhs files P.base hmet hvtk hE
  obtain ⟨base, sensor, geometry⟩ := P
  dsimp only at h6 hE hsen h9
  subst h6
  dsimp only at hsen h9
  obtain ⟨rfl, hsensor⟩ := sensors_external src mc.env pb S₀ o' geometry _ (planePoints m) sensor h9 hsen
  -- the dimensions
  have hdims : inDim = 2 ∧ 2 ≤ outDim specs := by
    unfold runDomain at h
    dsimp only at h
    rw [h9] at h
    dsimp only at h
    split at h
    · exact absurd h (by simp)
    split at h
    · exact absurd h (by simp)
    split at h
    · exact absurd h (by simp)
    rename_i s hs
    obtain ⟨hu, hlen, st, fs, h0, hN, hf0, hfN, hrun, hrep, hquiet⟩ := epochLoop_ok _ _ _ _ _ _ rfl rfl hs
    rcases Nat.eq_zero_or_pos cfg.epochs with h1 | h1
    · rw [h1] at hrep
      have h2 : reportEpochs cfg.updateConsoleOutput 0 = [] := rfl
      rw [h2, List.forall₂_nil_left_iff] at hrep
      unfold finishDomain at h
      rw [hrep] at h
      exact absurd h (by simp)
    · exact domain_step_dims _ mc cfg pb _ _ _ (hrun 0 (by omega))
  obtain ⟨rfl, hout⟩ := hdims
  rw [outDim_layerSpecs _ _ _ h3.layers] at hout
  have hd0 : cfg.modelArchitecture.getD 0 0 = 2 := by
    rw [pyIndex_zero, List.head?_eq_getElem?] at h5
    rw [List.getD_eq_getElem?_getD, h5]
    rfl
  have hcall := domain_call ⟨⟨_, nq, D, bdv, cells.length, 2, specs, lr, geometry,
    writeFile files (mc.env.join cfg.outputPath "external.vtk") (mc.env.vtk m)⟩, sensor, geometry⟩ mc cfg pb
    cfg.modelArchitecture hatt rfl hdepth h3.layers hd0 (outDim specs) hout (planePoints m)
  obtain ⟨ye, st, outs, k1, k2, k3, k4, k5, k6, k7, k8, k9, k10⟩ := runDomain_record mc cfg _
    (fun θ => batchOutput cfg.useAttention (planePoints m) (mc.act cfg.activation) cfg.modelArchitecture θ 0)
    (fun θ => batchOutput cfg.useAttention (planePoints m) (mc.act cfg.activation) cfg.modelArchitecture θ 1) (planePoints m) hjoin pb src
    _ geometry hcall (domain_floats _ mc cfg pb _) (domain_lossLine _ mc cfg pb _) hmet h9 (by rw [h7]; decide) h8
    (mc.env.vtk m) (by exact writeFile_same _ _ _) θ R h
  refine ⟨m, cells, bd, mp, nq, S, S', D, bdv, specs, lr, sensor, ye, st, outs, ⟨hd0, hout⟩, k3, h1, h2, h3, h4, k4, k5,
    hsensor, k1, k2, k6, k7, ?_, k9, ?_, fun path hp1 hp2 => ?_⟩
  · intro k hk
    have := k8 k hk
    rw [domain_step _ mc cfg pb _ rfl] at this
    rw [outDim_layerSpecs _ _ _ h3.layers] at this
    exact this
  · rw [k10 _ (fun name hn hc => ?_) (fun e _ hc => predictionName_base e (hjoin _ _ hc).symm)]
    · exact writeFile_same _ _ _
    · have := hjoin _ _ hc
      subst this
      exact absurd hn (by decide)
  · rw [k10 path (fun name hn => hp1 name (List.mem_cons_of_mem _ hn)) hp2]
    exact writeFile_other _ _ _ _ (hp1 _ (by simp))

/-- **C79** (record, first script).  Whenever the script `main_inverse_domain_usa.py` with a mesh file finishes, the
network has two inputs and at least two outputs and there are at least two epochs.  Output 0, the solution, and output
1, the coefficient, have been trained with the loss, tensors, boundary data and learning rate assembled from the
configuration for the cells and boundary points read from the mesh file.  The sensors are the configured number of
points of the mesh (or all, if there are fewer), none more often than in the mesh, and their values are those of the
exact solution.  Everything left behind belongs to this training; for every report there is a VTK file with solution
and coefficient, their targets and errors at the points of the mesh.  Apart from these, the eight text files and
`external.vtk`, no file has changed. -/
theorem C79_usa (mc : Machine) (pb : DomainProblem) (cfg : InverseConfig)
    (shuffle : List (ℝ × ℝ) → List (ℝ × ℝ)) (hshuffle : ∀ l, (shuffle l).Perm l)
    (sample : Fin 4 → Fin (cfg.nBoundaryPoints / 4) → ℝ)
    (lhs : ℕ → Fin (2 ^ cfg.boundaryRefinementLevel + 1) → ℝ × ℝ) (θ : Weights) (files : Files) (R : DomainResult)
    (hatt : cfg.useAttention = true → mc.attention = attentionDot) (hmet : cfg.meshGenerationMethod = "external")
    (hdepth : 2 ≤ cfg.modelArchitecture.length)
    (hjoin : ∀ a b, mc.env.join cfg.outputPath a = mc.env.join cfg.outputPath b → a = b)
    (hvtk : ∀ m, mc.env.read files cfg.meshFileName = .ok m → VtkRoundTrip mc.env m)
    (h : mainUsa mc pb cfg shuffle sample lhs θ files = .ok R) :
    ∃ (m : MeshioMesh) (cells : List Quad) (bd : List (ℤ × List (List ℝ)))
      (mp : List (ℝ × ℝ)) (nq : ℕ) (S S' : Fespace2D (ℝ → ℝ → ℝ) ℝ (cfg.feOrder.toNat ^ 2) nq)
      (D : DataHandler2D (cfg.feOrder.toNat ^ 2) nq) (bdv : List (ℝ × ℝ) × List ℝ) (specs : List LayerSpec)
      (lr : LearningRate) (sensors : List (ℝ × ℝ)) (st : ℕ → TrainState) (outs : List (TrainOutInverse 1)),
      (cfg.modelArchitecture.getD 0 0 = 2 ∧
        2 ≤ cfg.modelArchitecture.getD (cfg.modelArchitecture.length - 1) 0) ∧ 2 ≤ cfg.epochs ∧
      mc.env.read files cfg.meshFileName = .ok m ∧
      readMesh (mc.env.read files) cfg.meshFileName cfg.boundaryRefinementLevel cfg.boundarySamplingMethod lhs
        = .ok (cells, bd) ∧
      Assembled mc cfg.forward pb.toProblem cfg.modelArchitecture mp cells (bdPairs bd) S S' D bdv specs ∧
      learningRateFn cfg.learningRate = .ok lr ∧
      sensors.length = min cfg.numSensorPoints (planePoints m).length ∧ sensors.Subperm (planePoints m) ∧
      st 0 = ⟨θ, AdamState.init⟩ ∧ outs.length = cfg.epochs ∧
      IsRun (trainStepWith (forwardInverseDomain (pb.loss D.nCells _ nq) (modelDataOf D bdv cells.length) mc.act
        mc.attention cfg.useAttention 2 specs (cfg.modelArchitecture.getD (cfg.modelArchitecture.length - 1) 0) cfg.beta
        (some pb.bilinearParams) (fun i => sensors.get i)
        (fun i => pb.exactSolution (sensors.get i).1 (sensors.get i).2)) (trainableVariables 2 specs []) lr) st outs ∧
      IsDomainRecord mc cfg (planePoints m) ((planePoints m).map fun p => pb.exactSolution p.1 p.2)
        (fun p => pb.actualEps p.1 p.2)
        (fun θ => batchOutput cfg.useAttention (planePoints m) (mc.act cfg.activation) cfg.modelArchitecture θ 0)
        (fun θ => batchOutput cfg.useAttention (planePoints m) (mc.act cfg.activation) cfg.modelArchitecture θ 1) st outs R ∧
      R.files (mc.env.join cfg.outputPath "external.vtk") = some (mc.env.vtk m) ∧
      ∀ path, (∀ name ∈ "external.vtk" :: domainNames, path ≠ mc.env.join cfg.outputPath name) →
        (∀ e ∈ reportEpochs cfg.updateConsoleOutput cfg.epochs,
          path ≠ mc.env.join cfg.outputPath ("prediction_" ++ toString (e + 1) ++ ".vtk")) →
        R.files path = files path := by
  obtain ⟨m, cells, bd, mp, nq, S, S', D, bdv, specs, lr, sensor, exact, st, outs, h1, h2, h3, h4, h5, h6, -, -, h7, h8, -,
    h9, h10, h11, h12, h13, h14⟩ := domain_external mc pb cfg (.usa shuffle) sample lhs θ files R hatt hmet hdepth hjoin
      hvtk h
  simp only [SensorsAre] at h7
  obtain rfl := Except.ok.inj h8
  refine ⟨m, cells, bd, mp, nq, S, S', D, bdv, specs, lr, sensor.1, st, outs, h1, h2, h3, h4, h5, h6, ?_, ?_, h9, h10, ?_,
    h12, h13, h14⟩
  · rw [h7]
    simp only [List.length_take, (hshuffle (planePoints m)).length_eq]
  · rw [h7]
    exact (List.take_sublist _ _).subperm.trans (hshuffle _).subperm
  · rw [show (fun i : Fin sensor.1.length => pb.exactSolution (sensor.1.get i).1 (sensor.1.get i).2)
      = fun i : Fin sensor.1.length => sensor.2.getD i.val 0 from funext fun i => ?_]
    · exact h11
    · rw [show sensor.2 = sensor.1.map fun p => pb.exactSolution p.1 p.2 by rw [h7],
        getD_map_pts sensor.1 _ i.isLt, List.getD_eq_getElem _ _ i.isLt]
      rfl

lemma forward_cast {n n' : ℕ} (h : n = n') {nc nt nq nIn nBd : ℕ} (L : LossFunction nc nt nq) (M : ModelData nc nt nq nIn nBd)
    (act : String → ℝ → ℝ) (attention : Batch → Except PyErr Batch) (b : Bool) (inDim : ℕ) (specs : List LayerSpec)
    (d : ℕ) (beta : ℝ) (p : ParamDict) (sp : Fin n → ℝ × ℝ) (sv : Fin n → ℝ) :
    forwardInverseDomain L M act attention b inDim specs d beta p sp sv
      = forwardInverseDomain L M act attention b inDim specs d beta p (fun i => sp (i.cast h.symm))
        (fun i => sv (i.cast h.symm)) := by
  subst h
  rfl

/-- **C79** (record, second script).  The same for `main_inverse_domain_circle.py`, except that sensors and exact
values are those of the CSV file: sensor `i` is the drawn line of the file, the first line being left out of the draw,
with its value; errors are computed against the third column of all lines, of which there are as many as points of the
mesh.  The exact solution of the example file is not used. -/
theorem C79_circle (mc : Machine) (pb : DomainProblem) (cfg : InverseConfig)
    (csv : List (ℝ × ℝ × ℝ)) (sensorLhs : (k : ℕ) → Fin k → ℝ × ℝ) (randint : ℕ → Fin cfg.numSensorPoints → ℤ)
    (hrand : ∀ m i, 0 < m → 0 ≤ randint m i ∧ randint m i < m)
    (sample : Fin 4 → Fin (cfg.nBoundaryPoints / 4) → ℝ)
    (lhs : ℕ → Fin (2 ^ cfg.boundaryRefinementLevel + 1) → ℝ × ℝ) (θ : Weights) (files : Files) (R : DomainResult)
    (hatt : cfg.useAttention = true → mc.attention = attentionDot) (hmet : cfg.meshGenerationMethod = "external")
    (hdepth : 2 ≤ cfg.modelArchitecture.length)
    (hjoin : ∀ a b, mc.env.join cfg.outputPath a = mc.env.join cfg.outputPath b → a = b)
    (hvtk : ∀ m, mc.env.read files cfg.meshFileName = .ok m → VtkRoundTrip mc.env m)
    (h : mainCircle mc pb cfg csv sensorLhs randint sample lhs θ files = .ok R) :
    ∃ (m : MeshioMesh) (cells : List Quad) (bd : List (ℤ × List (List ℝ)))
      (mp : List (ℝ × ℝ)) (nq : ℕ) (S S' : Fespace2D (ℝ → ℝ → ℝ) ℝ (cfg.feOrder.toNat ^ 2) nq)
      (D : DataHandler2D (cfg.feOrder.toNat ^ 2) nq) (bdv : List (ℝ × ℝ) × List ℝ) (specs : List LayerSpec)
      (lr : LearningRate) (rows : Fin cfg.numSensorPoints → ℝ × ℝ × ℝ) (st : ℕ → TrainState)
      (outs : List (TrainOutInverse 1)),
      (cfg.modelArchitecture.getD 0 0 = 2 ∧
        2 ≤ cfg.modelArchitecture.getD (cfg.modelArchitecture.length - 1) 0) ∧ 2 ≤ cfg.epochs ∧
      mc.env.read files cfg.meshFileName = .ok m ∧
      readMesh (mc.env.read files) cfg.meshFileName cfg.boundaryRefinementLevel cfg.boundarySamplingMethod lhs
        = .ok (cells, bd) ∧
      Assembled mc cfg.forward pb.toProblem cfg.modelArchitecture mp cells (bdPairs bd) S S' D bdv specs ∧
      learningRateFn cfg.learningRate = .ok lr ∧ csv.length = (planePoints m).length ∧ 2 ≤ csv.length ∧
      (∀ i, csv[1 + (randint (csv.length - 1) i).toNat]? = some (rows i)) ∧
      st 0 = ⟨θ, AdamState.init⟩ ∧ outs.length = cfg.epochs ∧
      IsRun (trainStepWith (forwardInverseDomain (pb.loss D.nCells _ nq) (modelDataOf D bdv cells.length) mc.act
        mc.attention cfg.useAttention 2 specs (cfg.modelArchitecture.getD (cfg.modelArchitecture.length - 1) 0) cfg.beta
        (some pb.bilinearParams) (fun i => ((rows i).1, (rows i).2.1)) (fun i => (rows i).2.2))
        (trainableVariables 2 specs []) lr) st outs ∧
      IsDomainRecord mc cfg (planePoints m) (csv.map fun r => r.2.2) (fun p => pb.actualEps p.1 p.2)
        (fun θ => batchOutput cfg.useAttention (planePoints m) (mc.act cfg.activation) cfg.modelArchitecture θ 0)
        (fun θ => batchOutput cfg.useAttention (planePoints m) (mc.act cfg.activation) cfg.modelArchitecture θ 1) st outs R ∧
      R.files (mc.env.join cfg.outputPath "external.vtk") = some (mc.env.vtk m) ∧
      ∀ path, (∀ name ∈ "external.vtk" :: domainNames, path ≠ mc.env.join cfg.outputPath name) →
        (∀ e ∈ reportEpochs cfg.updateConsoleOutput cfg.epochs,
          path ≠ mc.env.join cfg.outputPath ("prediction_" ++ toString (e + 1) ++ ".vtk")) →
        R.files path = files path := by
  obtain ⟨m, cells, bd, mp, nq, S, S', D, bdv, specs, lr, sensor, exact, st, outs, h1, h2, h3, h4, h5, h6, -, -, h7, h8, h8',
    h9, h10, h11, h12, h13, h14⟩ := domain_external mc pb cfg (.circle csv sensorLhs randint) sample lhs θ files R hatt hmet
      hdepth hjoin hvtk h
  simp only [SensorsAre] at h7
  have hc := C40_external S' pb.exactSolution cfg.numSensorPoints sensorLhs (some csv) randint hrand
  have hget : getSensorData S' pb.exactSolution cfg.numSensorPoints "external" sensorLhs (some csv) randint = .ok sensor := by
    simpa [getSensorData] using h7
  match hcsv : csv with
  | [] =>
    rw [hc.2 (by rintro _ ⟨rfl⟩; simp)] at hget
    exact absurd hget (by simp)
  | [r] =>
    rw [hc.2 (by rintro _ ⟨rfl⟩; simp)] at hget
    exact absurd hget (by simp)
  | first :: a :: df =>
    obtain ⟨pts, vals, c1, c2, c3, c4⟩ := hc.1 first (a :: df) rfl (by simp)
    obtain rfl := Except.ok.inj ((c1 pb.exactSolution first).symm.trans hget)
    choose rows r1 r2 r3 using c4
    rw [DomainSource.exact, if_neg (by simp)] at h8
    obtain rfl := Except.ok.inj h8
    refine ⟨m, cells, bd, mp, nq, S, S', D, bdv, specs, lr, rows, st, outs, h1, h2, h3, h4, h5, h6, ?_, by simp, fun i => ?_,
      h9, h10, ?_, h12, h13, h14⟩
    · simpa using h8'
    · rw [← r1 i, add_comm, List.getElem?_cons_succ]
      rfl
    · dsimp only at h11
      rw [forward_cast c2] at h11
      rw [show (fun i => ((rows i).1, (rows i).2.1)) = fun i : Fin cfg.numSensorPoints => pts.get (i.cast c2.symm) from
        funext fun i => ?_, show (fun i => (rows i).2.2) = fun i : Fin cfg.numSensorPoints => vals.getD (i.cast c2.symm).val 0
        from funext fun i => ?_]
      · exact h11
      · rw [List.getD_eq_getElem?_getD]
        show _ = (vals[i.val]?).getD 0
        rw [r3 i]
        rfl
      · have := r2 i
        rw [List.getElem?_eq_getElem (by rw [c2]; exact i.isLt)] at this
        exact (Option.some.inj this).symm

lemma networkOutput_rows (mc : Machine) (a : String) (dims : List ℕ) (specs : List LayerSpec) (h : 2 ≤ dims.length)
    (hs : layerSpecs dims a = .ok specs) (h0 : dims.getD 0 0 = 2) (θ : Weights) :
    RowWise (networkAt mc.act mc.attention false 2 specs (dims.getD (dims.length - 1) 0) θ)
      (fun j => networkOutput (mc.act a) dims θ j) :=
  networkAt_outputs mc.act mc.attention dims a specs h hs h0 _ rfl θ

/-- **C79** (the losses, without attention layer).  In every epoch the PDE loss is that of output 0 of the network with output 1 as diffusion
coefficient and the velocity and reaction of the problem, the boundary and sensor losses are the mean squared errors of
output 0 at the boundary points and at the sensors, and the total loss is `PDE + beta * boundary + 10 * sensors`, all
for the weights before the epoch; the step succeeds exactly if `b_x`, `b_y` and `c` are given.  Further outputs of the
network have no influence. -/
theorem C79_losses (mc : Machine) (pb : DomainProblem) (cfg : InverseConfig)
    (hloss : ∀ nc nt nq, pb.loss nc nt nq = lossCd2dInverseDomain nc nt nq)
    (dims : List ℕ) (h2 : 2 ≤ dims.length)
    (h0 : dims.getD 0 0 = 2) (hl : 2 ≤ dims.getD (dims.length - 1) 0) (mp : List (ℝ × ℝ)) (cells : List Quad)
    (bd : BdDict) (nq : ℕ) (S S' : Fespace2D (ℝ → ℝ → ℝ) ℝ (cfg.feOrder.toNat ^ 2) nq)
    (D : DataHandler2D (cfg.feOrder.toNat ^ 2) nq) (bdv : List (ℝ × ℝ) × List ℝ) (specs : List LayerSpec)
    (hA : Assembled mc cfg.forward pb.toProblem dims mp cells bd S S' D bdv specs) (lr : LearningRate) {nS : ℕ}
    (sensors : Fin nS → ℝ × ℝ) (values : Fin nS → ℝ) :
    ∃ pt, Shaped (modelDataOf D bdv cells.length) pt ∧ ∀ s : TrainState,
      ((∃ r, trainStepWith (forwardInverseDomain (pb.loss D.nCells _ nq) (modelDataOf D bdv cells.length) mc.act
        mc.attention false 2 specs (dims.getD (dims.length - 1) 0) cfg.beta (some pb.bilinearParams) sensors values)
        (trainableVariables 2 specs []) lr s = .ok r) ↔
        ∀ k ∈ ["b_x", "b_y", "c"], ∃ v, pb.bilinearParams.lookup k = some v) ∧
      ∀ out s', trainStepWith (forwardInverseDomain (pb.loss D.nCells _ nq) (modelDataOf D bdv cells.length) mc.act
        mc.attention false 2 specs (dims.getD (dims.length - 1) 0) cfg.beta (some pb.bilinearParams) sensors values)
        (trainableVariables 2 specs []) lr s = .ok (out, s') →
        ∃ bx b2 r, pb.bilinearParams.lookup "b_x" = some bx ∧ pb.bilinearParams.lookup "b_y" = some b2 ∧
          pb.bilinearParams.lookup "c" = some r ∧
          out.lossPde = pdeLoss (modelDataOf D bdv cells.length) pt
            (networkOutput (mc.act cfg.activation) dims s.weights 0)
            (fun c q => networkOutput (mc.act cfg.activation) dims s.weights 1 (pt c q)) (bx, b2) r ∧
          out.lossDirichlet 0 = meanSq (fun i => networkOutput (mc.act cfg.activation) dims s.weights 0
            ((modelDataOf D bdv cells.length).dirichletInput i)
              - (modelDataOf D bdv cells.length).dirichletActual i) ∧
          out.sensorLoss 0 = meanSq (fun i => networkOutput (mc.act cfg.activation) dims s.weights 0 (sensors i)
            - values i) ∧
          out.loss 0 = out.lossPde + cfg.beta * out.lossDirichlet 0 + 10 * out.sensorLoss 0 := by
  obtain ⟨pt, hpt⟩ := shaped_modelData hA.space hA.handler bdv
  rw [(fespace_ok hA.space).2.2.2.2.1] at hpt
  refine ⟨pt, hpt, fun s => ?_⟩
  obtain ⟨c1, c2⟩ := C47_inverse_domain (modelDataOf D bdv cells.length) pt hpt cfg.beta (some pb.bilinearParams)
    sensors values hl _ _ (networkOutput_rows mc cfg.activation dims specs h2 hA.layers h0 s.weights)
  have hpar : ∀ k v, HasParam (some pb.bilinearParams) k v ↔ pb.bilinearParams.lookup k = some v := by
    intro k v
    constructor
    · rintro ⟨l, h1, h2⟩
      rw [Option.some.inj h1]
      exact h2
    · intro h
      exact ⟨_, rfl, h⟩
  simp only [hpar] at c1 c2
  simp only [trainStepWith, forwardInverseDomain, hloss]
  constructor
  · have : (∃ out, trainStepInverseDomain (lossCd2dInverseDomain D.nCells (cfg.feOrder.toNat ^ 2) nq)
        (modelDataOf D bdv cells.length) sensors values
        (networkAt mc.act mc.attention false 2 specs (dims.getD (dims.length - 1) 0) s.weights) cfg.beta
        (some pb.bilinearParams) = .ok out) ↔ ∀ k ∈ ["b_x", "b_y", "c"], ∃ v, pb.bilinearParams.lookup k = some v := by
      rw [c1]
      simp only [List.mem_cons, List.not_mem_nil, or_false, forall_eq_or_imp, forall_eq]
      constructor
      · rintro ⟨a, b, c, h1, h2, h3⟩
        exact ⟨⟨a, h1⟩, ⟨b, h2⟩, c, h3⟩
      · rintro ⟨⟨a, h1⟩, ⟨b, h2⟩, c, h3⟩
        exact ⟨a, b, c, h1, h2, h3⟩
    rw [← this]
    constructor
    · rintro ⟨r, hr⟩
      cases ho : trainStepInverseDomain (lossCd2dInverseDomain D.nCells (cfg.feOrder.toNat ^ 2) nq)
        (modelDataOf D bdv cells.length) sensors values
        (networkAt mc.act mc.attention false 2 specs (dims.getD (dims.length - 1) 0) s.weights) cfg.beta
        (some pb.bilinearParams) with
      | ok out => exact ⟨_, rfl⟩
      | error e => simp [ho] at hr
    · rintro ⟨out, ho⟩
      rw [ho]
      exact ⟨_, rfl⟩
  · intro out s' hr
    cases ho : trainStepInverseDomain (lossCd2dInverseDomain D.nCells (cfg.feOrder.toNat ^ 2) nq)
        (modelDataOf D bdv cells.length) sensors values
        (networkAt mc.act mc.attention false 2 specs (dims.getD (dims.length - 1) 0) s.weights) cfg.beta
        (some pb.bilinearParams) with
    | error e => simp [ho] at hr
    | ok o =>
      simp only [ho, Except.ok.injEq, Prod.mk.injEq] at hr
      obtain ⟨rfl, -⟩ := hr
      obtain ⟨bx, b2, r, e1, e2, e3, e4, e5, e6, e7, -⟩ := c2 _ ho
      exact ⟨bx, b2, r, e1, e2, e3, e4, e5, e6, e7⟩

/-! ## Completion -/

/-- Whatever the network, a step of `DenseModel_Inverse_Domain` succeeds exactly if the parameters are given. -/
lemma domain_step_iff {nc nt nq nIn nBd nS dout : ℕ} (hd : 2 ≤ dout) (L : LossFunction nc nt nq)
    (hL : L = lossCd2dInverseDomain nc nt nq)
    (M : ModelData nc nt nq nIn nBd) (pt : Fin nc → Fin nq → ℝ × ℝ) (hM : Shaped M pt) (act : String → ℝ → ℝ)
    (attention : Batch → Except PyErr Batch) (att : Bool) (specs : List LayerSpec) (beta : ℝ)
    (p : List (String × ℝ)) (sensors : Fin nS → ℝ × ℝ) (values : Fin nS → ℝ) (vars : List Var) (lr : LearningRate)
    (s : TrainState) :
    (∃ r, trainStepWith (forwardInverseDomain L M act attention att 2 specs dout beta (some p) sensors values) vars lr s
      = .ok r) ↔ ∀ k ∈ ["b_x", "b_y", "c"], ∃ v, p.lookup k = some v := by
  subst hL
  obtain ⟨gx, hgx, -⟩ := reshapeCells_ok (nc := nc) (nq := nq) M.nCells
    (fun r => (tapeGradient (ι := Fin nIn) (fun X r => networkAt act attention att 2 specs dout s.weights _ X r
      ⟨0, by omega⟩) M.inputTensor r).1) hM.cells hM.rows
  obtain ⟨gy, hgy, -⟩ := reshapeCells_ok (nc := nc) (nq := nq) M.nCells
    (fun r => (tapeGradient (ι := Fin nIn) (fun X r => networkAt act attention att 2 specs dout s.weights _ X r
      ⟨0, by omega⟩) M.inputTensor r).2) hM.cells hM.rows
  obtain ⟨v, hv, -⟩ := reshapeCells_ok (nc := nc) (nq := nq) M.nCells
    (fun r => networkAt act attention att 2 specs dout s.weights _ M.inputTensor r ⟨0, by omega⟩) hM.cells hM.rows
  obtain ⟨k, hk, -⟩ := reshapeCells_ok (nc := nc) (nq := nq) M.nCells
    (fun r => networkAt act attention att 2 specs dout s.weights _ M.inputTensor r ⟨1, by omega⟩) hM.cells hM.rows
  have hcall : (lossCd2dInverseDomain nc nt nq).call (lossKwargs M v gx gy (some p)
        ++ [("inverse_params_list", .preds [k])])
      = runLoss .cd2dInverseDomain M.preMultiplierVal M.preMultiplierGradX M.preMultiplierGradY v gx gy M.forceMatrix
          (some p) none [k] := rfl
  have hiff : (∃ R, (lossCd2dInverseDomain nc nt nq).call (lossKwargs M v gx gy (some p)
        ++ [("inverse_params_list", .preds [k])]) = .ok R) ↔
      ∀ k ∈ ["b_x", "b_y", "c"], ∃ v, p.lookup k = some v := by
    rw [hcall]
    constructor
    · rintro ⟨R, hR⟩
      obtain ⟨a, b, r, ⟨-, ⟨l1, e1, h1⟩, ⟨l2, e2, h2⟩, ⟨l3, e3, h3⟩⟩, -⟩ := (runLoss_ok_iff _ _ _ _ _ _ _ _ _ _ _ _).1 hR
      obtain rfl := Option.some.inj e1
      obtain rfl := Option.some.inj e2
      obtain rfl := Option.some.inj e3
      simp only [List.mem_cons, List.not_mem_nil, or_false, forall_eq_or_imp, forall_eq]
      exact ⟨⟨_, h1⟩, ⟨_, h2⟩, _, h3⟩
    · intro hp
      obtain ⟨bx, hbx⟩ := hp "b_x" (by simp)
      obtain ⟨b2, hb2⟩ := hp "b_y" (by simp)
      obtain ⟨c, hc⟩ := hp "c" (by simp)
      exact ⟨_, (runLoss_ok_iff .cd2dInverseDomain _ _ _ _ _ _ _ _ _ _ _).2 ⟨k, (bx, b2), c,
        ⟨rfl, ⟨_, rfl, hbx⟩, ⟨_, rfl, hb2⟩, ⟨_, rfl, hc⟩⟩, rfl⟩⟩
  rw [← hiff]
  simp only [trainStepWith, forwardInverseDomain, trainStepInverseDomain, dif_pos hd, hgx, hgy, hv, hk]
  cases (lossCd2dInverseDomain nc nt nq).call (lossKwargs M v gx gy (some p)
        ++ [("inverse_params_list", .preds [k])]) with
  | error e => simp
  | ok R => simp

/-- How the scripts on a mesh file end if the training steps and the errors can be computed and the clock advances. -/
lemma runDomain_outcome (mc : Machine) (cfg : InverseConfig) (M : DriverModel (TrainOutInverse 1))
    (u k : Weights → ℝ × ℝ → ℝ) (pts : List (ℝ × ℝ)) (pb : DomainProblem) (src : DomainSource cfg.numSensorPoints)
    (P : PreparedDomain) (o' : GeometryObject)
    (hcall : ∀ θ, ∃ b, M.call θ (pts.map fun p => [p.1, p.2]) = .ok b ∧ batchColumn b 0 = .ok (pts.map (u θ)) ∧
      batchColumn b 1 = .ok (pts.map (k θ)))
    (hfl : ∀ out, M.floats out = .ok (out.lossPde, out.lossDirichlet 0, out.loss 0))
    (hmet : cfg.meshGenerationMethod = "external")
    (hpts : P.geometry.getTestPoints mc.env P.base.files = (.ok (.points pts), o', P.base.files)) (hne : pts ≠ [])
    (ye : List ℝ) (hye : src.exact pb pts = .ok ye) (hlen : ye.length = pts.length)
    (hjoin : ∀ a b, mc.env.join cfg.outputPath a = mc.env.join cfg.outputPath b → a = b)
    (hext : o'.meshGenerationMethod ≠ "internal") (hfold : o'.outputFolder = cfg.outputPath) (base : List String)
    (hbase : P.base.files (mc.env.join cfg.outputPath "external.vtk") = some base)
    (hstep : ∀ s, ∃ r, M.step s = .ok r) (hclock : ∀ e, 0 < mc.elapsed e) (θ : Weights) :
    (cfg.epochs = 0 → runDomain mc cfg pb src P M θ = .error .nameError) ∧
    (0 < cfg.epochs → cfg.updateConsoleOutput = 0 → runDomain mc cfg pb src P M θ = .error .zeroDivisionError) ∧
    (mc.lrNumpy P.base.lr = .ok () → 0 < cfg.updateConsoleOutput → cfg.epochs = 1 →
      runDomain mc cfg pb src P M θ = .error .indexError) ∧
    (mc.lrNumpy P.base.lr = .ok () → 0 < cfg.updateConsoleOutput → 2 ≤ cfg.epochs →
      ∃ R, runDomain mc cfg pb src P M θ = .ok R) := by
  have hni : ¬cfg.meshGenerationMethod = "internal" := by rw [hmet]; decide
  have hneb : ∀ e, mc.env.join cfg.outputPath "external.vtk" ≠ mc.env.join cfg.outputPath (predictionName e) :=
    fun e hc => predictionName_base e (hjoin _ _ hc).symm
  have hend : mc.lrNumpy P.base.lr = .ok () → 0 < cfg.updateConsoleOutput → 0 < cfg.epochs → ∃ s r, epochLoop M.step
      (reportDomain mc cfg P.base.lr o' M pts ye (pts.map fun p => pb.actualEps p.1 p.2))
      cfg.updateConsoleOutput cfg.epochs (List.range cfg.epochs) ⟨⟨θ, AdamState.init⟩, [], [], P.base.files⟩ = .ok s ∧
      s.losses.length = cfg.epochs ∧ s.reports.getLast? = some r ∧ ∃ w, r.invPred = pts.map (k w) := by
    intro hlr hu h0
    obtain ⟨s, hs, hI, hJ⟩ := epochLoop_invariant (N := cfg.epochs) M.step
      (reportDomain mc cfg P.base.lr o' M pts ye (pts.map fun p => pb.actualEps p.1 p.2)) cfg.updateConsoleOutput hu.ne'
      hstep (fun f => f (mc.env.join cfg.outputPath "external.vtk") = some base)
      (fun r => ∃ w, r.invPred = pts.map (k w))
      (fun e l s f hf => by
        have hT : ∑ k ∈ Finset.Ico (e + 1 - cfg.updateConsoleOutput.toNat) (e + 1), mc.elapsed k ≠ 0 := by
          refine (Finset.sum_pos (fun k _ => hclock k) ?_).ne'
          rw [Finset.nonempty_Ico]
          omega
        obtain ⟨r, f', hr⟩ := reportDomain_succeeds mc cfg P.base.lr o' M u k pts ye (fun p => pb.actualEps p.1 p.2) hcall
          hfl hmet hext hlen hne hlr hu e hT l s f base (by rw [hfold]; exact hf)
        obtain ⟨-, -, -, hat, content, -, hf'⟩ := reportDomain_ok mc cfg P.base.lr o' M u k pts ye
          (fun p => pb.actualEps p.1 p.2) hcall hfl hmet hext e l s f f' base (by rw [hfold]; exact hf) r hr
        refine ⟨r, f', hr, ?_, _, hat.invPred⟩
        rw [hf', Function.update_of_ne (hneb e)]
        exact hf) (List.range cfg.epochs) ⟨⟨θ, AdamState.init⟩, [], [], P.base.files⟩ hbase (by simp)
    obtain ⟨-, hl, st, fs, -, -, -, -, -, hrep, -⟩ := epochLoop_ok _ _ _ _ _ _ rfl rfl hs
    rcases forall₂_getLast hrep with ⟨h1, -⟩ | ⟨a, b, -, h2, -⟩
    · have := reportEpochs_last cfg.updateConsoleOutput cfg.epochs h0
      rw [h1] at this
      exact absurd this (by simp)
    · exact ⟨s, b, hs, hl, h2, hJ b (List.mem_of_getLast? h2)⟩
  unfold runDomain
  rw [hpts]
  dsimp only
  rw [hye]
  dsimp only
  rw [domainContour, if_neg hni]
  dsimp only
  refine ⟨fun h0 => ?_, fun h0 hu => ?_, fun hlr hu h1 => ?_, fun hlr hu h2 => ?_⟩
  · rw [h0]
    rfl
  · obtain ⟨n, hn⟩ := Nat.exists_eq_succ_of_ne_zero h0.ne'
    obtain ⟨⟨l, t⟩, hr⟩ := hstep ⟨θ, AdamState.init⟩
    have : epochLoop M.step (reportDomain mc cfg P.base.lr o' M pts ye (pts.map fun p => pb.actualEps p.1 p.2))
        cfg.updateConsoleOutput cfg.epochs (List.range cfg.epochs) ⟨⟨θ, AdamState.init⟩, [], [], P.base.files⟩
        = .error .zeroDivisionError := by
      rw [hn, List.range_succ_eq_map]
      simp only [epochLoop, epochBody, hr, hu, reportDue, if_true]
    rw [this]
  · obtain ⟨s, r, e1, e2, e3, w, e4⟩ := hend hlr hu (by omega)
    rw [e1]
    simp only [finishDomain, e3, bind, Except.bind, timeColumnInverse, drop_range_map, List.length_map,
      List.length_range, e2, h1]
    rfl
  · obtain ⟨s, r, e1, e2, e3, w, e4⟩ := hend hlr hu (by omega)
    have hT : ∑ e ∈ Finset.range cfg.epochs, mc.elapsed e ≠ 0 := by
      refine (Finset.sum_pos (fun k _ => hclock k) ?_).ne'
      rw [Finset.nonempty_range_iff]
      omega
    rw [e1]
    simp only [finishDomain, e3, bind, Except.bind, pure, Except.pure, timeColumnInverse, drop_range_map, List.length_map,
      List.length_range, e2, epochsPerSecond, sum_range_map, if_neg hT, arrayLines, if_neg hni, e4, npSub_map]
    rw [if_neg (by omega)]
    exact ⟨_, rfl⟩

/-- Whether sensors and exact values can be had for the points of a mesh. -/
def SourceFits {n : ℕ} (src : DomainSource n) (pts : List (ℝ × ℝ)) : Prop :=
  match src with
  | .usa _ => True
  | .circle csv _ _ => csv.length = pts.length ∧ 2 ≤ csv.length

/-- The draws of `get_sensor_data` are within range. -/
def SourceDraws {n : ℕ} (src : DomainSource n) : Prop :=
  match src with
  | .usa _ => True
  | .circle _ _ randint => ∀ m i, 0 < m → 0 ≤ randint m i ∧ randint m i < m

lemma sourceFits_ok {n : ℕ} (src : DomainSource n) (hd : SourceDraws src) (env : MeshFiles) (pb : DomainProblem)
    (o : GeometryObject) (files : Files) (pts : List (ℝ × ℝ))
    (hpts : o.getTestPoints env files = (.ok (.points pts), o, files)) (hf : SourceFits src pts) :
    (∀ (nt nq : ℕ) (S : Fespace2D (ℝ → ℝ → ℝ) ℝ nt nq), ∃ r, src.sensors env "external" pb S o files = .ok r) ∧
    ∃ ye, src.exact pb pts = .ok ye ∧ ye.length = pts.length := by
  cases src with
  | usa shuffle =>
    refine ⟨fun nt nq S => ?_, _, rfl, by simp⟩
    simp only [DomainSource.sensors, hpts]
    exact ⟨_, rfl⟩
  | circle csv lhs randint =>
    obtain ⟨h1, h2⟩ := hf
    constructor
    · intro nt nq S
      have hc := (C40_external S pb.exactSolution n lhs (some csv) randint hd).1
      match csv, h2 with
      | first :: a :: df, _ =>
        obtain ⟨p, v, c1, -⟩ := hc first (a :: df) rfl (by simp)
        simp only [DomainSource.sensors]
        rw [c1 pb.exactSolution first]
        exact ⟨_, rfl⟩
    · refine ⟨csv.map fun r => r.2.2, ?_, by simpa using h1⟩
      rw [DomainSource.exact, if_neg]
      rintro rfl
      simp at h2

lemma sourceFits_of {n : ℕ} (src : DomainSource n) (hd : SourceDraws src) (pb : DomainProblem) {nt nq : ℕ}
    (S : Fespace2D (ℝ → ℝ → ℝ) ℝ nt nq) (pts : List (ℝ × ℝ)) (sensor : List (ℝ × ℝ) × List ℝ)
    (hs : SensorsAre src pb pts sensor) (ye : List ℝ) (he : src.exact pb pts = .ok ye) (hl : ye.length = pts.length) :
    SourceFits src pts := by
  cases src with
  | usa shuffle => trivial
  | circle csv lhs randint =>
    have hc := (C40_external S pb.exactSolution n lhs (some csv) randint hd).2
    have h2 : 2 ≤ csv.length := by
      by_contra h
      have := hc (by rintro _ ⟨rfl⟩; omega)
      simp only [SensorsAre] at hs
      simp only [getSensorData, String.reduceEq, if_false, if_true, hs] at this
      exact absurd this (by simp)
    rw [DomainSource.exact, if_neg (by rintro rfl; simp at h2)] at he
    obtain rfl := Except.ok.inj he
    exact ⟨by simpa using hl, h2⟩

/-- When either script on a mesh file finishes. -/
lemma domain_completes (mc : Machine) (pb : DomainProblem) (cfg : InverseConfig)
    (hloss : ∀ nc nt nq, pb.loss nc nt nq = lossCd2dInverseDomain nc nt nq)
    (src : DomainSource cfg.numSensorPoints) (hdraw : SourceDraws src)
    (sample : Fin 4 → Fin (cfg.nBoundaryPoints / 4) → ℝ)
    (lhs : ℕ → Fin (2 ^ cfg.boundaryRefinementLevel + 1) → ℝ × ℝ) (θ : Weights) (files : Files)
    (hatt : cfg.useAttention = true → mc.attention = attentionDot) (hmet : cfg.meshGenerationMethod = "external")
    (hdepth : 2 ≤ cfg.modelArchitecture.length)
    (hjoin : ∀ a b, mc.env.join cfg.outputPath a = mc.env.join cfg.outputPath b → a = b)
    (hvtk : ∀ m, mc.env.read files cfg.meshFileName = .ok m → VtkRoundTrip mc.env m)
    (hclock : ∀ e, 0 < mc.elapsed e) :
    (0 < cfg.updateConsoleOutput → ((∃ R, mainDomain mc pb cfg src sample lhs θ files = .ok R) ↔
      (∃ cells bd, readMesh (mc.env.read files) cfg.meshFileName cfg.boundaryRefinementLevel
        cfg.boundarySamplingMethod lhs = .ok (cells, bd) ∧ ValidDomain pb cfg cells bd) ∧
      (∀ m, mc.env.read files cfg.meshFileName = .ok m → SourceFits src (planePoints m)) ∧
      2 ≤ cfg.epochs ∧ ∀ lr, learningRateFn cfg.learningRate = .ok lr → mc.lrNumpy lr = .ok ())) ∧
    (∀ cells bd, readMesh (mc.env.read files) cfg.meshFileName cfg.boundaryRefinementLevel
        cfg.boundarySamplingMethod lhs = .ok (cells, bd) → ValidDomain pb cfg cells bd →
      (∀ m, mc.env.read files cfg.meshFileName = .ok m → SourceFits src (planePoints m)) →
      (cfg.epochs = 0 → mainDomain mc pb cfg src sample lhs θ files = .error .nameError) ∧
      (0 < cfg.epochs → cfg.updateConsoleOutput = 0 →
        mainDomain mc pb cfg src sample lhs θ files = .error .zeroDivisionError) ∧
      ((∀ lr, learningRateFn cfg.learningRate = .ok lr → mc.lrNumpy lr = .ok ()) → 0 < cfg.updateConsoleOutput →
        cfg.epochs = 1 → mainDomain mc pb cfg src sample lhs θ files = .error .indexError)) := by
  have hld : cfg.modelArchitecture ≠ [] := by
    intro h
    rw [h] at hdepth
    simp at hdepth
  have hgood : ∀ cells bd, readMesh (mc.env.read files) cfg.meshFileName cfg.boundaryRefinementLevel
        cfg.boundarySamplingMethod lhs = .ok (cells, bd) → ValidDomain pb cfg cells bd →
      (∀ m, mc.env.read files cfg.meshFileName = .ok m → SourceFits src (planePoints m)) →
      (cfg.epochs = 0 → mainDomain mc pb cfg src sample lhs θ files = .error .nameError) ∧
      (0 < cfg.epochs → cfg.updateConsoleOutput = 0 →
        mainDomain mc pb cfg src sample lhs θ files = .error .zeroDivisionError) ∧
      ((∀ lr, learningRateFn cfg.learningRate = .ok lr → mc.lrNumpy lr = .ok ()) → 0 < cfg.updateConsoleOutput →
        cfg.epochs = 1 → mainDomain mc pb cfg src sample lhs θ files = .error .indexError) ∧
      ((∀ lr, learningRateFn cfg.learningRate = .ok lr → mc.lrNumpy lr = .ok ()) → 0 < cfg.updateConsoleOutput →
        2 ≤ cfg.epochs → ∃ R, mainDomain mc pb cfg src sample lhs θ files = .ok R) := by
    intro cells bd hread hv hfit
    obtain ⟨B, hB⟩ := (prepareExternal_iff mc cfg.forward pb.toProblem cfg.modelArchitecture hld lhs files hmet).2
      ⟨hv.dtype, hv.meshType, cells, bd, hread,
      ⟨hv.cells, hv.feOrder, hv.feType, hv.quadOrder, hv.quadType, hv.boundary⟩, fun h => absurd h (by simp [InverseConfig.forward]),
      (C50_keys cfg.learningRate).2.2 hv.learningRate⟩
    obtain ⟨o', m, cells', bd', mp, nq, S, S', D, bdv, lr, specs, inDim, -, -, h1, h2, h3, h4, h5, h6, h7, h8, h9,
      h10⟩ := prepareExternal_ok mc cfg.forward pb.toProblem _ lhs files B hmet hvtk hB
    have hBo : B.geometry = o' := by rw [h6]
    obtain ⟨hsen, ye, hye, hlen⟩ := sourceFits_ok src hdraw mc.env pb o' B.files (planePoints m) h9 (hfit m h1)
    obtain ⟨P, hP⟩ := prepareDomain_of mc cfg pb src sample lhs files B hmet hB (by rw [hBo]; exact hsen)
    obtain ⟨hE, nt₀, nq₀, S₀, hsen'⟩ := prepareDomain_ok mc cfg pb src sample lhs files P hmet hP
    have hPB : P.base = B := Except.ok.inj (hE.symm.trans hB)
    unfold mainDomain
    rw [hP]
    dsimp only
    obtain ⟨base, sensor, geometry⟩ := P
    dsimp only at hPB hsen' ⊢
    subst hPB
    subst h6
    dsimp only at hsen' h9 ⊢
    obtain ⟨rfl, -⟩ := sensors_external src mc.env pb S₀ o' geometry _ (planePoints m) sensor h9 hsen'
    obtain ⟨rfl, rfl⟩ := Prod.mk.inj (Except.ok.inj (hread.symm.trans h2))
    obtain rfl : inDim = 2 := by
      have := hv.input
      rw [pyIndex_zero, List.head?_eq_getElem?] at h5
      rw [List.getD_eq_getElem?_getD, h5] at this
      exact this
    have hne : planePoints m ≠ [] := by
      obtain ⟨c, hc⟩ := List.exists_mem_of_ne_nil _ hv.cells
      exact List.ne_nil_of_mem (h10 c hc 0)
    rw [outDim_layerSpecs _ _ _ h3.layers]
    obtain ⟨pt, hpt, -⟩ := C79_losses mc pb cfg hloss cfg.modelArchitecture hdepth hv.input hv.output mp cells
      (bdPairs bd) nq S S' D bdv specs h3 lr (fun i => sensor.1.get i) (fun i => sensor.2.getD i.val 0)
    have hcall := domain_call ⟨⟨_, nq, D, bdv, cells.length, 2, specs, lr, geometry,
      writeFile files (mc.env.join cfg.outputPath "external.vtk") (mc.env.vtk m)⟩, sensor, geometry⟩ mc cfg pb
      cfg.modelArchitecture hatt rfl hdepth h3.layers hv.input
      (cfg.modelArchitecture.getD (cfg.modelArchitecture.length - 1) 0) hv.output (planePoints m)
    have hout := runDomain_outcome mc cfg _
      (fun θ => batchOutput cfg.useAttention (planePoints m) (mc.act cfg.activation) cfg.modelArchitecture θ 0)
      (fun θ => batchOutput cfg.useAttention (planePoints m) (mc.act cfg.activation) cfg.modelArchitecture θ 1) (planePoints m) pb src
      ⟨⟨_, nq, D, bdv, cells.length, 2, specs, lr, geometry,
      writeFile files (mc.env.join cfg.outputPath "external.vtk") (mc.env.vtk m)⟩, sensor, geometry⟩ geometry hcall
      (domain_floats _ mc cfg pb _) hmet h9 hne ye hye hlen hjoin (by rw [h7]; decide) h8
      (mc.env.vtk m) (by exact writeFile_same _ _ _) (fun s => ?_) hclock θ
    · exact ⟨hout.1, hout.2.1, fun hlr => hout.2.2.1 (hlr lr h4), fun hlr => hout.2.2.2 (hlr lr h4)⟩
    rw [domain_step _ mc cfg pb _ rfl]
    exact (domain_step_iff hv.output _ (hloss _ _ _) _ pt hpt _ _ _ _ _ _ _ _ _ _ s).2 hv.parameters
  refine ⟨fun hu => ⟨fun ⟨R, hR⟩ => ?_, fun ⟨⟨cells, bd, h1, h2⟩, h3, h4, h5⟩ => (hgood cells bd h1 h2 h3).2.2.2 h5 hu h4⟩,
    fun cells bd h1 h2 h3 => ⟨(hgood cells bd h1 h2 h3).1, (hgood cells bd h1 h2 h3).2.1, (hgood cells bd h1 h2 h3).2.2.1⟩⟩
  obtain ⟨m, cells, bd, mp, nq, S, S', D, bdv, specs, lr, sensor, exact, st, outs, ⟨d0, dl⟩, k1, k2, k3, k4, k5, k6, -, k7, k8,
    k9, k10, k11, k12, -⟩ := domain_external mc pb cfg src sample lhs θ files R hatt hmet hdepth hjoin hvtk hR
  obtain ⟨pt, hpt, -⟩ := C79_losses mc pb cfg hloss cfg.modelArchitecture hdepth d0 dl mp cells
    (bdPairs bd) nq S S' D bdv specs k4 lr (fun i => sensor.1.get i) (fun i => sensor.2.getD i.val 0)
  have hpar := (domain_step_iff dl _ (hloss _ _ _) _ pt hpt _ _ _ _ _ _ _ _ _ _ (st 0)).1 ⟨_, k12 0 (by omega)⟩
  unfold mainDomain at hR
  split at hR
  · exact absurd hR (by simp)
  rename_i P hP
  obtain ⟨hE, -⟩ := prepareDomain_ok mc cfg pb src sample lhs files P hmet hP
  obtain ⟨p1, p2, cells', bd', hread, ⟨q1, q2, q3, q4, q5, q6⟩, p3, p4⟩ :=
    (prepareExternal_iff mc cfg.forward pb.toProblem _ hld lhs files hmet).1 ⟨_, hE⟩
  refine ⟨⟨cells', bd', hread, p1, p2, q1, q2, q3, q4, q5, q6, (C50_keys cfg.learningRate).2.1 p4, hpar, d0, dl⟩,
    fun m' hm' => ?_, k1, fun lr' h' => Except.ok.inj (k5.symm.trans h') ▸ k6⟩
  obtain rfl := Except.ok.inj (k2.symm.trans hm')
  exact sourceFits_of src hdraw pb S' _ sensor k7 exact k8 k9

/-- **C79** (completion, first script).  With a clock that advances and a positive report interval the script on a
mesh file finishes exactly if the mesh file can be read, the configuration is valid, there are at least two epochs and
the learning rate of the optimiser can be read.  Otherwise, with a valid configuration: no epoch, an unbound variable;
report interval zero, a division by zero; a single epoch, an index error after the training, before any text file is
written. -/
theorem C79_completes_usa (mc : Machine) (pb : DomainProblem) (cfg : InverseConfig)
    (hloss : ∀ nc nt nq, pb.loss nc nt nq = lossCd2dInverseDomain nc nt nq)
    (shuffle : List (ℝ × ℝ) → List (ℝ × ℝ))
    (sample : Fin 4 → Fin (cfg.nBoundaryPoints / 4) → ℝ)
    (lhs : ℕ → Fin (2 ^ cfg.boundaryRefinementLevel + 1) → ℝ × ℝ) (θ : Weights) (files : Files)
    (hatt : cfg.useAttention = true → mc.attention = attentionDot) (hmet : cfg.meshGenerationMethod = "external")
    (hdepth : 2 ≤ cfg.modelArchitecture.length)
    (hjoin : ∀ a b, mc.env.join cfg.outputPath a = mc.env.join cfg.outputPath b → a = b)
    (hvtk : ∀ m, mc.env.read files cfg.meshFileName = .ok m → VtkRoundTrip mc.env m)
    (hclock : ∀ e, 0 < mc.elapsed e) :
    (0 < cfg.updateConsoleOutput → ((∃ R, mainUsa mc pb cfg shuffle sample lhs θ files = .ok R) ↔
      (∃ cells bd, readMesh (mc.env.read files) cfg.meshFileName cfg.boundaryRefinementLevel
        cfg.boundarySamplingMethod lhs = .ok (cells, bd) ∧ ValidDomain pb cfg cells bd) ∧
      2 ≤ cfg.epochs ∧ ∀ lr, learningRateFn cfg.learningRate = .ok lr → mc.lrNumpy lr = .ok ())) ∧
    (∀ cells bd, readMesh (mc.env.read files) cfg.meshFileName cfg.boundaryRefinementLevel
        cfg.boundarySamplingMethod lhs = .ok (cells, bd) → ValidDomain pb cfg cells bd →
      (cfg.epochs = 0 → mainUsa mc pb cfg shuffle sample lhs θ files = .error .nameError) ∧
      (0 < cfg.epochs → cfg.updateConsoleOutput = 0 →
        mainUsa mc pb cfg shuffle sample lhs θ files = .error .zeroDivisionError) ∧
      ((∀ lr, learningRateFn cfg.learningRate = .ok lr → mc.lrNumpy lr = .ok ()) → 0 < cfg.updateConsoleOutput →
        cfg.epochs = 1 → mainUsa mc pb cfg shuffle sample lhs θ files = .error .indexError)) := by
  have h := domain_completes mc pb cfg hloss (.usa shuffle) trivial sample lhs θ files hatt hmet hdepth hjoin hvtk hclock
  refine ⟨fun hu => (h.1 hu).trans ⟨fun ⟨h1, _, h2⟩ => ⟨h1, h2⟩, fun ⟨h1, h2⟩ => ⟨h1, fun _ _ => trivial, h2⟩⟩,
    fun cells bd h1 h2 => h.2 cells bd h1 h2 fun _ _ => trivial⟩

/-- **C79** (completion, second script).  Likewise; in addition the CSV file must have as many lines as the mesh has
points, and at least two. -/
theorem C79_completes_circle (mc : Machine) (pb : DomainProblem) (cfg : InverseConfig)
    (hloss : ∀ nc nt nq, pb.loss nc nt nq = lossCd2dInverseDomain nc nt nq)
    (csv : List (ℝ × ℝ × ℝ)) (sensorLhs : (k : ℕ) → Fin k → ℝ × ℝ) (randint : ℕ → Fin cfg.numSensorPoints → ℤ)
    (hrand : ∀ m i, 0 < m → 0 ≤ randint m i ∧ randint m i < m)
    (sample : Fin 4 → Fin (cfg.nBoundaryPoints / 4) → ℝ)
    (lhs : ℕ → Fin (2 ^ cfg.boundaryRefinementLevel + 1) → ℝ × ℝ) (θ : Weights) (files : Files)
    (hatt : cfg.useAttention = true → mc.attention = attentionDot) (hmet : cfg.meshGenerationMethod = "external")
    (hdepth : 2 ≤ cfg.modelArchitecture.length)
    (hjoin : ∀ a b, mc.env.join cfg.outputPath a = mc.env.join cfg.outputPath b → a = b)
    (hvtk : ∀ m, mc.env.read files cfg.meshFileName = .ok m → VtkRoundTrip mc.env m)
    (hclock : ∀ e, 0 < mc.elapsed e) :
    (0 < cfg.updateConsoleOutput → ((∃ R, mainCircle mc pb cfg csv sensorLhs randint sample lhs θ files = .ok R) ↔
      (∃ cells bd, readMesh (mc.env.read files) cfg.meshFileName cfg.boundaryRefinementLevel
        cfg.boundarySamplingMethod lhs = .ok (cells, bd) ∧ ValidDomain pb cfg cells bd) ∧
      (∀ m, mc.env.read files cfg.meshFileName = .ok m → csv.length = (planePoints m).length ∧ 2 ≤ csv.length) ∧
      2 ≤ cfg.epochs ∧ ∀ lr, learningRateFn cfg.learningRate = .ok lr → mc.lrNumpy lr = .ok ())) ∧
    (∀ cells bd, readMesh (mc.env.read files) cfg.meshFileName cfg.boundaryRefinementLevel
        cfg.boundarySamplingMethod lhs = .ok (cells, bd) → ValidDomain pb cfg cells bd →
      (∀ m, mc.env.read files cfg.meshFileName = .ok m → csv.length = (planePoints m).length ∧ 2 ≤ csv.length) →
      (cfg.epochs = 0 → mainCircle mc pb cfg csv sensorLhs randint sample lhs θ files = .error .nameError) ∧
      (0 < cfg.epochs → cfg.updateConsoleOutput = 0 →
        mainCircle mc pb cfg csv sensorLhs randint sample lhs θ files = .error .zeroDivisionError) ∧
      ((∀ lr, learningRateFn cfg.learningRate = .ok lr → mc.lrNumpy lr = .ok ()) → 0 < cfg.updateConsoleOutput →
        cfg.epochs = 1 → mainCircle mc pb cfg csv sensorLhs randint sample lhs θ files = .error .indexError)) := by
  exact domain_completes mc pb cfg hloss (.circle csv sensorLhs randint) hrand sample lhs θ files hatt hmet hdepth hjoin
    hvtk hclock

/-- A finished run has printed the learning rate. -/
lemma domain_lr (mc : Machine) (pb : DomainProblem) (cfg : InverseConfig) (src : DomainSource cfg.numSensorPoints)
    (sample : Fin 4 → Fin (cfg.nBoundaryPoints / 4) → ℝ)
    (lhs : ℕ → Fin (2 ^ cfg.boundaryRefinementLevel + 1) → ℝ × ℝ) (θ : Weights) (files : Files) (R : DomainResult)
    (h : mainDomain mc pb cfg src sample lhs θ files = .ok R) :
    ∃ lr, learningRateFn cfg.learningRate = .ok lr ∧ mc.lrNumpy lr = .ok () := by
  unfold mainDomain at h
  split at h
  · exact absurd h (by simp)
  rename_i P hP
  have hlr : learningRateFn cfg.learningRate = .ok P.base.lr := by
    have hm : ∀ o f cells bd, prepareDomainModel mc cfg pb src o f cells bd = .ok P →
        learningRateFn cfg.learningRate = .ok P.base.lr := by
      intro o f cells bd h
      unfold prepareDomainModel at h
      split at h
      · exact absurd h (by simp)
      split at h
      · exact absurd h (by simp)
      split at h
      · exact absurd h (by simp)
      split at h
      · exact absurd h (by simp)
      split at h
      · exact absurd h (by simp)
      rename_i lr hlr
      split at h
      · exact absurd h (by simp)
      split at h
      · exact absurd h (by simp)
      obtain rfl := Except.ok.inj h
      exact hlr
    unfold prepareDomain at hP
    by_cases hd : cfg.dtype ∈ ["float64", "float32"]
    swap
    · rw [if_pos hd] at hP
      exact absurd hP (by simp)
    rw [if_neg (not_not.2 hd)] at hP
    split at hP
    · exact absurd hP (by simp)
    split at hP
    · exact absurd hP (by simp)
    · exact hm _ _ _ _ hP
    · exact absurd hP (by simp)
  refine ⟨_, hlr, ?_⟩
  unfold runDomain at h
  split at h
  · exact absurd h (by simp)
  · split at h
    · exact absurd h (by simp)
    split at h
    · exact absurd h (by simp)
    dsimp only at h
    split at h
    · exact absurd h (by simp)
    rename_i s hs
    obtain ⟨hu, hlen, st, fs, h0, hN, hf0, hfN, hrun, hrep, hquiet⟩ := epochLoop_ok _ _ _ _ _ _ rfl rfl hs
    rcases forall₂_getLast hrep with ⟨-, h2⟩ | ⟨e, r, h1, h2, hr⟩
    · unfold finishDomain at h
      rw [h2] at h
      exact absurd h (by simp)
    · obtain ⟨out, -, hr⟩ := hr
      by_contra hc
      revert hr
      unfold reportDomain
      cases hn : mc.lrNumpy P.base.lr with
      | ok v => exact absurd hn hc
      | error x =>
        intro hr
        simp only [bind, Except.bind] at hr
        split at hr
        · exact absurd hr (by simp)
        split at hr
        · exact absurd hr (by simp)
        split at hr
        · exact absurd hr (by simp)
        split at hr
        · exact absurd hr (by simp)
        split at hr
        · exact absurd hr (by simp)
        split at hr
        · exact absurd hr (by simp)
        split at hr
        · exact absurd hr (by simp)
        split at hr
        · exact absurd hr (by simp)
        exact absurd hr (by simp)
  · exact absurd h (by simp)

/-- **C79** (learning rate schedule; a finding).  If a learning rate schedule has no `numpy` method, as with
TensorFlow 2.9 and 2.10, neither script finishes with `use_lr_scheduler`, whatever the mesh: the first report fails.
This is the setting of the configuration shipped with the first script. -/
theorem C79_scheduler (mc : Machine) (pb : DomainProblem) (cfg : InverseConfig)
    (hsched : ∀ i s r b, mc.lrNumpy (.exponentialDecay i s r b) = .error .attributeError)
    (huse : cfg.learningRate.lookup "use_lr_scheduler" = some (.bool true))
    (shuffle : List (ℝ × ℝ) → List (ℝ × ℝ))
    (csv : List (ℝ × ℝ × ℝ)) (sensorLhs : (k : ℕ) → Fin k → ℝ × ℝ) (randint : ℕ → Fin cfg.numSensorPoints → ℤ)
    (sample : Fin 4 → Fin (cfg.nBoundaryPoints / 4) → ℝ)
    (lhs : ℕ → Fin (2 ^ cfg.boundaryRefinementLevel + 1) → ℝ × ℝ) (θ : Weights) (files : Files) (R : DomainResult) :
    mainUsa mc pb cfg shuffle sample lhs θ files ≠ .ok R ∧
    mainCircle mc pb cfg csv sensorLhs randint sample lhs θ files ≠ .ok R ∧
    configDomainUsa.learningRate.lookup "use_lr_scheduler" = some (.bool true) := by
  have key : ∀ src : DomainSource cfg.numSensorPoints, mainDomain mc pb cfg src sample lhs θ files ≠ .ok R := by
    intro src h
    obtain ⟨lr, h4, hlr⟩ := domain_lr mc pb cfg src sample lhs θ files R h
    obtain ⟨i, s, r, b, rfl⟩ : ∃ i s r b, lr = .exponentialDecay i s r b := by
      unfold learningRateFn at h4
      have hu : strGet cfg.learningRate "use_lr_scheduler" = .ok (.bool true) := by simp [strGet, huse]
      rw [hu] at h4
      split at h4
      · rename_i i u s r h1 h2 h3 h5
        obtain rfl := Except.ok.inj h2
        simp only [PyVal.truthy, if_true, Except.ok.injEq] at h4
        exact ⟨_, _, _, _, h4.symm⟩
      all_goals exact absurd h4 (by simp)
    rw [hsched] at hlr
    exact absurd hlr (by simp)
  exact ⟨key _, key _, by simp [configDomainUsa, List.lookup]⟩

/-- **C79** (table of times; a finding).  Under "Total Train Time" both scripts print the number of epochs per second,
not the time: for a clock with one second per epoch it is 1 whatever the number of epochs.  There is no row for the
number of epochs per second nor for the mean with the first epoch. -/
theorem C79_time_table (mc : Machine) (pb : DomainProblem) (cfg : InverseConfig)
    (src : DomainSource cfg.numSensorPoints) (sample : Fin 4 → Fin (cfg.nBoundaryPoints / 4) → ℝ)
    (lhs : ℕ → Fin (2 ^ cfg.boundaryRefinementLevel + 1) → ℝ × ℝ) (θ : Weights) (files : Files) (R : DomainResult)
    (hatt : cfg.useAttention = true → mc.attention = attentionDot) (hmet : cfg.meshGenerationMethod = "external")
    (hdepth : 2 ≤ cfg.modelArchitecture.length)
    (hjoin : ∀ a b, mc.env.join cfg.outputPath a = mc.env.join cfg.outputPath b → a = b)
    (hvtk : ∀ m, mc.env.read files cfg.meshFileName = .ok m → VtkRoundTrip mc.env m)
    (h : mainDomain mc pb cfg src sample lhs θ files = .ok R)
    (htotal : 0 < ∑ e ∈ Finset.range cfg.epochs, mc.elapsed e) :
    R.timeTable.lookup "Total Train Time"
      = some (mc.str ⌊cfg.epochs / ∑ e ∈ Finset.range cfg.epochs, mc.elapsed e⌋) ∧
    R.timeTable.lookup "Epochs per second" = none ∧ R.timeTable.lookup "Mean with first(s)" = none ∧
    ((∀ e, mc.elapsed e = 1) → R.timeTable.lookup "Total Train Time" = some (mc.str 1)) := by
  obtain ⟨m, cells, bd, mp, nq, S, S', D, bdv, specs, lr, sensor, exact, st, outs, -, h2, -, -, -, -, -, -, -, -, -,
    -, -, -, hrec, -⟩ := domain_external mc pb cfg src sample lhs θ files R hatt hmet hdepth hjoin hvtk h
  obtain ⟨med, q25, q75, meanRest, mean, total, ps, -, -, -, -, -, rfl, -, -, hps, ht⟩ := hrec.timeTable
  obtain ⟨p1, p2⟩ := hps htotal
  have hfl : ⌊cfg.epochs / ∑ e ∈ Finset.range cfg.epochs, mc.elapsed e⌋ = ps := by
    rw [Int.floor_eq_iff, le_div_iff₀ htotal, div_lt_iff₀ htotal]
    exact ⟨p1, p2⟩
  rw [hfl, ht]
  refine ⟨by simp [List.lookup], by simp [List.lookup], by simp [List.lookup], fun h1 => ?_⟩
  have : ps = 1 := by
    rw [← hfl]
    simp only [h1, Finset.sum_const, Finset.card_range, nsmul_eq_mul, mul_one]
    rw [div_self (by positivity)]
    simp
  rw [this]
  simp [List.lookup]

/-- **C79** (shipped configurations).  With the clock advancing and the learning rate readable the scripts finish with
the configurations they are shipped with, if the mesh file can be read, has at least one cell, and its only boundary tag
is 1000; for the second script the lines of the CSV file must be as many as the points of the mesh, and at least two. -/
theorem C79_shipped (mc : Machine) (hclock : ∀ e, 0 < mc.elapsed e) (hlr : ∀ lr, mc.lrNumpy lr = .ok ())
    (hjoin : ∀ folder a b, mc.env.join folder a = mc.env.join folder b → a = b)
    (shuffle : List (ℝ × ℝ) → List (ℝ × ℝ))
    (csv : List (ℝ × ℝ × ℝ)) (sensorLhs : (k : ℕ) → Fin k → ℝ × ℝ) (randint : ℕ → Fin 500 → ℤ)
    (hrand : ∀ m i, 0 < m → 0 ≤ randint m i ∧ randint m i < m)
    (sample : Fin 4 → Fin (1500 / 4) → ℝ) (lhs : ℕ → Fin (2 ^ 2 + 1) → ℝ × ℝ) (θ : Weights) (files : Files)
    (hvtk : ∀ file m, mc.env.read files file = .ok m → VtkRoundTrip mc.env m) (cells : List Quad)
    (bpts : List (List ℝ)) (hc : cells ≠ []) :
    (readMesh (mc.env.read files) "usa.mesh" 2 "uniform" lhs = .ok (cells, [(1000, bpts)]) →
      ∃ R, mainUsa mc problemDomainUsa configDomainUsa shuffle sample lhs θ files = .ok R) ∧
    (readMesh (mc.env.read files) "circle_quad.mesh" 2 "uniform" lhs = .ok (cells, [(1000, bpts)]) →
      (∀ m, mc.env.read files "circle_quad.mesh" = .ok m → csv.length = (planePoints m).length ∧ 2 ≤ csv.length) →
      ∃ R, mainCircle mc problemDomainCircle configDomainCircle csv sensorLhs randint sample lhs θ files = .ok R) := by
  constructor
  · intro hr
    refine ((C79_completes_usa mc problemDomainUsa configDomainUsa (fun _ _ _ => rfl) shuffle sample lhs θ files nofun rfl
      (by simp [configDomainUsa]) (hjoin _) (hvtk _) hclock).1 (by norm_num [configDomainUsa])).2
      ⟨⟨cells, _, hr, Or.inr rfl, rfl, hc, ?_, ?_, ?_, Or.inr rfl, ?_, ?_, ?_, rfl, ?_⟩, ?_, fun lr _ => hlr lr⟩
    all_goals simp [configDomainUsa, problemDomainUsa, DomainInverseUSA.boundaryFunctionDict,
      DomainInverseUSA.bilinearParamsDict, List.lookup]
  · intro hr hcsv
    refine ((C79_completes_circle mc problemDomainCircle configDomainCircle (fun _ _ _ => rfl) csv sensorLhs randint hrand
      sample lhs θ files nofun rfl (by simp [configDomainCircle, configDomainUsa]) (hjoin _) (hvtk _) hclock).1
      (by norm_num [configDomainCircle, configDomainUsa])).2
      ⟨⟨cells, _, hr, Or.inr rfl, rfl, hc, ?_, ?_, ?_, Or.inr rfl, ?_, ?_, ?_, rfl, ?_⟩, hcsv, ?_, fun lr _ => hlr lr⟩
    all_goals simp [configDomainCircle, configDomainUsa, problemDomainCircle, DomainInverseCircle.boundaryFunctionDict,
      DomainInverseCircle.bilinearParamsDict, List.lookup]

/-! ## A concrete run -/

/-- Configuration and problem for the demonstration mesh. -/
noncomputable def demoDomainConfig : InverseConfig :=
  { configDomainUsa with meshFileName := "meshes/demo.v2.mesh", epochs := 7, updateConsoleOutput := 3 }

noncomputable def demoDomainProblem : DomainProblem :=
  { problemDomainUsa with boundaryFunctionDict := [(7, fun x _ => x), (5, fun _ _ => 1)] }

/-- The hypotheses of the theorems are met by configurations for the demonstration mesh; there are reports after epochs
2, 5 and 6. -/
example (quad : QuadRoutines) (sample : Fin 4 → Fin (1500 / 4) → ℝ) (lhs : ℕ → Fin (2 ^ 2 + 1) → ℝ × ℝ)
    (θ : Weights) :
    (∀ a b, (demoMachine quad).env.join demoDomainConfig.outputPath a
      = (demoMachine quad).env.join demoDomainConfig.outputPath b → a = b) ∧
    (∀ m, (demoMachine quad).env.read demoFiles demoDomainConfig.meshFileName = .ok m →
      VtkRoundTrip (demoMachine quad).env m) ∧
    (∃ R, mainUsa (demoMachine quad) demoDomainProblem demoDomainConfig List.reverse sample lhs θ demoFiles = .ok R ∧
      R.timeTable.lookup "Total Train Time" = some "1") ∧
    (∃ R, mainCircle (demoMachine quad) demoDomainProblem demoDomainConfig
      ((planePoints demoMesh).map fun p => (p.1, p.2, 3)) (fun _ _ => (0, 0)) (fun _ _ => 0) sample lhs θ demoFiles
        = .ok R) ∧
    reportEpochs demoDomainConfig.updateConsoleOutput demoDomainConfig.epochs = [2, 5, 6] := by
  have hjoin : ∀ a b, (demoMachine quad).env.join demoDomainConfig.outputPath a
      = (demoMachine quad).env.join demoDomainConfig.outputPath b → a = b := fun a b h => by
    simpa [demoMachine, demoEnv] using h
  have hr : (demoMachine quad).env.read demoFiles "meshes/demo.v2.mesh" = .ok demoMesh := by
    simp [MeshFiles.read, demoFiles, demoEnv, demoMachine]
  have hvtk : ∀ m, (demoMachine quad).env.read demoFiles demoDomainConfig.meshFileName = .ok m →
      VtkRoundTrip (demoMachine quad).env m := by
    intro m hm
    obtain rfl := Except.ok.inj (hr.symm.trans hm)
    exact fun path => ⟨demoMesh, by simp [demoEnv, demoMachine], rfl⟩
  have h := C10_sampling_method ((demoMachine quad).env.read demoFiles) "meshes/demo.v2.mesh" 2 "uniform" lhs demoMesh
    demo_extension hr demoMesh_wellFormed
  obtain ⟨⟨cells, d⟩, hd⟩ := (h.1 (by simp [cellsOfType, demoMesh])).1.2 (Or.inl rfl)
  obtain ⟨⟨tags, ht, hk⟩, -⟩ := C08_grouping _ _ 2 _ lhs cells d demoMesh hr hd
  have hkeys : d.map Prod.fst = [7, 5] := by
    simp only [demoMesh, List.head?_cons, Option.some.injEq] at ht
    rw [hk, ← ht]
    simp [demoMesh, cellsOfType]
    decide
  have hcells : cells ≠ [] := by
    have := (C06_anticlockwise _ _ 2 _ lhs cells d demoMesh hr hd).1
    rw [← List.length_pos_iff, this]
    simp [cellsOfType, demoMesh]
  have hv : ValidDomain demoDomainProblem demoDomainConfig cells d := by
    refine ⟨Or.inr rfl, rfl, hcells, ?_, ?_, ?_, Or.inr rfl, fun e he _ => ?_, ?_, ?_, rfl, ?_⟩
    rotate_left 3
    · have : e.1 ∈ d.map Prod.fst := List.mem_map_of_mem he
      rw [hkeys] at this
      simp only [List.mem_cons, List.not_mem_nil, or_false] at this
      rcases this with h | h <;> rw [h] <;> exact ⟨_, rfl⟩
    all_goals simp [demoDomainConfig, demoDomainProblem, configDomainUsa, problemDomainUsa,
      DomainInverseUSA.bilinearParamsDict, List.lookup]
  refine ⟨hjoin, hvtk, ?_, ?_, by decide⟩
  · obtain ⟨R, hR⟩ := ((C79_completes_usa (demoMachine quad) demoDomainProblem demoDomainConfig (fun _ _ _ => rfl)
      List.reverse sample lhs θ demoFiles nofun rfl (by simp [demoDomainConfig, configDomainUsa]) hjoin hvtk
      (fun _ => by simp [demoMachine])).1 (by norm_num [demoDomainConfig])).2
      ⟨⟨cells, d, hd, hv⟩, by simp [demoDomainConfig], fun _ _ => rfl⟩
    refine ⟨R, hR, ?_⟩
    exact (C79_time_table (demoMachine quad) demoDomainProblem demoDomainConfig _ sample lhs θ demoFiles R nofun rfl
      (by simp [demoDomainConfig, configDomainUsa]) hjoin hvtk hR
      (by simp [demoDomainConfig, demoMachine])).2.2.2 fun _ => rfl
  · refine ((C79_completes_circle (demoMachine quad) demoDomainProblem demoDomainConfig (fun _ _ _ => rfl)
      _ _ _ (fun m i hm => ⟨le_rfl, by exact_mod_cast hm⟩) sample lhs θ demoFiles nofun rfl (by simp [demoDomainConfig, configDomainUsa]) hjoin hvtk
      (fun _ => by simp [demoMachine])).1 (by norm_num [demoDomainConfig])).2
      ⟨⟨cells, d, hd, hv⟩, fun m hm => ?_, by simp [demoDomainConfig], fun _ _ => rfl⟩
    obtain rfl := Except.ok.inj (hr.symm.trans hm)
    simp [planePoints, demoMesh]

end FastVPINNs
