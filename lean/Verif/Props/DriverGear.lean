import Verif.Model.DriverGear
import Verif.Props.DriverShipped

/-! # C80: the driver script on the gear -/

namespace FastVPINNs

open Spec

/-! ## Reduction to the script for mesh files -/

/-- The same problem with another exact solution. -/
def Problem.withExact (pb : Problem) (u : ℝ × ℝ → ℝ) : Problem :=
  { pb with exactSolution := fun x y => u (x, y) }

lemma prepareExternal_withExact (mc : Machine) (cfg : ForwardConfig) (pb : Problem) (u : ℝ × ℝ → ℝ) (ld : List ℕ)
    (lhs : ℕ → Fin (2 ^ cfg.boundaryRefinementLevel + 1) → ℝ × ℝ) (files : Files) :
    prepareExternal mc cfg (pb.withExact u) ld lhs files = prepareExternal mc cfg pb ld lhs files := rfl

lemma runGear_eq {α : Type} (mc : Machine) (cfg : GearConfig) (pb : Problem) (csv : String → Except PyErr CsvTable)
    (P : Prepared) (M : DriverModel α) (θ : Weights) (pts : List (ℝ × ℝ)) (o : GeometryObject) (files : Files)
    (hpts : P.geometry.getTestPoints mc.env P.files = (.ok (.points pts), o, files)) (u : ℝ × ℝ → ℝ)
    (hu : gearExact pb cfg csv pts = .ok (pts.map u)) :
    runGear mc cfg pb csv P M θ = runExternal mc cfg.toForwardConfig (pb.withExact u) P M θ := by
  unfold runGear runExternal
  rw [hpts]
  dsimp only
  rw [hu]
  rfl

/-- **C80** (computed exact solution).  With `exact_solution_generation: internal` the gear script is the script
for mesh files with the configured architecture. -/
theorem C80_internal (mc : Machine) (pb : Problem) (cfg : GearConfig) (csv : String → Except PyErr CsvTable)
    (lhs : ℕ → Fin (2 ^ cfg.boundaryRefinementLevel + 1) → ℝ × ℝ) (θ : Weights) (files : Files)
    (hgen : cfg.exactSolutionGeneration = "internal") :
    mainGear mc pb cfg csv lhs θ files
      = mainExternal mc pb ForwardConfig.modelArchitecture cfg.toForwardConfig lhs θ files := by
  unfold mainGear mainExternal
  rcases prepareExternal mc cfg.toForwardConfig pb cfg.modelArchitecture lhs files with e | P
  · rfl
  · dsimp only
    unfold runGear runExternal gearExact
    rcases GeometryObject.getTestPoints mc.env P.geometry P.files with ⟨e | v, o, f⟩
    · rfl
    · rcases v with _ | points | _ <;> try rfl
      simp only [hgen, if_true]
      rfl

lemma mainGear_file (mc : Machine) (pb : Problem) (cfg : GearConfig) (csv : String → Except PyErr CsvTable)
    (lhs : ℕ → Fin (2 ^ cfg.boundaryRefinementLevel + 1) → ℝ × ℝ) (θ : Weights) (files : Files)
    (hext : cfg.meshGenerationMethod = "external")
    (hvtk : ∀ m, mc.env.read files cfg.meshFileName = .ok m → VtkRoundTrip mc.env m)
    (hgen : cfg.exactSolutionGeneration ≠ "internal") (table : CsvTable) (u : ℝ × ℝ → ℝ)
    (hcsv : csv cfg.exactSolutionFileName = .ok table)
    (hcol : ∀ m, mc.env.read files cfg.meshFileName = .ok m → table[2]? = some ((planePoints m).map u)) :
    mainGear mc pb cfg csv lhs θ files
      = mainExternal mc (pb.withExact u) ForwardConfig.modelArchitecture cfg.toForwardConfig lhs θ files := by
  unfold mainGear mainExternal
  rw [prepareExternal_withExact]
  rcases hP : prepareExternal mc cfg.toForwardConfig pb cfg.modelArchitecture lhs files with e | P
  · rfl
  · dsimp only
    obtain ⟨o', m, cells, bd, mp, nq, S, S', D, bdv, lr, specs, inDim, -, -, hm, -, -, -, -, rfl, -, -, hpts, -⟩ :=
      prepareExternal_ok mc cfg.toForwardConfig pb _ lhs files P hext hvtk hP
    refine runGear_eq mc cfg pb csv _ _ θ (planePoints m) o' _ hpts u ?_
    unfold gearExact
    rw [if_neg hgen, hcsv]
    simp only [pyIndex]
    have := hcol m hm
    simp [this]

lemma reportBlockVtk_pieces {α : Type} (env : MeshFiles) (o : GeometryObject) (out : String) (M : DriverModel α)
    (pts : List (ℝ × ℝ)) (y : List ℝ) (e : ℕ) (loss : α) (s : TrainState) (f f' : Files) (r : Report)
    (h : reportBlockVtk env o out M pts y e loss s f = .ok (r, f')) :
    M.predict s.weights pts = .ok r.yPred ∧ ∃ l, M.floats loss = .ok l := by
  simp only [reportBlockVtk, reportBlock, bind, Except.bind, pure, Except.pure] at h
  rcases h1 : M.predict s.weights pts with e1 | v
  · rw [h1] at h
    exact absurd h (by simp)
  rw [h1] at h
  dsimp only at h
  rcases h2 : npSub y v with e2 | dv
  · rw [h2] at h
    exact absurd h (by simp)
  rw [h2] at h
  dsimp only at h
  rcases h3 : computeErrorsCombined (array1 y) (array1 v) with e3 | er
  · rw [h3] at h
    exact absurd h (by simp)
  rw [h3] at h
  dsimp only at h
  rcases h4 : M.floats loss with e4 | l
  · rw [h4] at h
    exact absurd h (by simp)
  rw [h4] at h
  dsimp only at h
  split at h
  · exact absurd h (by simp)
  · simp only [Except.ok.injEq, Prod.mk.injEq] at h
    obtain ⟨rfl, -⟩ := h
    exact ⟨rfl, l, rfl⟩

lemma runGear_dims (mc : Machine) (cfg : GearConfig) (pb : Problem) (csv : String → Except PyErr CsvTable)
    (P : Prepared) (d : ℕ) (θ : Weights) (R : RunResult)
    (h : runGear mc cfg pb csv P (P.dense mc cfg.toForwardConfig pb d) θ = .ok R) :
    ∃ pts o files y r, P.geometry.getTestPoints mc.env P.files = (.ok (.points pts), o, files) ∧
      gearExact pb cfg csv pts = .ok y ∧ (∃ w, (P.dense mc cfg.toForwardConfig pb d).predict w pts = .ok r) ∧
      r.length = y.length ∧ P.inDim = 2 ∧ d = 1 := by
  unfold runGear at h
  split at h
  · exact absurd h (by simp)
  swap
  · exact absurd h (by simp)
  rename_i pts o files hpts
  split at h
  · exact absurd h (by simp)
  rename_i y hy
  split at h
  · exact absurd h (by simp)
  rename_i s hs
  split at h
  · exact absurd h (by simp)
  rename_i rl hrl
  split at h
  · exact absurd h (by simp)
  rename_i f' hw
  obtain ⟨hu, hlen, st, fs, h0, hN, hf0, hfN, hrun, hrep, hquiet⟩ := epochLoop_ok _ _ _ _ _ _ rfl rfl hs
  have hpos : 0 < cfg.epochs := by
    rcases Nat.eq_zero_or_pos cfg.epochs with h1 | h1
    · rw [h1] at hrep
      have h2 : reportEpochs cfg.updateConsoleOutput 0 = [] := rfl
      rw [h2, List.forall₂_nil_left_iff] at hrep
      rw [hrep] at hrl
      exact absurd hrl (by simp)
    · exact h1
  have hstep : ∃ r, (P.dense mc cfg.toForwardConfig pb d).step (st 0) = .ok r := ⟨_, hrun 0 (by omega)⟩
  have hin : P.inDim = 2 := by
    obtain ⟨r, hr⟩ := hstep
    simp only [Prepared.dense] at hr
    by_contra hc
    rw [if_neg hc] at hr
    exact absurd hr (by simp)
  have hlen' : rl.yPred.length = y.length := by
    unfold writePrediction at hw
    rcases hsa : solutionArray rl.yPred y with e | a
    · rw [hsa] at hw
      exact absurd hw (by simp)
    · unfold solutionArray at hsa
      by_contra hc
      rw [if_neg hc] at hsa
      exact absurd hsa (by simp)
  rcases forall₂_getLast hrep with ⟨h1, -⟩ | ⟨a, b, -, hb, out, -, h3⟩
  · have := reportEpochs_last cfg.updateConsoleOutput cfg.epochs hpos
    rw [h1] at this
    exact absurd this (by simp)
  obtain rfl : rl = b := Option.some.inj (hrl.symm.trans hb)
  obtain ⟨hpr, l, hfl⟩ := reportBlockVtk_pieces _ _ _ _ _ _ _ _ _ _ _ _ h3
  refine ⟨pts, o, files, y, rl.yPred, hpts, hy, ⟨_, hpr⟩, hlen', hin, ?_⟩
  by_contra hd
  simp only [Prepared.dense, floatOf, dif_neg hd] at hfl
  exact absurd hfl (by simp)

/-- A list of values for distinct points is a function of the point. -/
lemma exists_map_eq {β : Type} : ∀ (pts : List β) (y : List ℝ), pts.Nodup → y.length = pts.length →
    ∃ u : β → ℝ, y = pts.map u
  | [], [], _, _ => ⟨fun _ => 0, rfl⟩
  | p :: pts, v :: y, hn, hl => by
    classical
    obtain ⟨hp, hn⟩ := List.nodup_cons.1 hn
    obtain ⟨u, rfl⟩ := exists_map_eq pts y hn (by simpa using hl)
    refine ⟨Function.update u p v, ?_⟩
    rw [List.map_cons, Function.update_self]
    congr 1
    refine List.map_congr_left fun q hq => ?_
    rw [Function.update_of_ne]
    rintro rfl
    exact hp hq
  | [], _ :: _, _, hl => by simp at hl
  | _ :: _, [], _, hl => by simp at hl

/-- **C80** (length of the file).  If the gear script finishes with values from a file, then the file has a third
column, and this column has one value per vertex of the mesh. -/
theorem C80_length (mc : Machine) (pb : Problem) (cfg : GearConfig) (csv : String → Except PyErr CsvTable)
    (lhs : ℕ → Fin (2 ^ cfg.boundaryRefinementLevel + 1) → ℝ × ℝ) (θ : Weights) (files : Files) (R : RunResult)
    (hatt : cfg.useAttention = true → mc.attention = attentionDot) (hext : cfg.meshGenerationMethod = "external")
    (hvtk : ∀ m, mc.env.read files cfg.meshFileName = .ok m → VtkRoundTrip mc.env m)
    (hgen : cfg.exactSolutionGeneration ≠ "internal") (h : mainGear mc pb cfg csv lhs θ files = .ok R) :
    ∃ m table column, mc.env.read files cfg.meshFileName = .ok m ∧ csv cfg.exactSolutionFileName = .ok table ∧
      table[2]? = some column ∧ column.length = m.points.length := by
  unfold mainGear at h
  split at h
  · exact absurd h (by simp)
  rename_i P hP
  obtain ⟨pts, o, f, y, r, hpts, hy, ⟨w, hw⟩, hlen, hin, hout⟩ := runGear_dims mc cfg pb csv P _ θ R h
  obtain ⟨o', m, cells, bd, mp, nq, S, S', D, bdv, lr, specs, inDim, -, -, h1, h2, h3, h4, h5, rfl, h7, h8, h9, -⟩ :=
    prepareExternal_ok mc cfg.toForwardConfig pb _ lhs files P hext hvtk hP
  rw [hout] at hw
  dsimp only at hin hout h9 hpts
  subst hin
  rw [outDim_layerSpecs _ _ _ h3.layers] at hout
  rw [pyIndex_zero] at h5
  have hd0 : cfg.modelArchitecture.getD 0 0 = 2 := by
    rw [List.head?_eq_getElem?] at h5
    rw [List.getD_eq_getElem?_getD, h5]
    rfl
  have hd : 2 ≤ cfg.modelArchitecture.length := by
    match hld : cfg.modelArchitecture, h5 with
    | [n], h5 =>
      rw [hld] at hd0 hout
      simp only [List.length_cons, List.length_nil] at hout
      exact absurd (hd0.symm.trans hout) (by norm_num)
    | n :: k :: l, _ => simp
  rw [dense_predict _ mc cfg.toForwardConfig pb _ hatt rfl hd h3.layers hd0 hout] at hw
  obtain rfl := Except.ok.inj hw
  rw [h9] at hpts
  simp only [Prod.mk.injEq, Except.ok.injEq, GeometryValue.points.injEq] at hpts
  obtain ⟨rfl, -⟩ := hpts
  unfold gearExact at hy
  rw [if_neg hgen] at hy
  split at hy
  · exact absurd hy (by simp)
  rename_i table htable
  refine ⟨m, table, y, h1, htable, ?_, ?_⟩
  · simp only [pyIndex] at hy
    rcases ht : table[2]? with _ | c
    · simp [ht] at hy
    · simp [ht] at hy
      rw [hy]
  · rw [← hlen]
    simp [planePoints]

/-- **C80** (values from a file).  If the vertices of the mesh are distinct and the gear script finishes with
values from a file, then the third column of the file is the list of values of one function `u` at the vertices, in
the order of the mesh, and the run is the one of C76 with `u` in the place of the exact solution: the errors, the
array of exact values and the fields `Exact` and `Error` of the solution files are those of `u`. -/
theorem C80_file (mc : Machine) (pb : Problem) (cfg : GearConfig) (csv : String → Except PyErr CsvTable)
    (lhs : ℕ → Fin (2 ^ cfg.boundaryRefinementLevel + 1) → ℝ × ℝ) (θ : Weights) (files : Files) (R : RunResult)
    (hatt : cfg.useAttention = true → mc.attention = attentionDot) (hext : cfg.meshGenerationMethod = "external")
    (hjoin : ∀ a b, mc.env.join cfg.outputPath a = mc.env.join cfg.outputPath b → a = b)
    (hvtk : ∀ m, mc.env.read files cfg.meshFileName = .ok m → VtkRoundTrip mc.env m)
    (hnodup : ∀ m, mc.env.read files cfg.meshFileName = .ok m → (planePoints m).Nodup)
    (hgen : cfg.exactSolutionGeneration ≠ "internal") (h : mainGear mc pb cfg csv lhs θ files = .ok R) :
    ∃ (u : ℝ × ℝ → ℝ) (table : CsvTable) (m : MeshioMesh) (cells : List Quad) (bd : List (ℤ × List (List ℝ)))
      (mp : List (ℝ × ℝ)) (nq : ℕ) (S S' : Fespace2D (ℝ → ℝ → ℝ) ℝ (cfg.feOrder.toNat ^ 2) nq)
      (D : DataHandler2D (cfg.feOrder.toNat ^ 2) nq) (bdv : List (ℝ × ℝ) × List ℝ) (specs : List LayerSpec)
      (lr : LearningRate) (st : ℕ → TrainState) (outs : List (TrainOut 1)),
      csv cfg.exactSolutionFileName = .ok table ∧ table[2]? = some ((planePoints m).map u) ∧
      (2 ≤ cfg.modelArchitecture.length ∧ cfg.modelArchitecture.getD 0 0 = 2 ∧
        cfg.modelArchitecture.getD (cfg.modelArchitecture.length - 1) 0 = 1) ∧
      mc.env.read files cfg.meshFileName = .ok m ∧
      readMesh (mc.env.read files) cfg.meshFileName cfg.boundaryRefinementLevel cfg.boundarySamplingMethod lhs
        = .ok (cells, bd) ∧
      Assembled mc cfg.toForwardConfig pb cfg.modelArchitecture mp cells (bdPairs bd) S S' D bdv specs ∧
      learningRateFn cfg.learningRate = .ok lr ∧
      st 0 = ⟨θ, AdamState.init⟩ ∧ outs.length = cfg.epochs ∧
      IsRun (trainStepWith (forwardDense (pb.loss D.nCells _ nq) (modelDataOf D bdv cells.length) mc.act
        mc.attention cfg.useAttention 2 specs 1 cfg.beta (some pb.bilinearParams)) (trainableVariables 2 specs []) lr)
        st outs ∧
      IsRecord mc cfg.toForwardConfig (planePoints m) u
        (batchValue cfg.useAttention (planePoints m) (mc.act cfg.activation) cfg.modelArchitecture)
        (fun out => (out.lossPde, out.lossDirichlet 0, out.loss 0)) st outs R ∧
      (∀ e ∈ reportEpochs cfg.updateConsoleOutput cfg.epochs, ∃ content,
        R.files (mc.env.join cfg.outputPath ("prediction_" ++ toString (e + 1) ++ ".vtk")) = some content ∧
        IsSolutionFile mc.env.fmt (mc.env.vtk m) (planePoints m)
          [("Sol", batchValue cfg.useAttention (planePoints m) (mc.act cfg.activation) cfg.modelArchitecture (st (e + 1)).weights),
          ("Exact", u),
          ("Error", fun p => |u p
            - batchValue cfg.useAttention (planePoints m) (mc.act cfg.activation) cfg.modelArchitecture (st (e + 1)).weights p|)] content) ∧
      R.files (mc.env.join cfg.outputPath "external.vtk") = some (mc.env.vtk m) ∧
      ∀ path, (∀ name ∈ "external.vtk" :: resultNames, path ≠ mc.env.join cfg.outputPath name) →
        (∀ e ∈ reportEpochs cfg.updateConsoleOutput cfg.epochs,
          path ≠ mc.env.join cfg.outputPath ("prediction_" ++ toString (e + 1) ++ ".vtk")) →
        R.files path = files path := by
  obtain ⟨m, table, column, hm, ht, hc, hl⟩ := C80_length mc pb cfg csv lhs θ files R hatt hext hvtk hgen h
  obtain ⟨u, rfl⟩ := exists_map_eq (planePoints m) column (hnodup m hm) (by rw [hl]; simp [planePoints])
  rw [mainGear_file mc pb cfg csv lhs θ files hext hvtk hgen table u ht (fun m' hm' => by
    obtain rfl := Except.ok.inj (hm.symm.trans hm')
    exact hc)] at h
  obtain ⟨m', cells, bd, mp, nq, S, S', D, bdv, specs, lr, st, outs, k1, k2, k3, k4, k⟩ :=
    C76_external mc (pb.withExact u) ForwardConfig.modelArchitecture cfg.toForwardConfig lhs θ files R hatt hext hjoin
      hvtk h
  obtain rfl := Except.ok.inj (hm.symm.trans k2)
  exact ⟨u, table, m, cells, bd, mp, nq, S, S', D, bdv, specs, lr, st, outs, ht, hc, k1, k2, k3,
    ⟨k4.1, k4.2, k4.3, k4.4⟩, k⟩

/-- **C80** (a finding).  The coordinates in the first two columns of the file are not compared with the vertices
of the mesh: two files with the same third column give the same run, wherever they place the values. -/
theorem C80_coordinates_ignored (mc : Machine) (pb : Problem) (cfg : GearConfig)
    (csv csv' : String → Except PyErr CsvTable) (x y x' y' values : List ℝ) (rest rest' : CsvTable)
    (h : csv cfg.exactSolutionFileName = .ok (x :: y :: values :: rest))
    (h' : csv' cfg.exactSolutionFileName = .ok (x' :: y' :: values :: rest'))
    (lhs : ℕ → Fin (2 ^ cfg.boundaryRefinementLevel + 1) → ℝ × ℝ) (θ : Weights) (files : Files) :
    mainGear mc pb cfg csv lhs θ files = mainGear mc pb cfg csv' lhs θ files := by
  have : ∀ pts, gearExact pb cfg csv pts = gearExact pb cfg csv' pts := by
    intro pts
    unfold gearExact
    rw [h, h']
    rfl
  unfold mainGear runGear
  simp only [this]

/-- **C80** (completion).  With values from a file, the gear script finishes exactly if the file has a third column
with one value per vertex and the conditions of C76 hold. -/
theorem C80_completes (mc : Machine) (pb : Problem) (cfg : GearConfig) (csv : String → Except PyErr CsvTable)
    (kind : LossKind) (hk : kind.forward) (hloss : ∀ nc nt nq, pb.loss nc nt nq = lossOf kind nc nt nq)
    (lhs : ℕ → Fin (2 ^ cfg.boundaryRefinementLevel + 1) → ℝ × ℝ) (θ : Weights) (files : Files)
    (hatt : cfg.useAttention = true → mc.attention = attentionDot) (hext : cfg.meshGenerationMethod = "external")
    (hjoin : ∀ a b, mc.env.join cfg.outputPath a = mc.env.join cfg.outputPath b → a = b)
    (hvtk : ∀ m, mc.env.read files cfg.meshFileName = .ok m → VtkRoundTrip mc.env m)
    (hnodup : ∀ m, mc.env.read files cfg.meshFileName = .ok m → (planePoints m).Nodup)
    (hgen : cfg.exactSolutionGeneration ≠ "internal") :
    (∃ R, mainGear mc pb cfg csv lhs θ files = .ok R) ↔
      (∃ m table column, mc.env.read files cfg.meshFileName = .ok m ∧ csv cfg.exactSolutionFileName = .ok table ∧
        table[2]? = some column ∧ column.length = m.points.length) ∧
      (∃ cells bd, readMesh (mc.env.read files) cfg.meshFileName cfg.boundaryRefinementLevel
        cfg.boundarySamplingMethod lhs = .ok (cells, bd) ∧
        ValidExternal pb cfg.toForwardConfig kind
          ["initial_learning_rate", "use_lr_scheduler", "decay_steps", "decay_rate"]
          cfg.modelArchitecture cells bd) ∧
      0 < cfg.epochs ∧ cfg.updateConsoleOutput ≠ 0 ∧ ∑ e ∈ Finset.range cfg.epochs, mc.elapsed e ≠ 0 := by
  have key : ∀ m table column, mc.env.read files cfg.meshFileName = .ok m →
      csv cfg.exactSolutionFileName = .ok table → table[2]? = some column → column.length = m.points.length →
      ((∃ R, mainGear mc pb cfg csv lhs θ files = .ok R) ↔
        (∃ cells bd, readMesh (mc.env.read files) cfg.meshFileName cfg.boundaryRefinementLevel
          cfg.boundarySamplingMethod lhs = .ok (cells, bd) ∧
          ValidExternal pb cfg.toForwardConfig kind
            ["initial_learning_rate", "use_lr_scheduler", "decay_steps", "decay_rate"]
            cfg.modelArchitecture cells bd) ∧
        0 < cfg.epochs ∧ cfg.updateConsoleOutput ≠ 0 ∧ ∑ e ∈ Finset.range cfg.epochs, mc.elapsed e ≠ 0) := by
    intro m table column hm ht hc hl
    obtain ⟨u, rfl⟩ := exists_map_eq (planePoints m) column (hnodup m hm) (by rw [hl]; simp [planePoints])
    rw [mainGear_file mc pb cfg csv lhs θ files hext hvtk hgen table u ht (fun m' hm' => by
      obtain rfl := Except.ok.inj (hm.symm.trans hm')
      exact hc)]
    rw [(C76_external_completes mc (pb.withExact u) ForwardConfig.modelArchitecture cfg.toForwardConfig kind hk hloss
      lhs θ files hatt hext hjoin hvtk).1]
    have : ∀ cells bd, ValidExternal (pb.withExact u) cfg.toForwardConfig kind
            ["initial_learning_rate", "use_lr_scheduler", "decay_steps", "decay_rate"]
            cfg.modelArchitecture cells bd ↔ ValidExternal pb cfg.toForwardConfig kind
            ["initial_learning_rate", "use_lr_scheduler", "decay_steps", "decay_rate"]
            cfg.modelArchitecture cells bd := fun cells bd => by
      constructor <;>
      exact fun h => ⟨h.1, h.2, h.3, h.4, h.5, h.6, h.7, h.8, h.9, h.10, h.11, h.12, h.13, h.14⟩
    simp only [this]
  constructor
  · rintro ⟨R, hR⟩
    obtain ⟨m, table, column, hm, ht, hc, hl⟩ := C80_length mc pb cfg csv lhs θ files R hatt hext hvtk hgen hR
    exact ⟨⟨m, table, column, hm, ht, hc, hl⟩, (key m table column hm ht hc hl).1 ⟨R, hR⟩⟩
  · rintro ⟨⟨m, table, column, hm, ht, hc, hl⟩, h⟩
    exact (key m table column hm ht hc hl).2 h

/-- **C80** (shipped configuration).  The gear script finishes with its configuration if the mesh file can be read,
has distinct vertices, at least one cell and no boundary tags but 1000 and 1001, the file of values has as many lines
as the mesh has vertices, and the clock advances. -/
theorem C80_shipped (mc : Machine) (hclock : ∀ e, 0 < mc.elapsed e)
    (hjoin : ∀ folder a b, mc.env.join folder a = mc.env.join folder b → a = b)
    (lhs : ℕ → Fin (2 ^ 2 + 1) → ℝ × ℝ) (θ : Weights) (files : Files) (m : MeshioMesh)
    (hm : mc.env.read files "../meshes/gear.mesh" = .ok m) (hvtk : VtkRoundTrip mc.env m)
    (hnodup : (planePoints m).Nodup) (cells : List Quad) (bd : List (ℤ × List (List ℝ)))
    (hr : readMesh (mc.env.read files) "../meshes/gear.mesh" 2 "uniform" lhs = .ok (cells, bd)) (hc : cells ≠ [])
    (hbd : ∀ e ∈ bd, e.1 = 1000 ∨ e.1 = 1001) (csv : String → Except PyErr CsvTable) (x y u : List ℝ)
    (hcsv : csv "fem_output_gear_forward_sin.csv" = .ok [x, y, u]) (hu : u.length = m.points.length) :
    ∃ R, mainGear mc problemGear configGear csv lhs θ files = .ok R := by
  have hread : ∀ {m'}, mc.env.read files configGear.meshFileName = .ok m' → m = m' := fun h =>
    Except.ok.inj (hm.symm.trans h)
  refine (C80_completes mc problemGear configGear csv .cd2d (Or.inr (Or.inl rfl)) (fun _ _ _ => rfl) lhs θ files nofun rfl
    (hjoin _) (fun m' h => hread h ▸ hvtk) (fun m' h => hread h ▸ hnodup) (by simp [configGear])).2
    ⟨⟨m, _, u, hm, hcsv, rfl, hu⟩, ⟨cells, bd, hr, Or.inr rfl, rfl, hc, ?_, ?_, ?_, Or.inr rfl, ?_, ?_, ?_, ?_, ?_, rfl,
    rfl⟩, ?_, ?_, (Finset.sum_pos (fun e _ => hclock e) ⟨0, by simp [configGear]⟩).ne'⟩
  all_goals try simp [configGear]
  · intro t pts he hne
    rcases hbd _ he with h | h <;> dsimp only at h <;> subst h <;>
      simp [problemGear, Gear.boundaryFunctionDict, List.lookup]
  all_goals simp [requiredParams, problemGear, Gear.bilinearParamsDict, List.lookup]

/-- A configuration with values from a file for the demonstration mesh. -/
noncomputable def demoGear : GearConfig :=
  { demoConfig with exactSolutionGeneration := "external", exactSolutionFileName := "values.csv" }

/-- Coordinates of the vertices in another order than in the mesh, and four values. -/
def demoTable : String → Except PyErr CsvTable := fun _ => .ok [[2, 0, 1, 0], [1, 0, 0, 1], [5, 6, 7, 8]]

/-- The hypotheses of the theorems are met by a run on the demonstration mesh, and the first value of the file is
taken for the value at the first vertex of the mesh, `(0, 0)`, although the file gives it for the point `(2, 1)`. -/
example (quad : QuadRoutines) (lhs : ℕ → Fin (2 ^ 2 + 1) → ℝ × ℝ) (θ : Weights) :
    (∀ m, (demoMachine quad).env.read demoFiles demoGear.meshFileName = .ok m → (planePoints m).Nodup) ∧
    ∃ R, mainGear (demoMachine quad) demoProblem demoGear demoTable lhs θ demoFiles = .ok R ∧
      ∃ u : ℝ × ℝ → ℝ, u (0, 0) = 5 ∧
      R.files ((demoMachine quad).env.join demoGear.outputPath "exact.txt")
        = some ([u (0, 0), u (1, 0), u (2, 1), u (0, 1)].map (demoMachine quad).env.fmt) := by
  obtain ⟨hjoin, hvtk, hrun, -⟩ := demoConfig_runs quad lhs θ
  have hr : (demoMachine quad).env.read demoFiles "meshes/demo.v2.mesh" = .ok demoMesh := by
    simp [MeshFiles.read, demoFiles, demoEnv, demoMachine]
  have hnodup : ∀ m, (demoMachine quad).env.read demoFiles demoGear.meshFileName = .ok m → (planePoints m).Nodup := by
    intro m hm
    obtain rfl := Except.ok.inj (hr.symm.trans hm)
    simp [planePoints, demoMesh]
  have hv := (C76_external_completes (demoMachine quad) demoProblem ForwardConfig.modelArchitecture demoConfig .cd2d
    (Or.inr (Or.inl rfl)) (fun _ _ _ => rfl) lhs θ demoFiles nofun rfl hjoin hvtk).1.1 hrun
  obtain ⟨R, hR⟩ := (C80_completes (demoMachine quad) demoProblem demoGear demoTable .cd2d
    (Or.inr (Or.inl rfl)) (fun _ _ _ => rfl) lhs θ demoFiles nofun rfl hjoin hvtk hnodup (by simp [demoGear])).2
    ⟨⟨demoMesh, _, _, hr, rfl, rfl, by simp [demoMesh]⟩, hv⟩
  refine ⟨hnodup, R, hR, ?_⟩
  obtain ⟨u, table, m, _, _, _, _, _, _, _, _, _, _, _, _, k1, k2, -, k3, -, -, -, -, -, -, k4, -⟩ :=
    C80_file (demoMachine quad) demoProblem demoGear demoTable lhs θ demoFiles R nofun rfl hjoin hvtk hnodup
      (by simp [demoGear]) hR
  obtain rfl := Except.ok.inj (hr.symm.trans k3)
  obtain rfl := Except.ok.inj k1
  refine ⟨u, ?_, ?_⟩
  · simp [planePoints, demoMesh] at k2
    exact k2.1.symm
  · rw [k4.exactFile]
    simp [planePoints, demoMesh]

end FastVPINNs
