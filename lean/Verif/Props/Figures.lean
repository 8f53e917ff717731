import Verif.Lemmas.Pyplot
import Verif.Props.Fespace

/-! # C83: figures -/

namespace FastVPINNs

open Pyplot Spec

/-- **C83** (curves).  Each function that plots one array saves exactly one image, which shows the points `(k, a_k)` of
the array and nothing else, with a logarithmic ordinate; figures that were open stay open and no figure is added. -/
theorem C83_curves (a : List ℝ) (out : String) (s : Pyplot) :
    (∃ fig, OneImage s (plotLossFunction a out s) (pngPath out "loss_function") fig ∧
      ShowsCurve fig a "Epochs" "Loss" "Loss Function") ∧
    (∀ name title xl yl, ∃ fig, OneImage s (plotArray a out name title xl yl s) (pngPath out name) fig ∧
      ShowsCurve fig a xl yl title) ∧
    (∃ fig, OneImage s (plotInverseTestLossFunction a out s) (pngPath out "test_inverse_loss_function") fig ∧
      ShowsCurve fig a "Epochs" "Loss" "Loss Function") ∧
    (∃ fig, OneImage s (plotTestLossFunction a out "" s) (pngPath out "test_loss_function") fig ∧
      ShowsCurve fig a "Epochs" "Loss" "Loss Function") ∧
    ∀ pre, pre ≠ "" → ∃ fig,
      OneImage s (plotTestLossFunction a out pre s) (pngPath out (pre ++ "_test_loss_function")) fig ∧
      ShowsCurve fig a "Epochs" "Loss" "Loss Function" := by
  refine ⟨?_, fun name title xl yl => ?_, ?_, ?_, fun pre hp => ?_⟩
  · rw [plotLossFunction_eq]
    exact ⟨_, saved_oneImage _ _ _, ⟨_, rfl, isCurveOf_mapIdx a⟩, rfl, rfl, rfl, rfl, rfl⟩
  · rw [plotArray_eq]
    exact ⟨_, saved_oneImage _ _ _, ⟨_, rfl, isCurveOf_mapIdx a⟩, rfl, rfl, rfl, rfl, rfl⟩
  · rw [plotInverseTestLossFunction_eq]
    exact ⟨_, saved_oneImage _ _ _, ⟨_, rfl, isCurveOf_mapIdx a⟩, rfl, rfl, rfl, rfl, rfl⟩
  · rw [plotTestLossFunction_eq, if_pos rfl]
    exact ⟨_, saved_oneImage _ _ _, ⟨_, rfl, isCurveOf_mapIdx a⟩, rfl, rfl, rfl, rfl, rfl⟩
  · rw [plotTestLossFunction_eq, if_neg hp]
    exact ⟨_, saved_oneImage _ _ _, ⟨_, rfl, isCurveOf_mapIdx a⟩, rfl, rfl, rfl, rfl, rfl⟩

/-- A figure of someone else stays open, the third value is at position 2. -/
example : ∃ fig, (plotLossFunction [3, 2, 1] "out" ⟨[{ title := "mine" }], fun _ => none⟩).images "out/loss_function.png"
    = some fig ∧ (plotLossFunction [3, 2, 1] "out" ⟨[{ title := "mine" }], fun _ => none⟩).figures
      = [{ title := "mine" }] ∧ ∃ pts, fig.drawn = [.curve pts none] ∧ pts[2]? = some (2, 1) := by
  obtain ⟨fig, h1, h2⟩ := (C83_curves [3, 2, 1] "out" ⟨[{ title := "mine" }], fun _ => none⟩).1
  obtain ⟨pts, h3, h4⟩ := h2.drawn
  have := h4.2 2 1 rfl
  exact ⟨fig, h1.image, h1.figures, pts, h3, by simpa using this⟩

/-- **C83** (several curves).  `plot_multiple_loss_function` pairs arrays and labels; arrays without a label are left
out without a message. -/
theorem C83_multiple (arrays : List (List ℝ)) (labels : List String) (out name yl title xl : String) (s : Pyplot) :
    ∃ fig, OneImage s (plotMultipleLossFunction arrays out name labels yl title xl s) (pngPath out name) fig ∧
      fig.drawn.length = min arrays.length labels.length ∧ fig.legend = true ∧ fig.title = title ∧
      fig.xLabel = xl ∧ fig.yLabel = yl ∧ fig.logY = true ∧
      ∀ (k : ℕ) (a : List ℝ) (l : String), arrays[k]? = some a → labels[k]? = some l →
        ∃ pts, fig.drawn[k]? = some (.curve pts (some l)) ∧ IsCurveOf a pts := by
  have h : plotMultipleLossFunction arrays out name labels yl title xl s = saved (pngPath out name)
      { drawn := (arrays.zip labels).map fun e => .curve (indexed e.1) (some e.2), logY := true, xLabel := xl,
        yLabel := yl, title := title, legend := true, grid := true } s := by
    rw [plotMultipleLossFunction, pngPath_eq, show figure s = ⟨{} :: s.figures, s.images⟩ from rfl, foldl_plot]
    rfl
  rw [h]
  refine ⟨_, saved_oneImage _ _ _, by simp, rfl, rfl, rfl, rfl, rfl, fun k a l ha hl => ⟨_, ?_, isCurveOf_mapIdx a⟩⟩
  have : (arrays.zip labels)[k]? = some (a, l) := by
    rw [List.getElem?_zip_eq_some]
    exact ⟨ha, hl⟩
  simp only [List.getElem?_map, this, Option.map_some]
  rfl

/-- Three arrays and two labels: two curves. -/
example : ∃ fig, (plotMultipleLossFunction [[1], [2, 3], [4]] "out" "all" ["pde", "boundary"] "Loss" "Losses" "Epochs"
    ⟨[], fun _ => none⟩).images "out/all.png" = some fig ∧ fig.drawn.length = 2 := by
  obtain ⟨fig, h1, h2, -⟩ := C83_multiple [[1], [2, 3], [4]] ["pde", "boundary"] "out" "all" "Loss" "Losses" "Epochs"
    ⟨[], fun _ => none⟩
  exact ⟨fig, h1.image, h2⟩

/-- **C83** (error over time).  With as many times as errors the image shows the pairs, else there is a `ValueError`. -/
theorem C83_time (times errors : List ℝ) (out : String) (s : Pyplot) :
    (times.length = errors.length → ∃ s' fig pts, plotTestTimeLossFunction times errors out s = .ok s' ∧
      OneImage s s' (pngPath out "test_time_loss_function") fig ∧ fig.drawn = [.curve pts none] ∧
      pts.map Prod.fst = times ∧ pts.map Prod.snd = errors ∧ fig.logX = true ∧ fig.logY = true) ∧
    (times.length ≠ errors.length → plotTestTimeLossFunction times errors out s = .error .valueError) := by
  have hp : out ++ "/test_time_loss_function.png" = pngPath out "test_time_loss_function" := by
    simp only [pngPath, String.append_assoc]
    rfl
  refine ⟨fun h => ⟨saved (pngPath out "test_time_loss_function")
    { drawn := [.curve (times.zip errors) none], logX := true, logY := true, xLabel := "Time [s]", yLabel := "MAE Loss",
      title := "Loss Function" } s, _, _, ?_, saved_oneImage _ _ _, rfl, ?_, ?_, rfl, rfl⟩, fun h => ?_⟩
  · unfold plotTestTimeLossFunction plotXY
    rw [if_pos h, hp]
    rfl
  · exact List.map_fst_zip (by omega)
  · exact List.map_snd_zip (by omega)
  · unfold plotTestTimeLossFunction plotXY
    rw [if_neg h]

example : ∃ s', plotTestTimeLossFunction [1, 2] [3, 4] "out" ⟨[], fun _ => none⟩ = .ok s' ∧
    plotTestTimeLossFunction [1, 2] [3] "out" ⟨[], fun _ => none⟩ = .error .valueError := by
  obtain ⟨s', _, _, h, -⟩ := (C83_time [1, 2] [3, 4] "out" ⟨[], fun _ => none⟩).1 rfl
  exact ⟨s', h, (C83_time [1, 2] [3] "out" _).2 (by simp)⟩

/-- **C83** (contour plots).  `plot_contour` saves an image with the three matrices, provided that there are two rows
and two columns; otherwise it raises `TypeError`. -/
theorem C83_contour {nx ny : ℕ} (x y z : Fin nx → Fin ny → ℝ) (out name title : String) (s : Pyplot) :
    (2 ≤ nx ∧ 2 ≤ ny → ∃ s' fig, plotContour x y z out name title s = .ok s' ∧ OneImage s s' (pngPath out name) fig ∧
      fig.drawn = [.contour nx ny x y z] ∧ fig.title = title ∧ fig.colorbar = true) ∧
    (¬(2 ≤ nx ∧ 2 ≤ ny) → plotContour x y z out name title s = .error .typeError) :=
  ⟨fun h => ⟨_, _, plotContour_eq _ _ _ _ _ _ _ h, saved_oneImage _ _ _, rfl, rfl, rfl⟩,
    fun h => plotContour_fails _ _ _ _ _ _ _ h⟩

example : (∃ s', plotContour (nx := 2) (ny := 3) (fun i _ => i) (fun _ j => j) (fun i j => i * j) "out" "u" "u"
      ⟨[], fun _ => none⟩ = .ok s') ∧
    plotContour (nx := 1) (ny := 3) (fun i _ => i) (fun _ j => j) (fun i j => i * j) "out" "u" "u"
      ⟨[], fun _ => none⟩ = .error .typeError := by
  obtain ⟨s', _, h, -⟩ := (C83_contour (nx := 2) (ny := 3) (fun i _ => i) (fun _ j => j) (fun i j => i * j) "out" "u" "u"
    ⟨[], fun _ => none⟩).1 (by omega)
  exact ⟨⟨s', h⟩, (C83_contour _ _ _ _ _ _ _).2 (by omega)⟩

/-- **C83** (unknown constants).  `plot_inverse_param_function` saves two images: the values with the true value as a
horizontal line, and the absolute errors. -/
theorem C83_inverse_param (a : List ℝ) (name : String) (actual : ℝ) (out pre : String) (s : Pyplot) :
    ∃ fig₁ fig₂ pts₁ pts₂,
      (plotInverseParamFunction a name actual out pre s).figures = s.figures ∧
      (plotInverseParamFunction a name actual out pre s).images (pngPath out pre) = some fig₁ ∧
      (plotInverseParamFunction a name actual out pre s).images (pngPath out (pre ++ "_absolute_error")) = some fig₂ ∧
      (∀ p, p ≠ pngPath out pre → p ≠ pngPath out (pre ++ "_absolute_error") →
        (plotInverseParamFunction a name actual out pre s).images p = s.images p) ∧
      fig₁.drawn = [.curve pts₁ (some ("Predicted " ++ name)), .hlines actual 0 a.length ("Actual " ++ name)] ∧
      IsCurveOf a pts₁ ∧ fig₁.logY = false ∧
      fig₂.drawn = [.curve pts₂ none] ∧ IsCurveOf (a.map fun v => |v - actual|) pts₂ ∧ fig₂.logY = true := by
  have hz : (List.zipWith (· - ·) (a.map fun _ => 1 * actual) a).map (|·|) = a.map fun v => |v - actual| := by
    rw [List.zipWith_map_left, List.zipWith_self, List.map_map]
    refine List.map_congr_left fun v _ => ?_
    simp only [Function.comp_apply, one_mul]
    exact abs_sub_comm _ _
  have hp : out ++ ("/" ++ pre ++ "_absolute_error.png") = pngPath out (pre ++ "_absolute_error") := by
    simp only [pngPath, String.append_assoc]
    rfl
  have h : plotInverseParamFunction a name actual out pre s
      = saved (pngPath out (pre ++ "_absolute_error"))
        { drawn := [.curve (indexed (a.map fun v => |v - actual|)) none], logY := true, xLabel := "Epochs",
          yLabel := "Absolute Error", title := "Absolute Error of " ++ name }
        (saved (pngPath out pre)
          { drawn := [.curve (indexed a) (some ("Predicted " ++ name)), .hlines actual 0 a.length ("Actual " ++ name)],
            xLabel := "Epochs", yLabel := name, legend := true, grid := true } s) := by
    unfold plotInverseParamFunction
    simp only [hz, hp, pngPath_eq]
    rfl
  have hne : pngPath out pre ≠ pngPath out (pre ++ "_absolute_error") := by
    intro hc
    have := congrArg (fun x => x.toList.length) (pngPath_inj hc)
    simp at this
  rw [h]
  refine ⟨{ drawn := [.curve (indexed a) (some ("Predicted " ++ name)), .hlines actual 0 a.length ("Actual " ++ name)],
            xLabel := "Epochs", yLabel := name, legend := true, grid := true }, _, _, _, rfl, ?_,
    (saved_oneImage _ _ _).image, fun p h1 h2 => ?_, rfl, isCurveOf_mapIdx a, rfl, rfl,
    isCurveOf_mapIdx _, rfl⟩
  · rw [(saved_oneImage _ _ _).others _ hne]
    exact (saved_oneImage _ _ _).image
  · rw [(saved_oneImage _ _ _).others _ h2, (saved_oneImage _ _ _).others _ h1]

/-- After two epochs with the values 1 and 3 of a constant that is 2, both errors are 1. -/
example : ∃ fig pts, (plotInverseParamFunction [1, 3] "eps" 2 "out" "eps" ⟨[], fun _ => none⟩).images
    "out/eps_absolute_error.png" = some fig ∧ fig.drawn = [.curve pts none] ∧ pts[1]? = some (1, 1) := by
  obtain ⟨_, fig, _, pts, -, -, h1, -, -, -, -, h2, h3, -⟩ := C83_inverse_param [1, 3] "eps" 2 "out" "eps"
    ⟨[], fun _ => none⟩
  exact ⟨fig, pts, h1, h2, by simpa using h3.2 1 1 (by norm_num)⟩

/-! ## Figures that are not closed -/

section
variable {F : Type} {nt nq : ℕ} (str : ℤ → String)

/-- The boundary loop of the mesh plot fails exactly for 16 tags or an empty tag. -/
lemma plotBoundaryLoop_iff (bd : BdDict) :
    (16 ≤ bd.length ∨ (∃ e ∈ bd, e.2 = []) → plotBoundaryLoop bd 0 0 = .error .indexError) ∧
    (¬(16 ≤ bd.length ∨ ∃ e ∈ bd, e.2 = []) → ∃ n, plotBoundaryLoop bd 0 0 = .ok n) := by
  obtain ⟨p1, p2⟩ := plotBoundaryLoop_spec bd 0 0
  refine ⟨fun h => p2 ?_, fun h => ⟨_, p1 ⟨fun e he hc => h (Or.inr ⟨e, he, hc⟩), Or.inr ?_⟩⟩⟩
  · rintro ⟨h1, h2⟩
    rcases h with h | ⟨e, he, hc⟩
    · rcases h2 with rfl | h2
      · simp at h
      · omega
    · exact h1 e he hc
  · by_contra hc
    exact h (Or.inl (by omega))

/-- The figure of the mesh. -/
def meshFigure (feCell : List (FE2DCell F nt nq)) (bd : BdDict) : Figure :=
  { drawn := cellsDrawn (feCell.map fun c => (c.cellCoordinates, List.ofFn c.quadActualCoordinates)) false
      ++ boundaryDrawn str bd 0, legend := true }

/-- **C83** (mesh).  With 16 boundary tags or a tag without points `generate_plot` raises `IndexError`.  Otherwise both
images show the outline and the quadrature points of every cell and the points of every tag, with a marker of its own
and its number in the legend.  The figure is not closed: it is added to the open figures.  (The third tag has the
marker of the quadrature points.) -/
theorem C83_mesh (png svg : String) (feCell : List (FE2DCell F nt nq)) (bd : BdDict) (s : Pyplot) :
    (16 ≤ bd.length ∨ (∃ e ∈ bd, e.2 = []) → generatePlotFigure str png svg feCell bd s = .error .indexError) ∧
    (¬(16 ≤ bd.length ∨ ∃ e ∈ bd, e.2 = []) → ∃ s' fig, generatePlotFigure str png svg feCell bd s = .ok s' ∧
      s'.figures = fig :: s.figures ∧ s'.images png = some fig ∧ s'.images svg = some fig ∧
      (∀ p, p ≠ png → p ≠ svg → s'.images p = s.images p) ∧ fig.legend = true ∧
      ∃ (A B : List Drawn) (marker : ℕ → String), fig.drawn = A ++ B ∧ A.length = 2 * feCell.length ∧
        B.length = bd.length ∧ (∀ i j, i < j → j < bd.length → marker i ≠ marker j) ∧ marker 2 = "x" ∧
        (∀ (k : ℕ) c, feCell[k]? = some c →
          A[2 * k]? = some (.curve [c.cellCoordinates 0, c.cellCoordinates 1, c.cellCoordinates 2, c.cellCoordinates 3,
            c.cellCoordinates 0] none) ∧
          ∃ l, A[2 * k + 1]? = some (.scatter (List.ofFn c.quadActualCoordinates) "x" l)) ∧
        ∀ (k : ℕ) tag p pts, bd[k]? = some (tag, p :: pts) →
          B[k]? = some (.scatter (p :: pts ++ [p]) (marker k) (some ("Bd-id : " ++ str tag)))) := by
  have heq : generatePlotFigure str png svg feCell bd s = match plotBoundaryLoop bd 0 0 with
      | .error e => .error e
      | .ok _ => .ok ⟨meshFigure str feCell bd :: s.figures, fun p => if p = svg then some (meshFigure str feCell bd)
          else if p = png then some (meshFigure str feCell bd) else s.images p⟩ := by
    unfold generatePlotFigure drawMesh
    rw [show figure s = ⟨{} :: s.figures, s.images⟩ from rfl, drawCells_eq, drawBoundary_eq]
    rcases plotBoundaryLoop bd 0 0 with e | n
    · rfl
    · rfl
  obtain ⟨b1, b2⟩ := plotBoundaryLoop_iff bd
  refine ⟨fun h => ?_, fun h => ?_⟩
  · rw [heq, b1 h]
  obtain ⟨n, hn⟩ := b2 h
  rw [heq, hn]
  refine ⟨_, _, rfl, rfl, ?_, ?_, fun p h1 h2 => ?_, rfl, _, _, fun k => markerList.getD (k + 1) "", rfl, ?_,
    boundaryDrawn_length _ _ _, fun i j hij hj => ?_, rfl, fun k c hc => ?_, fun k tag p pts hk => ?_⟩
  · by_cases h' : png = svg <;> simp [h']
  · simp
  · simp [h1, h2]
  · rw [cellsDrawn_length, List.length_map]
  · have : bd.length < 16 := by
      by_contra hc
      exact h (Or.inl (by omega))
    have hj16 : j < 15 := by omega
    have hnd : markerList.Nodup := by decide
    dsimp only
    have hi' : i + 1 < markerList.length := by simp [markerList]; omega
    have hj' : j + 1 < markerList.length := by simp [markerList]; omega
    rw [List.getD_eq_getElem?_getD, List.getD_eq_getElem?_getD, List.getElem?_eq_getElem hi',
      List.getElem?_eq_getElem hj', Option.getD_some, Option.getD_some]
    intro hc
    rw [hnd.getElem_inj_iff] at hc
    omega
  · obtain ⟨h1, h2⟩ := cellsDrawn_get (feCell.map fun c => (c.cellCoordinates, List.ofFn c.quadActualCoordinates)) false k
      c.cellCoordinates (List.ofFn c.quadActualCoordinates) (by simp [hc])
    exact ⟨h1, _, h2⟩
  · have := boundaryDrawn_get str bd 0 k tag (p :: pts) hk
    simpa using this

/-- A mesh without boundary tags and one with a tag and a point meet the hypothesis, one with an empty tag does not. -/
example : ¬(16 ≤ ([(1000, [(0, 0), (1, 0)])] : BdDict).length ∨ ∃ e ∈ ([(1000, [(0, 0), (1, 0)])] : BdDict), e.2 = []) ∧
    (16 ≤ ([(1000, [])] : BdDict).length ∨ ∃ e ∈ ([(1000, [])] : BdDict), e.2 = []) := by
  simp

/-- **C83** (a finding).  Every mesh plot leaves its figure open: after `n` of them there are `n` more open figures
(matplotlib warns from 21 on). -/
theorem C83_open_figures (png svg : String) (feCell : List (FE2DCell F nt nq)) (bd : BdDict)
    (hbd : ¬(16 ≤ bd.length ∨ ∃ e ∈ bd, e.2 = [])) (n : ℕ) (s : Pyplot) :
    ∃ s', (List.replicate n ()).foldlM (fun t _ => generatePlotFigure str png svg feCell bd t) s = .ok s' ∧
      s'.figures.length = s.figures.length + n := by
  induction n generalizing s with
  | zero => exact ⟨s, rfl, rfl⟩
  | succ n ih =>
    obtain ⟨s₁, fig, h1, h2, -⟩ := (C83_mesh str png svg feCell bd s).2 hbd
    obtain ⟨s₂, h3, h4⟩ := ih s₁
    refine ⟨s₂, ?_, ?_⟩
    · rw [List.replicate_succ, List.foldlM_cons, h1]
      exact h3
    · rw [h4, h2, List.length_cons]
      omega

/-- After 21 function spaces with a mesh plot there are 21 open figures. -/
example (feCell : List (FE2DCell F nt nq)) : ∃ s', (List.replicate 21 ()).foldlM (fun t _ =>
      generatePlotFigure str "mesh.png" "mesh.svg" feCell [(1000, [(0, 0), (1, 0)])] t) ⟨[], fun _ => none⟩ = .ok s' ∧
    s'.figures.length = 21 :=
  C83_open_figures str "mesh.png" "mesh.svg" feCell _ (by simp) 21 _

end

/-- **C83** (sensors).  The sensor plot shows the sensor points; it is saved in the working directory - whatever the
output folder - and its figure is not closed. -/
theorem C83_sensors (points : List (ℝ × ℝ)) (s : Pyplot) : ∃ fig,
    (drawSensors points s).figures = fig :: s.figures ∧ (drawSensors points s).images "sensor_points.png" = some fig ∧
    (∀ p, p ≠ "sensor_points.png" → (drawSensors points s).images p = s.images p) ∧
    fig.drawn = [.scatter points "x" none] ∧ fig.title = "Sensor Points" := by
  refine ⟨{ drawn := [.scatter points "x" none], title := "Sensor Points" }, rfl, rfl, fun p hp => ?_, rfl, rfl⟩
  simp [drawSensors, savefig, hp, figure, draw, change_cons, title, tightLayout]

/-- Two sensors, whatever has been drawn before. -/
example (s : Pyplot) : ∃ fig, (drawSensors [(0, 0), (1, 2)] s).images "sensor_points.png" = some fig ∧
    fig.drawn = [.scatter [(0, 0), (1, 2)] "x" none] ∧ (drawSensors [(0, 0), (1, 2)] s).figures.length
      = s.figures.length + 1 := by
  obtain ⟨fig, h1, h2, -, h3, -⟩ := C83_sensors [(0, 0), (1, 2)] s
  exact ⟨fig, h2, h3, by rw [h1]; rfl⟩

/-- **C83** (residuals).  `plot_adaptive_mesh` raises `ValueError` without residuals and `IndexError` with fewer
residuals than cells.  Otherwise it raises `ValueError` at the colour bar for matplotlib from 3.8 on; with an older
version the image shows every cell in a colour that depends on its residual monotonically, from 0 for the least to 1
for the greatest residual (0 if all are equal), and the figure is not closed. -/
theorem C83_residuals (strict : Bool) (cells : List Quad) (loss : List ℝ) (epoch name folder : String) (s : Pyplot) :
    (loss = [] → plotAdaptiveMesh strict cells loss epoch name folder s = .error .valueError) ∧
    (loss ≠ [] → loss.length < cells.length →
      plotAdaptiveMesh strict cells loss epoch name folder s = .error .indexError) ∧
    (loss ≠ [] → cells.length ≤ loss.length → strict = true →
      plotAdaptiveMesh strict cells loss epoch name folder s = .error .valueError) ∧
    (loss ≠ [] → cells.length ≤ loss.length → strict = false →
      ∃ s' fig, plotAdaptiveMesh strict cells loss epoch name folder s = .ok s' ∧ s'.figures = fig :: s.figures ∧
        s'.images (folder ++ "/" ++ name ++ "_" ++ epoch ++ ".png") = some fig ∧
        (∀ p, p ≠ folder ++ "/" ++ name ++ "_" ++ epoch ++ ".png" → s'.images p = s.images p) ∧
        fig.drawn.length = 2 * cells.length ∧ fig.colorbar = true ∧
        ∃ colour : ℝ → ℝ, (∀ (k : ℕ) c v, cells[k]? = some c → loss[k]? = some v →
            fig.drawn[2 * k]? = some (.fill [c 0, c 1, c 2, c 3, c 0] (colour v)) ∧
            fig.drawn[2 * k + 1]? = some (.curve [c 0, c 1, c 2, c 3, c 0] none)) ∧
          (∀ v ∈ loss, 0 ≤ colour v ∧ colour v ≤ 1) ∧ (∀ v w, v ≤ w → colour v ≤ colour w) ∧
          (∀ v ∈ loss, (∀ w ∈ loss, v ≤ w) → colour v = 0) ∧
          ∀ v ∈ loss, ∀ w ∈ loss, w < v → (∀ w ∈ loss, w ≤ v) → colour v = 1) := by
  refine ⟨?_, ?_⟩
  · rintro rfl
    rfl
  suffices hmain : loss ≠ [] → ∃ m M, loss.min? = some m ∧ loss.max? = some M ∧ m ∈ loss ∧ M ∈ loss ∧
      (∀ w ∈ loss, m ≤ w) ∧ ∀ w ∈ loss, w ≤ M by
    refine ⟨fun hne hl => ?_, fun hne hl hs => ?_, fun hne hl hs => ?_⟩
    all_goals obtain ⟨m, M, h1, h2, h3, h4, h5, h6⟩ := hmain hne
    · simp only [plotAdaptiveMesh, h1, h2, drawResiduals_short loss m M cells 0 (by omega) (by omega)]
    · simp only [plotAdaptiveMesh, h1, h2, show figure s = ⟨{} :: s.figures, s.images⟩ from rfl,
        drawResiduals_ok loss m M cells 0 (by omega), hs, if_true]
    · have hd := drawResiduals_ok loss m M cells 0 (by omega) {} s.figures s.images
      have hmM : m ≤ M := h5 M h4
      let fig : Figure := { drawn := residualsDrawn loss m M cells 0, colorbar := true, title := "Cell Residual" }
      refine ⟨⟨fig :: s.figures,
        fun p => if p = folder ++ "/" ++ name ++ "_" ++ epoch ++ ".png" then some fig else s.images p⟩, fig, ?_, rfl, if_pos rfl,
        fun p hp => if_neg hp, residualsDrawn_length _ _ _ _ _, rfl, normalize m M, fun k c v hc hv => ?_, fun v hv => ?_,
        fun v w hvw => ?_, fun v hv hmin => ?_, fun v hv w hw hwv hmax => ?_⟩
      · simp only [plotAdaptiveMesh, h1, h2, show figure s = ⟨{} :: s.figures, s.images⟩ from rfl, hd, hs]
        rfl
      · obtain ⟨g1, g2⟩ := residualsDrawn_get loss m M cells 0 k c hc
        rw [Nat.zero_add, List.getD_eq_getElem?_getD, hv] at g1
        exact ⟨g1, g2⟩
      · unfold normalize
        split_ifs with h
        · exact ⟨le_rfl, zero_le_one⟩
        · have : 0 < M - m := sub_pos.2 (lt_of_le_of_ne hmM h)
          exact ⟨div_nonneg (sub_nonneg.2 (h5 v hv)) this.le, (div_le_one this).2 (by linarith [h6 v hv])⟩
      · unfold normalize
        split_ifs with h
        · exact le_rfl
        · have : 0 < M - m := sub_pos.2 (lt_of_le_of_ne hmM h)
          exact div_le_div_of_nonneg_right (by linarith) this.le
      · have : v = m := le_antisymm (hmin m h3) (h5 v hv)
        unfold normalize
        rw [this]
        split_ifs <;> simp
      · have : v = M := le_antisymm (h6 v hv) (hmax M h4)
        unfold normalize
        have h' := h5 w hw
        rw [if_neg (by intro hc; linarith), this, div_self (by intro hc; linarith)]
  intro hne
  obtain ⟨m, hm⟩ : ∃ m, loss.min? = some m := by
    cases h : loss.min? with
    | none => exact absurd (List.min?_eq_none_iff.1 h) hne
    | some m => exact ⟨m, rfl⟩
  obtain ⟨M, hM⟩ : ∃ M, loss.max? = some M := by
    cases h : loss.max? with
    | none => exact absurd (List.max?_eq_none_iff.1 h) hne
    | some m => exact ⟨m, rfl⟩
  obtain ⟨a1, a2⟩ := List.min?_eq_some_iff.1 hm
  obtain ⟨b1, b2⟩ := List.max?_eq_some_iff.1 hM
  exact ⟨m, M, hm, hM, a1, b1, a2, b2⟩

/-- Two cells with the residuals 3 and 5: the second has the colour of the greatest. -/
example (c d : Quad) (s : Pyplot) : ∃ s' fig x, plotAdaptiveMesh false [c, d] [3, 5] "10" "residual" "out" s = .ok s' ∧
    s'.images "out/residual_10.png" = some fig ∧ fig.drawn[0]? = some (.fill x 0) ∧
    ∃ y, fig.drawn[2]? = some (.fill y 1) := by
  obtain ⟨s', fig, h1, -, h2, -, -, -, colour, h3, -, -, h4, h5⟩ := (C83_residuals false [c, d] [3, 5] "10" "residual" "out"
    s).2.2.2 (by simp) (by simp) rfl
  have a := (h3 0 c 3 rfl rfl).1
  have b := (h3 1 d 5 rfl rfl).1
  rw [h4 3 (by simp) (by norm_num)] at a
  rw [h5 5 (by simp) 3 (by simp) (by norm_num) (by norm_num)] at b
  exact ⟨s', fig, _, h1, h2, a, _, b⟩

end FastVPINNs
