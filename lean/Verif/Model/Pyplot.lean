import Verif.Model.Examples
import Verif.Model.Fespace

/-! # Figures: `fastvpinns/utils/plot_utils.py` and the other uses of `matplotlib.pyplot`

`pyplot` keeps a stack of open figures; drawing functions act on the last one that was opened and open a new one if
there is none.  A figure is what has been drawn in it, with labels and scales; an image file contains the figure at
the time of `savefig`.  Not modelled: sizes, colours of lines, fonts, layout. -/

namespace FastVPINNs

/-- One thing drawn in a figure. -/
inductive Drawn
  /-- `plt.plot`: the points joined by a line. -/
  | curve (points : List (ℝ × ℝ)) (label : Option String)
  /-- `plt.scatter`. -/
  | scatter (points : List (ℝ × ℝ)) (marker : String) (label : Option String)
  /-- `plt.hlines(y, from, to)`. -/
  | hlines (y a b : ℝ) (label : String)
  /-- `plt.axhline(y)`. -/
  | axhline (y : ℝ) (label : String)
  /-- `plt.contourf(x, y, z)` with matrices. -/
  | contour (nx ny : ℕ) (x y z : Fin nx → Fin ny → ℝ)
  /-- `plt.fill` with the colour at position `t` of the colour map. -/
  | fill (points : List (ℝ × ℝ)) (t : ℝ)

/-- A figure. -/
structure Figure where
  drawn : List Drawn := []
  logX : Bool := false
  logY : Bool := false
  xLabel : String := ""
  yLabel : String := ""
  title : String := ""
  legend : Bool := false
  grid : Bool := false
  colorbar : Bool := false

/-- The state of `pyplot` (the current figure comes first) and the image files. -/
structure Pyplot where
  figures : List Figure
  images : String → Option Figure

namespace Pyplot

/-- `plt.figure()`. -/
def figure (s : Pyplot) : Pyplot := { s with figures := {} :: s.figures }

/-- A change of the current figure; if there is none it is opened (`plt.gcf`). -/
def change (f : Figure → Figure) (s : Pyplot) : Pyplot :=
  match s.figures with
  | [] => { s with figures := [f {}] }
  | fig :: rest => { s with figures := f fig :: rest }

/-- A drawing command. -/
def draw (d : Drawn) : Pyplot → Pyplot := change fun fig => { fig with drawn := fig.drawn ++ [d] }

/-- `plt.plot(ys, label=…)` of one array: the abscissae are the indices. -/
def plot (label : Option String) (ys : List ℝ) : Pyplot → Pyplot :=
  draw (.curve (ys.mapIdx fun k y => ((k : ℝ), y)) label)

/-- `plt.plot(xs, ys)`: arrays of different lengths are a `ValueError`. -/
def plotXY (xs ys : List ℝ) (s : Pyplot) : Except PyErr Pyplot :=
  if xs.length = ys.length then .ok (draw (.curve (xs.zip ys) none) s) else .error .valueError

/-- `plt.yscale("log")`. -/
def yLog : Pyplot → Pyplot := change fun fig => { fig with logY := true }
/-- `plt.xscale("log")`. -/
def xLog : Pyplot → Pyplot := change fun fig => { fig with logX := true }
/-- `plt.xlabel`. -/
def xLabel (l : String) : Pyplot → Pyplot := change fun fig => { fig with xLabel := l }
/-- `plt.ylabel`. -/
def yLabel (l : String) : Pyplot → Pyplot := change fun fig => { fig with yLabel := l }
/-- `plt.title`. -/
def title (l : String) : Pyplot → Pyplot := change fun fig => { fig with title := l }
/-- `plt.tight_layout()`: only the layout. -/
def tightLayout : Pyplot → Pyplot := change id
/-- `plt.legend()`. -/
def legend : Pyplot → Pyplot := change fun fig => { fig with legend := true }
/-- `plt.grid()`: without arguments it turns the grid on or off. -/
def grid : Pyplot → Pyplot := change fun fig => { fig with grid := !fig.grid }
/-- `plt.colorbar()`. -/
def colorbar : Pyplot → Pyplot := change fun fig => { fig with colorbar := true }

/-- `plt.contourf(x, y, z, levels=100)`: fewer than two rows or columns are a `TypeError`. -/
def contourf {nx ny : ℕ} (x y z : Fin nx → Fin ny → ℝ) (s : Pyplot) : Except PyErr Pyplot :=
  if nx < 2 ∨ ny < 2 then .error .typeError else .ok (draw (.contour nx ny x y z) s)

/-- `plt.savefig(path)`. -/
def savefig (path : String) (s : Pyplot) : Pyplot :=
  let s := change id s
  { s with images := fun p => if p = path then s.figures.head? else s.images p }

/-- `plt.close()`. -/
def close (s : Pyplot) : Pyplot := { s with figures := s.figures.tail }

/-- `plt.close("all")`. -/
def closeAll (s : Pyplot) : Pyplot := { s with figures := [] }

end Pyplot

open Pyplot

/-! ## `plot_utils.py` -/

/-- `plot_utils.py:42-66`. -/
def plotLossFunction (lossFunction : List ℝ) (outputPath : String) (s : Pyplot) : Pyplot :=
  s |> figure |> plot none lossFunction |> yLog |> xLabel "Epochs" |> yLabel "Loss" |> title "Loss Function"
    |> tightLayout |> grid |> savefig (outputPath ++ "/loss_function.png") |> close

/-- `plot_utils.py:69-100`. -/
def plotArray (array : List ℝ) (outputPath filename title_ : String) (xLabel_ : String := "Epochs")
    (yLabel_ : String := "Loss") (s : Pyplot) : Pyplot :=
  s |> figure |> plot none array |> yLog |> xLabel xLabel_ |> yLabel yLabel_ |> title title_
    |> tightLayout |> grid |> savefig (outputPath ++ ("/" ++ filename ++ ".png")) |> close

/-- `plot_utils.py:104-143`; `zip` ends with the shorter list. -/
def plotMultipleLossFunction (lossFunctionList : List (List ℝ)) (outputPath filename : String)
    (legendLabels : List String) (yLabel_ title_ : String) (xLabel_ : String := "Epochs") (s : Pyplot) : Pyplot :=
  ((lossFunctionList.zip legendLabels).foldl (fun s e => plot (some e.2) e.1 s) (figure s))
    |> yLog |> xLabel xLabel_ |> yLabel yLabel_ |> title title_ |> tightLayout |> legend |> grid
    |> savefig (outputPath ++ ("/" ++ filename ++ ".png")) |> close

/-- `plot_utils.py:147-169`. -/
def plotInverseTestLossFunction (lossFunction : List ℝ) (outputPath : String) (s : Pyplot) : Pyplot :=
  s |> figure |> plot none lossFunction |> yLog |> xLabel "Epochs" |> yLabel "Loss" |> title "Loss Function"
    |> tightLayout |> savefig (outputPath ++ "/test_inverse_loss_function.png") |> close

/-- `plot_utils.py:172-199`. -/
def plotTestLossFunction (lossFunction : List ℝ) (outputPath : String) (fileprefix : String := "") (s : Pyplot) :
    Pyplot :=
  let s := s |> figure |> plot none lossFunction |> yLog |> xLabel "Epochs" |> yLabel "Loss" |> title "Loss Function"
    |> tightLayout
  close (if fileprefix = "" then savefig (outputPath ++ "/test_loss_function.png") s
    else savefig (outputPath ++ "/" ++ fileprefix ++ "_test_loss_function.png") s)

/-- `plot_utils.py:202-227`. -/
def plotTestTimeLossFunction (timeArray lossFunction : List ℝ) (outputPath : String) (s : Pyplot) :
    Except PyErr Pyplot :=
  match plotXY timeArray lossFunction (figure s) with
  | .error e => .error e
  | .ok s => .ok (s |> yLog |> xLog |> xLabel "Time [s]" |> yLabel "MAE Loss" |> title "Loss Function"
      |> tightLayout |> savefig (outputPath ++ "/test_time_loss_function.png") |> close)

/-- `plot_utils.py:230-257`. -/
def plotContour {nx ny : ℕ} (x y z : Fin nx → Fin ny → ℝ) (outputPath filename title_ : String) (s : Pyplot) :
    Except PyErr Pyplot :=
  match contourf x y z (figure s) with
  | .error e => .error e
  | .ok s => .ok (s |> title title_ |> colorbar |> savefig (outputPath ++ "/" ++ filename ++ ".png") |> close)

/-- `plot_utils.py:261-317`. -/
noncomputable def plotInverseParamFunction (inversePredicted : List ℝ) (name : String) (actualValue : ℝ)
    (outputPath filePrefix : String) (s : Pyplot) : Pyplot :=
  let s := s |> figure |> plot (some ("Predicted " ++ name)) inversePredicted
    |> draw (.hlines actualValue 0 inversePredicted.length ("Actual " ++ name))
    |> xLabel "Epochs" |> yLabel name |> tightLayout |> legend |> grid
    |> savefig (outputPath ++ ("/" ++ filePrefix ++ ".png")) |> close
  let actualValArray := inversePredicted.map fun _ => 1 * actualValue
  s |> figure |> plot none ((List.zipWith (· - ·) actualValArray inversePredicted).map (|·|))
    |> xLabel "Epochs" |> yLabel "Absolute Error" |> yLog |> title ("Absolute Error of " ++ name)
    |> tightLayout |> savefig (outputPath ++ ("/" ++ filePrefix ++ "_absolute_error.png")) |> close

/-! ## The mesh, `fespace2d.py:251-342`, and the sensor points, `fespace2d.py:680-686` -/

/-- A closed polygon: `np.append(x, x[0])` for both coordinates. -/
def closePolygon (c : Quad) : List (ℝ × ℝ) := [c 0, c 1, c 2, c 3, c 0]

/-- `fespace2d.py:287-308`: the loop over the cells; the first scatter has a label.  The arguments are the vertices
and the quadrature points of each cell. -/
def drawCells : List (Quad × List (ℝ × ℝ)) → Bool → Pyplot → Pyplot
  | [], _, s => s
  | (c, pts) :: rest, labelSet, s =>
    let s := draw (.curve (closePolygon c) none) s
    let s := draw (.scatter pts "x" (if labelSet then none else some "Quad Pts")) s
    drawCells rest true s

/-- `fespace2d.py:315-326`: the loop over the boundary dictionary (with the errors of `plotBoundaryLoop`). -/
def drawBoundary (str : ℤ → String) : BdDict → ℕ → Pyplot → Except PyErr Pyplot
  | [], _, s => .ok s
  | (tag, pts) :: rest, i, s =>
    match pts with
    | [] => .error .indexError
    | p :: _ =>
      match pyIndex markerList (i + 1 : ℕ) with
      | .error e => .error e
      | .ok m => drawBoundary str rest (i + 1) (draw (.scatter (pts ++ [p]) m (some ("Bd-id : " ++ str tag))) s)

/-- `fespace2d.py:279-336`; `png` and `svg` are the two paths.  The figure is not closed. -/
def drawMesh (str : ℤ → String) (png svg : String) (cells : List (Quad × List (ℝ × ℝ))) (bd : BdDict) (s : Pyplot) :
    Except PyErr Pyplot :=
  match drawBoundary str bd 0 (drawCells cells false (figure s)) with
  | .error e => .error e
  | .ok s => .ok (s |> legend |> tightLayout |> savefig png |> savefig svg)

/-- `fespace2d.py:251-342` (`generate_plot`) of the cells of a space. -/
def generatePlotFigure {F : Type} {nt nq : ℕ} (str : ℤ → String) (png svg : String) (feCell : List (FE2DCell F nt nq))
    (bd : BdDict) (s : Pyplot) : Except PyErr Pyplot :=
  drawMesh str png svg (feCell.map fun c => (c.cellCoordinates, List.ofFn c.quadActualCoordinates)) bd s

/-- `fespace2d.py:681-686` in `get_sensor_data`.  The figure is not closed. -/
def drawSensors (points : List (ℝ × ℝ)) (s : Pyplot) : Pyplot :=
  s |> figure |> draw (.scatter points "x" none) |> title "Sensor Points" |> tightLayout |> savefig "sensor_points.png"

/-! ## The residuals of the cells, `geometry_2d.py:503-564` -/

/-- `mcolors.Normalize(vmin, vmax)(v)`. -/
noncomputable def normalize (vmin vmax v : ℝ) : ℝ := if vmin = vmax then 0 else (v - vmin) / (vmax - vmin)

/-- `geometry_2d.py:530-541`: the loop over the cells. -/
noncomputable def drawResiduals (loss : List ℝ) (vmin vmax : ℝ) : List Quad → ℕ → Pyplot → Except PyErr Pyplot
  | [], _, s => .ok s
  | c :: rest, index, s =>
    match pyIndex loss (index : ℕ) with
    | .error e => .error e
    | .ok v => drawResiduals loss vmin vmax rest (index + 1)
        (s |> draw (.fill (closePolygon c) (normalize vmin vmax v)) |> draw (.curve (closePolygon c) none))

/-- `geometry_2d.py:503-564` (`plot_adaptive_mesh`).  `np.min` of an empty list is a `ValueError`.  `strict` is true for
matplotlib from 3.8 on, where `plt.colorbar(sm)` of a mappable without axes is a `ValueError` (`requirements.txt`
does not restrict the version).  The figure is not closed. -/
noncomputable def plotAdaptiveMesh (strict : Bool) (cells : List Quad) (loss : List ℝ) (epoch filename folder : String)
    (s : Pyplot) : Except PyErr Pyplot :=
  match loss.min?, loss.max? with
  | some vmin, some vmax =>
    match drawResiduals loss vmin vmax cells 0 (figure s) with
    | .error e => .error e
    | .ok s =>
      if strict then .error .valueError
      else .ok (s |> colorbar |> title "Cell Residual" |> savefig (folder ++ "/" ++ filename ++ "_" ++ epoch ++ ".png"))
  | _, _ => .error .valueError

end FastVPINNs
