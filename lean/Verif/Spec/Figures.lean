import Verif.Model.Pyplot

/-! # What a figure shows -/

namespace FastVPINNs.Spec

/-- A curve through the values `ys` at the positions 0, 1, 2, …. -/
def IsCurveOf (ys : List ℝ) (points : List (ℝ × ℝ)) : Prop :=
  points.length = ys.length ∧ ∀ (k : ℕ) (y : ℝ), ys[k]? = some y → points[k]? = some ((k : ℝ), y)

/-- The figure consists of the curve through `ys` with the given axis labels and title. -/
structure ShowsCurve (fig : Figure) (ys : List ℝ) (xLabel yLabel title : String) : Prop where
  drawn : ∃ points, fig.drawn = [.curve points none] ∧ IsCurveOf ys points
  xLabel : fig.xLabel = xLabel
  yLabel : fig.yLabel = yLabel
  title : fig.title = title
  logY : fig.logY = true
  logX : fig.logX = false

/-- The figure is a contour plot over the points `pts`, arranged row by row in a matrix, of the values of `f`. -/
structure ShowsContour (fig : Figure) (nx ny : ℕ) (pts : List (ℝ × ℝ)) (f : ℝ × ℝ → ℝ) (title : String) : Prop where
  drawn : ∃ x y z, fig.drawn = [.contour nx ny x y z] ∧
    (∀ (i : Fin nx) (j : Fin ny), pts[i.val * ny + j.val]? = some (x i j, y i j)) ∧
    ∀ i j, z i j = f (x i j, y i j)
  title : fig.title = title
  colorbar : fig.colorbar = true

/-- The path of an image in the output folder. -/
def pngPath (outputPath name : String) : String := outputPath ++ "/" ++ name ++ ".png"

/-- `s'` has the same open figures as `s` and the same images apart from the one given. -/
structure OneImage (s s' : Pyplot) (path : String) (fig : Figure) : Prop where
  figures : s'.figures = s.figures
  image : s'.images path = some fig
  others : ∀ p, p ≠ path → s'.images p = s.images p

end FastVPINNs.Spec
