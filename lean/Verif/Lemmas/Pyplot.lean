import Verif.Spec.Figures

/-! # Lemmas about figures -/

namespace FastVPINNs

open Pyplot Spec

/-- `plot_contour` needs two rows and two columns. -/
lemma plotContour_succeeds {nx ny : ℕ} (x y z : Fin nx → Fin ny → ℝ) (outputPath filename title_ : String)
    (s : Pyplot) (h : 2 ≤ nx ∧ 2 ≤ ny) : ∃ s', plotContour x y z outputPath filename title_ s = .ok s' := by
  unfold plotContour Pyplot.contourf
  rw [if_neg (by omega)]
  exact ⟨_, rfl⟩

/-- Otherwise it is a `TypeError`. -/
lemma plotContour_fails {nx ny : ℕ} (x y z : Fin nx → Fin ny → ℝ) (outputPath filename title_ : String)
    (s : Pyplot) (h : ¬(2 ≤ nx ∧ 2 ≤ ny)) : plotContour x y z outputPath filename title_ s = .error .typeError := by
  unfold plotContour Pyplot.contourf
  rw [if_pos (by omega)]

/-- The state after an image has been saved in a figure of its own. -/
def saved (path : String) (fig : Figure) (s : Pyplot) : Pyplot :=
  ⟨s.figures, fun p => if p = path then some fig else s.images p⟩

lemma saved_oneImage (path : String) (fig : Figure) (s : Pyplot) : OneImage s (saved path fig s) path fig :=
  ⟨rfl, by simp [saved], fun p hp => by simp [saved, hp]⟩

lemma isCurveOf_mapIdx (ys : List ℝ) : IsCurveOf ys (ys.mapIdx fun k y => ((k : ℝ), y)) :=
  ⟨by simp, fun k y h => by simp [List.getElem?_mapIdx, h]⟩

/-- The curve of an array. -/
noncomputable def indexed (ys : List ℝ) : List (ℝ × ℝ) := ys.mapIdx fun k y => ((k : ℝ), y)

lemma plotLossFunction_eq (ys : List ℝ) (out : String) (s : Pyplot) :
    plotLossFunction ys out s = saved (pngPath out "loss_function")
      { drawn := [.curve (indexed ys) none], logY := true, xLabel := "Epochs", yLabel := "Loss",
        title := "Loss Function", grid := true } s := by
  have : out ++ "/loss_function.png" = pngPath out "loss_function" := by
    rw [pngPath, String.append_assoc, String.append_assoc]
    rfl
  rw [plotLossFunction, this]
  rfl

lemma pngPath_eq (out name : String) : out ++ ("/" ++ name ++ ".png") = pngPath out name := by
  rw [pngPath, String.append_assoc, String.append_assoc, String.append_assoc]

lemma plotArray_eq (ys : List ℝ) (out name title_ xl yl : String) (s : Pyplot) :
    plotArray ys out name title_ xl yl s = saved (pngPath out name)
      { drawn := [.curve (indexed ys) none], logY := true, xLabel := xl, yLabel := yl,
        title := title_, grid := true } s := by
  rw [plotArray, pngPath_eq]
  rfl

lemma plotTestLossFunction_eq (ys : List ℝ) (out pre : String) (s : Pyplot) :
    plotTestLossFunction ys out pre s
      = saved (pngPath out (if pre = "" then "test_loss_function" else pre ++ "_test_loss_function"))
      { drawn := [.curve (indexed ys) none], logY := true, xLabel := "Epochs", yLabel := "Loss",
        title := "Loss Function" } s := by
  unfold plotTestLossFunction
  by_cases h : pre = ""
  · have : out ++ "/test_loss_function.png" = pngPath out "test_loss_function" := by
      rw [pngPath, String.append_assoc, String.append_assoc]
      rfl
    simp only [h, if_true]
    rw [this]
    rfl
  · have : out ++ "/" ++ pre ++ "_test_loss_function.png" = pngPath out (pre ++ "_test_loss_function") := by
      simp only [pngPath, String.append_assoc]
      rfl
    simp only [h, if_false]
    rw [this]
    rfl

lemma plotInverseTestLossFunction_eq (ys : List ℝ) (out : String) (s : Pyplot) :
    plotInverseTestLossFunction ys out s = saved (pngPath out "test_inverse_loss_function")
      { drawn := [.curve (indexed ys) none], logY := true, xLabel := "Epochs", yLabel := "Loss",
        title := "Loss Function" } s := by
  have : out ++ "/test_inverse_loss_function.png" = pngPath out "test_inverse_loss_function" := by
    rw [pngPath, String.append_assoc, String.append_assoc]
    rfl
  rw [plotInverseTestLossFunction, this]
  rfl

lemma plotContour_eq {nx ny : ℕ} (x y z : Fin nx → Fin ny → ℝ) (out name title_ : String)
    (s : Pyplot) (h : 2 ≤ nx ∧ 2 ≤ ny) : plotContour x y z out name title_ s = .ok (saved (pngPath out name)
      { drawn := [.contour nx ny x y z], title := title_, colorbar := true } s) := by
  unfold plotContour Pyplot.contourf
  rw [if_neg (by omega)]
  rfl

lemma pngPath_inj {out a b : String} (h : pngPath out a = pngPath out b) : a = b := by
  unfold pngPath at h
  rwa [String.append_left_inj, String.append_right_inj] at h

/-! ## Several things in one figure -/

lemma change_cons (f : Figure → Figure) (fig : Figure) (rest : List Figure) (im : String → Option Figure) :
    change f ⟨fig :: rest, im⟩ = ⟨f fig :: rest, im⟩ := rfl

lemma foldl_plot (l : List (List ℝ × String)) (fig : Figure) (rest : List Figure) (im : String → Option Figure) :
    l.foldl (fun s e => plot (some e.2) e.1 s) ⟨fig :: rest, im⟩
      = ⟨{ fig with drawn := fig.drawn ++ l.map fun e => .curve (indexed e.1) (some e.2) } :: rest, im⟩ := by
  induction l generalizing fig with
  | nil => simp
  | cons a l ih =>
    rw [List.foldl_cons, show plot (some a.2) a.1 ⟨fig :: rest, im⟩
      = ⟨{ fig with drawn := fig.drawn ++ [.curve (indexed a.1) (some a.2)] } :: rest, im⟩ from rfl, ih]
    simp

/-- What `drawCells` draws. -/
def cellsDrawn : List (Quad × List (ℝ × ℝ)) → Bool → List Drawn
  | [], _ => []
  | (c, pts) :: rest, labelSet =>
    .curve (closePolygon c) none :: .scatter pts "x" (if labelSet then none else some "Quad Pts") :: cellsDrawn rest true

lemma drawCells_eq (l : List (Quad × List (ℝ × ℝ))) (b : Bool) (fig : Figure) (rest : List Figure)
    (im : String → Option Figure) :
    drawCells l b ⟨fig :: rest, im⟩ = ⟨{ fig with drawn := fig.drawn ++ cellsDrawn l b } :: rest, im⟩ := by
  induction l generalizing fig b with
  | nil => simp [drawCells, cellsDrawn]
  | cons a l ih =>
    obtain ⟨c, pts⟩ := a
    unfold drawCells cellsDrawn
    dsimp only [draw, change_cons]
    rw [ih]
    simp

lemma cellsDrawn_length (l : List (Quad × List (ℝ × ℝ))) (b : Bool) : (cellsDrawn l b).length = 2 * l.length := by
  induction l generalizing b with
  | nil => rfl
  | cons a l ih =>
    simp only [cellsDrawn, List.length_cons, ih]
    omega

lemma cellsDrawn_get (l : List (Quad × List (ℝ × ℝ))) (b : Bool) (k : ℕ) (c : Quad) (pts : List (ℝ × ℝ))
    (h : l[k]? = some (c, pts)) : (cellsDrawn l b)[2 * k]? = some (.curve [c 0, c 1, c 2, c 3, c 0] none) ∧
      (cellsDrawn l b)[2 * k + 1]? = some (.scatter pts "x" (if b ∨ 0 < k then none else some "Quad Pts")) := by
  induction l generalizing b k with
  | nil => simp at h
  | cons a l ih =>
    rcases k with _ | k
    · simp only [List.length_cons, Nat.zero_lt_succ, List.getElem?_cons_zero, Option.some.injEq] at h
      subst h
      simp [cellsDrawn, closePolygon]
    · rw [List.getElem?_cons_succ] at h
      obtain ⟨h1, h2⟩ := ih true k h
      simp only [cellsDrawn]
      rw [show 2 * (k + 1) = 2 * k + 1 + 1 by ring]
      simp only [List.getElem?_cons_succ, h1, h2]
      simp

/-- What `drawBoundary` draws. -/
def boundaryDrawn (str : ℤ → String) : BdDict → ℕ → List Drawn
  | [], _ => []
  | (tag, pts) :: rest, i =>
    .scatter (pts ++ pts.take 1) (markerList.getD (i + 1) "") (some ("Bd-id : " ++ str tag)) :: boundaryDrawn str rest (i + 1)

lemma drawBoundary_eq (str : ℤ → String) (bd : BdDict) (i : ℕ) (fig : Figure) (rest : List Figure)
    (im : String → Option Figure) :
    drawBoundary str bd i ⟨fig :: rest, im⟩ =
      match plotBoundaryLoop bd i 0 with
      | .error e => .error e
      | .ok _ => .ok ⟨{ fig with drawn := fig.drawn ++ boundaryDrawn str bd i } :: rest, im⟩ := by
  have hloop : ∀ (bd : BdDict) (i n m : ℕ), (∃ e, plotBoundaryLoop bd i n = .error e ∧ plotBoundaryLoop bd i m = .error e) ∨
      ∃ a b, plotBoundaryLoop bd i n = .ok a ∧ plotBoundaryLoop bd i m = .ok b := by
    intro bd
    induction bd with
    | nil => intro i n m; exact Or.inr ⟨n, m, rfl, rfl⟩
    | cons a bd ih =>
      obtain ⟨tag, pts⟩ := a
      intro i n m
      rcases pts with _ | ⟨p, pts⟩
      · exact Or.inl ⟨_, rfl, rfl⟩
      · simp only [plotBoundaryLoop]
        split
        · exact Or.inl ⟨_, rfl, rfl⟩
        · exact ih _ _ _
  induction bd generalizing i fig with
  | nil => simp [drawBoundary, plotBoundaryLoop, boundaryDrawn]
  | cons a bd ih =>
    obtain ⟨tag, pts⟩ := a
    rcases pts with _ | ⟨p, pts⟩
    · rfl
    · simp only [drawBoundary, plotBoundaryLoop, boundaryDrawn]
      rcases hm : pyIndex markerList (i + 1 : ℕ) with e | m
      · rfl
      · dsimp only [draw, change_cons]
        rw [ih]
        have hmark : markerList.getD (i + 1) "" = m := by
          unfold pyIndex at hm
          simp only [Int.natCast_nonneg, if_true] at hm
          rw [List.getD_eq_getElem?_getD]
          split at hm
          · rename_i h
            simp only [Int.toNat_natCast] at h
            rw [h]
            exact Except.ok.inj hm
          · exact absurd hm (by simp)
        rcases hloop bd (i + 1) 0 (0 + (p :: pts ++ [p]).length) with ⟨e, h1, h2⟩ | ⟨a, b, h1, h2⟩
        · rw [h1, h2]
        · rw [h1, h2, hmark]
          simp

lemma boundaryDrawn_length (str : ℤ → String) (bd : BdDict) (i : ℕ) : (boundaryDrawn str bd i).length = bd.length := by
  induction bd generalizing i with
  | nil => rfl
  | cons a l ih => simp only [boundaryDrawn, List.length_cons, ih]

lemma boundaryDrawn_get (str : ℤ → String) (bd : BdDict) (i k : ℕ) (tag : ℤ) (pts : List (ℝ × ℝ))
    (h : bd[k]? = some (tag, pts)) : (boundaryDrawn str bd i)[k]?
      = some (.scatter (pts ++ pts.take 1) (markerList.getD (i + k + 1) "") (some ("Bd-id : " ++ str tag))) := by
  induction bd generalizing i k with
  | nil => simp at h
  | cons a l ih =>
    rcases k with _ | k
    · simp only [List.length_cons, Nat.zero_lt_succ, List.getElem?_cons_zero, Option.some.injEq] at h
      subst h
      simp [boundaryDrawn]
    · rw [List.getElem?_cons_succ] at h
      simp only [boundaryDrawn, List.getElem?_cons_succ]
      rw [ih (i + 1) k h]
      rw [show i + 1 + k + 1 = i + (k + 1) + 1 by ring]

/-! ## The residuals -/

/-- What `drawResiduals` draws. -/
noncomputable def residualsDrawn (loss : List ℝ) (vmin vmax : ℝ) : List Quad → ℕ → List Drawn
  | [], _ => []
  | c :: rest, i => .fill (closePolygon c) (normalize vmin vmax (loss.getD i 0)) :: .curve (closePolygon c) none ::
      residualsDrawn loss vmin vmax rest (i + 1)

lemma drawResiduals_ok (loss : List ℝ) (vmin vmax : ℝ) (cells : List Quad) (i : ℕ) (hl : cells.length + i ≤ loss.length)
    (fig : Figure) (rest : List Figure) (im : String → Option Figure) :
    drawResiduals loss vmin vmax cells i ⟨fig :: rest, im⟩
      = .ok ⟨{ fig with drawn := fig.drawn ++ residualsDrawn loss vmin vmax cells i } :: rest, im⟩ := by
  induction cells generalizing i fig with
  | nil => simp [drawResiduals, residualsDrawn]
  | cons c cells ih =>
    simp only [List.length_cons] at hl
    have hi : pyIndex loss (i : ℤ) = .ok (loss.getD i 0) := by
      have hi : i < loss.length := by omega
      simp [pyIndex, List.getElem?_eq_getElem hi]
    simp only [drawResiduals, residualsDrawn, hi]
    dsimp only [draw, change_cons]
    rw [ih (i + 1) (by omega)]
    simp

lemma drawResiduals_short (loss : List ℝ) (vmin vmax : ℝ) (cells : List Quad) (i : ℕ) (hi : i ≤ loss.length)
    (hl : loss.length < cells.length + i) (s : Pyplot) :
    drawResiduals loss vmin vmax cells i s = .error .indexError := by
  induction cells generalizing i s with
  | nil =>
    simp only [List.length_nil] at hl
    omega
  | cons c cells ih =>
    simp only [List.length_cons] at hl
    rcases Nat.lt_or_ge i loss.length with h | h
    · have hi : pyIndex loss (i : ℤ) = .ok (loss.getD i 0) := by
        simp [pyIndex, List.getElem?_eq_getElem h]
      simp only [drawResiduals, hi]
      exact ih (i + 1) (by omega) (by omega) _
    · have hi : pyIndex loss (i : ℤ) = .error .indexError := by
        simp [pyIndex, List.getElem?_eq_none h]
      simp only [drawResiduals, hi]

lemma residualsDrawn_length (loss : List ℝ) (vmin vmax : ℝ) (cells : List Quad) (i : ℕ) :
    (residualsDrawn loss vmin vmax cells i).length = 2 * cells.length := by
  induction cells generalizing i with
  | nil => rfl
  | cons a l ih =>
    simp only [residualsDrawn, List.length_cons, ih]
    omega

lemma residualsDrawn_get (loss : List ℝ) (vmin vmax : ℝ) (cells : List Quad) (i k : ℕ) (c : Quad)
    (h : cells[k]? = some c) :
    (residualsDrawn loss vmin vmax cells i)[2 * k]?
        = some (.fill [c 0, c 1, c 2, c 3, c 0] (normalize vmin vmax (loss.getD (i + k) 0))) ∧
      (residualsDrawn loss vmin vmax cells i)[2 * k + 1]? = some (.curve [c 0, c 1, c 2, c 3, c 0] none) := by
  induction cells generalizing i k with
  | nil => simp at h
  | cons a l ih =>
    rcases k with _ | k
    · simp only [List.length_cons, Nat.zero_lt_succ, List.getElem?_cons_zero, Option.some.injEq] at h
      subst h
      simp [residualsDrawn, closePolygon]
    · rw [List.getElem?_cons_succ] at h
      obtain ⟨h1, h2⟩ := ih (i + 1) k h
      simp only [residualsDrawn]
      rw [show 2 * (k + 1) = 2 * k + 1 + 1 by ring]
      simp only [List.getElem?_cons_succ, h1, h2]
      rw [show i + 1 + k = i + (k + 1) by ring]
      simp

end FastVPINNs
