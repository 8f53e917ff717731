import Verif.Model.DriverFigures
import Verif.Spec.DriverFigures
import Verif.Lemmas.Pyplot
import Verif.Lemmas.Driver
import Std.Data.String.ToNat

/-! # Lemmas about the figures of a script -/

namespace FastVPINNs

open Pyplot Spec

/-- The names of the images of a report. -/
def predictionImage (e : ℕ) : String := "prediction_" ++ toString (e + 1)
def errorImage (e : ℕ) : String := "error_" ++ toString (e + 1)

lemma predictionImage_inj {a b : ℕ} (h : predictionImage a = predictionImage b) : a = b := by
  unfold predictionImage at h
  rw [String.append_right_inj] at h
  have h2 : Nat.repr (a + 1) = Nat.repr (b + 1) := h
  have := Nat.repr_injective h2
  omega

lemma errorImage_inj {a b : ℕ} (h : errorImage a = errorImage b) : a = b := by
  unfold errorImage at h
  rw [String.append_right_inj] at h
  have h2 : Nat.repr (a + 1) = Nat.repr (b + 1) := h
  have := Nat.repr_injective h2
  omega

lemma predictionImage_take (e : ℕ) : (predictionImage e).toList.take 2 = ['p', 'r'] := by
  simp [predictionImage]

lemma errorImage_take (e : ℕ) : (errorImage e).toList.take 2 = ['e', 'r'] := by
  simp [errorImage]

lemma predictionImage_ne (e : ℕ) (name : String) (h : name.toList.take 2 ≠ ['p', 'r']) : predictionImage e ≠ name := by
  rintro rfl
  exact h (predictionImage_take e)

lemma errorImage_ne (e : ℕ) (name : String) (h : name.toList.take 2 ≠ ['e', 'r']) : errorImage e ≠ name := by
  rintro rfl
  exact h (errorImage_take e)

lemma pngPath_ne {out a b : String} (h : a ≠ b) : pngPath out a ≠ pngPath out b := fun hc => h (pngPath_inj hc)

/-- The figures. -/
noncomputable def lossFigure (ys : List ℝ) : Figure :=
  { drawn := [.curve (indexed ys) none], logY := true, xLabel := "Epochs", yLabel := "Loss", title := "Loss Function",
    grid := true }
noncomputable def testFigure (ys : List ℝ) : Figure :=
  { drawn := [.curve (indexed ys) none], logY := true, xLabel := "Epochs", yLabel := "Loss", title := "Loss Function" }
def contourFigure {nx ny : ℕ} (x y z : Fin nx → Fin ny → ℝ) (title : String) : Figure :=
  { drawn := [.contour nx ny x y z], title := title, colorbar := true }

/-- The matrix of a flat array. -/
def rowsOf (nx ny : ℕ) (v : List ℝ) : Fin nx → Fin ny → ℝ := fun i j => v.getD (i.val * ny + j.val) 0

lemma reshape_rowsOf {nx ny : ℕ} {v : List ℝ} (h : v.length = nx * ny) : reshapeMatrix nx ny v = .ok (rowsOf nx ny v) :=
  if_pos h

lemma plotResults_eq {nx ny : ℕ} (h2 : 2 ≤ nx ∧ 2 ≤ ny) (la ta y : List ℝ) (hy : y.length = nx * ny)
    (X Y Z : Fin nx → Fin ny → ℝ) (out : String) (e : ℕ) (s : Pyplot) :
    plotResults la ta y X Y Z out e s = .ok
      (saved (pngPath out (errorImage e)) (contourFigure X Y (fun i j => |Z i j - rowsOf nx ny y i j|) "Error")
        (saved (pngPath out (predictionImage e)) (contourFigure X Y (rowsOf nx ny y) "Prediction")
          (saved (pngPath out "test_loss_function") (testFigure ta)
            (saved (pngPath out "loss_function") (lossFigure la) s)))) := by
  unfold plotResults
  simp only [bind, Except.bind, reshape_rowsOf hy, plotContour_eq _ _ _ _ _ _ _ h2, plotLossFunction_eq,
    plotTestLossFunction_eq, if_true]
  rfl

/-- The images after the reports. -/
lemma plotReports_ok {nx ny : ℕ} (h2 : 2 ≤ nx ∧ 2 ≤ ny) (losses : List ℝ) (X Y Z : Fin nx → Fin ny → ℝ) (out : String)
    (L : List (ℕ × ℝ × List ℝ)) (hL : ∀ r ∈ L, r.2.2.length = nx * ny) (hnd : (L.map Prod.fst).Nodup)
    (tested : List ℝ) (s : Pyplot) :
    ∃ S, plotReports losses X Y Z out tested L s = .ok S ∧ S.figures = s.figures ∧
      (∀ r ∈ L, S.images (pngPath out (predictionImage r.1)) = some (contourFigure X Y (rowsOf nx ny r.2.2) "Prediction") ∧
        S.images (pngPath out (errorImage r.1))
          = some (contourFigure X Y (fun i j => |Z i j - rowsOf nx ny r.2.2 i j|) "Error")) ∧
      (∀ r, L.getLast? = some r →
        S.images (pngPath out "loss_function") = some (lossFigure (losses.take (r.1 + 1))) ∧
        S.images (pngPath out "test_loss_function") = some (testFigure (tested ++ L.map fun r => r.2.1))) ∧
      ∀ p, p ≠ pngPath out "loss_function" → p ≠ pngPath out "test_loss_function" →
        (∀ r ∈ L, p ≠ pngPath out (predictionImage r.1) ∧ p ≠ pngPath out (errorImage r.1)) →
        S.images p = s.images p := by
  induction L generalizing tested s with
  | nil => exact ⟨s, rfl, rfl, by simp, by simp, fun _ _ _ _ => rfl⟩
  | cons r L ih =>
    obtain ⟨e, l1, y⟩ := r
    simp only [List.map_cons, List.nodup_cons] at hnd
    have hy : y.length = nx * ny := hL (e, l1, y) (by simp)
    unfold plotReports
    rw [plotResults_eq h2 _ _ y hy]
    obtain ⟨S, i1, i2, i3, i4, i5⟩ := ih (fun r hr => hL r (by simp [hr])) hnd.2 (tested ++ [l1])
      (saved (pngPath out (errorImage e)) (contourFigure X Y (fun i j => |Z i j - rowsOf nx ny y i j|) "Error")
        (saved (pngPath out (predictionImage e)) (contourFigure X Y (rowsOf nx ny y) "Prediction")
          (saved (pngPath out "test_loss_function") (testFigure (tested ++ [l1]))
            (saved (pngPath out "loss_function") (lossFigure (losses.take (e + 1))) s))))
    have hne : ∀ r ∈ L, e ≠ r.1 := fun r hr hc => hnd.1 (hc ▸ List.mem_map_of_mem hr)
    have pe : ∀ a b, predictionImage a ≠ errorImage b := fun a b =>
      predictionImage_ne a _ (by rw [errorImage_take]; decide)
    refine ⟨S, i1, i2, fun r hr => ?_, fun r hr => ?_, fun p p1 p2 p3 => ?_⟩
    · rcases List.mem_cons.1 hr with rfl | hr
      · constructor
        · rw [i5 _ (pngPath_ne (predictionImage_ne _ _ (by decide))) (pngPath_ne (predictionImage_ne _ _ (by decide)))
            fun r hr => ⟨pngPath_ne fun hc => hne r hr (predictionImage_inj hc), pngPath_ne (pe _ _)⟩]
          rw [(saved_oneImage _ _ _).others _ (pngPath_ne (pe _ _))]
          exact (saved_oneImage _ _ _).image
        · rw [i5 _ (pngPath_ne (errorImage_ne _ _ (by decide))) (pngPath_ne (errorImage_ne _ _ (by decide)))
            fun r hr => ⟨pngPath_ne (pe _ _).symm, pngPath_ne fun hc => hne r hr (errorImage_inj hc)⟩]
          exact (saved_oneImage _ _ _).image
      · exact i3 r hr
    · rcases L with _ | ⟨r', L⟩
      · obtain rfl : (e, l1, y) = r := by simpa using hr
        obtain rfl := Except.ok.inj i1
        constructor
        · rw [(saved_oneImage _ _ _).others _ (pngPath_ne (errorImage_ne _ _ (by decide)).symm),
            (saved_oneImage _ _ _).others _ (pngPath_ne (predictionImage_ne _ _ (by decide)).symm),
            (saved_oneImage _ _ _).others _ (pngPath_ne (by decide))]
          exact (saved_oneImage _ _ _).image
        · rw [(saved_oneImage _ _ _).others _ (pngPath_ne (errorImage_ne _ _ (by decide)).symm),
            (saved_oneImage _ _ _).others _ (pngPath_ne (predictionImage_ne _ _ (by decide)).symm)]
          exact (saved_oneImage _ _ _).image
      · rw [List.getLast?_cons_cons] at hr
        obtain ⟨j1, j2⟩ := i4 r hr
        exact ⟨j1, by rw [j2]; simp⟩
    · have hp := p3 (e, l1, y) (by simp)
      rw [i5 p p1 p2 fun r hr => p3 r (by simp [hr]), (saved_oneImage _ _ _).others _ hp.2,
        (saved_oneImage _ _ _).others _ hp.1, (saved_oneImage _ _ _).others _ p2, (saved_oneImage _ _ _).others _ p1]

lemma lossFigure_shows (ys : List ℝ) : ShowsCurve (lossFigure ys) ys "Epochs" "Loss" "Loss Function" :=
  ⟨⟨_, rfl, isCurveOf_mapIdx ys⟩, rfl, rfl, rfl, rfl, rfl⟩

lemma testFigure_shows (ys : List ℝ) : ShowsCurve (testFigure ys) ys "Epochs" "Loss" "Loss Function" :=
  ⟨⟨_, rfl, isCurveOf_mapIdx ys⟩, rfl, rfl, rfl, rfl, rfl⟩

lemma rowsOf_map {nx ny : ℕ} (pts : List (ℝ × ℝ)) (h : pts.length = nx * ny) (F : ℝ × ℝ → ℝ) (i : Fin nx) (j : Fin ny) :
    ∃ p, pts[i.val * ny + j.val]? = some p ∧ rowsOf nx ny (pts.map F) i j = F p := by
  have hlt : i.val * ny + j.val < pts.length := by
    rw [h]
    calc i.val * ny + j.val < i.val * ny + ny := by omega
      _ = (i.val + 1) * ny := by ring
      _ ≤ nx * ny := Nat.mul_le_mul_right _ i.isLt
  refine ⟨pts[i.val * ny + j.val], List.getElem?_eq_getElem hlt, ?_⟩
  simp [rowsOf, List.getElem?_eq_getElem hlt]

/-- A contour plot of values at the points. -/
lemma contourFigure_shows {nx ny : ℕ} (pts : List (ℝ × ℝ)) (h : pts.length = nx * ny) (z : Fin nx → Fin ny → ℝ)
    (F : ℝ × ℝ → ℝ) (hz : ∀ i j p, pts[i.val * ny + j.val]? = some p → z i j = F p) (title : String) :
    ShowsContour (contourFigure (rowsOf nx ny (pts.map Prod.fst)) (rowsOf nx ny (pts.map Prod.snd)) z title) nx ny pts F
      title := by
  refine ⟨⟨_, _, _, rfl, fun i j => ?_, fun i j => ?_⟩, rfl, rfl⟩
  all_goals
    obtain ⟨p, h1, h2⟩ := rowsOf_map pts h Prod.fst i j
    obtain ⟨q, h3, h4⟩ := rowsOf_map pts h Prod.snd i j
    obtain rfl := Option.some.inj (h1.symm.trans h3)
    rw [h2, h4]
  · exact h1
  · exact hz i j p h1

lemma contourMatrices_eq {nx ny : ℕ} (u : ℝ → ℝ → ℝ) (pts : List (ℝ × ℝ)) (h : pts.length = nx * ny) :
    contourMatrices nx ny u pts = .ok (rowsOf nx ny (pts.map Prod.fst), rowsOf nx ny (pts.map Prod.snd),
      rowsOf nx ny (pts.map fun p => u p.1 p.2)) := by
  simp only [contourMatrices, bind, Except.bind, pure, Except.pure, reshape_rowsOf (by simpa using h : (pts.map Prod.fst).length = nx * ny),
    reshape_rowsOf (by simpa using h : (pts.map Prod.snd).length = nx * ny),
    reshape_rowsOf (by simpa using h : (pts.map fun p => u p.1 p.2).length = nx * ny)]

lemma mapM_ok {α β : Type} (f : α → Except PyErr β) (g : α → β) (hf : ∀ a, f a = .ok (g a)) (l : List α) :
    l.mapM f = .ok (l.map g) := by
  induction l with
  | nil => rfl
  | cons a l ih => rw [List.mapM_cons, hf a, ih]; rfl

lemma reportEpochs_nodup (u : ℤ) (n : ℕ) : (reportEpochs u n).Nodup := List.Nodup.filter _ List.nodup_range

/-- The figures from the exact solution to the last report. -/
lemma figures_record {nx ny : ℕ} (h2 : 2 ≤ nx ∧ 2 ≤ ny) (pts : List (ℝ × ℝ)) (hlen : pts.length = nx * ny)
    (u : ℝ → ℝ → ℝ) (f : ℕ → ℝ × ℝ → ℝ) (losses : List ℝ) (update : ℤ) (epochs : ℕ) (hpos : 0 < epochs)
    (hlosses : losses.length = epochs) (L : List (ℕ × ℝ × List ℝ))
    (hL : List.Forall₂ (fun e r => r.1 = e ∧ pts.length * r.2.1 = (pts.map fun p => |u p.1 p.2 - f (e + 1) p|).sum ∧
      r.2.2 = pts.map (f (e + 1))) (reportEpochs update epochs) L) (out : String) (s : Pyplot) :
    ∃ s₁ S, plotContour (rowsOf nx ny (pts.map Prod.fst)) (rowsOf nx ny (pts.map Prod.snd))
        (rowsOf nx ny (pts.map fun p => u p.1 p.2)) out "exact_solution" "Exact Solution" s = .ok s₁ ∧
      plotReports losses (rowsOf nx ny (pts.map Prod.fst)) (rowsOf nx ny (pts.map Prod.snd))
        (rowsOf nx ny (pts.map fun p => u p.1 p.2)) out [] L s₁ = .ok S ∧ S.figures = s.figures ∧
      IsFigureRecord out nx ny (reportEpochs update epochs) pts (fun p => u p.1 p.2) f losses [] s S := by
  have hfst : L.map Prod.fst = reportEpochs update epochs := by
    have : ∀ {l : List ℕ} {m : List (ℕ × ℝ × List ℝ)}, List.Forall₂ (fun e r => r.1 = e ∧
        pts.length * r.2.1 = (pts.map fun p => |u p.1 p.2 - f (e + 1) p|).sum ∧ r.2.2 = pts.map (f (e + 1))) l m →
        m.map Prod.fst = l := by
      intro l m h
      induction h with
      | nil => rfl
      | cons h _ ih => rw [List.map_cons, ih, h.1]
    exact this hL
  have hmem : ∀ r ∈ L, r.2.2 = pts.map (f (r.1 + 1)) := by
    intro r hr
    obtain ⟨e, -, he, -, h⟩ := forall₂_mem_left hL.flip hr
    rw [he, h]
  obtain ⟨S, j1, j2, j3, j4, j5⟩ := plotReports_ok h2 losses (rowsOf nx ny (pts.map Prod.fst))
    (rowsOf nx ny (pts.map Prod.snd)) (rowsOf nx ny (pts.map fun p => u p.1 p.2)) out L
    (fun r hr => by rw [hmem r hr, List.length_map, hlen]) (by rw [hfst]; exact reportEpochs_nodup _ _) []
    (saved (pngPath out "exact_solution") (contourFigure (rowsOf nx ny (pts.map Prod.fst))
      (rowsOf nx ny (pts.map Prod.snd)) (rowsOf nx ny (pts.map fun p => u p.1 p.2)) "Exact Solution") s)
  refine ⟨_, S, plotContour_eq _ _ _ _ _ _ _ h2, j1, j2, ?_⟩
  have hne := fun e (hc : "exact_solution" = predictionImage e) => predictionImage_ne e _ (by decide) hc.symm
  have hne' := fun e (hc : "exact_solution" = errorImage e) => errorImage_ne e _ (by decide) hc.symm
  have hlast : ∃ r, L.getLast? = some r ∧ r.1 = epochs - 1 := by
    have h := reportEpochs_last update epochs hpos
    rw [← hfst, List.getLast?_map] at h
    obtain ⟨r, hr, h⟩ := Option.map_eq_some_iff.1 h
    exact ⟨r, hr, h⟩
  obtain ⟨r, hr, hr1⟩ := hlast
  obtain ⟨k1, k2⟩ := j4 r hr
  rw [hr1, List.take_of_length_le (by omega)] at k1
  constructor
  · refine ⟨_, ?_, contourFigure_shows pts hlen (rowsOf nx ny (pts.map fun p => u p.1 p.2)) (fun p => u p.1 p.2)
      (fun i j p hp => ?_) _⟩
    · rw [j5 _ (pngPath_ne (by decide)) (pngPath_ne (by decide))
        fun r _ => ⟨pngPath_ne (hne _), pngPath_ne (hne' _)⟩]
      exact (saved_oneImage _ _ _).image
    · obtain ⟨q, h1, h2⟩ := rowsOf_map pts hlen (fun p => u p.1 p.2) i j
      obtain rfl := Option.some.inj (hp.symm.trans h1)
      exact h2
  · intro e he
    obtain ⟨r, hr, h1, -, h3⟩ := forall₂_mem_left hL he
    obtain rfl := h1
    refine ⟨_, (j3 r hr).1, contourFigure_shows pts hlen _ _ (fun i j p hp => ?_) _⟩
    obtain ⟨q, h1, h2⟩ := rowsOf_map pts hlen (f (r.1 + 1)) i j
    obtain rfl := Option.some.inj (hp.symm.trans h1)
    rw [h3, h2]
  · intro e he
    obtain ⟨r, hr, h1, -, h3⟩ := forall₂_mem_left hL he
    obtain rfl := h1
    refine ⟨_, (j3 r hr).2, contourFigure_shows pts hlen _ (fun p => |u p.1 p.2 - f (r.1 + 1) p|) (fun i j p hp => ?_) _⟩
    obtain ⟨q, h1, h2⟩ := rowsOf_map pts hlen (f (r.1 + 1)) i j
    obtain rfl := Option.some.inj (hp.symm.trans h1)
    obtain ⟨q, h4, h5⟩ := rowsOf_map pts hlen (fun p => u p.1 p.2) i j
    obtain rfl := Option.some.inj (hp.symm.trans h4)
    rw [h3, h2, h5]
  · exact ⟨_, k1, lossFigure_shows _⟩
  · refine ⟨_, _, k2, testFigure_shows _, ?_⟩
    rw [List.nil_append, List.forall₂_map_right_iff]
    exact hL.imp fun _ _ h => h.2.1
  · intro p hp
    rw [List.append_nil] at hp
    have hmem' : ∀ r ∈ L, r.1 ∈ reportEpochs update epochs := fun r hr => hfst ▸ List.mem_map_of_mem hr
    rw [j5 p (hp _ (by simp [figureNames])) (hp _ (by simp [figureNames])) fun r hr => ⟨hp _ ?_, hp _ ?_⟩]
    · exact (saved_oneImage _ _ _).others _ (hp _ (by simp [figureNames]))
    · refine List.mem_append_right _ (List.mem_flatMap.2 ⟨r.1, hmem' r hr, ?_⟩)
      simp [predictionImage]
    · refine List.mem_append_right _ (List.mem_flatMap.2 ⟨r.1, hmem' r hr, ?_⟩)
      simp [errorImage]

/-- The figures of the inverse script after the loop. -/
lemma plotFinal_ok {nx ny : ℕ} (h2 : 2 ≤ nx ∧ 2 ≤ ny) (pts : List (ℝ × ℝ)) (hlen : pts.length = nx * ny)
    (u : ℝ → ℝ → ℝ) (v : ℝ × ℝ → ℝ) (reported : List ℕ) (f : ℕ → ℝ × ℝ → ℝ) (losses eps : List ℝ) (actual : ℝ)
    (out : String) (s S : Pyplot)
    (hS : IsFigureRecord out nx ny reported pts (fun p => u p.1 p.2) f losses [] s S) :
    let T : Pyplot := ⟨[], (saved (pngPath out "inverse_eps_prediction")
      ⟨[.curve (indexed eps) (some "Predicted Epsilon"), .axhline actual "Actual Epsilon"], false, false, "Epochs",
        "Epsilon", "Inverse Parameter Prediction", true, false, false⟩
      (saved (pngPath out "final_error") (contourFigure (rowsOf nx ny (pts.map Prod.fst))
        (rowsOf nx ny (pts.map Prod.snd))
        (fun i j => |rowsOf nx ny (pts.map fun p => u p.1 p.2) i j - rowsOf nx ny (pts.map v) i j|) "Error")
      (saved (pngPath out "final_prediction") (contourFigure (rowsOf nx ny (pts.map Prod.fst))
        (rowsOf nx ny (pts.map Prod.snd)) (rowsOf nx ny (pts.map v)) "Prediction")
      (saved (pngPath out "loss_function") (lossFigure losses) S)))).images⟩
    plotFinal losses (pts.map v) eps actual (rowsOf nx ny (pts.map Prod.fst)) (rowsOf nx ny (pts.map Prod.snd))
        (rowsOf nx ny (pts.map fun p => u p.1 p.2)) out (pngPath out "inverse_eps_prediction") S = .ok T ∧
      T.figures = [] ∧
      IsFigureRecord out nx ny reported pts (fun p => u p.1 p.2) f losses
        ["final_prediction", "final_error", "inverse_eps_prediction"] s T ∧
      IsFinalFigures out nx ny pts (fun p => u p.1 p.2) v eps actual T := by
  intro T
  have hT : ∀ p, (∀ name ∈ ["loss_function", "final_prediction", "final_error", "inverse_eps_prediction"],
      p ≠ pngPath out name) → T.images p = S.images p := by
    intro p hp
    dsimp only [T]
    rw [(saved_oneImage _ _ _).others _ (hp _ (by simp)), (saved_oneImage _ _ _).others _ (hp _ (by simp)),
      (saved_oneImage _ _ _).others _ (hp _ (by simp)), (saved_oneImage _ _ _).others _ (hp _ (by simp))]
  have hp : ∀ e, T.images (pngPath out (predictionImage e)) = S.images (pngPath out (predictionImage e)) := fun e =>
    hT _ fun name hn => pngPath_ne (predictionImage_ne e _ (by
      simp only [List.mem_cons, List.not_mem_nil, or_false] at hn
      rcases hn with rfl | rfl | rfl | rfl <;> decide))
  have he : ∀ e, T.images (pngPath out (errorImage e)) = S.images (pngPath out (errorImage e)) := fun e =>
    hT _ fun name hn => pngPath_ne (errorImage_ne e _ (by
      simp only [List.mem_cons, List.not_mem_nil, or_false] at hn
      rcases hn with rfl | rfl | rfl | rfl <;> decide))
  have hc : ∀ name, name ∉ ["loss_function", "final_prediction", "final_error", "inverse_eps_prediction"] →
      T.images (pngPath out name) = S.images (pngPath out name) := fun name hn =>
    hT _ fun name' hn' => pngPath_ne fun hc => hn (hc ▸ hn')
  refine ⟨?_, rfl, ⟨?_, ?_, ?_, ?_, ?_, ?_⟩, ⟨?_, ?_, ?_⟩⟩
  · unfold plotFinal
    simp only [bind, Except.bind, reshape_rowsOf (by simpa using hlen : (pts.map v).length = nx * ny),
      plotContour_eq _ _ _ _ _ _ _ h2, plotLossFunction_eq]
    rfl
  · rw [hc _ (by decide)]
    exact hS.exactImage
  · intro e h
    have := hp e
    unfold predictionImage at this
    rw [this]
    exact hS.prediction e h
  · intro e h
    have := he e
    unfold errorImage at this
    rw [this]
    exact hS.error e h
  · refine ⟨_, ?_, lossFigure_shows _⟩
    dsimp only [T]
    rw [(saved_oneImage _ _ _).others _ (pngPath_ne (by decide)), (saved_oneImage _ _ _).others _ (pngPath_ne (by decide)),
      (saved_oneImage _ _ _).others _ (pngPath_ne (by decide))]
    exact (saved_oneImage _ _ _).image
  · rw [hc _ (by decide)]
    exact hS.test
  · intro p hp
    rw [hT p fun name hn => hp name ?_]
    · exact hS.others p fun name hn => hp name (by
        rw [List.append_nil] at hn
        exact List.mem_append_left _ hn)
    · simp only [List.mem_cons, List.not_mem_nil, or_false] at hn
      rcases hn with rfl | rfl | rfl | rfl
      · exact List.mem_append_left _ (by simp [figureNames])
      all_goals exact List.mem_append_right _ (by simp)
  · refine ⟨_, ?_, contourFigure_shows pts hlen (rowsOf nx ny (pts.map v)) v (fun i j p hp => ?_) _⟩
    · dsimp only [T]
      rw [(saved_oneImage _ _ _).others _ (pngPath_ne (by decide)),
        (saved_oneImage _ _ _).others _ (pngPath_ne (by decide))]
      exact (saved_oneImage _ _ _).image
    · obtain ⟨q, h1, h2⟩ := rowsOf_map pts hlen v i j
      obtain rfl := Option.some.inj (hp.symm.trans h1)
      exact h2
  · refine ⟨_, ?_, contourFigure_shows pts hlen
      (fun i j => |rowsOf nx ny (pts.map fun p => u p.1 p.2) i j - rowsOf nx ny (pts.map v) i j|)
      (fun p => |u p.1 p.2 - v p|) (fun i j p hp => ?_) _⟩
    · dsimp only [T]
      rw [(saved_oneImage _ _ _).others _ (pngPath_ne (by decide))]
      exact (saved_oneImage _ _ _).image
    · obtain ⟨q, h1, h2⟩ := rowsOf_map pts hlen v i j
      obtain rfl := Option.some.inj (hp.symm.trans h1)
      obtain ⟨q, h4, h5⟩ := rowsOf_map pts hlen (fun p => u p.1 p.2) i j
      obtain rfl := Option.some.inj (hp.symm.trans h4)
      rw [h2, h5]
  · exact ⟨_, _, (saved_oneImage _ _ _).image, rfl, isCurveOf_mapIdx eps, rfl, rfl, rfl, rfl⟩

end FastVPINNs
