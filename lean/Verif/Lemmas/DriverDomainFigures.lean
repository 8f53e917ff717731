import Verif.Model.DriverDomainFigures
import Verif.Spec.DriverDomainFigures
import Verif.Lemmas.DriverFigures

/-! # Lemmas about the figures of the scripts for a coefficient field -/

namespace FastVPINNs

open Pyplot Spec

/-- The images of a run. -/
inductive ImageKey where
  | solution | loss | test
  | pred (e : ℕ) | err (e : ℕ) | invPred (e : ℕ) | invErr (e : ℕ)
  deriving DecidableEq

/-- Their names. -/
def ImageKey.name : ImageKey → String
  | solution => "exact_solution"
  | loss => "loss_function"
  | test => "test_loss_function"
  | pred e => "prediction_" ++ toString (e + 1)
  | err e => "error_" ++ toString (e + 1)
  | invPred e => "inverse_prediction_" ++ toString (e + 1)
  | invErr e => "inverse_error_" ++ toString (e + 1)

lemma append_toString_inj (pre : String) {a b : ℕ} (h : pre ++ toString (a + 1) = pre ++ toString (b + 1)) : a = b := by
  rw [String.append_right_inj] at h
  have h2 : Nat.repr (a + 1) = Nat.repr (b + 1) := h
  have := Nat.repr_injective h2
  omega

/-- The beginning of a name tells the kind of the image. -/
def ImageKey.start : ImageKey → List Char
  | solution => ['e', 'x', 'a', 'c', 't', '_']
  | loss => ['l', 'o', 's', 's', '_', 'f']
  | test => ['t', 'e', 's', 't', '_', 'l']
  | pred _ => ['p', 'r', 'e', 'd', 'i', 'c']
  | err _ => ['e', 'r', 'r', 'o', 'r', '_']
  | invPred _ => ['i', 'n', 'v', 'e', 'r', 's']
  | invErr _ => ['i', 'n', 'v', 'e', 'r', 's']

lemma append_take (pre x : String) (n : ℕ) (h : n ≤ pre.toList.length) :
    (pre ++ x).toList.take n = pre.toList.take n := by
  rw [String.toList_append, List.take_append_of_le_length h]

lemma ImageKey.name_start (k : ImageKey) : k.name.toList.take 6 = k.start := by
  cases k
  · decide
  · decide
  · decide
  all_goals exact (append_take _ _ 6 (by decide)).trans (by dsimp only [start]; decide)

lemma ImageKey.invPred_ne (a b : ℕ) : (invPred a).name ≠ (invErr b).name := by
  intro h
  have h9 : (invPred a).name.toList.take 9 = (invErr b).name.toList.take 9 := by rw [h]
  unfold name at h9
  rw [append_take _ _ 9 (by decide), append_take _ _ 9 (by decide)] at h9
  exact absurd h9 (by decide)

lemma ImageKey.name_inj {a b : ImageKey} (h : a.name = b.name) : a = b := by
  have hs : a.start = b.start := by rw [← name_start, ← name_start, h]
  cases a <;> cases b <;> first
    | rfl
    | exact absurd hs (by dsimp only [start]; decide)
    | exact absurd h (invPred_ne _ _)
    | exact absurd h.symm (invPred_ne _ _)
    | exact congrArg _ (append_toString_inj _ h)

/-- Saves images one after the other. -/
def savedKeys (out : String) : List (ImageKey × Figure) → Pyplot → Pyplot
  | [], s => s
  | e :: L, s => savedKeys out L (saved (pngPath out e.1.name) e.2 s)

lemma savedKeys_figures (out : String) (L : List (ImageKey × Figure)) (s : Pyplot) :
    (savedKeys out L s).figures = s.figures := by
  induction L generalizing s with
  | nil => rfl
  | cons e L ih => exact ih _

lemma savedKeys_append (out : String) (L M : List (ImageKey × Figure)) (s : Pyplot) :
    savedKeys out (L ++ M) s = savedKeys out M (savedKeys out L s) := by
  induction L generalizing s with
  | nil => rfl
  | cons e L ih => exact ih _

lemma savedKeys_others (out : String) (L : List (ImageKey × Figure)) (s : Pyplot) (p : String)
    (hp : ∀ e ∈ L, p ≠ pngPath out e.1.name) : (savedKeys out L s).images p = s.images p := by
  induction L generalizing s with
  | nil => rfl
  | cons e L ih =>
    rw [savedKeys, ih _ fun e he => hp e (by simp [he])]
    exact (saved_oneImage _ _ _).others _ (hp e (by simp))

/-- An image that is always the same. -/
lemma savedKeys_unique (out : String) (L : List (ImageKey × Figure)) (s : Pyplot) (k : ImageKey) (fig : Figure)
    (hm : (k, fig) ∈ L) (hu : ∀ e ∈ L, e.1 = k → e.2 = fig) :
    (savedKeys out L s).images (pngPath out k.name) = some fig := by
  induction L generalizing s with
  | nil => exact absurd hm (by simp)
  | cons e L ih =>
    rw [savedKeys]
    by_cases hL : (k, fig) ∈ L
    · exact ih _ hL fun e he => hu e (by simp [he])
    · have he : (k, fig) = e := by
        rcases List.mem_cons.1 hm with h | h
        · exact h
        · exact absurd h hL
      subst he
      rw [savedKeys_others]
      · exact (saved_oneImage _ _ _).image
      · intro e' he' hc
        have h1 := ImageKey.name_inj (pngPath_inj hc)
        have h2 := hu e' (by simp [he']) h1.symm
        exact hL (by rw [h1, ← h2]; exact he')

variable (cfg : InverseConfig) (pts : List (ℝ × ℝ)) (ye ac losses : List ℝ)

/-- A contour plot of an array. -/
noncomputable def valuesFigure (v : List ℝ) (title : String) : Figure :=
  contourFigure (rowsOf cfg.nTestPointsX cfg.nTestPointsY (pts.map Prod.fst))
    (rowsOf cfg.nTestPointsX cfg.nTestPointsY (pts.map Prod.snd)) (rowsOf cfg.nTestPointsX cfg.nTestPointsY v) title

/-- A contour plot of the differences of arrays. -/
noncomputable def diffFigure (a b : List ℝ) (title : String) : Figure :=
  contourFigure (rowsOf cfg.nTestPointsX cfg.nTestPointsY (pts.map Prod.fst))
    (rowsOf cfg.nTestPointsX cfg.nTestPointsY (pts.map Prod.snd))
    (fun i j => |rowsOf cfg.nTestPointsX cfg.nTestPointsY a i j - rowsOf cfg.nTestPointsX cfg.nTestPointsY b i j|) title

lemma rowsOf_getElem? {nx ny : ℕ} (v : List ℝ) (h : v.length = nx * ny) (i : Fin nx) (j : Fin ny) :
    v[i.val * ny + j.val]? = some (rowsOf nx ny v i j) := by
  have hlt : i.val * ny + j.val < v.length := by
    rw [h]
    calc i.val * ny + j.val < i.val * ny + ny := by omega
      _ = (i.val + 1) * ny := by ring
      _ ≤ nx * ny := Nat.mul_le_mul_right _ i.isLt
  simp [rowsOf, List.getElem?_eq_getElem hlt]

lemma points_rowsOf {nx ny : ℕ} (h : pts.length = nx * ny) (i : Fin nx) (j : Fin ny) :
    pts[i.val * ny + j.val]? = some (rowsOf nx ny (pts.map Prod.fst) i j, rowsOf nx ny (pts.map Prod.snd) i j) := by
  obtain ⟨p, h1, h2⟩ := rowsOf_map pts h Prod.fst i j
  obtain ⟨q, h3, h4⟩ := rowsOf_map pts h Prod.snd i j
  obtain rfl := Option.some.inj (h1.symm.trans h3)
  rw [h2, h4, h1]

lemma valuesFigure_shows (hp : pts.length = cfg.nTestPointsX * cfg.nTestPointsY) (v : List ℝ)
    (hv : v.length = cfg.nTestPointsX * cfg.nTestPointsY) (title : String) :
    ShowsValues (valuesFigure cfg pts v title) cfg.nTestPointsX cfg.nTestPointsY pts v title :=
  ⟨⟨_, _, _, rfl, fun i j => ⟨points_rowsOf pts hp i j, rowsOf_getElem? v hv i j⟩⟩, rfl, rfl⟩

lemma diffFigure_shows (hp : pts.length = cfg.nTestPointsX * cfg.nTestPointsY) (a b : List ℝ)
    (ha : a.length = cfg.nTestPointsX * cfg.nTestPointsY) (hb : b.length = cfg.nTestPointsX * cfg.nTestPointsY)
    (title : String) :
    ShowsValues (diffFigure cfg pts a b title) cfg.nTestPointsX cfg.nTestPointsY pts (absDiff a b) title :=
  ⟨⟨_, _, _, rfl, fun i j => ⟨points_rowsOf pts hp i j, by
    rw [absDiff, List.getElem?_zipWith, rowsOf_getElem? a ha i j, rowsOf_getElem? b hb i j]⟩⟩, rfl, rfl⟩

/-- The images of a report. -/
noncomputable def reportImages (tested : List ℝ) (r : DomainReport) : List (ImageKey × Figure) :=
  [(.loss, lossFigure (losses.take (r.epoch + 1))), (.test, testFigure tested)] ++
  if cfg.meshGenerationMethod = "internal" then
    [(.pred r.epoch, valuesFigure cfg pts r.yPred "Prediction"), (.err r.epoch, diffFigure cfg pts ye r.yPred "Error"),
     (.invPred r.epoch, valuesFigure cfg pts r.invPred "Inverse Parameter Prediction"),
     (.invErr r.epoch, diffFigure cfg pts ac r.invPred "Inverse Parameter Error")]
  else []

/-- The arrays of a report fit the test points. -/
def FitsPoints (r : DomainReport) : Prop :=
  r.yPred.length = cfg.nTestPointsX * cfg.nTestPointsY ∧ r.invPred.length = cfg.nTestPointsX * cfg.nTestPointsY

/-- What has to be known for an internal mesh. -/
def GridArrays : Prop :=
  (2 ≤ cfg.nTestPointsX ∧ 2 ≤ cfg.nTestPointsY) ∧ pts.length = cfg.nTestPointsX * cfg.nTestPointsY ∧
    ye.length = cfg.nTestPointsX * cfg.nTestPointsY ∧ ac.length = cfg.nTestPointsX * cfg.nTestPointsY

lemma plotDomainReport_eq (hg : cfg.meshGenerationMethod = "internal" → GridArrays cfg pts ye ac) (tested : List ℝ)
    (r : DomainReport) (hr : cfg.meshGenerationMethod = "internal" → FitsPoints cfg r) (s : Pyplot) :
    plotDomainReport cfg pts ye ac (losses.take (r.epoch + 1)) tested r s
      = .ok (savedKeys cfg.outputPath (reportImages cfg pts ye ac losses tested r) s) := by
  unfold plotDomainReport reportImages
  simp only [plotLossFunction_eq, plotTestLossFunction_eq, if_true]
  by_cases hm : cfg.meshGenerationMethod = "internal"
  · obtain ⟨h2, hp, hy, ha⟩ := hg hm
    obtain ⟨h3, h4⟩ := hr hm
    simp only [if_pos hm, bind, Except.bind, reshape_rowsOf hy, reshape_rowsOf ha, reshape_rowsOf h3, reshape_rowsOf h4,
      reshape_rowsOf (by simpa using hp : (pts.map Prod.fst).length = cfg.nTestPointsX * cfg.nTestPointsY),
      reshape_rowsOf (by simpa using hp : (pts.map Prod.snd).length = cfg.nTestPointsX * cfg.nTestPointsY),
      plotContour_eq _ _ _ _ _ _ _ h2]
    rfl
  · simp only [if_neg hm]
    rfl

/-- The images of all reports. -/
noncomputable def allImages (tested : List ℝ) : List DomainReport → List (ImageKey × Figure)
  | [] => []
  | r :: L => reportImages cfg pts ye ac losses (tested ++ [r.errors.2.2.2.2.1]) r ++
      allImages (tested ++ [r.errors.2.2.2.2.1]) L

lemma plotDomainReports_eq (hg : cfg.meshGenerationMethod = "internal" → GridArrays cfg pts ye ac)
    (L : List DomainReport) (hr : ∀ r ∈ L, cfg.meshGenerationMethod = "internal" → FitsPoints cfg r)
    (tested : List ℝ) (s : Pyplot) :
    plotDomainReports cfg pts ye ac losses tested L s
      = .ok (savedKeys cfg.outputPath (allImages cfg pts ye ac losses tested L) s) := by
  induction L generalizing tested s with
  | nil => rfl
  | cons r L ih =>
    rw [plotDomainReports, plotDomainReport_eq cfg pts ye ac losses hg _ r (hr r (by simp))]
    dsimp only
    rw [ih (fun r h => hr r (by simp [h])), allImages, savedKeys_append]

lemma allImages_append (L : List DomainReport) (r : DomainReport) (tested : List ℝ) :
    allImages cfg pts ye ac losses tested (L ++ [r]) = allImages cfg pts ye ac losses tested L ++
      reportImages cfg pts ye ac losses (tested ++ (L ++ [r]).map fun r => r.errors.2.2.2.2.1) r := by
  induction L generalizing tested with
  | nil => simp [allImages]
  | cons a L ih =>
    rw [List.cons_append, allImages, ih, allImages, List.append_assoc]
    simp

lemma mem_allImages (L : List DomainReport) (tested : List ℝ) (e : ImageKey × Figure) :
    (e ∈ allImages cfg pts ye ac losses tested L) →
      ∃ r ∈ L, ∃ t, e ∈ reportImages cfg pts ye ac losses t r := by
  induction L generalizing tested with
  | nil => intro h; exact absurd h (by simp [allImages])
  | cons a L ih =>
    intro h
    rcases List.mem_append.1 h with h | h
    · exact ⟨a, by simp, _, h⟩
    · obtain ⟨r, hr, t, ht⟩ := ih _ h
      exact ⟨r, by simp [hr], t, ht⟩

lemma allImages_mem (L : List DomainReport) (tested : List ℝ) (r : DomainReport) (hr : r ∈ L) :
    ∃ t, ∀ e ∈ reportImages cfg pts ye ac losses t r, e ∈ allImages cfg pts ye ac losses tested L := by
  induction L generalizing tested with
  | nil => exact absurd hr (by simp)
  | cons a L ih =>
    rcases List.mem_cons.1 hr with rfl | hr
    · exact ⟨_, fun e he => List.mem_append_left _ he⟩
    · obtain ⟨t, ht⟩ := ih (tested ++ [a.errors.2.2.2.2.1]) hr
      exact ⟨t, fun e he => List.mem_append_right _ (ht e he)⟩

/-- The image of a report that is not a curve. -/
lemma allImages_image (L : List DomainReport) (hnd : (L.map fun r => r.epoch).Nodup) (tested : List ℝ) (s : Pyplot)
    (r : DomainReport) (hr : r ∈ L) (k : ImageKey) (hk : k ≠ .loss ∧ k ≠ .test) (fig : Figure)
    (h : ∀ t, (k, fig) ∈ reportImages cfg pts ye ac losses t r) :
    (savedKeys cfg.outputPath (allImages cfg pts ye ac losses tested L) s).images (pngPath cfg.outputPath k.name)
      = some fig := by
  obtain ⟨t, ht⟩ := allImages_mem cfg pts ye ac losses L tested r hr
  apply savedKeys_unique _ _ _ _ _ (ht _ (h t))
  rintro ⟨k', f'⟩ he rfl
  obtain ⟨r', hr', t', ht'⟩ := mem_allImages cfg pts ye ac losses L tested _ he
  have hinj : r.epoch = r'.epoch → r = r' := List.inj_on_of_nodup_map hnd hr hr'
  have h0 := h t
  unfold reportImages at h0 ht'
  by_cases hm : cfg.meshGenerationMethod = "internal"
  · rw [if_pos hm] at h0 ht'
    simp only [List.cons_append, List.nil_append, List.mem_cons, List.not_mem_nil, or_false, Prod.mk.injEq] at h0 ht'
    rcases h0 with h0 | h0 | h0 | h0 | h0 | h0
    · exact absurd h0.1 hk.1
    · exact absurd h0.1 hk.2
    all_goals
      obtain ⟨h0, h1⟩ := h0
      rcases ht' with h2 | h2 | h2 | h2 | h2 | h2
      all_goals
        obtain ⟨h2, h3⟩ := h2
        rw [h0] at h2
        first
          | (obtain rfl := hinj (by injection h2)
             exact h3.trans h1.symm)
          | exact absurd h2 (by simp)
  · rw [if_neg hm] at h0
    simp only [List.append_nil, List.mem_cons, List.not_mem_nil, or_false, Prod.mk.injEq] at h0
    rcases h0 with h0 | h0
    · exact absurd h0.1 hk.1
    · exact absurd h0.1 hk.2

/-- The curves. -/
lemma allImages_curves (L : List DomainReport) (N : ℕ) (hN : losses.length = N)
    (hlast : ∃ r, L.getLast? = some r ∧ r.epoch + 1 = N) (s : Pyplot) :
    ShowsCurves cfg.outputPath L losses (savedKeys cfg.outputPath (allImages cfg pts ye ac losses [] L) s) := by
  obtain ⟨r, hr, he⟩ := hlast
  obtain ⟨L', rfl⟩ := List.getLast?_eq_some_iff.1 hr
  rw [allImages_append, savedKeys_append]
  constructor
  · refine ⟨lossFigure losses, savedKeys_unique _ _ _ .loss _ ?_ ?_, lossFigure_shows _⟩
    · rw [reportImages, he, List.take_of_length_le (by omega)]
      simp
    · rintro ⟨k, f⟩ h rfl
      rw [reportImages, he, List.take_of_length_le (by omega)] at h
      by_cases hm : cfg.meshGenerationMethod = "internal"
      · rw [if_pos hm] at h; simpa using h
      · rw [if_neg hm] at h; simpa using h
  · refine ⟨testFigure ((L' ++ [r]).map fun r => r.errors.2.2.2.2.1), savedKeys_unique _ _ _ .test _ ?_ ?_,
      testFigure_shows _⟩
    · rw [reportImages]
      simp
    · rintro ⟨k, f⟩ h rfl
      rw [reportImages] at h
      by_cases hm : cfg.meshGenerationMethod = "internal"
      · rw [if_pos hm] at h; simpa using h
      · rw [if_neg hm] at h; simpa using h

end FastVPINNs
