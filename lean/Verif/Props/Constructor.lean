import Verif.Props.Fespace
import Verif.Props.Setup

/-! # C63: when a finite element space can be built -/

namespace FastVPINNs

open Spec

lemma detjk_eq_cross (c : Quad) : 4 * QuadAffin.detjk c = cross (c 0) (c 1) (c 3) := by
  simp only [QuadAffin.detjk, cross, QuadAffin.xc1, QuadAffin.xc2, QuadAffin.yc1, QuadAffin.yc2]
  ring

variable {F V : Type} (ext : QuadRoutines) (mp : List (ℝ × ℝ)) (cells : List Quad) (bd : BdDict)
  (s : FESettings) (dict : List (ℤ × (ℝ → ℝ → V))) (f : F)

/-- The conditions that every space that has been built meets. -/
lemma fespace_conditions {plot : Bool} {nq : ℕ} {S : Fespace2D F V (s.feOrder.toNat ^ 2) nq}
    (h : fespace2D ext mp cells bd s dict f plot = .ok ⟨nq, S⟩) :
      s.cellType = "quadrilateral" ∧ cells ≠ [] ∧ (2 ≤ s.feOrder ∧ s.feOrder < 1000) ∧
      supportedFeType s.feType ∧ (3 ≤ s.quadOrder ∧ s.quadOrder ≤ 9999) ∧
      (s.quadType = "gauss-legendre" ∨ s.quadType = "gauss-jacobi") ∧
      (s.feTransformationType = "bilinear" ∨
        s.feTransformationType = "affine" ∧ ∀ c ∈ cells, cross (c 0) (c 1) (c 3) ≠ 0) ∧
      ∀ e ∈ bd, e.2 ≠ [] → ∃ g, dict.lookup e.1 = some g := by
  obtain ⟨hq, hne, -, -, -, -, -, hD, -, -, -, -, B, wt, xi, eta, hB, hR, hM⟩ := fespace_ok h
  obtain ⟨o1, o2, o3⟩ := (C12_basis_accepted _ _).1.1 ⟨B, hB⟩
  obtain ⟨-, q1, q2, q3⟩ := (C12_quadrature_accepted _ _ _ _).1.1 ⟨_, hR⟩
  have hT : ∀ c ∈ cells, s.feTransformationType = "bilinear" ∨
      s.feTransformationType = "affine" ∧ cross (c 0) (c 1) (c 3) ≠ 0 := by
    intro c hc
    obtain ⟨k, hk⟩ := List.mem_iff_getElem?.1 hc
    obtain ⟨fc, -, hok⟩ := (mapE_getElem? hM k).1 c hk
    unfold fe2dCellWith at hok
    cases hT : assignFeTransformation s.cellType s.feTransformationType c with
    | error e => rw [hT] at hok; cases hok
    | ok T =>
      rw [hT] at hok
      rcases assignFe_ok hT with ⟨ha, rfl⟩ | ⟨hb, -⟩
      · refine Or.inr ⟨ha, fun h0 => ?_⟩
        have hd : QuadAffin.detjk c = 0 := by
          have := detjk_eq_cross c
          rw [h0] at this
          linarith
        rw [ha] at hT
        simp only [C28_affine_degenerate _ c _ hT xi eta _ _ _
          (show |QuadAffin.detjk c| = 0 by rw [hd, abs_zero])] at hok
        cases hok
      · exact Or.inl hb
  refine ⟨hq, hne, ⟨o1, o2⟩, o3, ⟨q1, q2⟩, q3, ?_, ?_⟩
  · by_cases hb : s.feTransformationType = "bilinear"
    · exact Or.inl hb
    · obtain ⟨c, cs, rfl⟩ := List.exists_cons_of_ne_nil hne
      refine Or.inr ⟨((hT c (by simp)).resolve_left hb).1, fun c hc => ((hT c hc).resolve_left hb).2⟩
  · by_contra hall
    rw [(C37_dirichlet_data ext mp cells bd s dict f plot).2.1 hall] at hD
    cases hD

/-- **C63.**  Without plot, `Fespace2D` can be built exactly for quadrilateral cells (at least one), a
supported order, test space, quadrature order and type, and transformation - for `affine` no cell
may be degenerate at vertex 0 - when every tag with boundary points has a boundary function. -/
theorem C63_constructor :
    (∃ nq S, fespace2D ext mp cells bd s dict f false = .ok ⟨nq, S⟩) ↔
      s.cellType = "quadrilateral" ∧ cells ≠ [] ∧ (2 ≤ s.feOrder ∧ s.feOrder < 1000) ∧
      supportedFeType s.feType ∧ (3 ≤ s.quadOrder ∧ s.quadOrder ≤ 9999) ∧
      (s.quadType = "gauss-legendre" ∨ s.quadType = "gauss-jacobi") ∧
      (s.feTransformationType = "bilinear" ∨
        s.feTransformationType = "affine" ∧ ∀ c ∈ cells, cross (c 0) (c 1) (c 3) ≠ 0) ∧
      ∀ e ∈ bd, e.2 ≠ [] → ∃ g, dict.lookup e.1 = some g := by
  constructor
  · rintro ⟨nq, S, h⟩
    exact fespace_conditions ext mp cells bd s dict f h
  · rintro ⟨hq, hne, ho, hty, hQ, hqt, htr, hall⟩
    obtain ⟨B, hB⟩ := (C12_basis_accepted s.feOrder s.feType).1.2 ⟨ho.1, ho.2, hty⟩
    obtain ⟨rule, hR⟩ := (C12_quadrature_accepted ext "quadrilateral" s.quadOrder s.quadType).1.2
      ⟨rfl, hQ.1, hQ.2, hqt⟩
    obtain ⟨x, y, hD, -⟩ := (C37_dirichlet_data ext mp cells bd s dict f false).1 hall
    have hM : ∃ fcs, mapE (fe2dCellWith s (some B) rule f) cells = .ok fcs := by
      apply mapE_exists
      intro c hc
      unfold fe2dCellWith
      rw [hq]
      rcases htr with hb | ⟨ha, hdeg⟩
      · have : assignFeTransformation "quadrilateral" s.feTransformationType c = .ok (quadBilinear c) := by
          rw [hb]; simp [assignFeTransformation]
        rw [this]
        exact ⟨_, rfl⟩
      · have : assignFeTransformation "quadrilateral" s.feTransformationType c = .ok (quadAffin c) := by
          rw [ha]; simp [assignFeTransformation]
        rw [this]
        have hd : (QuadAffin.geoData c).det ≠ 0 := by
          rw [geoData_det]
          apply pow_ne_zero
          intro h0
          apply hdeg c hc
          rw [← detjk_eq_cross, h0, mul_zero]
        simp only [quadAffin, QuadAffin.getOrigFromRefSecondDerivative, if_neg hd]
        exact ⟨_, rfl⟩
    obtain ⟨fcs, hM⟩ := hM
    unfold fespace2D
    rw [if_neg (by rw [hq]; decide)]
    have hs : setFiniteElements ext s f cells
        = .ok (⟨rule.num, fcs⟩, fcs.foldl (fun d _ => d + rule.num) 0) := by
      obtain ⟨c, cs, rfl⟩ := List.exists_cons_of_ne_nil hne
      unfold setFiniteElements
      simp only [hq, hB, hR, hM]
    rw [hs]
    simp only [Bool.false_eq_true, if_false, hD]
    exact ⟨_, _, rfl⟩

/-- A concrete space for the examples: the unit square and a kite, order 3, five Gauss points, one
boundary tag. -/
def demoSettings (tr : String) : FESettings :=
  ⟨"quadrilateral", 3, "jacobi", 5, "gauss-legendre", tr⟩

/-- See `demoSettings`. -/
def demoCells : List Quad := [squareCell 1, kiteCell]

/-- See `demoSettings`. -/
def demoBoundary : BdDict := [(1000, [(0, 0), (1, 0)]), (1001, [(1, 1)])]

/-- See `demoSettings`. -/
def demoDict : List (ℤ × (ℝ → ℝ → ℝ)) := [(1001, fun x _ => x), (1000, fun x y => x * y)]

lemma demo_cells_ok : ∀ c ∈ demoCells, ConvexCCW c ∧ cross (c 0) (c 1) (c 3) ≠ 0 := by
  intro c hc
  simp only [demoCells, List.mem_cons, List.not_mem_nil, or_false] at hc
  rcases hc with rfl | rfl
  · exact ⟨⟨by simp [cross, squareCell], by simp [cross, squareCell], by simp [cross, squareCell],
      by simp [cross, squareCell]⟩, by simp [cross, squareCell]⟩
  · refine ⟨⟨?_, ?_, ?_, ?_⟩, ?_⟩ <;> simp [cross, kiteCell] <;> norm_num

/-- The demo space meets the hypotheses of C31–C39 and C63, with both transformations. -/
theorem demo_fespace {F : Type} (f : F) (tr : String) (htr : tr = "bilinear" ∨ tr = "affine") :
    ∃ nq S, fespace2D ext [(0, 0), (1, 1)] demoCells demoBoundary (demoSettings tr) demoDict f false
      = .ok ⟨nq, S⟩ := by
  refine (C63_constructor ext _ demoCells demoBoundary (demoSettings tr) demoDict f).2
    ⟨rfl, by simp [demoCells], by simp [demoSettings], by simp [demoSettings, supportedFeType],
      by simp [demoSettings], Or.inl rfl,
      ?_, ?_⟩
  · rcases htr with h | h
    · exact Or.inl h
    · exact Or.inr ⟨h, fun c hc => (demo_cells_ok c hc).2⟩
  · intro e he _
    simp only [demoBoundary, List.mem_cons, List.not_mem_nil, or_false] at he
    rcases he with rfl | rfl
    · exact ⟨fun x y => x * y, rfl⟩
    · exact ⟨fun x _ => x, rfl⟩

/-- C63 on a concrete failing case: a cell degenerate at vertex 0 is accepted with `bilinear` only. -/
example : (∃ nq S, fespace2D ext [] [![(0, 0), (1, 0), (2, 1), (2, 0)]] [] (demoSettings "bilinear") demoDict f
      false = .ok ⟨nq, S⟩) ∧
    ¬ ∃ nq S, fespace2D ext [] [![(0, 0), (1, 0), (2, 1), (2, 0)]] [] (demoSettings "affine") demoDict f
      false = .ok ⟨nq, S⟩ := by
  rw [C63_constructor, C63_constructor]
  simp [demoSettings, supportedFeType, cross]

/-- C34, C36 and C38 on the demo space: four accessors, the counts, and the plot. -/
example : ∃ nq S, fespace2D ext [(0, 0), (1, 1)] demoCells demoBoundary (demoSettings "bilinear") demoDict f
      false = .ok ⟨nq, S⟩ ∧ nq = 25 ∧ S.totalDofs = 50 ∧ S.totalDirichletDofs = 3 ∧
      S.getShapeFunctionVal (-1) = .error .valueError ∧ S.getQuadratureWeights 2 = .error .valueError ∧
      (∃ w, S.getQuadratureWeights 1 = .ok w) ∧
      ∃ S', fespace2D ext [(0, 0), (1, 1)] demoCells demoBoundary (demoSettings "bilinear") demoDict f
        true = .ok ⟨nq, S'⟩ ∧ S'.totalBoundaryDofs = 5 := by
  obtain ⟨nq, S, h⟩ := demo_fespace ext f "bilinear" (Or.inl rfl)
  obtain ⟨a1, -, a2⟩ := (C36_total_dofs _ _ _ _ _ _ _ _).1 nq S h
  obtain ⟨b1, b2⟩ := C34_accessors _ _ _ _ _ _ _ _ _ h
  obtain ⟨-, -, c3⟩ := C38_plot _ _ _ _ _ _ _ _ h
  obtain ⟨-, d2⟩ := (C37_dirichlet_data _ _ _ _ _ _ _ _).2.2 nq S h
  obtain ⟨S', e1, -, -, e2⟩ := c3 (by simp [demoBoundary])
  refine ⟨nq, S, h, ?_, ?_, ?_, (b1 (-1) (Or.inl (by norm_num))).1,
    (b1 2 (Or.inr (by simp [demoCells]))).2.2.2.2.2.2, ?_, S', e1, ?_⟩
  · have : (nq : ℤ) = 25 := by rw [a1]; rfl
    exact_mod_cast this
  · have : (S.totalDofs : ℤ) = 50 := by rw [a2]; rfl
    exact_mod_cast this
  · rw [d2]; rfl
  · obtain ⟨fc, -, -, -, -, -, -, -, hw⟩ := b2 1 kiteCell rfl
    exact ⟨_, hw⟩
  · rw [e2]; rfl

/-- C37 on the demo boundary: the function of tag 1001 is used for its point although it is registered
first; with a tag missing from the dictionary a `KeyError` is raised. -/
example : generateDirichletBoundaryData demoDict demoBoundary = .ok ([(0, 0), (1, 0), (1, 1)], [0 * 0, 1 * 0, 1]) ∧
    generateDirichletBoundaryData demoDict ((1002, [(0, 1)]) :: demoBoundary) = .error .keyError :=
  ⟨rfl, (C37_dirichlet_data ext [] [] _ (demoSettings "") demoDict () false).2.1 fun h => by
    obtain ⟨g, hg⟩ := h (1002, [(0, 1)]) (by simp) (by simp)
    cases hg⟩

/-- C37 (vector variant) on a concrete case. -/
example : generateDirichletBoundaryDataVector [(7, fun x y => [x, y + x])] [(7, [(2, 3)])] 1
    = generateDirichletBoundaryData [(7, fun x y => [x, y + x].getD 1 0)] [(7, [(2, 3)])] :=
  C37_dirichlet_vector [(7, [(2, 3)])] [(7, fun x y => [x, y + x])] 1 (by
    intro t h ht x y
    simp only [List.lookup] at ht
    split at ht
    · injection ht with ht; subst ht; simp
    · cases ht)

end FastVPINNs
