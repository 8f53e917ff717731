import Verif.Model.DataHandler
import Verif.Lemmas.ReadMesh
import Verif.Props.Basis

/-! # What a successfully constructed `Fespace2D` contains -/

namespace FastVPINNs

/-- The data of one cell, in terms of the basis, the rule and the map. -/
structure CellFacts {F : Type} {nt nq : ℕ} (B : BasisFunction2D nt) (wt xi eta : Fin nq → ℝ)
    (T : FETransformation2D) (f : F) (c : Quad) (fc : FE2DCell F nt nq) : Prop where
  coords : fc.cellCoordinates = c
  transf : fc.fetransformation = T
  mult : ∀ p, fc.mult p = wt p * T.jacobian (xi p) (eta p)
  val : ∀ t p, fc.basisAtQuad t p = B.value xi eta t p * (wt p * T.jacobian (xi p) (eta p))
  gradx : ∀ t p, fc.basisGradxAtQuad t p
    = (T.origFromRefDerivative (B.gradx xi eta) (B.grady xi eta) xi eta).1 t p
      * (wt p * T.jacobian (xi p) (eta p))
  grady : ∀ t p, fc.basisGradyAtQuad t p
    = (T.origFromRefDerivative (B.gradx xi eta) (B.grady xi eta) xi eta).2 t p
      * (wt p * T.jacobian (xi p) (eta p))
  gradxRef : fc.basisGradxAtQuadRef = B.gradx xi eta
  gradyRef : fc.basisGradyAtQuadRef = B.grady xi eta
  point : ∀ p, fc.quadActualCoordinates p = T.originalFromRef (xi p) (eta p)
  forcing : fc.forcingFunction = f

lemma fe2dCellWith_ok {F : Type} {nt nq : ℕ} {s : FESettings} {B : BasisFunction2D nt}
    {wt xi eta : Fin nq → ℝ} {f : F} {c : Quad} {fc : FE2DCell F nt nq}
    (h : fe2dCellWith s (some B) ⟨nq, wt, xi, eta⟩ f c = .ok fc) :
    ∃ T, assignFeTransformation s.cellType s.feTransformationType c = .ok T ∧
      CellFacts B wt xi eta T f c fc := by
  unfold fe2dCellWith at h
  cases hT : assignFeTransformation s.cellType s.feTransformationType c with
  | error e => rw [hT] at h; cases h
  | ok T =>
    rw [hT] at h
    simp only at h
    cases h2 : T.origFromRefSecondDerivative (B.gradxx xi eta) (B.gradxy xi eta)
        (B.gradyy xi eta) xi eta with
    | error e => rw [h2] at h; cases h
    | ok sec =>
      rw [h2] at h
      simp only [Except.ok.injEq] at h
      subst h
      exact ⟨T, rfl, ⟨rfl, rfl, fun _ => rfl, fun _ _ => rfl, fun _ _ => rfl, fun _ _ => rfl, rfl,
        rfl, fun _ => rfl, rfl⟩⟩

lemma mapE_map_ok {α β γ ε : Type*} {f : α → Except ε β} {g : α → Except ε γ} {k : β → γ}
    (h : ∀ a, g a = match f a with
      | .error e => .error e
      | .ok b => .ok (k b)) (l : List α) :
    mapE g l = match mapE f l with
      | .error e => .error e
      | .ok bs => .ok (bs.map k) := by
  induction l with
  | nil => rfl
  | cons a l ih =>
    simp only [mapE]
    rw [h a]
    cases f a with
    | error e => rfl
    | ok b =>
      simp only
      rw [ih]
      cases mapE f l with
      | error e => rfl
      | ok bs => rfl

/-- Building basis and rule once gives what building them for every cell gives. -/
lemma setFiniteElements_eq_mapE {F : Type} (ext : QuadRoutines) (s : FESettings) (f : F)
    (cells : List Quad) (hc : cells ≠ []) :
    mapE (fe2dCell ext s f) cells = match setFiniteElements ext s f cells with
      | .error e => .error e
      | .ok r => .ok (r.1.2.map fun fc => ⟨r.1.1, fc⟩) := by
  obtain ⟨c, cs, rfl⟩ := List.exists_cons_of_ne_nil hc
  unfold setFiniteElements
  simp only
  cases hB : assignBasisFunction s.cellType s.feOrder s.feType with
  | error e =>
    have : fe2dCell ext s f c = .error e := by unfold fe2dCell; rw [hB]
    simp only [mapE, this]
  | ok B =>
    simp only
    cases hR : assignQuadratureRules ext s.cellType s.quadOrder s.quadType with
    | error e =>
      have : fe2dCell ext s f c = .error e := by unfold fe2dCell; rw [hB]; simp only [hR]
      simp only [mapE, this]
    | ok rule =>
      simp only
      rw [mapE_map_ok (f := fe2dCellWith s B rule f) (g := fe2dCell ext s f)
        (k := fun fc => ⟨rule.num, fc⟩)]
      · cases mapE (fe2dCellWith s B rule f) (c :: cs) <;> rfl
      · intro a
        unfold fe2dCell
        rw [hB]
        simp only [hR]
        cases fe2dCellWith s B rule f a <;> rfl

lemma foldl_add_const {α : Type*} (l : List α) (n a : ℕ) :
    l.foldl (fun d _ => d + n) a = a + l.length * n := by
  induction l generalizing a with
  | nil => simp
  | cons x l ih => simp only [List.foldl_cons, ih, List.length_cons]; ring

variable {F V : Type} {ext : QuadRoutines} {mp : List (ℝ × ℝ)} {cells : List Quad} {bd : BdDict}
  {s : FESettings} {dict : List (ℤ × (ℝ → ℝ → V))} {f : F} {plot : Bool} {nq : ℕ}
  {S : Fespace2D F V (s.feOrder.toNat ^ 2) nq}

/-- A quadrature rule exists only on quadrilaterals. -/
lemma assignQuadratureRules_cellType {ct qt : String} {o : ℤ} {r : QuadRule2D}
    (h : assignQuadratureRules ext ct o qt = .ok r) : ct = "quadrilateral" := by
  unfold assignQuadratureRules at h
  split_ifs at h with h1
  all_goals exact h1

lemma assignBasisFunction_some {o : ℤ} {t : String} {b : Option (BasisFunction2D (o.toNat ^ 2))}
    (h : assignBasisFunction "quadrilateral" o t = .ok b) : ∃ B, b = some B := by
  unfold assignBasisFunction at h
  simp only [if_true] at h
  split_ifs at h <;> exact ⟨_, (Except.ok.inj h).symm⟩

/-- Everything the other lemmas need about a constructed space. -/
lemma fespace_ok (h : fespace2D ext mp cells bd s dict f plot = .ok ⟨nq, S⟩) :
    s.cellType = "quadrilateral" ∧ cells ≠ [] ∧ S.settings = s ∧ S.meshPoints = mp ∧
    S.nCells = cells.length ∧ S.boundaryPoints = bd ∧ S.boundFunctionDict = dict ∧
    generateDirichletBoundaryData dict bd = .ok S.dirichletBoundaryData ∧
    S.totalDirichletDofs = S.dirichletBoundaryData.1.length ∧
    S.totalDofs = cells.length * nq ∧
    (plot = true → plotBoundaryLoop bd 0 0 = .ok S.totalBoundaryDofs) ∧
    (plot = false → S.totalBoundaryDofs = 0) ∧
    ∃ B wt xi eta,
      assignBasisFunction "quadrilateral" s.feOrder s.feType = .ok (some B) ∧
      assignQuadratureRules ext "quadrilateral" s.quadOrder s.quadType = .ok ⟨nq, wt, xi, eta⟩ ∧
      mapE (fe2dCellWith s (some B) ⟨nq, wt, xi, eta⟩ f) cells = .ok S.feCell := by
  unfold fespace2D at h
  by_cases htri : s.cellType = "triangle"
  · rw [if_pos htri] at h; cases h
  rw [if_neg htri] at h
  cases hcells : cells with
  | nil => rw [hcells] at h; simp [setFiniteElements] at h
  | cons c cs =>
    have hcs : setFiniteElements ext s f cells = setFiniteElements ext s f (c :: cs) := by rw [hcells]
    rw [hcs] at h
    unfold setFiniteElements at h
    simp only at h
    cases hB : assignBasisFunction s.cellType s.feOrder s.feType with
    | error e => rw [hB] at h; cases h
    | ok b =>
      rw [hB] at h
      simp only at h
      cases hR : assignQuadratureRules ext s.cellType s.quadOrder s.quadType with
      | error e => rw [hR] at h; cases h
      | ok rule =>
        rw [hR] at h
        simp only at h
        have hq := assignQuadratureRules_cellType hR
        rw [hq] at hB hR
        obtain ⟨B, rfl⟩ := assignBasisFunction_some hB
        obtain ⟨num, wt, xi, eta⟩ := rule
        cases hM : mapE (fe2dCellWith s (some B) ⟨num, wt, xi, eta⟩ f) (c :: cs) with
        | error e => rw [hM] at h; cases h
        | ok fcs =>
          rw [hM] at h
          simp only at h
          have hlen := mapE_length hM
          cases hD : generateDirichletBoundaryData dict bd with
          | error e =>
            rw [hD] at h
            cases plot
            · cases h
            · simp only [if_true, generatePlot] at h
              cases hP : plotBoundaryLoop bd 0 0 with
              | error e => rw [hP] at h; cases h
              | ok n => rw [hP] at h; cases h
          | ok data =>
            rw [hD] at h
            cases plot
            · simp only [Bool.false_eq_true, if_false, Except.ok.injEq] at h
              cases h
              refine ⟨hq, by simp, rfl, rfl, by rw [hcells], rfl, rfl, rfl, rfl, ?_, by simp, by simp,
                B, wt, xi, eta, hB, hR, hM⟩
              simp only [foldl_add_const, hlen, zero_add]
            · simp only [if_true, generatePlot] at h
              cases hP : plotBoundaryLoop bd 0 0 with
              | error e => rw [hP] at h; cases h
              | ok n =>
                rw [hP] at h
                simp only [Except.ok.injEq] at h
                cases h
                refine ⟨hq, by simp, rfl, rfl, by rw [hcells], rfl, rfl, rfl, rfl, ?_, by simp,
                  by simp, B, wt, xi, eta, hB, hR, hM⟩
                simp only [foldl_add_const, hlen, zero_add]

/-- The cells of a constructed space. -/
lemma fespace_cell (h : fespace2D ext mp cells bd s dict f plot = .ok ⟨nq, S⟩) :
    S.feCell.length = cells.length ∧ ∃ B wt xi eta,
      assignBasisFunction "quadrilateral" s.feOrder s.feType = .ok (some B) ∧
      assignQuadratureRules ext "quadrilateral" s.quadOrder s.quadType = .ok ⟨nq, wt, xi, eta⟩ ∧
      ∀ (k : ℕ) c, cells[k]? = some c → ∃ T fc,
        assignFeTransformation "quadrilateral" s.feTransformationType c = .ok T ∧
        S.feCell[k]? = some fc ∧ fe2dCellWith s (some B) ⟨nq, wt, xi, eta⟩ f c = .ok fc ∧
        CellFacts B wt xi eta T f c fc := by
  obtain ⟨hq, -, -, -, -, -, -, -, -, -, -, -, B, wt, xi, eta, hB, hR, hM⟩ := fespace_ok h
  refine ⟨mapE_length hM, B, wt, xi, eta, hB, hR, fun k c hc => ?_⟩
  obtain ⟨fc, hfc, hok⟩ := (mapE_getElem? hM k).1 c hc
  obtain ⟨T, hT, hfacts⟩ := fe2dCellWith_ok hok
  rw [hq] at hT
  exact ⟨T, fc, hT, hfc, hok, hfacts⟩

/-! ### The accessors -/

lemma pyIndex_nonneg {α : Type*} (l : List α) {i : ℤ} (hi : 0 ≤ i) (a : α) :
    pyIndex l i = .ok a ↔ l[i.toNat]? = some a := by
  unfold pyIndex
  rw [if_pos hi]
  cases l[i.toNat]? <;> simp

lemma cellAt_ok {nt nq : ℕ} (S : Fespace2D F V nt nq) (i : ℤ) (fc : FE2DCell F nt nq) :
    S.cellAt i = .ok fc ↔ 0 ≤ i ∧ S.feCell[i.toNat]? = some fc := by
  unfold Fespace2D.cellAt
  split_ifs with h
  · refine ⟨(fun h => by cases h), fun ⟨h0, h1⟩ => ?_⟩
    obtain ⟨h2, -⟩ := List.getElem?_eq_some_iff.1 h1
    omega
  · push Not at h
    rw [pyIndex_nonneg _ h.2]
    exact ⟨fun h' => ⟨h.2, h'⟩, fun h' => h'.2⟩

lemma cellAt_error {nt nq : ℕ} (S : Fespace2D F V nt nq) (i : ℤ)
    (h : i < 0 ∨ (S.feCell.length : ℤ) ≤ i) : S.cellAt i = .error .valueError := by
  unfold Fespace2D.cellAt
  rw [if_pos h.symm]

lemma cellAt_nat {nt nq : ℕ} (S : Fespace2D F V nt nq) (k : ℕ) (fc : FE2DCell F nt nq) :
    S.cellAt k = .ok fc ↔ S.feCell[k]? = some fc := by
  rw [cellAt_ok]; simp

lemma foldl_add_eq_sum {n : ℕ} (g : Fin n → ℝ) (a : ℝ) :
    (List.finRange n).foldl (fun v q => v + g q) a = a + ∑ q, g q := by
  have : ∀ (l : List (Fin n)) (a : ℝ), l.foldl (fun v q => v + g q) a = a + (l.map g).sum := by
    intro l
    induction l with
    | nil => intro a; simp
    | cons x l ih => intro a; simp only [List.foldl_cons, ih, List.map_cons, List.sum_cons]; ring
  rw [this, ← List.ofFn_eq_map, List.sum_ofFn]

end FastVPINNs
