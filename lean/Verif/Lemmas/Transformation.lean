import Verif.Lemmas.Fespace
import Verif.Spec.Fespace
import Verif.Props.Constructor

/-! # Spaces whose cells have the same tables -/

namespace FastVPINNs

/-- The two outcomes are the same exception, or values in relation `r`. -/
inductive SameOutcome {ε α β : Type} (r : α → β → Prop) : Except ε α → Except ε β → Prop
  | error (e : ε) : SameOutcome r (.error e) (.error e)
  | ok {a : α} {b : β} : r a b → SameOutcome r (.ok a) (.ok b)

/-- The tables of two cells that the accessors report. -/
structure SameCell {F : Type} {nt nq : ℕ} (c c' : FE2DCell F nt nq) : Prop where
  val : c.basisAtQuad = c'.basisAtQuad
  gradx : c.basisGradxAtQuad = c'.basisGradxAtQuad
  grady : c.basisGradyAtQuad = c'.basisGradyAtQuad
  point : c.quadActualCoordinates = c'.quadActualCoordinates
  mult : c.mult = c'.mult
  gradxRef : c.basisGradxAtQuadRef = c'.basisGradxAtQuadRef
  gradyRef : c.basisGradyAtQuadRef = c'.basisGradyAtQuadRef
  forcing : c.forcingFunction = c'.forcingFunction

/-- The parts of two spaces that the data handler reads. -/
structure SameSpace {F V : Type} {nt nq : ℕ} (S S' : Fespace2D F V nt nq) : Prop where
  nCells : S.nCells = S'.nCells
  points : S.boundaryPoints = S'.boundaryPoints
  dict : S.boundFunctionDict = S'.boundFunctionDict
  cells : List.Forall₂ SameCell S.feCell S'.feCell

section
variable {F V : Type} {nt nq : ℕ}

lemma pyIndex_same {l l' : List (FE2DCell F nt nq)} (h : List.Forall₂ SameCell l l') (i : ℤ) :
    SameOutcome SameCell (pyIndex l i) (pyIndex l' i) := by
  have hl := h.length_eq
  have hget : ∀ k : ℕ, (l[k]? = none ∧ l'[k]? = none) ∨ ∃ a b, l[k]? = some a ∧ l'[k]? = some b ∧ SameCell a b := by
    intro k
    by_cases hk : k < l.length
    · right
      refine ⟨l[k], l'[k]'(hl ▸ hk), List.getElem?_eq_getElem hk, List.getElem?_eq_getElem (hl ▸ hk), ?_⟩
      have := h.get hk (hl ▸ hk)
      simpa using this
    · left
      exact ⟨List.getElem?_eq_none (by omega), List.getElem?_eq_none (by omega)⟩
  unfold pyIndex
  rw [hl]
  split_ifs
  · rcases hget i.toNat with ⟨h1, h2⟩ | ⟨a, b, h1, h2, h3⟩ <;> rw [h1, h2]
    · exact .error _
    · exact .ok h3
  · rcases hget (i + l'.length).toNat with ⟨h1, h2⟩ | ⟨a, b, h1, h2, h3⟩ <;> rw [h1, h2]
    · exact .error _
    · exact .ok h3
  · exact .error _

lemma cellAt_same {S S' : Fespace2D F V nt nq} (h : SameSpace S S') (i : ℤ) :
    SameOutcome SameCell (S.cellAt i) (S'.cellAt i) := by
  unfold Fespace2D.cellAt
  rw [h.cells.length_eq]
  split_ifs
  · exact .error _
  · exact pyIndex_same h.cells i

lemma tables_same {S S' : Fespace2D F V nt nq} (h : SameSpace S S') : Spec.SameTables S S' := by
  intro i
  unfold Fespace2D.getShapeFunctionVal Fespace2D.getShapeFunctionGradX Fespace2D.getShapeFunctionGradY
    Fespace2D.getShapeFunctionGradXRef Fespace2D.getShapeFunctionGradYRef Fespace2D.getQuadratureActualCoordinates
    Fespace2D.getQuadratureWeights
  rcases hS : S.cellAt i with e | c <;> rcases hS' : S'.cellAt i with e' | c' <;>
    have hr := hS ▸ hS' ▸ cellAt_same h i
  · cases hr; simp
  · cases hr
  · cases hr
  · obtain _ | hc := hr
    simp only [hc.val, hc.gradx, hc.grady, hc.point, hc.mult, hc.gradxRef, hc.gradyRef, and_self]

lemma sameCells_set {l l' : List (FE2DCell F nt nq)} (h : List.Forall₂ SameCell l l') {c c' : FE2DCell F nt nq}
    (hc : SameCell c c') (k : ℕ) : List.Forall₂ SameCell (l.set k c) (l'.set k c') := by
  induction h generalizing k with
  | nil => simp
  | cons hab hl ih =>
    cases k with
    | zero => exact .cons hc hl
    | succ k => exact .cons hab (ih k)

lemma setForcing_same {S S' : Fespace2D F V nt nq} (h : SameSpace S S') (i : ℤ) {c c' : FE2DCell F nt nq}
    (hc : SameCell c c') (v : Fin nt → ℝ) : SameSpace (S.setForcing i c v) (S'.setForcing i c' v) :=
  ⟨h.nCells, h.points, h.dict, sameCells_set h.cells (c := { c with forcingAtQuad := v })
    (c' := { c' with forcingAtQuad := v }) ⟨hc.val, hc.gradx, hc.grady, hc.point, hc.mult, hc.gradxRef,
      hc.gradyRef, hc.forcing⟩ _⟩

end

section
variable {V : Type} {nt nq : ℕ}

lemma cellTensors_same {S S' : Fespace2D (ℝ → ℝ → ℝ) V nt nq} (h : SameSpace S S') (i : ℤ) :
    SameOutcome (fun a b => a.1 = b.1 ∧ SameSpace a.2 b.2) (cellTensors S i) (cellTensors S' i) := by
  unfold cellTensors Fespace2D.getShapeFunctionVal Fespace2D.getShapeFunctionGradX Fespace2D.getShapeFunctionGradY
    Fespace2D.getQuadratureActualCoordinates Fespace2D.getForcingFunctionValues
  rcases hS : S.cellAt i with e | c <;> rcases hS' : S'.cellAt i with e' | c' <;>
    have hr := hS ▸ hS' ▸ cellAt_same h i
  · cases hr; exact .error _
  · cases hr
  · cases hr
  · obtain _ | hc := hr
    simp only [hc.val, hc.gradx, hc.grady, hc.point, hc.forcing]
    exact .ok ⟨rfl, setForcing_same h i hc _⟩

lemma dataLoop_same : ∀ (is : List ℕ) {S S' : Fespace2D (ℝ → ℝ → ℝ) V nt nq} (_ : SameSpace S S')
    (out : List (CellTensors nt nq)),
    SameOutcome (fun a b => a.1 = b.1 ∧ SameSpace a.2 b.2) (dataLoop is S out) (dataLoop is S' out)
  | [], _, _, h, _ => .ok ⟨rfl, h⟩
  | i :: is, S, S', h, out => by
    unfold dataLoop
    rcases hS : cellTensors S i with e | ⟨t, S₁⟩ <;> rcases hS' : cellTensors S' i with e' | ⟨t', S₁'⟩ <;>
      have hr := hS ▸ hS' ▸ cellTensors_same h i
    · cases hr; exact .error _
    · cases hr
    · cases hr
    · obtain _ | ⟨ht, hs⟩ := hr
      simp only at ht hs
      subst ht
      exact dataLoop_same is hs _

lemma dataHandler_same {S S' : Fespace2D (ℝ → ℝ → ℝ) V nt nq} (h : SameSpace S S') (isTf : Bool) :
    SameOutcome (fun a b => a.1 = b.1 ∧ SameSpace a.2 b.2) (dataHandler2D S isTf) (dataHandler2D S' isTf) := by
  unfold dataHandler2D
  cases isTf
  · exact .error _
  · simp only [if_true]
    rw [← h.nCells]
    have hr := dataLoop_same (List.range S.nCells) h []
    rcases hS : dataLoop (List.range S.nCells) S [] with e | ⟨t, S₁⟩ <;>
      rcases hS' : dataLoop (List.range S.nCells) S' [] with e' | ⟨t', S₁'⟩ <;> rw [hS, hS'] at hr
    · cases hr; exact .error _
    · cases hr
    · cases hr
    · obtain _ | ⟨ht, hs⟩ := hr
      simp only at ht hs
      subst ht
      exact .ok ⟨rfl, hs⟩

lemma getDirichletInput_same {F : Type} {S S' : Fespace2D F ℝ nt nq} (h : SameSpace S S') :
    getDirichletInput S = getDirichletInput S' := by
  unfold getDirichletInput
  rw [h.points, h.dict]

end

open Spec

section
variable {F V : Type}

/-- A parallelogram that is not degenerate: both transformations accept it, with the same tables. -/
lemma fe2dCell_same {nt : ℕ} (s : FESettings) (hs : s.cellType = "quadrilateral") (B : BasisFunction2D nt)
    (rule : QuadRule2D) (f : F) (c : Quad) (hp : IsParallelogram c) (hd : cross (c 0) (c 1) (c 3) ≠ 0) :
    ∃ fc fc', fe2dCellWith { s with feTransformationType := "affine" } (some B) rule f c = .ok fc ∧
      fe2dCellWith { s with feTransformationType := "bilinear" } (some B) rule f c = .ok fc' ∧ SameCell fc fc' := by
  obtain ⟨nq, wt, xi, eta⟩ := rule
  have ha : assignFeTransformation "quadrilateral" "affine" c = .ok (quadAffin c) := by simp [assignFeTransformation]
  have hb : assignFeTransformation "quadrilateral" "bilinear" c = .ok (quadBilinear c) := by
    simp [assignFeTransformation]
  have hdet : (QuadAffin.geoData c).det ≠ 0 := by
    rw [geoData_det]
    apply pow_ne_zero
    intro h0
    apply hd
    rw [← detjk_eq_cross, h0, mul_zero]
  have e1 : ∃ fc, fe2dCellWith { s with feTransformationType := "affine" } (some B) ⟨nq, wt, xi, eta⟩ f c = .ok fc := by
    unfold fe2dCellWith
    simp only [hs, ha, quadAffin, QuadAffin.getOrigFromRefSecondDerivative, if_neg hdet]
    exact ⟨_, rfl⟩
  have e2 : ∃ fc, fe2dCellWith { s with feTransformationType := "bilinear" } (some B) ⟨nq, wt, xi, eta⟩ f c
      = .ok fc := by
    unfold fe2dCellWith
    simp only [hs, hb]
    exact ⟨_, rfl⟩
  obtain ⟨fc, e1⟩ := e1
  obtain ⟨fc', e2⟩ := e2
  refine ⟨fc, fc', e1, e2, ?_⟩
  obtain ⟨T, hT, h1⟩ := fe2dCellWith_ok e1
  obtain ⟨T', hT', h2⟩ := fe2dCellWith_ok e2
  simp only [hs] at hT hT'
  obtain ⟨hm, hg⟩ := (C29_affine_vs_bilinear c T T' hT hT').1 hp
  refine ⟨?_, ?_, ?_, ?_, ?_, h1.gradxRef.trans h2.gradxRef.symm, h1.gradyRef.trans h2.gradyRef.symm, ?_⟩
  · funext t p; rw [h1.val, h2.val, (hm _ _).2]
  · funext t p; rw [h1.gradx, h2.gradx, (hm _ _).2, hg]
  · funext t p; rw [h1.grady, h2.grady, (hm _ _).2, hg]
  · funext p; rw [h1.point, h2.point, (hm _ _).1]
  · funext p; rw [h1.mult, h2.mult, (hm _ _).2]
  · rw [h1.forcing, h2.forcing]

lemma mapE_same {nt : ℕ} (s : FESettings) (hs : s.cellType = "quadrilateral") (B : BasisFunction2D nt)
    (rule : QuadRule2D) (f : F) (cells : List Quad)
    (hc : ∀ c ∈ cells, IsParallelogram c ∧ cross (c 0) (c 1) (c 3) ≠ 0) :
    ∃ fcs fcs', mapE (fe2dCellWith { s with feTransformationType := "affine" } (some B) rule f) cells = .ok fcs ∧
      mapE (fe2dCellWith { s with feTransformationType := "bilinear" } (some B) rule f) cells = .ok fcs' ∧
      List.Forall₂ SameCell fcs fcs' := by
  induction cells with
  | nil => exact ⟨[], [], rfl, rfl, .nil⟩
  | cons c l ih =>
    obtain ⟨fc, fc', h1, h2, h3⟩ := fe2dCell_same s hs B rule f c (hc c (by simp)).1 (hc c (by simp)).2
    obtain ⟨fcs, fcs', i1, i2, i3⟩ := ih fun c h => hc c (by simp [h])
    exact ⟨fc :: fcs, fc' :: fcs', by simp only [mapE, h1, i1], by simp only [mapE, h2, i2], .cons h3 i3⟩

/-- The two spaces on a mesh of parallelograms. -/
lemma fespace_same (ext : QuadRoutines) (mp : List (ℝ × ℝ)) (cells : List Quad) (bd : BdDict) (s : FESettings)
    (dict : List (ℤ × (ℝ → ℝ → V))) (f : F) (plot : Bool)
    (hc : ∀ c ∈ cells, IsParallelogram c ∧ cross (c 0) (c 1) (c 3) ≠ 0) :
    SameOutcome (α := Σ nq, Fespace2D F V (s.feOrder.toNat ^ 2) nq) (β := Σ nq, Fespace2D F V (s.feOrder.toNat ^ 2) nq)
      (fun a b => ∃ nq S S', a = ⟨nq, S⟩ ∧ b = ⟨nq, S'⟩ ∧ SameSpace S S')
      (fespace2D ext mp cells bd { s with feTransformationType := "affine" } dict f plot)
      (fespace2D ext mp cells bd { s with feTransformationType := "bilinear" } dict f plot) := by
  unfold fespace2D
  by_cases htri : s.cellType = "triangle"
  · simp only [htri, if_true]
    exact .error _
  simp only [if_neg htri]
  cases hcells : cells with
  | nil => exact .error _
  | cons c cs =>
    rw [← hcells]
    simp only [setFiniteElements]
    rw [hcells]
    simp only
    rw [← hcells]
    cases hB : assignBasisFunction s.cellType s.feOrder s.feType with
    | error e => exact .error _
    | ok b =>
      cases hR : assignQuadratureRules ext s.cellType s.quadOrder s.quadType with
      | error e => exact .error _
      | ok rule =>
        have hq := assignQuadratureRules_cellType hR
        have hB' := hB
        rw [hq] at hB'
        obtain ⟨B, rfl⟩ := assignBasisFunction_some hB'
        obtain ⟨fcs, fcs', h1, h2, h3⟩ := mapE_same s hq B rule f cells hc
        simp only [h1, h2]
        have hl := h3.length_eq
        simp only [generatePlot, foldl_add_const, hl]
        cases plot
        · simp only [Bool.false_eq_true, if_false]
          cases generateDirichletBoundaryData dict bd with
          | error e => exact .error _
          | ok d => exact .ok ⟨_, _, _, rfl, rfl, ⟨rfl, rfl, rfl, h3⟩⟩
        · simp only [if_true]
          cases plotBoundaryLoop bd 0 0 with
          | error e => exact .error _
          | ok n =>
            simp only
            cases generateDirichletBoundaryData dict bd with
            | error e => exact .error _
            | ok d => exact .ok ⟨_, _, _, rfl, rfl, ⟨rfl, rfl, rfl, h3⟩⟩

end

end FastVPINNs
