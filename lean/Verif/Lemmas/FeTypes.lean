import Verif.Lemmas.Nested
import Verif.Lemmas.Transformation
import Verif.Spec.FeTypes

/-! # Spaces with the same settings except for `fe_type` -/

namespace FastVPINNs

open Spec Polynomial

lemma basis_synonym (ct : String) (o : ℤ) {t t' : String} (ht : Synonym t) (ht' : Synonym t') :
    (∃ e, assignBasisFunction ct o t = .error e ∧ assignBasisFunction ct o t' = .error e) ∨
    (assignBasisFunction ct o t = .ok none ∧ assignBasisFunction ct o t' = .ok none) ∨
    ∃ B B', assignBasisFunction ct o t = .ok (some B) ∧ assignBasisFunction ct o t' = .ok (some B') ∧
      ∀ {q : ℕ} (xi eta : Fin q → ℝ), B.value xi eta = B'.value xi eta ∧ B.gradx xi eta = B'.gradx xi eta ∧
        B.grady xi eta = B'.grady xi eta ∧ B.gradxx xi eta = B'.gradxx xi eta ∧
        B.gradxy xi eta = B'.gradxy xi eta ∧ B.gradyy xi eta = B'.gradyy xi eta := by
  by_cases h1 : o ≤ 1 ∨ o ≥ 1000
  · exact .inl ⟨_, by simp only [assignBasisFunction, if_pos h1]; rfl, by simp only [assignBasisFunction, if_pos h1]⟩
  by_cases h2 : ct = "quadrilateral"
  · subst h2
    have hacc : ∀ t, Synonym t → ∃ B, assignBasisFunction "quadrilateral" o t = .ok (some B) := by
      intro t ht
      rcases ht with rfl | rfl | rfl <;> simp [assignBasisFunction, h1]
    obtain ⟨B, hB⟩ := hacc t ht
    obtain ⟨B', hB'⟩ := hacc t' ht'
    exact .inr (.inr ⟨B, B', hB, hB', fun xi eta => C18_same_test_space o t t' B B' ht ht' hB hB' xi eta⟩)
  · exact .inr (.inl ⟨by simp only [assignBasisFunction, if_neg h1, if_neg h2],
      by simp only [assignBasisFunction, if_neg h1, if_neg h2]⟩)

lemma fe2dCellWith_synonym {F : Type} {nt : ℕ} (s : FESettings) (t t' : String) (B B' : BasisFunction2D nt)
    (rule : QuadRule2D) (f : F) (c : Quad)
    (h : B.value rule.xi rule.eta = B'.value rule.xi rule.eta ∧ B.gradx rule.xi rule.eta = B'.gradx rule.xi rule.eta ∧
      B.grady rule.xi rule.eta = B'.grady rule.xi rule.eta ∧ B.gradxx rule.xi rule.eta = B'.gradxx rule.xi rule.eta ∧
      B.gradxy rule.xi rule.eta = B'.gradxy rule.xi rule.eta ∧ B.gradyy rule.xi rule.eta = B'.gradyy rule.xi rule.eta) :
    fe2dCellWith { s with feType := t } (some B) rule f c = fe2dCellWith { s with feType := t' } (some B') rule f c := by
  obtain ⟨h1, h2, h3, h4, h5, h6⟩ := h
  unfold fe2dCellWith
  simp only [h1, h2, h3, h4, h5, h6]

/-- The two spaces: only the stored settings differ. -/
lemma fespace_synonym {F V : Type} (ext : QuadRoutines) (mp : List (ℝ × ℝ)) (cells : List Quad) (bd : BdDict)
    (s : FESettings) (dict : List (ℤ × (ℝ → ℝ → V))) (f : F) (plot : Bool) {t t' : String} (ht : Synonym t)
    (ht' : Synonym t') :
    SameOutcome (α := Σ nq, Fespace2D F V (s.feOrder.toNat ^ 2) nq) (β := Σ nq, Fespace2D F V (s.feOrder.toNat ^ 2) nq)
      (fun a b => b = ⟨a.1, { a.2 with settings := { s with feType := t' } }⟩)
      (fespace2D ext mp cells bd { s with feType := t } dict f plot)
      (fespace2D ext mp cells bd { s with feType := t' } dict f plot) := by
  unfold fespace2D
  by_cases htri : s.cellType = "triangle"
  · simp only [htri, if_true]
    exact .error _
  simp only [if_neg htri]
  cases hcells : cells with
  | nil => exact .error _
  | cons c cs =>
    rw [← hcells]
    simp only [setFiniteElements]
    rw [hcells]
    simp only
    rw [← hcells]
    have hq : ∀ (b b' : Option (BasisFunction2D (s.feOrder.toNat ^ 2))),
        (∀ rule : QuadRule2D, fe2dCellWith { s with feType := t } b rule f = fe2dCellWith { s with feType := t' } b' rule f) →
        assignBasisFunction s.cellType s.feOrder t = .ok b → assignBasisFunction s.cellType s.feOrder t' = .ok b' →
        SameOutcome (α := Σ nq, Fespace2D F V (s.feOrder.toNat ^ 2) nq)
          (β := Σ nq, Fespace2D F V (s.feOrder.toNat ^ 2) nq)
          (fun a b => b = ⟨a.1, { a.2 with settings := { s with feType := t' } }⟩)
          (fespace2D ext mp cells bd { s with feType := t } dict f plot)
          (fespace2D ext mp cells bd { s with feType := t' } dict f plot) := by
      intro b b' he e1 e2
      unfold fespace2D
      simp only [if_neg htri, setFiniteElements]
      rw [hcells]
      simp only
      rw [← hcells]
      simp only [e1, e2]
      cases assignQuadratureRules ext s.cellType s.quadOrder s.quadType with
      | error e => exact .error _
      | ok rule =>
        simp only [he rule]
        cases mapE (fe2dCellWith { s with feType := t' } b' rule f) cells with
        | error e => exact .error _
        | ok fcs =>
          simp only
          generalize (if plot = true then generatePlot fcs bd else
            Except.ok (List.foldl (fun dof _ => dof + rule.num) 0 fcs, 0)) = g
          cases g with
          | error e => exact .error _
          | ok v =>
            obtain ⟨d1, d2⟩ := v
            simp only
            cases generateDirichletBoundaryData dict bd with
            | error e => exact .error _
            | ok data => exact .ok rfl
    have hq' := hq
    simp only [fespace2D, if_neg htri, setFiniteElements] at hq'
    rw [hcells] at hq'
    simp only at hq'
    rw [← hcells] at hq'
    rcases basis_synonym s.cellType s.feOrder ht ht' with ⟨e, e1, e2⟩ | ⟨e1, e2⟩ | ⟨B, B', e1, e2, hB⟩
    · simp only [e1, e2]
      exact .error _
    · exact hq' none none (fun rule => by funext c; unfold fe2dCellWith; rfl) e1 e2
    · exact hq' (some B) (some B') (fun rule => by
        funext c; exact fe2dCellWith_synonym s t t' B B' rule f c (hB rule.xi rule.eta)) e1 e2

lemma sameCells_refl {F : Type} {nt nq : ℕ} : ∀ l : List (FE2DCell F nt nq), List.Forall₂ SameCell l l
  | [] => .nil
  | _ :: l => .cons ⟨rfl, rfl, rfl, rfl, rfl, rfl, rfl, rfl⟩ (sameCells_refl l)

lemma sameSpace_settings {F V : Type} {nt nq : ℕ} (S : Fespace2D F V nt nq) (s : FESettings) :
    SameSpace S { S with settings := s } := ⟨rfl, rfl, rfl, sameCells_refl _⟩

/-! ### Two families of functions that vanish at the ends -/

lemma bubble_facts {t : String} (ht : BubbleType t) :
    (∀ i, (testFamily t i).degree = (i + 2 : ℕ)) ∧ (∀ i, (testFamily t i).eval 1 = 0) ∧
    ∀ i, (testFamily t i).eval (-1) = 0 := by
  have hne : t ≠ "jacobi_plain" := by
    rcases ht with (rfl | rfl | rfl) | rfl <;> simp
  refine ⟨fun i => ?_, fun i => ?_, fun i => ?_⟩ <;> unfold testFamily <;> split_ifs
  · exact degree_chebyshevBubble i
  · exact degree_legendreBubble i
  · exact chebyshevBubble_one i
  · exact legendreBubble_one i
  · exact chebyshevBubble_neg_one i
  · exact legendreBubble_neg_one i

/-- The functions of one family are combinations of those of another, with coefficients that depend on the order and
the families only. -/
lemma family_change (N : ℕ) {t t' : String} (ht : BubbleType t) (ht' : BubbleType t') :
    ∃ A : ℕ → ℕ → ℝ, ∀ i < N, testFamily t i = ∑ j : Fin N, C (A i j) * testFamily t' j := by
  obtain ⟨d, z, z'⟩ := bubble_facts ht
  obtain ⟨d', y, y'⟩ := bubble_facts ht'
  have key : ∀ i, ∃ c : ℕ → ℝ, i < N → testFamily t i = ∑ j : Fin N, C (c j) * testFamily t' j := by
    intro i
    by_cases hi : i < N
    · obtain ⟨c, hc⟩ := bubbles_span _ d' y y' N (testFamily t i)
        (by rw [natDegree_eq_of_degree_eq_some (d i)]; omega) (z i) (z' i)
      exact ⟨c, fun _ => by rw [hc, Finset.sum_range]⟩
    · exact ⟨0, fun h => absurd h hi⟩
  choose A hA using key
  exact ⟨A, hA⟩

/-- The tables of the first space are the combinations `K` of those of the second, in every cell. -/
structure CombinedTables {nt nq : ℕ} (K : Fin nt → Fin nt → ℝ) (D₁ D₂ : DataHandler2D nt nq) : Prop where
  count : D₁.nCells = D₂.nCells
  val : ∀ c c', c.val = c'.val → ∀ t q, D₁.shapeValMat c t q = ∑ l, K t l * D₂.shapeValMat c' l q
  gradx : ∀ c c', c.val = c'.val → ∀ t q, D₁.gradXMat c t q = ∑ l, K t l * D₂.gradXMat c' l q
  grady : ∀ c c', c.val = c'.val → ∀ t q, D₁.gradYMat c t q = ∑ l, K t l * D₂.gradYMat c' l q
  forcing : ∀ c c', c.val = c'.val → ∀ t, D₁.forcing t c = ∑ l, K t l * D₂.forcing l c'
  point : ∀ r r', r.val = r'.val → D₁.xPde r = D₂.xPde r'

/-- The matrix of the change between the products. -/
def productChange (N : ℕ) (A : ℕ → ℕ → ℝ) (t l : Fin (N ^ 2)) : ℝ :=
  A (t.val / N) (l.val / N) * A (t.val % N) (l.val % N)

lemma products_change {N : ℕ} {A : ℕ → ℕ → ℝ} {p p' r r' : ℕ → ℝ} (hp : ∀ i < N, p i = ∑ j : Fin N, A i j * p' j)
    (hr : ∀ i < N, r i = ∑ j : Fin N, A i j * r' j) (t : Fin (N ^ 2)) :
    p (t.val / N) * r (t.val % N) = ∑ l : Fin (N ^ 2), productChange N A t l * (p' (l.val / N) * r' (l.val % N)) := by
  obtain ⟨h1, h2, -⟩ := index_split t
  rw [hp _ h1, hr _ h2, Finset.sum_mul_sum]
  unfold productChange
  rw [sum_tensor_index N fun a b => A (t.val / N) a * A (t.val % N) b * (p' a * r' b)]
  exact Finset.sum_congr rfl fun i _ => Finset.sum_congr rfl fun j _ => by ring

/-- One table of products in terms of the other. -/
lemma tensor_change {N : ℕ} {t t' : String} {A : ℕ → ℕ → ℝ} {B₁ B₂ : BasisFunction2D (N ^ 2)}
    (b₁ : IsTensorBasis N B₁ (testFamily t)) (b₂ : IsTensorBasis N B₂ (testFamily t'))
    (hA : ∀ i < N, testFamily t i = ∑ j : Fin N, C (A i j) * testFamily t' j) {nq : ℕ} (xi eta : Fin nq → ℝ)
    (u : Fin (N ^ 2)) (p : Fin nq) :
    B₁.value xi eta u p = ∑ l, productChange N A u l * B₂.value xi eta l p ∧
      B₁.gradx xi eta u p = ∑ l, productChange N A u l * B₂.gradx xi eta l p ∧
      B₁.grady xi eta u p = ∑ l, productChange N A u l * B₂.grady xi eta l p := by
  have hev : ∀ x i, i < N → (testFamily t i).eval x = ∑ j : Fin N, A i j * (testFamily t' j).eval x := by
    intro x i hi
    rw [hA i hi, eval_finsetSum]
    simp only [eval_mul, eval_C]
  have hdv : ∀ x i, i < N →
      (derivative (testFamily t i)).eval x = ∑ j : Fin N, A i j * (derivative (testFamily t' j)).eval x := by
    intro x i hi
    rw [hA i hi, derivative_sum, eval_finsetSum]
    simp only [derivative_C_mul, eval_mul, eval_C]
  obtain ⟨h1, h2, h3⟩ := index_split u
  refine ⟨?_, ?_, ?_⟩
  · rw [b₁.value xi eta p _ _ u h1 h2 h3]
    refine (products_change (A := A) (p := fun i => (testFamily t i).eval (xi p))
      (p' := fun i => (testFamily t' i).eval (xi p)) (r := fun i => (testFamily t i).eval (eta p))
      (r' := fun i => (testFamily t' i).eval (eta p))
      (hev (xi p)) (hev (eta p)) u).trans (Finset.sum_congr rfl fun l _ => ?_)
    obtain ⟨g1, g2, g3⟩ := index_split l
    rw [b₂.value xi eta p _ _ l g1 g2 g3]
  · rw [b₁.gradx xi eta p _ _ u h1 h2 h3]
    refine (products_change (A := A) (p := fun i => (derivative (testFamily t i)).eval (xi p))
      (p' := fun i => (derivative (testFamily t' i)).eval (xi p)) (r := fun i => (testFamily t i).eval (eta p))
      (r' := fun i => (testFamily t' i).eval (eta p)) (hdv (xi p)) (hev (eta p)) u).trans
      (Finset.sum_congr rfl fun l _ => ?_)
    obtain ⟨g1, g2, g3⟩ := index_split l
    rw [b₂.gradx xi eta p _ _ l g1 g2 g3]
  · rw [b₁.grady xi eta p _ _ u h1 h2 h3]
    refine (products_change (A := A) (p := fun i => (testFamily t i).eval (xi p))
      (p' := fun i => (testFamily t' i).eval (xi p)) (r := fun i => (derivative (testFamily t i)).eval (eta p))
      (r' := fun i => (derivative (testFamily t' i)).eval (eta p)) (hev (xi p)) (hdv (eta p)) u).trans
      (Finset.sum_congr rfl fun l _ => ?_)
    obtain ⟨g1, g2, g3⟩ := index_split l
    rw [b₂.grady xi eta p _ _ l g1 g2 g3]

lemma combined_tables {V : Type} {o : ℤ} {t t' : String} {A : ℕ → ℕ → ℝ}
    (hA : ∀ i < o.toNat, testFamily t i = ∑ j : Fin o.toNat, C (A i j) * testFamily t' j)
    {ext : QuadRoutines} {mp : List (ℝ × ℝ)} {cells : List Quad} {bd : BdDict}
    {s : FESettings} {dict : List (ℤ × (ℝ → ℝ → V))} {f : ℝ → ℝ → ℝ} {plot : Bool} {nq nq' : ℕ}
    {S₁ S₁' : Fespace2D (ℝ → ℝ → ℝ) V (o.toNat ^ 2) nq} {S₂ S₂' : Fespace2D (ℝ → ℝ → ℝ) V (o.toNat ^ 2) nq'}
    {D₁ : DataHandler2D (o.toNat ^ 2) nq} {D₂ : DataHandler2D (o.toNat ^ 2) nq'}
    (h₁ : fespace2D ext mp cells bd { s with feOrder := o, feType := t } dict f plot = .ok ⟨nq, S₁⟩)
    (h₂ : fespace2D ext mp cells bd { s with feOrder := o, feType := t' } dict f plot = .ok ⟨nq', S₂⟩)
    (hD₁ : dataHandler2D S₁ true = .ok (D₁, S₁')) (hD₂ : dataHandler2D S₂ true = .ok (D₂, S₂')) :
    ∃ e : nq = nq', CombinedTables (productChange o.toNat A) D₁ (e ▸ D₂) := by
  obtain ⟨hlen₁, B₁, wt, xi, eta, hB₁, hR₁, hc₁⟩ := fespace_cell h₁
  obtain ⟨hlen₂, B₂, wt', xi', eta', hB₂, hR₂, hc₂⟩ := fespace_cell h₂
  obtain ⟨-, E₁, T₁, hE₁, hn₁, -, hlay₁⟩ := C41_layout ext mp cells bd { s with feOrder := o, feType := t } dict f plot S₁ h₁
  obtain ⟨-, E₂, T₂, hE₂, hn₂, -, hlay₂⟩ :=
    C41_layout ext mp cells bd { s with feOrder := o, feType := t' } dict f plot S₂ h₂
  obtain ⟨rfl, -⟩ := Prod.mk.inj (Except.ok.inj (hD₁.symm.trans hE₁))
  obtain ⟨rfl, -⟩ := Prod.mk.inj (Except.ok.inj (hD₂.symm.trans hE₂))
  have hR := Except.ok.inj (hR₁.symm.trans hR₂)
  obtain ⟨rfl, r1, r2, r3⟩ := (QuadRule2D.mk.injEq ..).mp hR
  obtain rfl := eq_of_heq r1
  obtain rfl := eq_of_heq r2
  obtain rfl := eq_of_heq r3
  refine ⟨rfl, ?_⟩
  have b₁ := C13_basis_rows _ _ B₁ hB₁
  have b₂ := C13_basis_rows _ _ B₂ hB₂
  simp only at b₁ b₂
  have hbasis := fun u p => tensor_change b₁ b₂ hA xi eta u p
  have key : ∀ (c : Fin D₁.nCells) (c' : Fin D₂.nCells), c.val = c'.val →
      (∀ u q, D₁.shapeValMat c u q = ∑ l, productChange o.toNat A u l * D₂.shapeValMat c' l q) ∧
      (∀ u q, D₁.gradXMat c u q = ∑ l, productChange o.toNat A u l * D₂.gradXMat c' l q) ∧
      (∀ u q, D₁.gradYMat c u q = ∑ l, productChange o.toNat A u l * D₂.gradYMat c' l q) ∧
      (∀ u, D₁.forcing u c = ∑ l, productChange o.toNat A u l * D₂.forcing l c') ∧
      ∀ (q : Fin nq) (r : Fin (D₁.nCells * nq)) (r' : Fin (D₂.nCells * nq)), r.val = c.val * nq + q.val →
        r'.val = c'.val * nq + q.val → D₁.xPde r = D₂.xPde r' := by
    intro c c' hcc
    have hk : cells[c.val]? = some (cells[c.val]'(by rw [← hn₁]; exact c.isLt)) := List.getElem?_eq_getElem _
    obtain ⟨T, fc, hT, hfc, -, k₁⟩ := hc₁ _ _ hk
    obtain ⟨T', fc', hT', hfc', -, k₂⟩ := hc₂ _ _ hk
    obtain rfl := Except.ok.inj (hT.symm.trans hT')
    have a₁ := (cellAt_nat S₁ c.val fc).2 hfc
    have a₂ := (cellAt_nat S₂ c.val fc').2 hfc'
    obtain ⟨v₁, gx₁, gy₁, ⟨x₁, hx₁, hp₁⟩, col₁, U₁, hf₁, hcol₁⟩ := hlay₁ c
    obtain ⟨v₂, gx₂, gy₂, ⟨x₂, hx₂, hp₂⟩, col₂, U₂, hf₂, hcol₂⟩ := hlay₂ c'
    have hcz : (c'.val : ℤ) = (c.val : ℤ) := by rw [hcc]
    rw [hcz] at v₂ gx₂ gy₂ hx₂ hf₂
    simp only [Fespace2D.getShapeFunctionVal, a₁, Except.ok.injEq] at v₁
    simp only [Fespace2D.getShapeFunctionVal, a₂, Except.ok.injEq] at v₂
    simp only [Fespace2D.getShapeFunctionGradX, a₁, Except.ok.injEq] at gx₁
    simp only [Fespace2D.getShapeFunctionGradX, a₂, Except.ok.injEq] at gx₂
    simp only [Fespace2D.getShapeFunctionGradY, a₁, Except.ok.injEq] at gy₁
    simp only [Fespace2D.getShapeFunctionGradY, a₂, Except.ok.injEq] at gy₂
    simp only [Fespace2D.getQuadratureActualCoordinates, a₁, Except.ok.injEq] at hx₁
    simp only [Fespace2D.getQuadratureActualCoordinates, a₂, Except.ok.injEq] at hx₂
    obtain ⟨d₁, hd₁, -, s₁⟩ := getForcing_ok hf₁
    obtain ⟨d₂, hd₂, -, s₂⟩ := getForcing_ok hf₂
    obtain rfl := Except.ok.inj (a₁.symm.trans hd₁)
    obtain rfl := Except.ok.inj (a₂.symm.trans hd₂)
    have hder : ∀ u p, (T.origFromRefDerivative (B₁.gradx xi eta) (B₁.grady xi eta) xi eta).1 u p
          = ∑ l, productChange o.toNat A u l *
            (T.origFromRefDerivative (B₂.gradx xi eta) (B₂.grady xi eta) xi eta).1 l p ∧
        (T.origFromRefDerivative (B₁.gradx xi eta) (B₁.grady xi eta) xi eta).2 u p
          = ∑ l, productChange o.toNat A u l *
            (T.origFromRefDerivative (B₂.gradx xi eta) (B₂.grady xi eta) xi eta).2 l p := by
      intro u p
      obtain ⟨-, g1, g2⟩ := hbasis u p
      have lin : ∀ x y z : ℝ, (x * B₁.gradx xi eta u p + y * B₁.grady xi eta u p) * z
          = ∑ l, productChange o.toNat A u l * ((x * B₂.gradx xi eta l p + y * B₂.grady xi eta l p) * z) := by
        intro x y z
        rw [g1, g2, Finset.mul_sum, Finset.mul_sum, ← Finset.sum_add_distrib, Finset.sum_mul]
        exact Finset.sum_congr rfl fun l _ => by ring
      have lin' : ∀ x y z : ℝ, (x * B₁.gradx xi eta u p - y * B₁.grady xi eta u p) * z
          = ∑ l, productChange o.toNat A u l * ((x * B₂.gradx xi eta l p - y * B₂.grady xi eta l p) * z) := by
        intro x y z
        rw [g1, g2, Finset.mul_sum, Finset.mul_sum, ← Finset.sum_sub_distrib, Finset.sum_mul]
        exact Finset.sum_congr rfl fun l _ => by ring
      obtain ⟨-, rfl⟩ | ⟨-, rfl⟩ := assignFe_ok hT
      · simp only [quadAffin, QuadAffin.getOrigFromRefDerivative]
        exact ⟨lin' _ _ _, lin _ _ _⟩
      · simp only [quadBilinear, QuadBilinear.getOrigFromRefDerivative]
        exact ⟨lin' _ _ _, lin _ _ _⟩
    have hval : ∀ u p, fc.basisAtQuad u p = ∑ l, productChange o.toNat A u l * fc'.basisAtQuad l p := fun u p => by
      simp only [k₁.val, k₂.val, (hbasis u p).1, Finset.sum_mul, mul_assoc]
    have hpt : fc.quadActualCoordinates = fc'.quadActualCoordinates := funext fun p => by rw [k₁.point, k₂.point]
    refine ⟨fun u q => ?_, fun u q => ?_, fun u q => ?_, fun u => ?_, fun q r r' hr hr' => ?_⟩
    · rw [← v₁, ← v₂, hval]
    · rw [← gx₁, ← gx₂, k₁.gradx, (hder u q).1, Finset.sum_mul]
      simp only [k₂.gradx, mul_assoc]
    · rw [← gy₁, ← gy₂, k₁.grady, (hder u q).2, Finset.sum_mul]
      simp only [k₂.grady, mul_assoc]
    · rw [hcol₁, s₁]
      simp only [hcol₂, s₂, k₁.forcing, k₂.forcing, hval, hpt, Finset.sum_mul, Finset.mul_sum, mul_assoc]
      rw [Finset.sum_comm]
    · rw [hp₁ q r hr, hp₂ q r' hr', ← hx₁, ← hx₂, hpt]
  refine ⟨hn₁.trans hn₂.symm, fun c c' h => (key c c' h).1, fun c c' h => (key c c' h).2.1,
    fun c c' h => (key c c' h).2.2.1, fun c c' h => (key c c' h).2.2.2.1, fun r r' h => ?_⟩
  have hq : 0 < nq := by
    rcases Nat.eq_zero_or_pos nq with h0 | h0
    · exact absurd (lt_of_lt_of_eq r.isLt (mul_eq_zero_of_right _ h0)) (Nat.not_lt_zero _)
    · exact h0
  have e1 : r.val = r.divNat.val * nq + r.modNat.val := by
    rw [Fin.coe_divNat, Fin.coe_modNat]; exact (Nat.div_add_mod' _ _).symm
  have e2 : r'.val = r'.divNat.val * nq + r'.modNat.val := by
    rw [Fin.coe_divNat, Fin.coe_modNat]; exact (Nat.div_add_mod' _ _).symm
  have e3 : r.divNat.val = r'.divNat.val := by rw [Fin.coe_divNat, Fin.coe_divNat, h]
  have e4 : r'.modNat = r.modNat := Fin.ext (by rw [Fin.coe_modNat, Fin.coe_modNat, h])
  exact (key r.divNat r'.divNat e3).2.2.2.2 r.modNat r r' e1 (by rw [← e4]; exact e2)

section

variable {nt nq : ℕ} {K : Fin nt → Fin nt → ℝ} {D₁ D₂ : DataHandler2D nt nq}
  (hT : CombinedTables K D₁ D₂) {bdv : List (ℝ × ℝ) × List ℝ} {n₁ n₂ : ℕ}
  {pt₁ : Fin D₁.nCells → Fin nq → ℝ × ℝ} {pt₂ : Fin D₂.nCells → Fin nq → ℝ × ℝ}
  (h₁ : Shaped (modelDataOf D₁ bdv n₁) pt₁) (h₂ : Shaped (modelDataOf D₂ bdv n₂) pt₂)

include hT h₁ h₂

lemma combined_point (c : Fin D₁.nCells) (c' : Fin D₂.nCells) (hc : c.val = c'.val) : pt₁ c = pt₂ c' := by
  funext q
  have b₁ : c.val * nq + q.val < D₁.nCells * nq := by
    calc c.val * nq + q.val < c.val * nq + nq := by omega
      _ = (c.val + 1) * nq := by ring
      _ ≤ D₁.nCells * nq := Nat.mul_le_mul_right _ c.isLt
  have b₂ : c'.val * nq + q.val < D₂.nCells * nq := by rw [← hc, ← hT.count]; exact b₁
  have e₁ := h₁.point c q ⟨_, b₁⟩ rfl
  have e₂ := h₂.point c' q ⟨_, b₂⟩ rfl
  rw [← e₁, ← e₂]
  exact hT.point _ _ (by simp only [hc])

lemma combined_residual (a u : ℝ × ℝ → ℝ) (b : ℝ × ℝ) (r : ℝ) (c : Fin D₁.nCells) (c' : Fin D₂.nCells)
    (hc : c.val = c'.val) (t : Fin nt) :
    testedResidual D₁.shapeValMat D₁.gradXMat D₁.gradYMat (fun k q => u (pt₁ k q)) (fun k q => dx u (pt₁ k q))
        (fun k q => dy u (pt₁ k q)) D₁.forcing (fun k q => a (pt₁ k q)) b r c t
      = ∑ l, K t l * testedResidual D₂.shapeValMat D₂.gradXMat D₂.gradYMat (fun k q => u (pt₂ k q))
        (fun k q => dx u (pt₂ k q)) (fun k q => dy u (pt₂ k q)) D₂.forcing (fun k q => a (pt₂ k q)) b r c' l := by
  unfold testedResidual
  simp only [combined_point hT h₁ h₂ c c' hc, hT.val c c' hc, hT.gradx c c' hc, hT.grady c c' hc, hT.forcing c c' hc]
  simp only [mul_sub, Finset.sum_sub_distrib, Finset.mul_sum]
  congr 1
  rw [Finset.sum_comm]
  refine Finset.sum_congr rfl fun q _ => ?_
  rw [← Finset.sum_add_distrib, Finset.mul_sum, ← Finset.sum_add_distrib]
  exact Finset.sum_congr rfl fun l _ => by ring

lemma combined_pdeLoss (a u : ℝ × ℝ → ℝ) (b : ℝ × ℝ) (r : ℝ) :
    pdeLoss (modelDataOf D₁ bdv n₁) pt₁ u (fun k q => a (pt₁ k q)) b r
      ≤ (∑ t, ∑ l, K t l ^ 2) * pdeLoss (modelDataOf D₂ bdv n₂) pt₂ u (fun k q => a (pt₂ k q)) b r := by
  unfold pdeLoss
  rw [Finset.mul_sum, ← Equiv.sum_comp (finCongr hT.count)]
  refine Finset.sum_le_sum fun c _ => ?_
  set y : Fin nt → ℝ := testedResidual D₂.shapeValMat D₂.gradXMat D₂.gradYMat (fun k q => u (pt₂ k q))
    (fun k q => dx u (pt₂ k q)) (fun k q => dy u (pt₂ k q)) D₂.forcing (fun k q => a (pt₂ k q)) b r
    (finCongr hT.count c) with hy
  calc _ = meanSq fun t => ∑ l, K t l * y l := by
        congr 1
        funext t
        exact combined_residual hT h₁ h₂ a u b r c (finCongr hT.count c) rfl t
    _ ≤ (∑ t, ∑ l, K t l ^ 2) * meanSq y := by
        unfold meanSq
        rw [← mul_div_assoc]
        refine div_le_div_of_nonneg_right ?_ (Nat.cast_nonneg _)
        rw [Finset.sum_mul]
        refine Finset.sum_le_sum fun t _ => ?_
        have := Finset.sum_mul_sq_le_sq_mul_sq Finset.univ (K t) y
        simp only [sq] at this ⊢
        exact this

end

end FastVPINNs
