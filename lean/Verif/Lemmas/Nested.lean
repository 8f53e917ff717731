import Verif.Props.Tuning
import Verif.Lemmas.Numbering

/-! # Spaces with the same settings except for the order -/

namespace FastVPINNs

open Spec

/-- The number of the product of the test functions `t / n` and `t % n` among the `m²` products. -/
def nestedIndex {n m : ℕ} (h : n ≤ m) (t : Fin (n ^ 2)) : Fin (m ^ 2) :=
  ⟨m * (t.val / n) + t.val % n, by
    obtain ⟨h1, h2, -⟩ := index_split t
    have h3 : m * (t.val / n) + m ≤ m ^ 2 := by
      calc m * (t.val / n) + m = m * (t.val / n + 1) := by ring
        _ ≤ m * m := Nat.mul_le_mul_left _ (by omega)
        _ = m ^ 2 := (sq m).symm
    omega⟩

lemma nestedIndex_split {n m : ℕ} (h : n ≤ m) (t : Fin (n ^ 2)) :
    (nestedIndex h t).val / m = t.val / n ∧ (nestedIndex h t).val % m = t.val % n := by
  obtain ⟨h1, h2, -⟩ := index_split t
  have hm : 0 < m := by omega
  unfold nestedIndex
  constructor
  · simp only
    rw [Nat.mul_add_div hm, Nat.div_eq_of_lt (a := t.val % n) (by omega), add_zero]
  · simp only
    rw [Nat.mul_add_mod, Nat.mod_eq_of_lt (by omega)]

lemma nestedIndex_injective {n m : ℕ} (h : n ≤ m) : Function.Injective (nestedIndex h) := by
  intro t t' e
  have h1 := nestedIndex_split h t
  have h2 := nestedIndex_split h t'
  rw [e] at h1
  apply Fin.ext
  rw [← Nat.div_add_mod t.val n, ← Nat.div_add_mod t'.val n, ← h1.1, ← h1.2, h2.1, h2.2]

/-- The tables of two spaces with the orders `n ≤ m`, cell by cell. -/
structure NestedTables {n m nq : ℕ} (h : n ≤ m) (D₁ : DataHandler2D (n ^ 2) nq) (D₂ : DataHandler2D (m ^ 2) nq) :
    Prop where
  count : D₁.nCells = D₂.nCells
  val : ∀ c c', c.val = c'.val → ∀ t, D₁.shapeValMat c t = D₂.shapeValMat c' (nestedIndex h t)
  gradx : ∀ c c', c.val = c'.val → ∀ t, D₁.gradXMat c t = D₂.gradXMat c' (nestedIndex h t)
  grady : ∀ c c', c.val = c'.val → ∀ t, D₁.gradYMat c t = D₂.gradYMat c' (nestedIndex h t)
  forcing : ∀ c c', c.val = c'.val → ∀ t, D₁.forcing t c = D₂.forcing (nestedIndex h t) c'
  point : ∀ r r', r.val = r'.val → D₁.xPde r = D₂.xPde r'

lemma nested_tables {V : Type} {ext : QuadRoutines} {mp : List (ℝ × ℝ)} {cells : List Quad} {bd : BdDict}
    {s : FESettings} {m : ℤ} {dict : List (ℤ × (ℝ → ℝ → V))} {f : ℝ → ℝ → ℝ} {plot : Bool} {nq nq' : ℕ}
    {S₁ S₁' : Fespace2D (ℝ → ℝ → ℝ) V (s.feOrder.toNat ^ 2) nq}
    {S₂ S₂' : Fespace2D (ℝ → ℝ → ℝ) V (m.toNat ^ 2) nq'}
    {D₁ : DataHandler2D (s.feOrder.toNat ^ 2) nq} {D₂ : DataHandler2D (m.toNat ^ 2) nq'}
    (hm : s.feOrder.toNat ≤ m.toNat)
    (h₁ : fespace2D ext mp cells bd s dict f plot = .ok ⟨nq, S₁⟩)
    (h₂ : fespace2D ext mp cells bd { s with feOrder := m } dict f plot = .ok ⟨nq', S₂⟩)
    (hD₁ : dataHandler2D S₁ true = .ok (D₁, S₁')) (hD₂ : dataHandler2D S₂ true = .ok (D₂, S₂')) :
    ∃ e : nq = nq', NestedTables hm D₁ (e ▸ D₂) := by
  obtain ⟨hlen₁, B₁, wt, xi, eta, hB₁, hR₁, hc₁⟩ := fespace_cell h₁
  obtain ⟨hlen₂, B₂, wt', xi', eta', hB₂, hR₂, hc₂⟩ := fespace_cell h₂
  obtain ⟨-, E₁, T₁, hE₁, hn₁, -, hlay₁⟩ := C41_layout ext mp cells bd s dict f plot S₁ h₁
  obtain ⟨-, E₂, T₂, hE₂, hn₂, -, hlay₂⟩ := C41_layout ext mp cells bd { s with feOrder := m } dict f plot S₂ h₂
  obtain ⟨rfl, -⟩ := Prod.mk.inj (Except.ok.inj (hD₁.symm.trans hE₁))
  obtain ⟨rfl, -⟩ := Prod.mk.inj (Except.ok.inj (hD₂.symm.trans hE₂))
  have hR := Except.ok.inj (hR₁.symm.trans hR₂)
  obtain ⟨rfl, r1, r2, r3⟩ := (QuadRule2D.mk.injEq ..).mp hR
  obtain rfl := eq_of_heq r1
  obtain rfl := eq_of_heq r2
  obtain rfl := eq_of_heq r3
  refine ⟨rfl, ?_⟩
  have b₁ := C13_basis_rows _ _ B₁ hB₁
  have b₂ := C13_basis_rows _ _ B₂ hB₂
  have key : ∀ (c : Fin D₁.nCells) (c' : Fin D₂.nCells), c.val = c'.val →
      (∀ t, D₁.shapeValMat c t = D₂.shapeValMat c' (nestedIndex hm t)) ∧
      (∀ t, D₁.gradXMat c t = D₂.gradXMat c' (nestedIndex hm t)) ∧
      (∀ t, D₁.gradYMat c t = D₂.gradYMat c' (nestedIndex hm t)) ∧
      (∀ t, D₁.forcing t c = D₂.forcing (nestedIndex hm t) c') ∧
      ∀ (q : Fin nq) (r : Fin (D₁.nCells * nq)) (r' : Fin (D₂.nCells * nq)), r.val = c.val * nq + q.val →
        r'.val = c'.val * nq + q.val → D₁.xPde r = D₂.xPde r' := by
    intro c c' hcc
    have hk : cells[c.val]? = some (cells[c.val]'(by rw [← hn₁]; exact c.isLt)) := List.getElem?_eq_getElem _
    obtain ⟨T, fc, hT, hfc, -, k₁⟩ := hc₁ _ _ hk
    obtain ⟨T', fc', hT', hfc', -, k₂⟩ := hc₂ _ _ hk
    obtain rfl := Except.ok.inj (hT.symm.trans hT')
    have a₁ := (cellAt_nat S₁ c.val fc).2 hfc
    have a₂ := (cellAt_nat S₂ c.val fc').2 hfc'
    obtain ⟨v₁, gx₁, gy₁, ⟨x₁, hx₁, hp₁⟩, col₁, U₁, hf₁, hcol₁⟩ := hlay₁ c
    obtain ⟨v₂, gx₂, gy₂, ⟨x₂, hx₂, hp₂⟩, col₂, U₂, hf₂, hcol₂⟩ := hlay₂ c'
    have hcz : (c'.val : ℤ) = (c.val : ℤ) := by rw [hcc]
    rw [hcz] at v₂ gx₂ gy₂ hx₂ hf₂
    simp only [Fespace2D.getShapeFunctionVal, a₁, Except.ok.injEq] at v₁
    simp only [Fespace2D.getShapeFunctionVal, a₂, Except.ok.injEq] at v₂
    simp only [Fespace2D.getShapeFunctionGradX, a₁, Except.ok.injEq] at gx₁
    simp only [Fespace2D.getShapeFunctionGradX, a₂, Except.ok.injEq] at gx₂
    simp only [Fespace2D.getShapeFunctionGradY, a₁, Except.ok.injEq] at gy₁
    simp only [Fespace2D.getShapeFunctionGradY, a₂, Except.ok.injEq] at gy₂
    simp only [Fespace2D.getQuadratureActualCoordinates, a₁, Except.ok.injEq] at hx₁
    simp only [Fespace2D.getQuadratureActualCoordinates, a₂, Except.ok.injEq] at hx₂
    obtain ⟨d₁, hd₁, -, s₁⟩ := getForcing_ok hf₁
    obtain ⟨d₂, hd₂, -, s₂⟩ := getForcing_ok hf₂
    obtain rfl := Except.ok.inj (a₁.symm.trans hd₁)
    obtain rfl := Except.ok.inj (a₂.symm.trans hd₂)
    have hbasis : ∀ t p, B₁.value xi eta t p = B₂.value xi eta (nestedIndex hm t) p ∧
        B₁.gradx xi eta t p = B₂.gradx xi eta (nestedIndex hm t) p ∧
        B₁.grady xi eta t p = B₂.grady xi eta (nestedIndex hm t) p := by
      intro t p
      obtain ⟨h1, h2, h3⟩ := index_split t
      have h4 : (nestedIndex hm t).val = m.toNat * (t.val / s.feOrder.toNat) + t.val % s.feOrder.toNat := rfl
      have h5 : t.val / s.feOrder.toNat < m.toNat := by omega
      have h6 : t.val % s.feOrder.toNat < m.toNat := by omega
      exact ⟨(b₁.value xi eta p _ _ t h1 h2 h3).trans (b₂.value xi eta p _ _ _ h5 h6 h4).symm,
        (b₁.gradx xi eta p _ _ t h1 h2 h3).trans (b₂.gradx xi eta p _ _ _ h5 h6 h4).symm,
        (b₁.grady xi eta p _ _ t h1 h2 h3).trans (b₂.grady xi eta p _ _ _ h5 h6 h4).symm⟩
    have hder : ∀ t p, (T.origFromRefDerivative (B₁.gradx xi eta) (B₁.grady xi eta) xi eta).1 t p
          = (T.origFromRefDerivative (B₂.gradx xi eta) (B₂.grady xi eta) xi eta).1 (nestedIndex hm t) p ∧
        (T.origFromRefDerivative (B₁.gradx xi eta) (B₁.grady xi eta) xi eta).2 t p
          = (T.origFromRefDerivative (B₂.gradx xi eta) (B₂.grady xi eta) xi eta).2 (nestedIndex hm t) p := by
      intro t p
      obtain ⟨-, g1, g2⟩ := hbasis t p
      obtain ⟨-, rfl⟩ | ⟨-, rfl⟩ := assignFe_ok hT
      · simp only [quadAffin, QuadAffin.getOrigFromRefDerivative, g1, g2, and_self]
      · simp only [quadBilinear, QuadBilinear.getOrigFromRefDerivative, g1, g2, and_self]
    have hval : ∀ t, fc.basisAtQuad t = fc'.basisAtQuad (nestedIndex hm t) := fun t => funext fun p => by
      rw [k₁.val, k₂.val, (hbasis t p).1]
    have hpt : fc.quadActualCoordinates = fc'.quadActualCoordinates := funext fun p => by rw [k₁.point, k₂.point]
    refine ⟨fun t => ?_, fun t => ?_, fun t => ?_, fun t => ?_, fun q r r' hr hr' => ?_⟩
    · rw [← v₁, ← v₂, hval]
    · rw [← gx₁, ← gx₂]
      funext p
      rw [k₁.gradx, k₂.gradx, (hder t p).1]
    · rw [← gy₁, ← gy₂]
      funext p
      rw [k₁.grady, k₂.grady, (hder t p).2]
    · rw [hcol₁, hcol₂, s₁, s₂, k₁.forcing, k₂.forcing, hval, hpt]
    · rw [hp₁ q r hr, hp₂ q r' hr', ← hx₁, ← hx₂, hpt]
  refine ⟨hn₁.trans hn₂.symm, fun c c' h => (key c c' h).1, fun c c' h => (key c c' h).2.1,
    fun c c' h => (key c c' h).2.2.1, fun c c' h => (key c c' h).2.2.2.1, fun r r' h => ?_⟩
  have hq : 0 < nq := by
    rcases Nat.eq_zero_or_pos nq with h0 | h0
    · exact absurd (lt_of_lt_of_eq r.isLt (mul_eq_zero_of_right _ h0)) (Nat.not_lt_zero _)
    · exact h0
  have e1 : r.val = r.divNat.val * nq + r.modNat.val := by
    rw [Fin.coe_divNat, Fin.coe_modNat]; exact (Nat.div_add_mod' _ _).symm
  have e2 : r'.val = r'.divNat.val * nq + r'.modNat.val := by
    rw [Fin.coe_divNat, Fin.coe_modNat]; exact (Nat.div_add_mod' _ _).symm
  have e3 : r.divNat.val = r'.divNat.val := by rw [Fin.coe_divNat, Fin.coe_divNat, h]
  have e4 : r'.modNat = r.modNat := Fin.ext (by rw [Fin.coe_modNat, Fin.coe_modNat, h])
  exact (key r.divNat r'.divNat e3).2.2.2.2 r.modNat r r' e1 (by rw [← e4]; exact e2)

section

variable {n m nq : ℕ} {hm : n ≤ m} {D₁ : DataHandler2D (n ^ 2) nq} {D₂ : DataHandler2D (m ^ 2) nq}
  (hT : NestedTables hm D₁ D₂) {bdv : List (ℝ × ℝ) × List ℝ} {n₁ n₂ : ℕ}
  {pt₁ : Fin D₁.nCells → Fin nq → ℝ × ℝ} {pt₂ : Fin D₂.nCells → Fin nq → ℝ × ℝ}
  (h₁ : Shaped (modelDataOf D₁ bdv n₁) pt₁) (h₂ : Shaped (modelDataOf D₂ bdv n₂) pt₂)

include hT h₁ h₂

lemma nested_point (c : Fin D₁.nCells) (c' : Fin D₂.nCells) (hc : c.val = c'.val) : pt₁ c = pt₂ c' := by
  funext q
  have b₁ : c.val * nq + q.val < D₁.nCells * nq := by
    calc c.val * nq + q.val < c.val * nq + nq := by omega
      _ = (c.val + 1) * nq := by ring
      _ ≤ D₁.nCells * nq := Nat.mul_le_mul_right _ c.isLt
  have b₂ : c'.val * nq + q.val < D₂.nCells * nq := by rw [← hc, ← hT.count]; exact b₁
  have e₁ := h₁.point c q ⟨_, b₁⟩ rfl
  have e₂ := h₂.point c' q ⟨_, b₂⟩ rfl
  rw [← e₁, ← e₂]
  exact hT.point _ _ (by simp only [hc])

lemma nested_residual (a u : ℝ × ℝ → ℝ) (b : ℝ × ℝ) (r : ℝ) (c : Fin D₁.nCells) (c' : Fin D₂.nCells)
    (hc : c.val = c'.val) (t : Fin (n ^ 2)) :
    testedResidual D₁.shapeValMat D₁.gradXMat D₁.gradYMat (fun k q => u (pt₁ k q)) (fun k q => dx u (pt₁ k q))
        (fun k q => dy u (pt₁ k q)) D₁.forcing (fun k q => a (pt₁ k q)) b r c t
      = testedResidual D₂.shapeValMat D₂.gradXMat D₂.gradYMat (fun k q => u (pt₂ k q)) (fun k q => dx u (pt₂ k q))
        (fun k q => dy u (pt₂ k q)) D₂.forcing (fun k q => a (pt₂ k q)) b r c' (nestedIndex hm t) := by
  unfold testedResidual
  simp only [nested_point hT h₁ h₂ c c' hc, hT.val c c' hc, hT.gradx c c' hc, hT.grady c c' hc, hT.forcing c c' hc]

lemma nested_pdeLoss (a u : ℝ × ℝ → ℝ) (b : ℝ × ℝ) (r : ℝ) :
    (n : ℝ) ^ 2 * pdeLoss (modelDataOf D₁ bdv n₁) pt₁ u (fun k q => a (pt₁ k q)) b r
      ≤ (m : ℝ) ^ 2 * pdeLoss (modelDataOf D₂ bdv n₂) pt₂ u (fun k q => a (pt₂ k q)) b r := by
  unfold pdeLoss
  rw [Finset.mul_sum, Finset.mul_sum]
  have hsum : ∀ {N k : ℕ} (x : Fin (N ^ 2) → ℝ), (N : ℝ) ^ 2 * meanSq x = ∑ i, x i * x i := by
    intro N _ x
    unfold meanSq
    rcases Nat.eq_zero_or_pos N with h0 | h0
    · subst h0
      have : (Finset.univ : Finset (Fin (0 ^ 2))) = ∅ := by decide
      simp [this]
    · have : ((N : ℝ)) ≠ 0 := by positivity
      push_cast
      field_simp
  rw [← Equiv.sum_comp (finCongr hT.count)]
  refine Finset.sum_le_sum fun c _ => ?_
  rw [hsum (k := 0), hsum (k := 0)]
  set y : Fin (m ^ 2) → ℝ := testedResidual D₂.shapeValMat D₂.gradXMat D₂.gradYMat (fun k q => u (pt₂ k q))
    (fun k q => dx u (pt₂ k q)) (fun k q => dy u (pt₂ k q)) D₂.forcing (fun k q => a (pt₂ k q)) b r
    (finCongr hT.count c) with hy
  calc _ = ∑ t, y (nestedIndex hm t) * y (nestedIndex hm t) :=
        Finset.sum_congr rfl fun t _ => by
          have := nested_residual hT h₁ h₂ a u b r c (finCongr hT.count c) rfl t
          rw [hy, ← this]
          rfl
    _ = ∑ i ∈ Finset.univ.map ⟨nestedIndex hm, nestedIndex_injective hm⟩, y i * y i := by
        rw [Finset.sum_map]; rfl
    _ ≤ ∑ i, y i * y i := Finset.sum_le_sum_of_subset_of_nonneg (Finset.subset_univ _)
        fun i _ _ => mul_self_nonneg _

end

end FastVPINNs
