import Verif.Spec.Noise
import Verif.Lemmas.Nested
import Verif.Props.Penalty

/-! # Square roots of sums of squares, and two spaces for different data -/

namespace FastVPINNs

open Spec

/-- Nonnegative numbers whose square roots differ by at most `√E`. -/
structure RootNear (A B E : ℝ) : Prop where
  left : 0 ≤ A
  right : 0 ≤ B
  bound : 0 ≤ E
  close : |√A - √B| ≤ √E

lemma rootNear_sq (x y : ℝ) : RootNear (x * x) (y * y) ((x - y) * (x - y)) := by
  refine ⟨mul_self_nonneg _, mul_self_nonneg _, mul_self_nonneg _, ?_⟩
  rw [Real.sqrt_mul_self_eq_abs, Real.sqrt_mul_self_eq_abs, Real.sqrt_mul_self_eq_abs]
  exact abs_abs_sub_abs_le _ _

lemma rootNear_zero : RootNear 0 0 0 := ⟨le_rfl, le_rfl, le_rfl, by simp⟩

lemma RootNear.add {A B E A' B' E' : ℝ} (h : RootNear A B E) (h' : RootNear A' B' E') : RootNear (A + A') (B + B') (E + E') := by
  refine ⟨add_nonneg h.left h'.left, add_nonneg h.right h'.right, add_nonneg h.bound h'.bound, ?_⟩
  have k1 : ((⟨√A, √A'⟩ : ℂ)) - ⟨√B, √B'⟩ = ⟨√A - √B, √A' - √B'⟩ := rfl
  have k2 := abs_norm_sub_norm_le (⟨√A, √A'⟩ : ℂ) ⟨√B, √B'⟩
  have e : ∀ x y : ℝ, ‖(⟨x, y⟩ : ℂ)‖ = √(x * x + y * y) := fun x y => by
    rw [Complex.norm_def, Complex.normSq_mk]
  rw [k1, e, e, e, Real.mul_self_sqrt h.left, Real.mul_self_sqrt h'.left, Real.mul_self_sqrt h.right,
    Real.mul_self_sqrt h'.right] at k2
  refine k2.trans (Real.sqrt_le_sqrt (add_le_add ?_ ?_))
  · have := mul_self_le_mul_self (abs_nonneg _) h.close
    rwa [abs_mul_abs_self, Real.mul_self_sqrt h.bound] at this
  · have := mul_self_le_mul_self (abs_nonneg _) h'.close
    rwa [abs_mul_abs_self, Real.mul_self_sqrt h'.bound] at this

lemma RootNear.smul {A B E c : ℝ} (hc : 0 ≤ c) (h : RootNear A B E) : RootNear (c * A) (c * B) (c * E) := by
  refine ⟨mul_nonneg hc h.left, mul_nonneg hc h.right, mul_nonneg hc h.bound, ?_⟩
  rw [Real.sqrt_mul hc, Real.sqrt_mul hc, Real.sqrt_mul hc, ← mul_sub, abs_mul, abs_of_nonneg (Real.sqrt_nonneg _)]
  exact mul_le_mul_of_nonneg_left h.close (Real.sqrt_nonneg _)

lemma RootNear.mono {A B E E' : ℝ} (h : RootNear A B E) (hE : E ≤ E') : RootNear A B E' :=
  ⟨h.left, h.right, h.bound.trans hE, h.close.trans (Real.sqrt_le_sqrt hE)⟩

lemma rootNear_sum {ι : Type*} (s : Finset ι) {A B E : ι → ℝ} (h : ∀ i ∈ s, RootNear (A i) (B i) (E i)) :
    RootNear (∑ i ∈ s, A i) (∑ i ∈ s, B i) (∑ i ∈ s, E i) := by
  classical
  induction s using Finset.induction_on with
  | empty => simpa using rootNear_zero
  | insert i s hi ih =>
    rw [Finset.sum_insert hi, Finset.sum_insert hi, Finset.sum_insert hi]
    exact (h i (Finset.mem_insert_self _ _)).add (ih fun j hj => h j (Finset.mem_insert_of_mem hj))

lemma rootNear_meanSq {n : ℕ} (x y : Fin n → ℝ) : RootNear (meanSq x) (meanSq y) (meanSq fun i => x i - y i) := by
  have h := (rootNear_sum Finset.univ fun i _ => rootNear_sq (x i) (y i)).smul (c := (n : ℝ)⁻¹) (by positivity)
  unfold meanSq
  simpa only [div_eq_inv_mul] using h

/-! ## The losses for model data that differ in the data -/

section

variable {nc nt nq nIn nBd : ℕ} (M : ModelData nc nt nq nIn nBd) (F' : Fin nt → Fin nc → ℝ) (g' : Fin nBd → ℝ)

lemma rootNear_pdeLoss (pt : Fin nc → Fin nq → ℝ × ℝ) (u : ℝ × ℝ → ℝ) (a : Fin nc → Fin nq → ℝ) (b : ℝ × ℝ) (r : ℝ)
    {ε : ℝ} (hF : ∀ t c, |M.forceMatrix t c - F' t c| ≤ ε) :
    RootNear (pdeLoss M pt u a b r) (pdeLoss { M with forceMatrix := F', dirichletActual := g' } pt u a b r)
      (nc * ε ^ 2) := by
  have h : RootNear (pdeLoss M pt u a b r) (pdeLoss { M with forceMatrix := F', dirichletActual := g' } pt u a b r) _ :=
    rootNear_sum Finset.univ fun c _ => rootNear_meanSq _ _
  refine h.mono ?_
  calc _ ≤ ∑ _c : Fin nc, ε ^ 2 := Finset.sum_le_sum fun c _ => meanSq_le fun t => by
        rw [abs_sub_comm]
        refine le_of_eq_of_le ?_ (hF t c)
        congr 1
        simp only [testedResidual]
        ring
    _ = nc * ε ^ 2 := by simp

lemma rootNear_boundary (u : ℝ × ℝ → ℝ) {δ : ℝ} (hg : ∀ i, |M.dirichletActual i - g' i| ≤ δ) :
    RootNear (meanSq fun i => u (M.dirichletInput i) - M.dirichletActual i)
      (meanSq fun i => u (M.dirichletInput i) - g' i) (δ ^ 2) :=
  (rootNear_meanSq _ _).mono (meanSq_le fun i => by
    rw [abs_sub_comm]
    refine le_of_eq_of_le ?_ (hg i)
    congr 1
    ring)

end

lemma rootNear_sensor {nS : ℕ} (sp : Fin nS → ℝ × ℝ) (sv sv' : Fin nS → ℝ) (u : ℝ × ℝ → ℝ) {η : ℝ}
    (h : ∀ i, |sv i - sv' i| ≤ η) : RootNear (meanSq fun i => u (sp i) - sv i) (meanSq fun i => u (sp i) - sv' i) (η ^ 2) :=
  (rootNear_meanSq _ _).mono (meanSq_le fun i => by
    rw [abs_sub_comm]
    refine le_of_eq_of_le ?_ (h i)
    congr 1
    ring)

/-! ## Two spaces that differ in the data -/

/-- The forcing column as a sum over the quadrature points. -/
lemma forcing_sum {V : Type} {ext : QuadRoutines} {mp : List (ℝ × ℝ)} {cells : List Quad} {bd : BdDict}
    {s : FESettings} {dict : List (ℤ × (ℝ → ℝ → V))} {f : ℝ → ℝ → ℝ} {plot : Bool} {nq : ℕ}
    {S S' : Fespace2D (ℝ → ℝ → ℝ) V (s.feOrder.toNat ^ 2) nq} {D : DataHandler2D (s.feOrder.toNat ^ 2) nq}
    (h : fespace2D ext mp cells bd s dict f plot = .ok ⟨nq, S⟩) (hD : dataHandler2D S true = .ok (D, S')) :
    ∃ row : Fin D.nCells → Fin nq → Fin (D.nCells * nq), (∀ c q, (row c q).val = c.val * nq + q.val) ∧
      ∀ t c, D.forcing t c = ∑ q, D.shapeValMat c t q * f (D.xPde (row c q)).1 (D.xPde (row c q)).2 := by
  obtain ⟨-, B, wt, xi, eta, -, -, hcell⟩ := fespace_cell h
  obtain ⟨-, E, T₁, hE, hn, -, hlay⟩ := C41_layout ext mp cells bd s dict f plot S h
  obtain ⟨rfl, -⟩ := Prod.mk.inj (Except.ok.inj (hD.symm.trans hE))
  have hrow : ∀ (c : Fin D.nCells) (q : Fin nq), c.val * nq + q.val < D.nCells * nq := fun c q => by
    calc c.val * nq + q.val < c.val * nq + nq := by omega
      _ = (c.val + 1) * nq := by ring
      _ ≤ D.nCells * nq := Nat.mul_le_mul_right _ c.isLt
  refine ⟨fun c q => ⟨_, hrow c q⟩, fun _ _ => rfl, fun t c => ?_⟩
  have hk : cells[c.val]? = some (cells[c.val]'(by rw [← hn]; exact c.isLt)) := List.getElem?_eq_getElem _
  obtain ⟨T, fc, hT, hfc, -, k⟩ := hcell _ _ hk
  have a := (cellAt_nat S c.val fc).2 hfc
  obtain ⟨v, -, -, ⟨x, hx, hp⟩, col, U, hf, hcol⟩ := hlay c
  simp only [Fespace2D.getShapeFunctionVal, a, Except.ok.injEq] at v
  simp only [Fespace2D.getQuadratureActualCoordinates, a, Except.ok.injEq] at hx
  obtain ⟨d, hd, -, e⟩ := getForcing_ok hf
  obtain rfl := Except.ok.inj (a.symm.trans hd)
  rw [hcol, e, k.forcing]
  refine Finset.sum_congr rfl fun q _ => ?_
  rw [hp q _ rfl, ← v, hx]

/-- With another forcing function and other boundary functions only the forcing matrix changes. -/
lemma noise_tables {V V' : Type} {ext : QuadRoutines} {mp : List (ℝ × ℝ)} {cells : List Quad} {bd : BdDict}
    {s : FESettings} {dict : List (ℤ × (ℝ → ℝ → V))} {dict' : List (ℤ × (ℝ → ℝ → V'))} {f f' : ℝ → ℝ → ℝ}
    {plot : Bool} {nq nq' : ℕ} {S₁ S₁' : Fespace2D (ℝ → ℝ → ℝ) V (s.feOrder.toNat ^ 2) nq}
    {S₂ S₂' : Fespace2D (ℝ → ℝ → ℝ) V' (s.feOrder.toNat ^ 2) nq'}
    {D₁ : DataHandler2D (s.feOrder.toNat ^ 2) nq} {D₂ : DataHandler2D (s.feOrder.toNat ^ 2) nq'}
    (h₁ : fespace2D ext mp cells bd s dict f plot = .ok ⟨nq, S₁⟩)
    (h₂ : fespace2D ext mp cells bd s dict' f' plot = .ok ⟨nq', S₂⟩)
    (hD₁ : dataHandler2D S₁ true = .ok (D₁, S₁')) (hD₂ : dataHandler2D S₂ true = .ok (D₂, S₂')) :
    ∃ e : nq = nq', ∃ F', (e ▸ D₂) = { D₁ with forcing := F' } := by
  obtain ⟨-, B, wt, xi, eta, hB₁, hR₁, hc₁⟩ := fespace_cell h₁
  obtain ⟨-, B', wt', xi', eta', hB₂, hR₂, hc₂⟩ := fespace_cell h₂
  obtain ⟨-, E₁, T₁, hE₁, hn₁, -, hlay₁⟩ := C41_layout ext mp cells bd s dict f plot S₁ h₁
  obtain ⟨-, E₂, T₂, hE₂, hn₂, -, hlay₂⟩ := C41_layout ext mp cells bd s dict' f' plot S₂ h₂
  obtain ⟨rfl, -⟩ := Prod.mk.inj (Except.ok.inj (hD₁.symm.trans hE₁))
  obtain ⟨rfl, -⟩ := Prod.mk.inj (Except.ok.inj (hD₂.symm.trans hE₂))
  obtain rfl := Option.some.inj (Except.ok.inj (hB₁.symm.trans hB₂))
  have hR := Except.ok.inj (hR₁.symm.trans hR₂)
  obtain ⟨rfl, r1, r2, r3⟩ := (QuadRule2D.mk.injEq ..).mp hR
  obtain rfl := eq_of_heq r1
  obtain rfl := eq_of_heq r2
  obtain rfl := eq_of_heq r3
  refine ⟨rfl, ?_⟩
  have key : ∀ (c : Fin D₁.nCells) (c' : Fin D₂.nCells), c.val = c'.val →
      D₁.shapeValMat c = D₂.shapeValMat c' ∧ D₁.gradXMat c = D₂.gradXMat c' ∧ D₁.gradYMat c = D₂.gradYMat c' ∧
      ∀ (q : Fin nq) (r : Fin (D₁.nCells * nq)) (r' : Fin (D₂.nCells * nq)), r.val = c.val * nq + q.val →
        r'.val = c'.val * nq + q.val → D₁.xPde r = D₂.xPde r' := by
    intro c c' hcc
    have hk : cells[c.val]? = some (cells[c.val]'(by rw [← hn₁]; exact c.isLt)) := List.getElem?_eq_getElem _
    obtain ⟨T, fc, hT, hfc, -, k₁⟩ := hc₁ _ _ hk
    obtain ⟨T', fc', hT', hfc', -, k₂⟩ := hc₂ _ _ hk
    obtain rfl := Except.ok.inj (hT.symm.trans hT')
    have a₁ := (cellAt_nat S₁ c.val fc).2 hfc
    have a₂ := (cellAt_nat S₂ c.val fc').2 hfc'
    obtain ⟨v₁, gx₁, gy₁, ⟨x₁, hx₁, hp₁⟩, -⟩ := hlay₁ c
    obtain ⟨v₂, gx₂, gy₂, ⟨x₂, hx₂, hp₂⟩, -⟩ := hlay₂ c'
    have hcz : (c'.val : ℤ) = (c.val : ℤ) := by rw [hcc]
    rw [hcz] at v₂ gx₂ gy₂ hx₂
    simp only [Fespace2D.getShapeFunctionVal, a₁, Except.ok.injEq] at v₁
    simp only [Fespace2D.getShapeFunctionVal, a₂, Except.ok.injEq] at v₂
    simp only [Fespace2D.getShapeFunctionGradX, a₁, Except.ok.injEq] at gx₁
    simp only [Fespace2D.getShapeFunctionGradX, a₂, Except.ok.injEq] at gx₂
    simp only [Fespace2D.getShapeFunctionGradY, a₁, Except.ok.injEq] at gy₁
    simp only [Fespace2D.getShapeFunctionGradY, a₂, Except.ok.injEq] at gy₂
    simp only [Fespace2D.getQuadratureActualCoordinates, a₁, Except.ok.injEq] at hx₁
    simp only [Fespace2D.getQuadratureActualCoordinates, a₂, Except.ok.injEq] at hx₂
    have hpt : fc.quadActualCoordinates = fc'.quadActualCoordinates := funext fun p => by rw [k₁.point, k₂.point]
    refine ⟨?_, ?_, ?_, fun q r r' hr hr' => ?_⟩
    · rw [← v₁, ← v₂]
      funext t p
      rw [k₁.val, k₂.val]
    · rw [← gx₁, ← gx₂]
      funext t p
      rw [k₁.gradx, k₂.gradx]
    · rw [← gy₁, ← gy₂]
      funext t p
      rw [k₁.grady, k₂.grady]
    · rw [hp₁ q r hr, hp₂ q r' hr', ← hx₁, ← hx₂, hpt]
  have hn : D₂.nCells = D₁.nCells := hn₂.trans hn₁.symm
  have hx : ∀ (r : Fin (D₁.nCells * nq)) (r' : Fin (D₂.nCells * nq)), r.val = r'.val → D₁.xPde r = D₂.xPde r' := by
    intro r r' h
    have e1 : r.val = r.divNat.val * nq + r.modNat.val := by
      rw [Fin.coe_divNat, Fin.coe_modNat]; exact (Nat.div_add_mod' _ _).symm
    have e2 : r'.val = r'.divNat.val * nq + r'.modNat.val := by
      rw [Fin.coe_divNat, Fin.coe_modNat]; exact (Nat.div_add_mod' _ _).symm
    have e3 : r.divNat.val = r'.divNat.val := by rw [Fin.coe_divNat, Fin.coe_divNat, h]
    have e4 : r'.modNat = r.modNat := Fin.ext (by rw [Fin.coe_modNat, Fin.coe_modNat, h])
    exact (key r.divNat r'.divNat e3).2.2.2 r.modNat r r' e1 (by rw [← e4]; exact e2)
  clear hlay₁ hlay₂ hD₁ hD₂ hE₁ hE₂ hn₁ hn₂
  obtain ⟨n₁, v₁, gx₁, gy₁, x₁, F₁⟩ := D₁
  obtain ⟨n₂, v₂, gx₂, gy₂, x₂, F₂⟩ := D₂
  simp only at hn key hx
  subst hn
  refine ⟨F₂, ?_⟩
  have q1 : v₂ = v₁ := funext fun c => ((key c c rfl).1).symm
  have q2 : gx₂ = gx₁ := funext fun c => ((key c c rfl).2.1).symm
  have q3 : gy₂ = gy₁ := funext fun c => ((key c c rfl).2.2.1).symm
  have q4 : x₂ = x₁ := funext fun r => (hx r r rfl).symm
  rw [q1, q2, q3, q4]

end FastVPINNs
