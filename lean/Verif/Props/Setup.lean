import Verif.Model.Setup

/-! # C12: which finite element settings are accepted -/

namespace FastVPINNs

/-- The `fe_type`s documented for quadrilaterals. -/
def Spec.supportedFeType (t : String) : Prop :=
  t ∈ ["legendre", "jacobi", "legendre_special", "chebyshev_2", "jacobi_plain"]

/-- **C12** (basis).  On quadrilaterals a basis is returned exactly for `2 ≤ fe_order < 1000` and a
supported `fe_type`; everything else is a `ValueError` (never `None`). -/
theorem C12_basis_accepted (o : ℤ) (t : String) :
    ((∃ B, assignBasisFunction "quadrilateral" o t = .ok (some B)) ↔
      2 ≤ o ∧ o < 1000 ∧ Spec.supportedFeType t) ∧
    ((¬ ∃ B, assignBasisFunction "quadrilateral" o t = .ok (some B)) →
      assignBasisFunction "quadrilateral" o t = .error .valueError) := by
  unfold assignBasisFunction Spec.supportedFeType
  simp only [if_true, List.mem_cons, List.not_mem_nil, or_false]
  by_cases h1 : o ≤ 1 ∨ o ≥ 1000
  · simp only [h1, if_true, reduceCtorEq, exists_false, not_false_eq_true, forall_true_left,
      and_true, false_iff]
    rintro ⟨h2, h3, -⟩
    omega
  · have h2 : 2 ≤ o ∧ o < 1000 := by omega
    simp only [h1, if_false, h2, true_and]
    split_ifs with h3 h4 h5 h6
    · rcases h3 with h3 | h3 <;> simp [h3]
    · simp [h4]
    · simp [h5]
    · simp [h6]
    · push Not at h3
      simp [h3, h4, h5, h6]

/-- The message of the exception names `1e4` as the limit, but orders `1000..9999` are rejected. -/
theorem C12_fe_order_limit_is_1000 (o : ℤ) (t c : String) (h : 1000 ≤ o) :
    assignBasisFunction c o t = .error .valueError := by
  unfold assignBasisFunction
  rw [if_pos (Or.inr h)]

/-- **C12** (quadrature).  A rule is returned exactly for `3 ≤ quad_order ≤ 9999` and a supported
`quad_type` on quadrilaterals; everything else is a `ValueError`. -/
theorem C12_quadrature_accepted (ext : QuadRoutines) (c : String) (n : ℤ) (t : String) :
    ((∃ r, assignQuadratureRules ext c n t = .ok r) ↔
      c = "quadrilateral" ∧ 3 ≤ n ∧ n ≤ 9999 ∧ (t = "gauss-legendre" ∨ t = "gauss-jacobi")) ∧
    ((¬ ∃ r, assignQuadratureRules ext c n t = .ok r) →
      assignQuadratureRules ext c n t = .error .valueError) := by
  unfold assignQuadratureRules quadratureformulasQuad2D
  by_cases hc : c = "quadrilateral"
  · by_cases h1 : n < 3
    · simp [hc, h1]
    · by_cases h2 : n ≤ 9999
      · have h3 : n ≥ 2 := by omega
        have h4 : ¬ n ≤ 0 := by omega
        have h5 : ¬ n - 2 < 1 := by omega
        by_cases h6 : t = "gauss-legendre"
        · simp [hc, h1, h2, h3, h4, h6, show 3 ≤ n by omega]
        · by_cases h7 : t = "gauss-jacobi"
          · simp [hc, h1, h2, h3, h5, h7, show 3 ≤ n by omega]
          · simp [hc, h2, h3, h6, h7, show 3 ≤ n by omega]
      · simp [hc, h2]
  · simp [hc]

/-- **C12** (transformation).  A transformation is returned exactly for `affine` and `bilinear` on
quadrilaterals; everything else is a `ValueError`. -/
theorem C12_transformation_accepted (c t : String) (v : Quad) :
    ((∃ T, assignFeTransformation c t v = .ok T) ↔
      c = "quadrilateral" ∧ (t = "affine" ∨ t = "bilinear")) ∧
    ((¬ ∃ T, assignFeTransformation c t v = .ok T) →
      assignFeTransformation c t v = .error .valueError) := by
  unfold assignFeTransformation
  by_cases hc : c = "quadrilateral"
  · by_cases h1 : t = "affine"
    · simp [hc, h1]
    · by_cases h2 : t = "bilinear"
      · simp [hc, h2]
      · simp [hc, h1, h2]
  · simp [hc]

/-- Concrete accepted and rejected settings. -/
example (ext : QuadRoutines) (v : Quad) :
    (∃ B, assignBasisFunction "quadrilateral" 999 "chebyshev_2" = .ok (some B)) ∧
    assignBasisFunction "quadrilateral" 1000 "chebyshev_2" = .error .valueError ∧
    (∃ r, assignQuadratureRules ext "quadrilateral" 3 "gauss-jacobi" = .ok r) ∧
    (∃ T, assignFeTransformation "quadrilateral" "affine" v = .ok T) :=
  ⟨(C12_basis_accepted 999 "chebyshev_2").1.2 ⟨by norm_num, by norm_num, by
      simp [Spec.supportedFeType]⟩,
   C12_fe_order_limit_is_1000 1000 _ _ le_rfl,
   (C12_quadrature_accepted ext _ 3 _).1.2 (by norm_num),
   (C12_transformation_accepted _ _ v).1.2 (by simp)⟩

end FastVPINNs
