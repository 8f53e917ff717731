import Verif.Props.Constructor

/-! # C39: the forcing vector -/

namespace FastVPINNs

open Spec

/-- `S'` is the state of the space `S` after some sequence of calls of `get_forcing_function_values`
(the only accessor that modifies the space). -/
inductive Spec.Reachable {V : Type} {nt nq : ℕ} (S : Fespace2D (ℝ → ℝ → ℝ) V nt nq) :
    Fespace2D (ℝ → ℝ → ℝ) V nt nq → Prop
  | refl : Reachable S S
  | step {S' S'' col} (i : ℤ) : Reachable S S' → S'.getForcingFunctionValues i = .ok (col, S'') →
      Reachable S S''

/-- The two cells differ at most in the stored forcing vector. -/
def EqUpToForcing {F : Type} {nt nq : ℕ} (a b : FE2DCell F nt nq) : Prop :=
  { a with forcingAtQuad := b.forcingAtQuad } = b

lemma EqUpToForcing.fields {F : Type} {nt nq : ℕ} {a b : FE2DCell F nt nq} (h : EqUpToForcing a b) :
    b.basisAtQuad = a.basisAtQuad ∧ b.basisGradxAtQuad = a.basisGradxAtQuad ∧
    b.basisGradyAtQuad = a.basisGradyAtQuad ∧ b.basisGradxAtQuadRef = a.basisGradxAtQuadRef ∧
    b.basisGradyAtQuadRef = a.basisGradyAtQuadRef ∧
    b.quadActualCoordinates = a.quadActualCoordinates ∧ b.mult = a.mult ∧
    b.forcingFunction = a.forcingFunction := by
  rw [← h]; simp

lemma forall₂_set {α : Type*} {R : α → α → Prop} (htrans : ∀ a b c, R a b → R b c → R a c)
    {l l' : List α} (h : List.Forall₂ R l l') (n : ℕ) (b b' : α) (hb : l'[n]? = some b) (hR : R b b') :
    List.Forall₂ R l (l'.set n b') := by
  induction h generalizing n with
  | nil => simp at hb
  | @cons x y l l' hxy hl ih =>
    cases n with
    | zero =>
      simp only [List.length_cons, Nat.zero_lt_succ, List.getElem?_eq_getElem, List.getElem_cons_zero,
        Option.some.injEq] at hb
      subst hb
      exact .cons (htrans _ _ _ hxy hR) hl
    | succ n =>
      rw [List.set_cons_succ]
      exact .cons hxy (ih n (by simpa using hb))

lemma forall₂_get {α : Type*} {R : α → α → Prop} {l l' : List α} (h : List.Forall₂ R l l') (n : ℕ) :
    l.length = l'.length ∧ (∀ a, l[n]? = some a → ∃ b, l'[n]? = some b ∧ R a b) := by
  refine ⟨h.length_eq, ?_⟩
  induction h generalizing n with
  | nil => simp
  | @cons x y l l' hxy hl ih =>
    cases n with
    | zero => simpa using hxy
    | succ n => simpa using ih n

lemma getForcing_ok {V : Type} {nt nq : ℕ} {S S' : Fespace2D (ℝ → ℝ → ℝ) V nt nq} {i : ℤ}
    {col : Fin nt → ℝ} (h : S.getForcingFunctionValues i = .ok (col, S')) :
    ∃ c, S.cellAt i = .ok c ∧ S' = S.setForcing i c col ∧
      ∀ t, col t = ∑ q, c.basisAtQuad t q *
        c.forcingFunction (c.quadActualCoordinates q).1 (c.quadActualCoordinates q).2 := by
  unfold Fespace2D.getForcingFunctionValues at h
  cases hc : S.cellAt i with
  | error e => rw [hc] at h; cases h
  | ok c =>
    rw [hc] at h
    simp only [Except.ok.injEq, Prod.mk.injEq] at h
    obtain ⟨rfl, rfl⟩ := h
    refine ⟨c, rfl, rfl, fun t => ?_⟩
    simp only [foldl_add_eq_sum, zero_add]

lemma reachable_forall₂ {V : Type} {nt nq : ℕ} {S S' : Fespace2D (ℝ → ℝ → ℝ) V nt nq}
    (h : Reachable S S') : List.Forall₂ EqUpToForcing S.feCell S'.feCell ∧
      S'.nCells = S.nCells ∧ S'.settings = S.settings ∧ S'.meshPoints = S.meshPoints ∧
      S'.boundaryPoints = S.boundaryPoints ∧ S'.boundFunctionDict = S.boundFunctionDict := by
  induction h with
  | refl => exact ⟨List.forall₂_same.2 fun c _ => rfl, rfl, rfl, rfl, rfl, rfl⟩
  | step i _ hs ih =>
    obtain ⟨c, hc, rfl, -⟩ := getForcing_ok hs
    obtain ⟨-, hc⟩ := (cellAt_ok _ _ _).1 hc
    refine ⟨?_, ih.2⟩
    exact forall₂_set (fun a b c hab hbc => by
      unfold EqUpToForcing at *; rw [← hbc, ← hab]) ih.1 _ c _ hc rfl

lemma reachable_cellAt {V : Type} {nt nq : ℕ} {S S' : Fespace2D (ℝ → ℝ → ℝ) V nt nq}
    (h : Reachable S S') (i : ℤ) :
    (S.cellAt i = .error .valueError ∧ S'.cellAt i = .error .valueError) ∨
    ∃ a b, S.cellAt i = .ok a ∧ S'.cellAt i = .ok b ∧ EqUpToForcing a b := by
  have h := (reachable_forall₂ h).1
  by_cases hi : i < 0 ∨ (S.feCell.length : ℤ) ≤ i
  · exact Or.inl ⟨cellAt_error _ _ hi, cellAt_error _ _ (by rw [← h.length_eq]; exact hi)⟩
  · push Not at hi
    right
    have h1 : i.toNat < S.feCell.length := by omega
    obtain ⟨b, hb, hR⟩ := (forall₂_get h i.toNat).2 _ (List.getElem?_eq_getElem h1)
    exact ⟨_, b, (cellAt_ok _ _ _).2 ⟨hi.1, List.getElem?_eq_getElem h1⟩,
      (cellAt_ok _ _ _).2 ⟨hi.1, hb⟩, hR⟩

section
variable {V : Type} (ext : QuadRoutines) (mp : List (ℝ × ℝ)) (cells : List Quad) (bd : BdDict)
  (s : FESettings) (dict : List (ℤ × (ℝ → ℝ → V))) (plot : Bool)

/-- **C39.**  After any history of forcing calls, `get_forcing_function_values(k)` returns for the test
function number `N i + j` the sum over the quadrature points of weight, Jacobian, test function and
forcing function at the image of the point; for indices that are not cells it raises `ValueError`.
The tables reported by the other accessors do not change in the course of the history. -/
theorem C39_forcing (f : ℝ → ℝ → ℝ) {nq : ℕ}
    (S S' : Fespace2D (ℝ → ℝ → ℝ) V (s.feOrder.toNat ^ 2) nq)
    (h : fespace2D ext mp cells bd s dict f plot = .ok ⟨nq, S⟩) (hS : Reachable S S') :
    (∀ i : ℤ, i < 0 ∨ (cells.length : ℤ) ≤ i →
      S'.getForcingFunctionValues i = .error .valueError) ∧
    (∀ (k : ℕ) (c : Quad), cells[k]? = some c → ∃ col S'',
      S'.getForcingFunctionValues k = .ok (col, S'') ∧
      ∀ r T, assignQuadratureRules ext "quadrilateral" s.quadOrder s.quadType = .ok r →
        assignFeTransformation "quadrilateral" s.feTransformationType c = .ok T →
        ∀ (i j : ℕ) (t : Fin (s.feOrder.toNat ^ 2)), i < s.feOrder.toNat → j < s.feOrder.toNat →
          t.val = s.feOrder.toNat * i + j →
          col t = ∑ p, r.weights p * T.jacobian (r.xi p) (r.eta p) *
            ((testFamily s.feType i).eval (r.xi p) * (testFamily s.feType j).eval (r.eta p)) *
            f (T.originalFromRef (r.xi p) (r.eta p)).1 (T.originalFromRef (r.xi p) (r.eta p)).2) ∧
    SameTables S S' := by
  obtain ⟨hlen, B, wt, xi, eta, hB, hR, hcell⟩ := fespace_cell h
  refine ⟨fun i hi => ?_, fun k c hk => ?_, fun i => ?_⟩
  · have := cellAt_error S' i (by rw [← (reachable_forall₂ hS).1.length_eq, hlen]; exact hi)
    simp [Fespace2D.getForcingFunctionValues, this]
  · obtain ⟨T, fc, hT, hfc, hok, facts⟩ := hcell k c hk
    have hfc := (cellAt_nat S k fc).2 hfc
    rcases reachable_cellAt hS k with ⟨h1, -⟩ | ⟨a, b, ha, hb, hab⟩
    · rw [hfc] at h1; cases h1
    · rw [hfc] at ha
      cases ha
      obtain ⟨e1, -, -, -, -, e2, -, e3⟩ := hab.fields
      refine ⟨_, _, by unfold Fespace2D.getForcingFunctionValues; rw [hb], ?_⟩
      intro r T' hr hT' i j t hi hj ht
      rw [hR] at hr
      cases hr
      rw [hT] at hT'
      cases hT'
      simp only
      rw [foldl_add_eq_sum, zero_add, e1, e2, e3, facts.forcing]
      refine Finset.sum_congr rfl fun p _ => ?_
      rw [facts.val, facts.point, (C13_basis_rows _ _ B hB).value xi eta p i j t hi hj ht]
      ring
  · rcases reachable_cellAt hS i with ⟨h1, h2⟩ | ⟨a, b, ha, hb, hab⟩
    · simp [Fespace2D.getShapeFunctionVal, Fespace2D.getShapeFunctionGradX,
        Fespace2D.getShapeFunctionGradY, Fespace2D.getShapeFunctionGradXRef,
        Fespace2D.getShapeFunctionGradYRef, Fespace2D.getQuadratureActualCoordinates,
        Fespace2D.getQuadratureWeights, h1, h2]
    · obtain ⟨e1, e2, e3, e4, e5, e6, e7, -⟩ := hab.fields
      simp [Fespace2D.getShapeFunctionVal, Fespace2D.getShapeFunctionGradX,
        Fespace2D.getShapeFunctionGradY, Fespace2D.getShapeFunctionGradXRef,
        Fespace2D.getShapeFunctionGradYRef, Fespace2D.getQuadratureActualCoordinates,
        Fespace2D.getQuadratureWeights, ha, hb, e1, e2, e3, e4, e5, e6, e7]

/-- **C39** (linearity).  The forcing vector is linear in the forcing function. -/
theorem C39_linear (f g : ℝ → ℝ → ℝ) (a b : ℝ) {nq nq₁ nq₂ : ℕ}
    (S : Fespace2D (ℝ → ℝ → ℝ) V (s.feOrder.toNat ^ 2) nq)
    (S₁ : Fespace2D (ℝ → ℝ → ℝ) V (s.feOrder.toNat ^ 2) nq₁)
    (S₂ : Fespace2D (ℝ → ℝ → ℝ) V (s.feOrder.toNat ^ 2) nq₂)
    (h : fespace2D ext mp cells bd s dict (fun x y => a * f x y + b * g x y) plot = .ok ⟨nq, S⟩)
    (h₁ : fespace2D ext mp cells bd s dict f plot = .ok ⟨nq₁, S₁⟩)
    (h₂ : fespace2D ext mp cells bd s dict g plot = .ok ⟨nq₂, S₂⟩) (k : ℕ) (hk : k < cells.length) :
    ∃ col S' col₁ S₁' col₂ S₂', S.getForcingFunctionValues k = .ok (col, S') ∧
      S₁.getForcingFunctionValues k = .ok (col₁, S₁') ∧
      S₂.getForcingFunctionValues k = .ok (col₂, S₂') ∧ ∀ t, col t = a * col₁ t + b * col₂ t := by
  have hc := List.getElem?_eq_getElem hk
  obtain ⟨col, S', e, f0⟩ := (C39_forcing ext mp cells bd s dict plot _ S S h .refl).2.1 k _ hc
  obtain ⟨col₁, S₁', e₁, f₁⟩ := (C39_forcing ext mp cells bd s dict plot _ S₁ S₁ h₁ .refl).2.1 k _ hc
  obtain ⟨col₂, S₂', e₂, f₂⟩ := (C39_forcing ext mp cells bd s dict plot _ S₂ S₂ h₂ .refl).2.1 k _ hc
  refine ⟨col, S', col₁, S₁', col₂, S₂', e, e₁, e₂, fun t => ?_⟩
  obtain ⟨-, B, wt, xi, eta, hB, hR, hcell⟩ := fespace_cell h
  obtain ⟨T, -, hT, -⟩ := hcell k _ hc
  obtain ⟨hi, hj, ht⟩ := index_split t
  rw [f0 _ T hR hT _ _ t hi hj ht, f₁ _ T hR hT _ _ t hi hj ht, f₂ _ T hR hT _ _ t hi hj ht,
    Finset.mul_sum, Finset.mul_sum, ← Finset.sum_add_distrib]
  exact Finset.sum_congr rfl fun p _ => by ring

/-- **C39** (vector variant).  `get_forcing_function_values_vector(k, component)` returns what the space
with that component as scalar forcing function returns; a component that does not exist is an
`IndexError`. -/
theorem C39_vector (fs : List (ℝ → ℝ → ℝ)) {nq : ℕ}
    (S : Fespace2D (List (ℝ → ℝ → ℝ)) V (s.feOrder.toNat ^ 2) nq)
    (h : fespace2D ext mp cells bd s dict fs plot = .ok ⟨nq, S⟩) (k : ℕ) (hk : k < cells.length) :
    (∀ (comp : ℕ) (f : ℝ → ℝ → ℝ), fs[comp]? = some f → ∀ {nq₁ : ℕ}
      (S₁ : Fespace2D (ℝ → ℝ → ℝ) V (s.feOrder.toNat ^ 2) nq₁),
      fespace2D ext mp cells bd s dict f plot = .ok ⟨nq₁, S₁⟩ →
      ∃ col S' S₁', S.getForcingFunctionValuesVector k comp = .ok (col, S') ∧
        S₁.getForcingFunctionValues k = .ok (col, S₁')) ∧
    (∀ comp : ℕ, fs.length ≤ comp →
      S.getForcingFunctionValuesVector k comp = .error .indexError) := by
  have hc := List.getElem?_eq_getElem hk
  obtain ⟨-, B, wt, xi, eta, hB, hR, hcell⟩ := fespace_cell h
  obtain ⟨T, fc, hT, hfc, -, facts⟩ := hcell k _ hc
  have hfc := (cellAt_nat S k fc).2 hfc
  constructor
  · intro comp f hf nq₁ S₁ h₁
    obtain ⟨col₁, S₁', e₁, f₁⟩ := (C39_forcing ext mp cells bd s dict plot _ S₁ S₁ h₁ .refl).2.1 k _ hc
    have hidx : pyIndex fc.forcingFunction (comp : ℤ) = .ok f := by
      rw [facts.forcing, pyIndex_nonneg _ (by omega)]
      simpa using hf
    have hv : ∃ S', S.getForcingFunctionValuesVector k comp = .ok (fun t => (List.finRange nq).foldl
        (fun val q => val + fc.basisAtQuad t q *
          f (fc.quadActualCoordinates q).1 (fc.quadActualCoordinates q).2) 0, S') := by
      unfold Fespace2D.getForcingFunctionValuesVector
      rw [hfc]
      simp only [hidx]
      exact ⟨_, rfl⟩
    obtain ⟨S', hv⟩ := hv
    refine ⟨col₁, S', S₁', ?_, e₁⟩
    · rw [hv]
      have : (fun t => (List.finRange nq).foldl (fun val q => val + fc.basisAtQuad t q *
          f (fc.quadActualCoordinates q).1 (fc.quadActualCoordinates q).2) 0) = col₁ := by
        funext t
        obtain ⟨hi, hj, ht⟩ := index_split t
        rw [foldl_add_eq_sum, zero_add, f₁ _ T hR hT _ _ t hi hj ht]
        refine Finset.sum_congr rfl fun p _ => ?_
        rw [facts.val, facts.point, (C13_basis_rows _ _ B hB).value xi eta p _ _ t hi hj ht]
        ring
      rw [this]
  · intro comp hcomp
    have hidx : pyIndex fc.forcingFunction (comp : ℤ) = .error .indexError := by
      rw [facts.forcing]
      unfold pyIndex
      rw [if_pos (by omega)]
      simp [List.getElem?_eq_none hcomp]
    unfold Fespace2D.getForcingFunctionValuesVector
    rw [hfc]
    simp only [hidx]

end

/-- C39 on the demo space, after two forcing calls on different cells. -/
example (ext : QuadRoutines) : ∃ nq S S₁ S₂ col₁ col₂,
    fespace2D ext [(0, 0), (1, 1)] demoCells demoBoundary (demoSettings "affine") demoDict
      (fun x y => x + y) false = .ok ⟨nq, S⟩ ∧
    S.getForcingFunctionValues 1 = .ok (col₁, S₁) ∧ S₁.getForcingFunctionValues 0 = .ok (col₂, S₂) ∧
    Reachable S S₂ ∧ ∃ S₃, S₂.getForcingFunctionValues 1 = .ok (col₁, S₃) := by
  obtain ⟨nq, S, h⟩ := demo_fespace ext (fun x y : ℝ => x + y) "affine" (Or.inr rfl)
  have hk : demoCells[1]? = some kiteCell := rfl
  obtain ⟨col₁, S₁, e1, f1⟩ := (C39_forcing _ _ _ _ _ _ _ _ S S h .refl).2.1 1 kiteCell hk
  have r1 : Reachable S S₁ := .step 1 .refl e1
  obtain ⟨col₂, S₂, e2, -⟩ := (C39_forcing _ _ _ _ _ _ _ _ S S₁ h r1).2.1 0 (squareCell 1) rfl
  have r2 : Reachable S S₂ := .step 0 r1 e2
  obtain ⟨col₃, S₃, e3, f3⟩ := (C39_forcing _ _ _ _ _ _ _ _ S S₂ h r2).2.1 1 kiteCell hk
  have : col₃ = col₁ := by
    obtain ⟨-, B, wt, xi, eta, hB, hR, hcell⟩ := fespace_cell h
    obtain ⟨T, -, hT, -⟩ := hcell 1 _ hk
    funext t
    obtain ⟨hi, hj, ht⟩ := index_split t
    rw [f1 _ T hR hT _ _ t hi hj ht, f3 _ T hR hT _ _ t hi hj ht]
  exact ⟨nq, S, S₁, S₂, col₁, col₂, h, e1, e2, r2, S₃, this ▸ e3⟩

/-- The hypotheses of the vector variant hold for the demo space with two components. -/
example (ext : QuadRoutines) (f g : ℝ → ℝ → ℝ) : ∃ nq S,
    fespace2D ext [(0, 0), (1, 1)] demoCells demoBoundary (demoSettings "bilinear") demoDict
      [f, g] false = .ok ⟨nq, S⟩ ∧ [f, g][1]? = some g ∧ 1 < demoCells.length := by
  obtain ⟨nq, S, h⟩ := demo_fespace ext [f, g] "bilinear" (Or.inl rfl)
  exact ⟨nq, S, h, rfl, by simp [demoCells]⟩

end FastVPINNs
