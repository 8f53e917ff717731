import Verif.Lemmas.Special
import Verif.Spec.Special

/-! # The loss functions on special values -/

namespace FastVPINNs

open Spec ExprOf

lemma pyIndex_head {α : Type*} (l : List α) : pyIndex l 0 = match l with
    | [] => .error .indexError
    | a :: _ => .ok a := by
  cases l <;> rfl

section
variable {nc nt nq nBd dout : ℕ} (j : ℕ) (kind : LossKind) (I : StepInput nc nt nq nBd dout)
  (p ip : ParamDict) {es : Fin nc → ExprOf XNum}

/-- The losses commute with taking values. -/
lemma lossE_toReal (h : I.residuals j kind p ip = .ok es) :
    lossE j (fun c t q => (I.V c t q).toReal) (fun c t q => (I.GX c t q).toReal) (fun c t q => (I.GY c t q).toReal)
      (fun c q => (I.u c q).toReal) (fun c q => (I.ux c q).toReal) (fun c q => (I.uy c q).toReal)
      (fun t c => (I.F t c).toReal) kind p ip (I.coeffs.map fun k c q => (k c q).toReal)
      = .ok fun c => (es c).map XNum.toReal := by
  unfold StepInput.residuals at h
  cases kind <;> simp only [lossE, pdeLossPoissonE, pdeLossCd2dE, pdeLossCd2dRestE, pdeLossHelmholtzE,
    pdeLossCd2dInverseDomainE, paramGetE, pyIndex_head] at h ⊢
  case poisson =>
    cases h1 : paramGet p "eps" <;> simp only [h1] at h ⊢ <;> cases h
    rfl
  case poissonInverse =>
    cases h1 : paramGet ip "eps" <;> simp only [h1] at h ⊢ <;> cases h
    rfl
  case helmholtz =>
    cases h1 : paramGet p "eps" <;> cases h2 : paramGet p "k" <;> simp only [h1, h2] at h ⊢ <;> cases h
    rfl
  case cd2d =>
    cases h1 : paramGet p "eps" <;> cases h2 : paramGet p "b_x" <;> cases h3 : paramGet p "b_y" <;>
      cases h4 : paramGet p "c" <;> simp only [h1, h2, h3, h4] at h ⊢ <;> cases h
    rfl
  case cd2dInverse =>
    cases h1 : paramGet ip "eps" <;> cases h2 : paramGet p "b_x" <;> cases h3 : paramGet p "b_y" <;>
      cases h4 : paramGet p "c" <;> simp only [h1, h2, h3, h4] at h ⊢ <;> cases h
    rfl
  case cd2dInverseDomain =>
    cases h1 : I.coeffs <;> cases h2 : paramGet p "b_x" <;> cases h3 : paramGet p "b_y" <;>
      cases h4 : paramGet p "c" <;> simp only [h1, h2, h3, h4, List.map_cons, List.map_nil] at h ⊢ <;> cases h
    rfl

/-- What finite residuals say about the numbers. -/
lemma lossE_allFin (h : I.residuals j kind p ip = .ok es) :
    (∀ c, (es c).AllFin) ↔ (0 < nc → 0 < nt) ∧ InputsAll kind I XNum.IsFin := by
  unfold StepInput.residuals at h
  cases kind <;> simp only [lossE, pdeLossPoissonE, pdeLossCd2dE, pdeLossCd2dRestE, pdeLossHelmholtzE,
    pdeLossCd2dInverseDomainE, paramGetE, pyIndex_head] at h
  case poisson =>
    cases h1 : paramGet p "eps" <;> simp only [h1] at h <;> cases h
    simp only [meanSquare0E, AllFin, transposeE, matvecE, readMat, readPred, Leaf.ofReal, XNum.isFin_fin, true_and]
    constructor
    · intro h
      have t0 : ∀ c : Fin nc, Fin nt := fun c => ⟨0, (h c).1⟩
      refine ⟨fun hc => (h ⟨0, hc⟩).1, ⟨fun c t q => (((h c).2 t).1.1 q).1, fun c t q => (((h c).2 t).1.2 q).1,
        fun t c => ((h c).2 t).2, fun c q => (((h c).2 (t0 c)).1.1 q).2, fun c q => (((h c).2 (t0 c)).1.2 q).2,
        fun h => h.elim, fun h => h.elim, fun h => by cases h⟩⟩
    · rintro ⟨h0, h⟩ c
      exact ⟨h0 c.pos, fun t => ⟨⟨fun q => ⟨h.gx c t q, h.ux c q⟩, fun q => ⟨h.gy c t q, h.uy c q⟩⟩, h.force t c⟩⟩
  case poissonInverse =>
    cases h1 : paramGet ip "eps" <;> simp only [h1] at h <;> cases h
    simp only [meanSquare0E, AllFin, transposeE, matvecE, readMat, readPred, Leaf.ofReal, XNum.isFin_fin, true_and]
    constructor
    · intro h
      have t0 : ∀ c : Fin nc, Fin nt := fun c => ⟨0, (h c).1⟩
      refine ⟨fun hc => (h ⟨0, hc⟩).1, ⟨fun c t q => (((h c).2 t).1.1 q).1, fun c t q => (((h c).2 t).1.2 q).1,
        fun t c => ((h c).2 t).2, fun c q => (((h c).2 (t0 c)).1.1 q).2, fun c q => (((h c).2 (t0 c)).1.2 q).2,
        fun h => h.elim, fun h => h.elim, fun h => by cases h⟩⟩
    · rintro ⟨h0, h⟩ c
      exact ⟨h0 c.pos, fun t => ⟨⟨fun q => ⟨h.gx c t q, h.ux c q⟩, fun q => ⟨h.gy c t q, h.uy c q⟩⟩, h.force t c⟩⟩
  case helmholtz =>
    cases h1 : paramGet p "eps" <;> cases h2 : paramGet p "k" <;> simp only [h1, h2] at h <;> cases h
    simp only [meanSquare0E, AllFin, transposeE, matvecE, readMat, readPred, Leaf.ofReal, XNum.isFin_fin, true_and]
    constructor
    · intro h
      have t0 : ∀ c : Fin nc, Fin nt := fun c => ⟨0, (h c).1⟩
      refine ⟨fun hc => (h ⟨0, hc⟩).1, ⟨fun c t q => (((h c).2 t).1.1.1 q).1, fun c t q => (((h c).2 t).1.1.2 q).1,
        fun t c => ((h c).2 t).2, fun c q => (((h c).2 (t0 c)).1.1.1 q).2,
        fun c q => (((h c).2 (t0 c)).1.1.2 q).2, fun _ c t q => (((h c).2 t).1.2 q).1,
        fun _ c q => (((h c).2 (t0 c)).1.2 q).2, fun h => by cases h⟩⟩
    · rintro ⟨h0, h⟩ c
      exact ⟨h0 c.pos, fun t => ⟨⟨⟨fun q => ⟨h.gx c t q, h.ux c q⟩, fun q => ⟨h.gy c t q, h.uy c q⟩⟩,
        fun q => ⟨h.val trivial c t q, h.u trivial c q⟩⟩, h.force t c⟩⟩
  case cd2d =>
    cases h1 : paramGet p "eps" <;> cases h2 : paramGet p "b_x" <;> cases h3 : paramGet p "b_y" <;>
      cases h4 : paramGet p "c" <;> simp only [h1, h2, h3, h4] at h <;> cases h
    simp only [meanSquare0E, AllFin, transposeE, matvecE, readMat, readPred, Leaf.ofReal, XNum.isFin_fin, true_and]
    constructor
    · intro h
      have t0 : ∀ c : Fin nc, Fin nt := fun c => ⟨0, (h c).1⟩
      refine ⟨fun hc => (h ⟨0, hc⟩).1, ⟨fun c t q => (((h c).2 t).1.1.1.1 q).1,
        fun c t q => (((h c).2 t).1.1.1.2 q).1, fun t c => ((h c).2 t).2,
        fun c q => (((h c).2 (t0 c)).1.1.1.1 q).2, fun c q => (((h c).2 (t0 c)).1.1.1.2 q).2,
        fun _ c t q => (((h c).2 t).1.2 q).1, fun _ c q => (((h c).2 (t0 c)).1.2 q).2, fun h => by cases h⟩⟩
    · rintro ⟨h0, h⟩ c
      exact ⟨h0 c.pos, fun t => ⟨⟨⟨⟨fun q => ⟨h.gx c t q, h.ux c q⟩, fun q => ⟨h.gy c t q, h.uy c q⟩⟩,
        fun q => ⟨h.val trivial c t q, h.ux c q⟩, fun q => ⟨h.val trivial c t q, h.uy c q⟩⟩,
        fun q => ⟨h.val trivial c t q, h.u trivial c q⟩⟩, h.force t c⟩⟩
  case cd2dInverse =>
    cases h1 : paramGet ip "eps" <;> cases h2 : paramGet p "b_x" <;> cases h3 : paramGet p "b_y" <;>
      cases h4 : paramGet p "c" <;> simp only [h1, h2, h3, h4] at h <;> cases h
    simp only [meanSquare0E, AllFin, transposeE, matvecE, readMat, readPred, Leaf.ofReal, XNum.isFin_fin, true_and]
    constructor
    · intro h
      have t0 : ∀ c : Fin nc, Fin nt := fun c => ⟨0, (h c).1⟩
      refine ⟨fun hc => (h ⟨0, hc⟩).1, ⟨fun c t q => (((h c).2 t).1.1.1.1 q).1,
        fun c t q => (((h c).2 t).1.1.1.2 q).1, fun t c => ((h c).2 t).2,
        fun c q => (((h c).2 (t0 c)).1.1.1.1 q).2, fun c q => (((h c).2 (t0 c)).1.1.1.2 q).2,
        fun _ c t q => (((h c).2 t).1.2 q).1, fun _ c q => (((h c).2 (t0 c)).1.2 q).2, fun h => by cases h⟩⟩
    · rintro ⟨h0, h⟩ c
      exact ⟨h0 c.pos, fun t => ⟨⟨⟨⟨fun q => ⟨h.gx c t q, h.ux c q⟩, fun q => ⟨h.gy c t q, h.uy c q⟩⟩,
        fun q => ⟨h.val trivial c t q, h.ux c q⟩, fun q => ⟨h.val trivial c t q, h.uy c q⟩⟩,
        fun q => ⟨h.val trivial c t q, h.u trivial c q⟩⟩, h.force t c⟩⟩
  case cd2dInverseDomain =>
    cases hk : I.coeffs with
    | nil => simp [hk] at h
    | cons k l =>
    cases h2 : paramGet p "b_x" <;> cases h3 : paramGet p "b_y" <;>
      cases h4 : paramGet p "c" <;> simp only [hk, h2, h3, h4] at h <;> cases h
    simp only [meanSquare0E, AllFin, transposeE, matvecE, readMat, readPred, Leaf.ofReal, XNum.isFin_fin, true_and]
    constructor
    · intro h
      have t0 : ∀ c : Fin nc, Fin nt := fun c => ⟨0, (h c).1⟩
      refine ⟨fun hc => (h ⟨0, hc⟩).1, ⟨fun c t q => (((h c).2 t).1.1.1.1 q).1,
        fun c t q => (((h c).2 t).1.1.1.2 q).1, fun t c => ((h c).2 t).2,
        fun c q => (((h c).2 (t0 c)).1.1.1.1 q).2.1, fun c q => (((h c).2 (t0 c)).1.1.1.2 q).2.1,
        fun _ c t q => (((h c).2 t).1.2 q).1, fun _ c q => (((h c).2 (t0 c)).1.2 q).2,
        fun _ => ⟨k, by simp [hk], fun c q => (((h c).2 (t0 c)).1.1.1.1 q).2.2⟩⟩⟩
    · rintro ⟨h0, h⟩ c
      obtain ⟨k', hk', hkf⟩ := h.coeff rfl
      have : k = k' := by simpa [hk] using hk'
      subst this
      exact ⟨h0 c.pos, fun t => ⟨⟨⟨⟨fun q => ⟨h.gx c t q, h.ux c q, hkf c q⟩,
        fun q => ⟨h.gy c t q, h.uy c q, hkf c q⟩⟩,
        fun q => ⟨h.val trivial c t q, h.ux c q⟩, fun q => ⟨h.val trivial c t q, h.uy c q⟩⟩,
        fun q => ⟨h.val trivial c t q, h.u trivial c q⟩⟩, h.force t c⟩⟩

/-- NaN among the numbers shows in a residual. -/
lemma lossE_hasNan (h : I.residuals j kind p ip = .ok es) (ht : 0 < nt) (hn : SomeInput kind I .nan) :
    ∃ c, (es c).HasNan := by
  unfold StepInput.residuals at h
  let t0 : Fin nt := ⟨0, ht⟩
  cases kind <;> simp only [lossE, pdeLossPoissonE, pdeLossCd2dE, pdeLossCd2dRestE, pdeLossHelmholtzE,
    pdeLossCd2dInverseDomainE, paramGetE, pyIndex_head] at h
  case poisson =>
    cases h1 : paramGet p "eps" <;> simp only [h1] at h <;> cases h
    simp only [meanSquare0E, HasNan, transposeE, matvecE, readMat, readPred, Leaf.ofReal]
    rcases hn with ⟨c, t, q, h⟩ | ⟨t, c, h⟩ | ⟨c, q, h⟩ | ⟨h, -⟩ | ⟨h, -⟩
    · exact ⟨c, .inr ⟨t, .inl (.inr (by rcases h with h | h; exacts [.inl ⟨q, .inl h⟩, .inr ⟨q, .inl h⟩]))⟩⟩
    · exact ⟨c, .inr ⟨t, .inr h⟩⟩
    · exact ⟨c, .inr ⟨t0, .inl (.inr (by rcases h with h | h; exacts [.inl ⟨q, .inr h⟩, .inr ⟨q, .inr h⟩]))⟩⟩
    · exact h.elim
    · cases h
  case poissonInverse =>
    cases h1 : paramGet ip "eps" <;> simp only [h1] at h <;> cases h
    simp only [meanSquare0E, HasNan, transposeE, matvecE, readMat, readPred, Leaf.ofReal]
    rcases hn with ⟨c, t, q, h⟩ | ⟨t, c, h⟩ | ⟨c, q, h⟩ | ⟨h, -⟩ | ⟨h, -⟩
    · exact ⟨c, .inr ⟨t, .inl (.inr (by rcases h with h | h; exacts [.inl ⟨q, .inl h⟩, .inr ⟨q, .inl h⟩]))⟩⟩
    · exact ⟨c, .inr ⟨t, .inr h⟩⟩
    · exact ⟨c, .inr ⟨t0, .inl (.inr (by rcases h with h | h; exacts [.inl ⟨q, .inr h⟩, .inr ⟨q, .inr h⟩]))⟩⟩
    · exact h.elim
    · cases h
  case helmholtz =>
    cases h1 : paramGet p "eps" <;> cases h2 : paramGet p "k" <;> simp only [h1, h2] at h <;> cases h
    simp only [meanSquare0E, HasNan, transposeE, matvecE, readMat, readPred, Leaf.ofReal]
    rcases hn with ⟨c, t, q, h⟩ | ⟨t, c, h⟩ | ⟨c, q, h⟩ | ⟨-, ⟨c, t, q, h⟩ | ⟨c, q, h⟩⟩ | ⟨h, -⟩
    · exact ⟨c, .inr ⟨t, .inl (.inl (.inr (.inr (by
        rcases h with h | h; exacts [.inl ⟨q, .inl h⟩, .inr ⟨q, .inl h⟩]))))⟩⟩
    · exact ⟨c, .inr ⟨t, .inr h⟩⟩
    · exact ⟨c, .inr ⟨t0, .inl (.inl (.inr (.inr (by
        rcases h with h | h; exacts [.inl ⟨q, .inr h⟩, .inr ⟨q, .inr h⟩]))))⟩⟩
    · exact ⟨c, .inr ⟨t, .inl (.inr (.inr ⟨q, .inl h⟩))⟩⟩
    · exact ⟨c, .inr ⟨t0, .inl (.inr (.inr ⟨q, .inr h⟩))⟩⟩
    · cases h
  case cd2d =>
    cases h1 : paramGet p "eps" <;> cases h2 : paramGet p "b_x" <;> cases h3 : paramGet p "b_y" <;>
      cases h4 : paramGet p "c" <;> simp only [h1, h2, h3, h4] at h <;> cases h
    simp only [meanSquare0E, HasNan, transposeE, matvecE, readMat, readPred, Leaf.ofReal]
    rcases hn with ⟨c, t, q, h⟩ | ⟨t, c, h⟩ | ⟨c, q, h⟩ | ⟨-, ⟨c, t, q, h⟩ | ⟨c, q, h⟩⟩ | ⟨h, -⟩
    · exact ⟨c, .inr ⟨t, .inl (.inl (.inl (.inr (by
        rcases h with h | h; exacts [.inl ⟨q, .inl h⟩, .inr ⟨q, .inl h⟩]))))⟩⟩
    · exact ⟨c, .inr ⟨t, .inr h⟩⟩
    · exact ⟨c, .inr ⟨t0, .inl (.inl (.inl (.inr (by
        rcases h with h | h; exacts [.inl ⟨q, .inr h⟩, .inr ⟨q, .inr h⟩]))))⟩⟩
    · exact ⟨c, .inr ⟨t, .inl (.inr (.inr ⟨q, .inl h⟩))⟩⟩
    · exact ⟨c, .inr ⟨t0, .inl (.inr (.inr ⟨q, .inr h⟩))⟩⟩
    · cases h
  case cd2dInverse =>
    cases h1 : paramGet ip "eps" <;> cases h2 : paramGet p "b_x" <;> cases h3 : paramGet p "b_y" <;>
      cases h4 : paramGet p "c" <;> simp only [h1, h2, h3, h4] at h <;> cases h
    simp only [meanSquare0E, HasNan, transposeE, matvecE, readMat, readPred, Leaf.ofReal]
    rcases hn with ⟨c, t, q, h⟩ | ⟨t, c, h⟩ | ⟨c, q, h⟩ | ⟨-, ⟨c, t, q, h⟩ | ⟨c, q, h⟩⟩ | ⟨h, -⟩
    · exact ⟨c, .inr ⟨t, .inl (.inl (.inl (.inr (by
        rcases h with h | h; exacts [.inl ⟨q, .inl h⟩, .inr ⟨q, .inl h⟩]))))⟩⟩
    · exact ⟨c, .inr ⟨t, .inr h⟩⟩
    · exact ⟨c, .inr ⟨t0, .inl (.inl (.inl (.inr (by
        rcases h with h | h; exacts [.inl ⟨q, .inr h⟩, .inr ⟨q, .inr h⟩]))))⟩⟩
    · exact ⟨c, .inr ⟨t, .inl (.inr (.inr ⟨q, .inl h⟩))⟩⟩
    · exact ⟨c, .inr ⟨t0, .inl (.inr (.inr ⟨q, .inr h⟩))⟩⟩
    · cases h
  case cd2dInverseDomain =>
    cases hk : I.coeffs with
    | nil => simp [hk] at h
    | cons k l =>
    cases h2 : paramGet p "b_x" <;> cases h3 : paramGet p "b_y" <;>
      cases h4 : paramGet p "c" <;> simp only [hk, h2, h3, h4] at h <;> cases h
    simp only [meanSquare0E, HasNan, transposeE, matvecE, readMat, readPred, Leaf.ofReal]
    rcases hn with ⟨c, t, q, h⟩ | ⟨t, c, h⟩ | ⟨c, q, h⟩ | ⟨-, ⟨c, t, q, h⟩ | ⟨c, q, h⟩⟩ | ⟨-, k', hk', c, q, h⟩
    · exact ⟨c, .inr ⟨t, .inl (.inl (.inl (by
        rcases h with h | h; exacts [.inl ⟨q, .inl h⟩, .inr ⟨q, .inl h⟩])))⟩⟩
    · exact ⟨c, .inr ⟨t, .inr h⟩⟩
    · exact ⟨c, .inr ⟨t0, .inl (.inl (.inl (by
        rcases h with h | h; exacts [.inl ⟨q, .inr (.inl h)⟩, .inr ⟨q, .inr (.inl h)⟩])))⟩⟩
    · exact ⟨c, .inr ⟨t, .inl (.inr (.inr ⟨q, .inl h⟩))⟩⟩
    · exact ⟨c, .inr ⟨t0, .inl (.inr (.inr ⟨q, .inr h⟩))⟩⟩
    · have : k = k' := by simpa [hk] using hk'
      subst this
      exact ⟨c, .inr ⟨t0, .inl (.inl (.inl (.inl ⟨q, .inr (.inr h)⟩)))⟩⟩

/-- Without test functions every residual is NaN. -/
lemma lossE_empty (h : I.residuals j kind p ip = .ok es) (ht : nt = 0) (c : Fin nc) : (es c).HasNan := by
  have shape : ∃ R, es = meanSquare0E (m := nt) R := by
    unfold StepInput.residuals at h
    cases kind <;> simp only [lossE, pdeLossPoissonE, pdeLossCd2dE, pdeLossCd2dRestE, pdeLossHelmholtzE,
      pdeLossCd2dInverseDomainE] at h
    all_goals
      repeat' split at h
      all_goals first | (cases h; exact ⟨_, rfl⟩) | cases h
  obtain ⟨R, rfl⟩ := shape
  exact .inl ht

end

end FastVPINNs
