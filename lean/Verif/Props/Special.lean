import Verif.Lemmas.SpecialLoss
import Verif.Props.Rounded

/-! # C93: infinities, NaN and overflow -/

namespace FastVPINNs

open Spec ExprOf

section
variable {nc nt nq nIn nBd nS dout : ℕ} {ε Ω : ℝ} {j : ℕ} {kind : LossKind} {I : StepInput nc nt nq nBd dout}
  {p ip : ParamDict} {beta : ℝ} {out : StepOutput dout}

lemma totalPdeE_allFin {es : Fin nc → ExprOf XNum} : (totalPdeE es).AllFin ↔ ∀ c, (es c).AllFin := by
  simp [totalPdeE, AllFin, Leaf.ofReal]

lemma totalPdeE_hasNan {es : Fin nc → ExprOf XNum} (h : ∃ c, (es c).HasNan) : (totalPdeE es).HasNan :=
  .inr h

lemma meanSquareErrorE_allFin {n : ℕ} {a : Fin n → Fin dout → XNum} {b : Fin n → XNum} {i : Fin dout} :
    (meanSquareErrorE j a b i).AllFin ↔ 0 < n ∧ ∀ r, (a r i).IsFin ∧ (b r).IsFin := Iff.rfl

lemma meanSquareErrorE_hasNan {n : ℕ} {a : Fin n → Fin dout → XNum} {b : Fin n → XNum} {i : Fin dout} :
    (meanSquareErrorE j a b i).HasNan ↔ n = 0 ∨ ∃ r, a r i = .nan ∨ b r = .nan := Iff.rfl

/-- The PDE loss is NaN if the loss function sees NaN, or if there are cells but no test functions. -/
lemma pde_nan {es : Fin nc → ExprOf XNum} (he : I.residuals j kind p ip = .ok es)
    {r : XNum} (h : (totalPdeE es).XRun ε Ω r) (hn : 0 < nt ∧ SomeInput kind I .nan ∨ nt = 0 ∧ 0 < nc) :
    r = .nan := by
  refine XRun.nan _ h (totalPdeE_hasNan ?_)
  rcases hn with ⟨ht, hn⟩ | ⟨ht, hc⟩
  · exact lossE_hasNan j kind I p ip he ht hn
  · exact ⟨⟨0, hc⟩, lossE_empty j kind I p ip he ht _⟩

/-- **C93** (`DenseModel`).  If the loss is a finite number, then so are the other two losses and all numbers they
were computed from: an infinity or NaN in the network's values or derivatives, in the tensors, in the forcing or on
the boundary never goes unnoticed, nor does a missing boundary. -/
theorem C93_dense (h : SpecialDense ε Ω j kind I p beta out) (i : Fin dout) (hf : (out.loss i).IsFin) :
    out.lossPde.IsFin ∧ (out.lossDirichlet i).IsFin ∧ (0 < nc → 0 < nt) ∧ InputsAll kind I XNum.IsFin ∧
    0 < nBd ∧ (∀ r, (I.bdPredicted r i).IsFin) ∧ ∀ r, (I.bdActual r).IsFin := by
  obtain ⟨es, he, h1, h2, h3⟩ := h
  obtain ⟨⟨f1, -, f2⟩, -⟩ := XRun.fin _ (h3 i) hf
  have hp := (lossE_allFin j kind I p none he).1 (totalPdeE_allFin.1 (XRun.fin _ h1 f1).1)
  have hb := meanSquareErrorE_allFin.1 (XRun.fin _ (h2 i) f2).1
  exact ⟨f1, f2, hp.1, hp.2, hb.1, fun r => (hb.2 r).1, fun r => (hb.2 r).2⟩

/-- **C93** (`DenseModel_Hard`).  The same for the single loss of this model. -/
theorem C93_hard {loss : XNum} (h : SpecialHard ε Ω j kind I p loss) (hf : loss.IsFin) :
    (0 < nc → 0 < nt) ∧ InputsAll kind I XNum.IsFin := by
  obtain ⟨es, he, h1⟩ := h
  exact (lossE_allFin j kind I p none he).1 (totalPdeE_allFin.1 (XRun.fin _ h1 hf).1)

/-- **C93** (`DenseModel_Inverse`, `DenseModel_Inverse_Domain`).  The same with the sensors. -/
theorem C93_inverse {sp : Fin nS → Fin dout → XNum} {sv : Fin nS → XNum} {sensorLoss : Fin dout → XNum}
    (h : SpecialInverse ε Ω j kind I p ip sp sv beta out sensorLoss) (i : Fin dout) (hf : (out.loss i).IsFin) :
    out.lossPde.IsFin ∧ (out.lossDirichlet i).IsFin ∧ (sensorLoss i).IsFin ∧ (0 < nc → 0 < nt) ∧
    InputsAll kind I XNum.IsFin ∧ 0 < nBd ∧ (∀ r, (I.bdPredicted r i).IsFin) ∧ (∀ r, (I.bdActual r).IsFin) ∧
    0 < nS ∧ (∀ r, (sp r i).IsFin) ∧ ∀ r, (sv r).IsFin := by
  obtain ⟨es, he, h1, h2, h4, h3⟩ := h
  obtain ⟨⟨⟨f1, -, f2⟩, -, f4⟩, -⟩ := XRun.fin _ (h3 i) hf
  have hp := (lossE_allFin j kind I p ip he).1 (totalPdeE_allFin.1 (XRun.fin _ h1 f1).1)
  have hb := meanSquareErrorE_allFin.1 (XRun.fin _ (h2 i) f2).1
  have hs := meanSquareErrorE_allFin.1 (XRun.fin _ (h4 i) f4).1
  exact ⟨f1, f2, f4, hp.1, hp.2, hb.1, fun r => (hb.2 r).1, fun r => (hb.2 r).2, hs.1, fun r => (hs.2 r).1,
    fun r => (hs.2 r).2⟩

/-- **C93** (NaN, `DenseModel`).  One NaN among the numbers that are used, an empty set of test functions or an empty
set of boundary points makes the loss NaN, whatever else there is. -/
theorem C93_dense_nan (h : SpecialDense ε Ω j kind I p beta out) :
    ((0 < nt ∧ SomeInput kind I .nan ∨ nt = 0 ∧ 0 < nc) → out.lossPde = .nan ∧ ∀ i, out.loss i = .nan) ∧
    ∀ i, (nBd = 0 ∨ ∃ r, I.bdPredicted r i = .nan ∨ I.bdActual r = .nan) →
      out.lossDirichlet i = .nan ∧ out.loss i = .nan := by
  obtain ⟨es, he, h1, h2, h3⟩ := h
  constructor
  · intro hn
    have hp := pde_nan he h1 hn
    exact ⟨hp, fun i => XRun.nan _ (h3 i) (.inl hp)⟩
  · intro i hn
    have hb := XRun.nan _ (h2 i) (meanSquareErrorE_hasNan.2 hn)
    exact ⟨hb, XRun.nan _ (h3 i) (.inr (.inr hb))⟩

/-- **C93** (NaN, `DenseModel_Hard`). -/
theorem C93_hard_nan {loss : XNum} (h : SpecialHard ε Ω j kind I p loss)
    (hn : 0 < nt ∧ SomeInput kind I .nan ∨ nt = 0 ∧ 0 < nc) : loss = .nan := by
  obtain ⟨es, he, h1⟩ := h
  exact pde_nan he h1 hn

/-- **C93** (NaN, `DenseModel_Inverse`, `DenseModel_Inverse_Domain`). -/
theorem C93_inverse_nan {sp : Fin nS → Fin dout → XNum} {sv : Fin nS → XNum} {sensorLoss : Fin dout → XNum}
    (h : SpecialInverse ε Ω j kind I p ip sp sv beta out sensorLoss) :
    ((0 < nt ∧ SomeInput kind I .nan ∨ nt = 0 ∧ 0 < nc) → out.lossPde = .nan ∧ ∀ i, out.loss i = .nan) ∧
    (∀ i, (nBd = 0 ∨ ∃ r, I.bdPredicted r i = .nan ∨ I.bdActual r = .nan) →
      out.lossDirichlet i = .nan ∧ out.loss i = .nan) ∧
    ∀ i, (nS = 0 ∨ ∃ r, sp r i = .nan ∨ sv r = .nan) → sensorLoss i = .nan ∧ out.loss i = .nan := by
  obtain ⟨es, he, h1, h2, h4, h3⟩ := h
  refine ⟨fun hn => ?_, fun i hn => ?_, fun i hn => ?_⟩
  · have hp := pde_nan he h1 hn
    exact ⟨hp, fun i => XRun.nan _ (h3 i) (.inl (.inl hp))⟩
  · have hb := XRun.nan _ (h2 i) (meanSquareErrorE_hasNan.2 hn)
    exact ⟨hb, XRun.nan _ (h3 i) (.inl (.inr (.inr hb)))⟩
  · have hs := XRun.nan _ (h4 i) (meanSquareErrorE_hasNan.2 hn)
    exact ⟨hs, XRun.nan _ (h3 i) (.inr (.inr hs))⟩

/-- **C93** (results exist).  In this arithmetic a training step fails only where the loss function does. -/
theorem C93_exists (hε : 0 ≤ ε) {sp : Fin nS → Fin dout → XNum} {sv : Fin nS → XNum} :
    ((∃ out, SpecialDense ε Ω j kind I p beta out) ↔ ∃ es, I.residuals j kind p none = .ok es) ∧
    ((∃ out, SpecialHard ε Ω j kind I p out) ↔ ∃ es, I.residuals j kind p none = .ok es) ∧
    ((∃ out sl, SpecialInverse ε Ω j kind I p ip sp sv beta out sl) ↔
      ∃ es, I.residuals j kind p ip = .ok es) := by
  refine ⟨⟨fun ⟨_, es, h, _⟩ => ⟨es, h⟩, fun ⟨es, h⟩ => ?_⟩, ⟨fun ⟨_, es, h, _⟩ => ⟨es, h⟩, fun ⟨es, h⟩ => ?_⟩,
    ⟨fun ⟨_, _, es, h, _⟩ => ⟨es, h⟩, fun ⟨es, h⟩ => ?_⟩⟩
  · obtain ⟨P, hP⟩ := XRun.exists (Ω := Ω) hε (totalPdeE es)
    choose D hD using fun i => XRun.exists (Ω := Ω) hε (meanSquareErrorE j I.bdPredicted I.bdActual i)
    choose L hL using fun i => XRun.exists (Ω := Ω) hε
      (ExprOf.add (.val 0 P) (.mul (.val j (.fin beta)) (.val 0 (D i))))
    exact ⟨⟨P, D, L⟩, es, h, hP, hD, hL⟩
  · obtain ⟨P, hP⟩ := XRun.exists (Ω := Ω) hε (totalPdeE es)
    exact ⟨P, es, h, hP⟩
  · obtain ⟨P, hP⟩ := XRun.exists (Ω := Ω) hε (totalPdeE es)
    choose D hD using fun i => XRun.exists (Ω := Ω) hε (meanSquareErrorE j I.bdPredicted I.bdActual i)
    choose S hS using fun i => XRun.exists (Ω := Ω) hε (meanSquareErrorE j sp sv i)
    choose L hL using fun i => XRun.exists (Ω := Ω) hε
      (ExprOf.add (.add (.val 0 P) (.mul (.val j (.fin beta)) (.val 0 (D i)))) (.mul (.val 0 (.fin 10)) (.val 0 (S i))))
    exact ⟨⟨P, D, L⟩, S, es, h, hP, hD, hS, hL⟩

/-- A last sum of bounded numbers. -/
lemma total_small (hε : 0 ≤ ε) {A B : ℝ} {P D L : XNum} (hP : P.IsFin) (hD : D.IsFin) (hA : |P.toReal| ≤ A)
    (hB : |D.toReal| ≤ B) (hΩ : (A + (1 + ε) ^ j * |beta| * B * (1 + ε)) * (1 + ε) + (1 + ε) ^ j * |beta| + B < Ω)
    (h : (ExprOf.add (.val 0 P) (.mul (.val j (.fin beta)) (.val 0 D))).XRun ε Ω L) :
    L.IsFin ∧ |L.toReal| ≤ (A + (1 + ε) ^ j * |beta| * B * (1 + ε)) * (1 + ε) := by
  obtain ⟨x, rfl⟩ := hP
  obtain ⟨y, rfl⟩ := hD
  have hA' : |x| ≤ A := hA
  have hB' : |y| ≤ B := hB
  have a0 : 0 ≤ A := (abs_nonneg _).trans hA'
  have b0 : 0 ≤ B := (abs_nonneg _).trans hB'
  have p1 := one_le_pow_u hε j
  have q0 : 0 ≤ (1 + ε) ^ j * |beta| := mul_nonneg (by linarith) (abs_nonneg _)
  have q1 : 0 ≤ (1 + ε) ^ j * |beta| * B := mul_nonneg q0 b0
  have q2 : (1 + ε) ^ j * |beta| * B ≤ (1 + ε) ^ j * |beta| * B * (1 + ε) := by nlinarith
  have q3 : A + (1 + ε) ^ j * |beta| * B * (1 + ε) ≤ (A + (1 + ε) ^ j * |beta| * B * (1 + ε)) * (1 + ε) := by
    nlinarith
  obtain ⟨P', M', hP', ⟨be, D', hbe, hD', hM'⟩, hL⟩ := h
  have eP : P' = .fin x := by
    rcases hP' with ⟨z, hz, -, rfl⟩ | ⟨hz, -⟩
    · have : |z - x| ≤ 0 := by simpa using hz
      have := abs_nonpos_iff.1 this
      rw [sub_eq_zero.1 this]
    · exfalso
      simp only [pow_zero, mul_one] at hz
      linarith
  have eD : D' = .fin y := by
    rcases hD' with ⟨z, hz, -, rfl⟩ | ⟨hz, -⟩
    · have : |z - y| ≤ 0 := by simpa using hz
      have := abs_nonpos_iff.1 this
      rw [sub_eq_zero.1 this]
    · exfalso
      simp only [pow_zero, mul_one] at hz
      linarith
  obtain ⟨b', rfl, hb'⟩ : ∃ b', be = .fin b' ∧ |b'| ≤ (1 + ε) ^ j * |beta| := by
    rcases hbe with ⟨z, hz, -, rfl⟩ | ⟨hz, -⟩
    · refine ⟨z, rfl, ?_⟩
      have := abs_sub_abs_le_abs_sub z beta
      linarith
    · exfalso
      rw [mul_comm] at hz
      linarith
  subst eP eD
  have hm : |b' * y| ≤ (1 + ε) ^ j * |beta| * B := by
    rw [abs_mul]
    exact mul_le_mul hb' hB' (abs_nonneg _) q0
  have fM : M'.IsFin := XNum.Fl.small hM' (by nlinarith)
  obtain ⟨m, rfl⟩ := fM
  obtain ⟨δ, hδ, rfl⟩ := XNum.Fl.fin hM'
  have hδ' : |1 + δ| ≤ 1 + ε := (abs_add_le _ _).trans (by rw [abs_one]; linarith)
  have hm2 : |b' * y * (1 + δ)| ≤ (1 + ε) ^ j * |beta| * B * (1 + ε) := by
    rw [abs_mul]
    exact mul_le_mul hm hδ' (abs_nonneg _) q1
  have hs : |x + b' * y * (1 + δ)| ≤ A + (1 + ε) ^ j * |beta| * B * (1 + ε) :=
    (abs_add_le _ _).trans (add_le_add hA' hm2)
  have fL : L.IsFin := XNum.Fl.small hL (by nlinarith)
  refine ⟨fL, ?_⟩
  obtain ⟨l, rfl⟩ := fL
  obtain ⟨δ', hδ1, rfl⟩ := XNum.Fl.fin hL
  have hδ2 : |1 + δ'| ≤ 1 + ε := (abs_add_le _ _).trans (by rw [abs_one]; linarith)
  show |(x + b' * y * (1 + δ)) * (1 + δ')| ≤ _
  rw [abs_mul]
  exact mul_le_mul hs hδ2 (abs_nonneg _) ((abs_nonneg _).trans hs)

/-- A run of `e` is finite and bounded when overflow is far enough away. -/
lemma run_small (hε : 0 ≤ ε) (e : ExprOf XNum) (he : e.AllFin) :
    ∃ A, ∀ Ω, A < Ω → ∀ r, e.XRun ε Ω r → r.IsFin ∧ |r.toReal| ≤ A := by
  obtain ⟨Ω₀, h⟩ := XRun.small hε e he
  refine ⟨max Ω₀ ((1 + ε) ^ (e.map XNum.toReal).depth * (e.map XNum.toReal).mag), fun Ω hΩ r hr => ?_⟩
  have hf := h Ω (lt_of_le_of_lt (le_max_left _ _) hΩ) r hr
  exact ⟨hf, (XRun.le hε e hr hf).trans (le_max_right _ _)⟩

/-- **C93** (no overflow, `DenseModel`).  Finite numbers, at least one test function and one boundary point give
finite losses, provided that the largest representable number is large enough for them. -/
theorem C93_dense_finite (hε : 0 ≤ ε) (i : Fin dout) (ht : 0 < nc → 0 < nt) (hI : InputsAll kind I XNum.IsFin)
    (hb : 0 < nBd) (hp : ∀ r, (I.bdPredicted r i).IsFin) (ha : ∀ r, (I.bdActual r).IsFin) :
    ∃ Ω₀, ∀ Ω, Ω₀ < Ω → ∀ out, SpecialDense ε Ω j kind I p beta out →
      out.lossPde.IsFin ∧ (out.lossDirichlet i).IsFin ∧ (out.loss i).IsFin := by
  cases he : I.residuals j kind p none with
  | error e => exact ⟨0, fun Ω _ out ⟨es, h, _⟩ => by rw [he] at h; cases h⟩
  | ok es =>
    obtain ⟨A, hA⟩ := run_small hε _ (totalPdeE_allFin.2 ((lossE_allFin j kind I p none he).2 ⟨ht, hI⟩))
    obtain ⟨B, hB⟩ := run_small hε _ ((meanSquareErrorE_allFin (j := j) (i := i)).2 ⟨hb, fun r => ⟨hp r, ha r⟩⟩)
    refine ⟨max (max A B) ((A + (1 + ε) ^ j * |beta| * B * (1 + ε)) * (1 + ε) + (1 + ε) ^ j * |beta| + B), ?_⟩
    rintro Ω hΩ out ⟨es', he', h1, h2, h3⟩
    rw [he, Except.ok.injEq] at he'
    subst he'
    simp only [max_lt_iff] at hΩ
    obtain ⟨f1, b1⟩ := hA Ω hΩ.1.1 _ h1
    obtain ⟨f2, b2⟩ := hB Ω hΩ.1.2 _ (h2 i)
    exact ⟨f1, f2, (total_small hε f1 f2 b1 b2 hΩ.2 (h3 i)).1⟩

/-- **C93** (no overflow, `DenseModel_Hard`). -/
theorem C93_hard_finite (hε : 0 ≤ ε) (ht : 0 < nc → 0 < nt) (hI : InputsAll kind I XNum.IsFin) :
    ∃ Ω₀, ∀ Ω, Ω₀ < Ω → ∀ loss, SpecialHard ε Ω j kind I p loss → loss.IsFin := by
  cases he : I.residuals j kind p none with
  | error e => exact ⟨0, fun Ω _ out ⟨es, h, _⟩ => by rw [he] at h; cases h⟩
  | ok es =>
    obtain ⟨A, hA⟩ := run_small hε _ (totalPdeE_allFin.2 ((lossE_allFin j kind I p none he).2 ⟨ht, hI⟩))
    refine ⟨A, ?_⟩
    rintro Ω hΩ out ⟨es', he', h1⟩
    rw [he, Except.ok.injEq] at he'
    subst he'
    exact (hA Ω hΩ _ h1).1

/-- **C93** (no overflow, `DenseModel_Inverse`, `DenseModel_Inverse_Domain`). -/
theorem C93_inverse_finite {sp : Fin nS → Fin dout → XNum} {sv : Fin nS → XNum} (hε : 0 ≤ ε) (i : Fin dout)
    (ht : 0 < nc → 0 < nt) (hI : InputsAll kind I XNum.IsFin) (hb : 0 < nBd) (hp : ∀ r, (I.bdPredicted r i).IsFin)
    (ha : ∀ r, (I.bdActual r).IsFin) (hs : 0 < nS) (hsp : ∀ r, (sp r i).IsFin) (hsv : ∀ r, (sv r).IsFin) :
    ∃ Ω₀, ∀ Ω, Ω₀ < Ω → ∀ out sensorLoss, SpecialInverse ε Ω j kind I p ip sp sv beta out sensorLoss →
      out.lossPde.IsFin ∧ (out.lossDirichlet i).IsFin ∧ (sensorLoss i).IsFin ∧ (out.loss i).IsFin := by
  cases he : I.residuals j kind p ip with
  | error e => exact ⟨0, fun Ω _ out sl ⟨es, h, _⟩ => by rw [he] at h; cases h⟩
  | ok es =>
    obtain ⟨A, hA⟩ := run_small hε _ (totalPdeE_allFin.2 ((lossE_allFin j kind I p ip he).2 ⟨ht, hI⟩))
    obtain ⟨B, hB⟩ := run_small hε _ ((meanSquareErrorE_allFin (j := j) (i := i)).2 ⟨hb, fun r => ⟨hp r, ha r⟩⟩)
    obtain ⟨C, hC⟩ := run_small hε _ ((meanSquareErrorE_allFin (j := j) (i := i)).2 ⟨hs, fun r => ⟨hsp r, hsv r⟩⟩)
    obtain ⟨T, hT⟩ : ∃ T, T = (A + (1 + ε) ^ j * |beta| * B * (1 + ε)) * (1 + ε) := ⟨_, rfl⟩
    refine ⟨max (max (max A B) C) (max (T + (1 + ε) ^ j * |beta| + B)
      (max T ((T + (1 + ε) ^ 0 * |(10 : ℝ)| * C * (1 + ε)) * (1 + ε) + (1 + ε) ^ 0 * |(10 : ℝ)| + C))), ?_⟩
    rintro Ω hΩ out sl ⟨es', he', h1, h2, h4, h3⟩
    rw [he, Except.ok.injEq] at he'
    subst he'
    simp only [max_lt_iff] at hΩ
    obtain ⟨⟨⟨ΩA, ΩB⟩, ΩC⟩, ΩT, ΩT', ΩS⟩ := hΩ
    obtain ⟨f1, b1⟩ := hA Ω ΩA _ h1
    obtain ⟨f2, b2⟩ := hB Ω ΩB _ (h2 i)
    obtain ⟨f4, b4⟩ := hC Ω ΩC _ (h4 i)
    obtain ⟨x, y, hx, hy, hr⟩ := h3 i
    obtain ⟨f5, b5⟩ := total_small hε f1 f2 b1 b2 (hT ▸ ΩT) hx
    rw [← hT] at b5
    obtain ⟨x, rfl⟩ := f5
    have b6 : |x| < Ω := lt_of_le_of_lt b5 ΩT'
    refine ⟨f1, f2, f4, (total_small (j := 0) (beta := 10) hε (P := .fin x) ⟨x, rfl⟩ f4 b5 b4 ΩS
      ⟨.fin x, y, .inl ⟨x, by simp, b6, rfl⟩, hy, hr⟩).1⟩

end

/-! ## Overflow cannot go unnoticed: the bounds of C85 without the assumption that there is none -/

section
variable {nc nt nq nIn nBd nS : ℕ} (M : ModelData nc nt nq nIn nBd) (pt : Fin nc → Fin nq → ℝ × ℝ)

/-- The numbers of a training step of a network `u` on given data, all finite. -/
noncomputable def stepInputOf (u : ℝ × ℝ → ℝ) (coeffs : List (ℝ × ℝ → ℝ)) : StepInput nc nt nq nBd 1 where
  V := fun c t q => .fin (M.preMultiplierVal c t q)
  GX := fun c t q => .fin (M.preMultiplierGradX c t q)
  GY := fun c t q => .fin (M.preMultiplierGradY c t q)
  F := fun t c => .fin (M.forceMatrix t c)
  u := fun c q => .fin (u (pt c q))
  ux := fun c q => .fin (dx u (pt c q))
  uy := fun c q => .fin (dy u (pt c q))
  coeffs := coeffs.map fun k c q => .fin (k (pt c q))
  bdPredicted := fun r _ => .fin (u (M.dirichletInput r))
  bdActual := fun r => .fin (M.dirichletActual r)

variable {ε Ω : ℝ} {j : ℕ} {beta : ℝ} {p ip : ParamDict}

/-- **C93** (`DenseModel`).  A loss computed in floating-point arithmetic, infinities and NaN included, that is a
finite number has the accuracy of C85: there was no overflow on the way. -/
theorem C93_dense_accurate (hM : Shaped M pt) (hε : 0 ≤ ε) (kind : LossKind) (hk : kind.forward) (net : Network 1)
    (u : Fin 1 → ℝ × ℝ → ℝ) (hu : RowWise net u) (out : TrainOut 1) (out' : StepOutput 1)
    (h : trainStepDense (lossOf kind nc nt nq) M net beta p = .ok out)
    (h' : SpecialDense ε Ω j kind (stepInputOf M pt (u 0) []) p beta out') (hf : (out'.loss 0).IsFin) :
    ∃ a b r, Coefficients kind p none [] a b r ∧
      RoundedFrom ε (2 * nq + nt + nc + 8 * j + 12) (pdeMag M pt (u 0) a b r) out'.lossPde.toReal out.lossPde ∧
      RoundedFrom ε (nBd + 2 * j + 4) (dataMag (fun i => u 0 (M.dirichletInput i)) M.dirichletActual)
        (out'.lossDirichlet 0).toReal (out.lossDirichlet 0) ∧
      RoundedFrom ε (2 * nq + nt + nc + nBd + 8 * j + 13) (pdeMag M pt (u 0) a b r
          + |beta| * dataMag (fun i => u 0 (M.dirichletInput i)) M.dirichletActual)
        (out'.loss 0).toReal (out.loss 0) := by
  have h0 := C93_dense h' 0 hf
  obtain ⟨es, he, h1, h2, h3⟩ := h'
  refine (C85_dense M pt hM ε hε j beta p kind hk net u hu out
    ⟨out'.lossPde.toReal, fun i => (out'.lossDirichlet i).toReal, fun i => (out'.loss i).toReal⟩ h
    ⟨fun c => (es c).map XNum.toReal, ?_, ?_, ?_, ?_⟩).1
  · rw [cellsResidualE_eq M pt j p none hM hu kind]
    exact lossE_toReal j kind _ p none he
  · exact (XRun.fin _ h1 h0.1).2
  · intro i
    rw [Subsingleton.elim i 0]
    have := (XRun.fin _ (h2 0) h0.2.1).2
    have e : (fun r => net _ M.dirichletInput r) = fun r _ => u 0 (M.dirichletInput r) := by
      funext r i
      rw [hu, Subsingleton.elim i 0]
    rw [show net _ M.dirichletInput = _ from e]
    exact this
  · intro i
    rw [Subsingleton.elim i 0]
    exact (XRun.fin _ (h3 0) hf).2

/-- **C93** (`DenseModel_Hard`). -/
theorem C93_hard_accurate (hM : Shaped M pt) (hε : 0 ≤ ε) (kind : LossKind) (hk : kind.forward) (net : Network 1)
    (u : Fin 1 → ℝ × ℝ → ℝ) (hu : RowWise net u) (out : TrainOutHard) (loss : XNum)
    (h : trainStepHard (lossOf kind nc nt nq) M net beta p = .ok out)
    (h' : SpecialHard ε Ω j kind (stepInputOf M pt (u 0) []) p loss) (hf : loss.IsFin) :
    ∃ a b r, Coefficients kind p none [] a b r ∧
      RoundedFrom ε (2 * nq + nt + nc + 8 * j + 12) (pdeMag M pt (u 0) a b r) loss.toReal out.loss := by
  obtain ⟨es, he, h1⟩ := h'
  refine (C85_hard M pt hM ε hε j beta p kind hk net u hu out ⟨loss.toReal, 0, loss.toReal⟩ h
    ⟨fun c => (es c).map XNum.toReal, ?_, (XRun.fin _ h1 hf).2, rfl, rfl⟩).1
  rw [cellsResidualE_eq M pt j p none hM hu kind]
  exact lossE_toReal j kind _ p none he

/-- **C93** (`DenseModel_Inverse`). -/
theorem C93_inverse_accurate (hM : Shaped M pt) (hε : 0 ≤ ε) (sp : Fin nS → ℝ × ℝ) (sv : Fin nS → ℝ)
    (net : Network 1) (u : Fin 1 → ℝ × ℝ → ℝ) (hu : RowWise net u) (out : TrainOutInverse 1) (out' : StepOutput 1)
    (sensorLoss : Fin 1 → XNum)
    (h : trainStepInverse (lossPoissonInverse nc nt nq) M sp sv ip net beta p = .ok out)
    (h' : SpecialInverse ε Ω j .poissonInverse (stepInputOf M pt (u 0) []) p ip
      (fun r _ => .fin (u 0 (sp r))) (fun r => .fin (sv r)) beta out' sensorLoss) (hf : (out'.loss 0).IsFin) :
    ∃ eps, HasParam ip "eps" eps ∧
      RoundedFrom ε (2 * nq + nt + nc + 8 * j + 12) (pdeMag M pt (u 0) (fun _ _ => eps) (0, 0) 0)
        out'.lossPde.toReal out.lossPde ∧
      RoundedFrom ε (nBd + 2 * j + 4) (dataMag (fun i => u 0 (M.dirichletInput i)) M.dirichletActual)
        (out'.lossDirichlet 0).toReal (out.lossDirichlet 0) ∧
      RoundedFrom ε (nS + 2 * j + 4) (dataMag (fun i => u 0 (sp i)) sv) (sensorLoss 0).toReal
        (out.sensorLoss 0) ∧
      RoundedFrom ε (2 * nq + nt + nc + nBd + nS + 8 * j + 14)
        (pdeMag M pt (u 0) (fun _ _ => eps) (0, 0) 0
          + |beta| * dataMag (fun i => u 0 (M.dirichletInput i)) M.dirichletActual
          + 10 * dataMag (fun i => u 0 (sp i)) sv) (out'.loss 0).toReal (out.loss 0) := by
  have h0 := C93_inverse h' 0 hf
  obtain ⟨es, he, h1, h2, h4, h3⟩ := h'
  have row : ∀ {n : ℕ} (X : Fin n → ℝ × ℝ), net _ X = fun r _ => u 0 (X r) := by
    intro n X
    funext r i
    rw [hu, Subsingleton.elim i 0]
  refine (C85_inverse M pt hM ε hε j beta p ip sp sv net u hu out
    ⟨out'.lossPde.toReal, fun i => (out'.lossDirichlet i).toReal, fun i => (out'.loss i).toReal, ip,
      fun i => (sensorLoss i).toReal⟩ h ⟨fun c => (es c).map XNum.toReal, ?_, ?_, ?_, ?_, ?_⟩).1
  · rw [cellsResidualE_eq M pt j p ip hM hu _]
    exact lossE_toReal j _ _ p ip he
  · exact (XRun.fin _ h1 h0.1).2
  · intro i
    rw [Subsingleton.elim i 0, row]
    exact (XRun.fin _ (h2 0) h0.2.1).2
  · intro i
    rw [Subsingleton.elim i 0, row]
    exact (XRun.fin _ (h4 0) h0.2.2.1).2
  · intro i
    rw [Subsingleton.elim i 0]
    exact (XRun.fin _ (h3 0) hf).2

/-- **C93** (`DenseModel_Inverse_Domain`). -/
theorem C93_inverse_domain_accurate (hM : Shaped M pt) (hε : 0 ≤ ε) (sp : Fin nS → ℝ × ℝ) (sv : Fin nS → ℝ) {dout : ℕ}
    (net : Network (dout + 2)) (u : Fin (dout + 2) → ℝ × ℝ → ℝ) (hu : RowWise net u) (out : TrainOutInverse 1)
    (out' : StepOutput 1) (sensorLoss : Fin 1 → XNum)
    (h : trainStepInverseDomain (lossCd2dInverseDomain nc nt nq) M sp sv net beta p = .ok out)
    (h' : SpecialInverse ε Ω j .cd2dInverseDomain (stepInputOf M pt (u 0) [u 1]) p none
      (fun r _ => .fin (u 0 (sp r))) (fun r => .fin (sv r)) beta out' sensorLoss) (hf : (out'.loss 0).IsFin) :
    ∃ b r, HasParam p "b_x" b.1 ∧ HasParam p "b_y" b.2 ∧ HasParam p "c" r ∧
      RoundedFrom ε (2 * nq + nt + nc + 8 * j + 12) (pdeMag M pt (u 0) (fun c q => u 1 (pt c q)) b r)
        out'.lossPde.toReal out.lossPde ∧
      RoundedFrom ε (nBd + 2 * j + 4) (dataMag (fun i => u 0 (M.dirichletInput i)) M.dirichletActual)
        (out'.lossDirichlet 0).toReal (out.lossDirichlet 0) ∧
      RoundedFrom ε (nS + 2 * j + 4) (dataMag (fun i => u 0 (sp i)) sv) (sensorLoss 0).toReal (out.sensorLoss 0) ∧
      RoundedFrom ε (2 * nq + nt + nc + nBd + nS + 8 * j + 14)
        (pdeMag M pt (u 0) (fun c q => u 1 (pt c q)) b r
          + |beta| * dataMag (fun i => u 0 (M.dirichletInput i)) M.dirichletActual
          + 10 * dataMag (fun i => u 0 (sp i)) sv) (out'.loss 0).toReal (out.loss 0) := by
  have h0 := C93_inverse h' 0 hf
  obtain ⟨es, he, h1, h2, h4, h3⟩ := h'
  have row : ∀ {n : ℕ} (X : Fin n → ℝ × ℝ), (fun r (_ : Fin 1) => net _ X r 0) = fun r _ => u 0 (X r) := by
    intro n X
    funext r i
    exact hu _ _ _ _
  have hgrad : tapeGradient (ι := Fin nIn) (fun X r => net _ X r 0) M.inputTensor
      = fun r => (dx (u 0) (M.inputTensor r), dy (u 0) (M.inputTensor r)) := by
    funext r
    exact tapeGradient_rows (Equiv.refl _) _ (u 0) (fun X i => hu _ X i _) _ r
  have shaped : ∀ (w : Fin nIn → ℝ) (g : ℝ × ℝ → ℝ), (∀ r, w r = g (M.inputTensor r)) →
      reshapeCells nc nq M.nCells w = .ok fun c q => g (pt c q) := by
    intro w g hw
    obtain ⟨z', hz', hzz⟩ := reshapeCells_ok (nc := nc) (nq := nq) M.nCells w hM.cells hM.rows
    rw [hz']
    congr 1
    funext c q
    rw [hzz c q (rowIndex hM.rows c q) rfl, hw, hM.point c q (rowIndex hM.rows c q) rfl]
  refine (C85_inverse_domain M pt hM ε hε j beta p sp sv net u hu out
    ⟨out'.lossPde.toReal, fun i => (out'.lossDirichlet i).toReal, fun i => (out'.loss i).toReal, none,
      fun i => (sensorLoss i).toReal⟩ h
    ⟨_, _, _, _, fun c => (es c).map XNum.toReal, shaped _ (dx (u 0)) fun r => ?_, shaped _ (dy (u 0)) fun r => ?_,
      shaped _ (u 0) fun r => hu _ _ _ _, shaped _ (u 1) fun r => hu _ _ _ _, ?_, ?_, ?_, ?_, ?_⟩).1
  · rw [hgrad]
  · rw [hgrad]
  · exact lossE_toReal j _ _ p none he
  · exact (XRun.fin _ h1 h0.1).2
  · rw [row]
    exact (XRun.fin _ (h2 0) h0.2.1).2
  · rw [row]
    exact (XRun.fin _ (h4 0) h0.2.2.1).2
  · exact (XRun.fin _ (h3 0) hf).2

end

/-! ## Examples -/

/-- One cell, one test function and one quadrature point, with the network `x`. -/
noncomputable def thirdInput : StepInput 1 1 1 1 1 := stepInputOf thirdData (fun _ _ => (0, 0)) (fun z => z.1) []

lemma third_finite : ∃ Ω₀, ∀ Ω, Ω₀ < Ω → ∀ out, SpecialDense ((2 : ℝ)⁻¹ ^ 24) Ω 1 .poisson thirdInput
    (some [("eps", 1)]) 10 out → out.lossPde.IsFin ∧ (out.lossDirichlet 0).IsFin ∧ (out.loss 0).IsFin :=
  C93_dense_finite (by positivity) 0 (fun h => h)
    ⟨fun _ _ _ => ⟨_, rfl⟩, fun _ _ _ => ⟨_, rfl⟩, fun _ _ => ⟨_, rfl⟩, fun _ _ => ⟨_, rfl⟩, fun _ _ => ⟨_, rfl⟩,
      fun h => h.elim, fun h => h.elim, fun h => by cases h⟩ one_pos (fun _ => ⟨_, rfl⟩) fun _ => ⟨_, rfl⟩

/-- The hypotheses of `C93_dense`, `C93_dense_accurate` and `C93_dense_finite`: a run with a finite loss. -/
example : ∃ Ω out, SpecialDense ((2 : ℝ)⁻¹ ^ 24) Ω 1 .poisson thirdInput (some [("eps", 1)]) 10 out ∧
    (out.loss 0).IsFin := by
  obtain ⟨Ω₀, h⟩ := third_finite
  obtain ⟨out, hout⟩ := ((C93_exists (nS := 0) (ε := (2 : ℝ)⁻¹ ^ 24) (Ω := Ω₀ + 1) (j := 1) (kind := .poisson)
    (I := thirdInput) (p := some [("eps", 1)]) (ip := none) (beta := 10) (by positivity) (sp := Fin.elim0)
    (sv := Fin.elim0)).1).2 ⟨_, rfl⟩
  exact ⟨Ω₀ + 1, out, hout, (h _ (by linarith) out hout).2.2⟩

/-- The hypotheses of `C93_hard` and `C93_hard_accurate`. -/
example : ∃ Ω loss, SpecialHard ((2 : ℝ)⁻¹ ^ 24) Ω 1 .poisson thirdInput (some [("eps", 1)]) loss ∧ loss.IsFin := by
  obtain ⟨Ω₀, h⟩ := C93_hard_finite (ε := (2 : ℝ)⁻¹ ^ 24) (j := 1) (kind := .poisson) (I := thirdInput)
    (p := some [("eps", 1)]) (by positivity) (fun h => h)
    ⟨fun _ _ _ => ⟨_, rfl⟩, fun _ _ _ => ⟨_, rfl⟩, fun _ _ => ⟨_, rfl⟩, fun _ _ => ⟨_, rfl⟩, fun _ _ => ⟨_, rfl⟩,
      fun h => h.elim, fun h => h.elim, fun h => by cases h⟩
  obtain ⟨out, hout⟩ := ((C93_exists (nS := 0) (ε := (2 : ℝ)⁻¹ ^ 24) (Ω := Ω₀ + 1) (j := 1) (kind := .poisson)
    (I := thirdInput) (p := some [("eps", 1)]) (ip := none) (beta := 10) (by positivity) (sp := Fin.elim0)
    (sv := Fin.elim0)).2.1).2 ⟨_, rfl⟩
  exact ⟨Ω₀ + 1, out, hout, h _ (by linarith) out hout⟩

/-- The hypotheses of `C93_inverse` and `C93_inverse_accurate`, with one sensor. -/
example : ∃ Ω out sl, SpecialInverse ((2 : ℝ)⁻¹ ^ 24) Ω 1 .poissonInverse thirdInput (some []) (some [("eps", 2)])
    (fun (_ : Fin 1) _ => .fin 3) (fun _ => .fin 4) 10 out sl ∧ (out.loss 0).IsFin := by
  obtain ⟨Ω₀, h⟩ := C93_inverse_finite (ε := (2 : ℝ)⁻¹ ^ 24) (j := 1) (kind := .poissonInverse) (I := thirdInput)
    (p := some []) (ip := some [("eps", 2)]) (sp := fun (_ : Fin 1) _ => .fin 3) (sv := fun _ => .fin 4) (beta := 10)
    (by positivity) 0 (fun h => h)
    ⟨fun _ _ _ => ⟨_, rfl⟩, fun _ _ _ => ⟨_, rfl⟩, fun _ _ => ⟨_, rfl⟩, fun _ _ => ⟨_, rfl⟩, fun _ _ => ⟨_, rfl⟩,
      fun h => h.elim, fun h => h.elim, fun h => by cases h⟩ one_pos (fun _ => ⟨_, rfl⟩) (fun _ => ⟨_, rfl⟩) one_pos
    (fun _ => ⟨_, rfl⟩) fun _ => ⟨_, rfl⟩
  obtain ⟨out, sl, hout⟩ := ((C93_exists (ε := (2 : ℝ)⁻¹ ^ 24) (Ω := Ω₀ + 1) (j := 1) (kind := .poissonInverse)
    (I := thirdInput) (p := some []) (ip := some [("eps", 2)]) (beta := 10) (by positivity)
    (sp := fun (_ : Fin 1) _ => .fin 3) (sv := fun _ => .fin 4)).2.2).2 ⟨_, rfl⟩
  exact ⟨Ω₀ + 1, out, sl, hout, (h _ (by linarith) out sl hout).2.2.2⟩

/-- The hypotheses of `C93_inverse_domain_accurate`, for the outputs `x` and `1 + y` of the network. -/
example : ∃ Ω out sl, SpecialInverse ((2 : ℝ)⁻¹ ^ 24) Ω 1 .cd2dInverseDomain
    (stepInputOf thirdData (fun _ _ => (0, 0)) (fun z => z.1) [fun z => 1 + z.2])
    (some [("b_x", 1), ("b_y", 2), ("c", 3)]) none (fun (_ : Fin 1) _ => .fin 3) (fun _ => .fin 4) 10 out sl ∧
    (out.loss 0).IsFin := by
  obtain ⟨Ω₀, h⟩ := C93_inverse_finite (ε := (2 : ℝ)⁻¹ ^ 24) (j := 1) (kind := .cd2dInverseDomain)
    (I := stepInputOf thirdData (fun _ _ => (0, 0)) (fun z => z.1) [fun z => 1 + z.2])
    (p := some [("b_x", 1), ("b_y", 2), ("c", 3)]) (ip := none) (sp := fun (_ : Fin 1) _ => .fin 3)
    (sv := fun _ => .fin 4) (beta := 10) (by positivity) 0 (fun h => h)
    ⟨fun _ _ _ => ⟨_, rfl⟩, fun _ _ _ => ⟨_, rfl⟩, fun _ _ => ⟨_, rfl⟩, fun _ _ => ⟨_, rfl⟩, fun _ _ => ⟨_, rfl⟩,
      fun _ _ _ _ => ⟨_, rfl⟩, fun _ _ _ => ⟨_, rfl⟩, fun _ => ⟨_, rfl, fun _ _ => ⟨_, rfl⟩⟩⟩ one_pos
    (fun _ => ⟨_, rfl⟩) (fun _ => ⟨_, rfl⟩) one_pos (fun _ => ⟨_, rfl⟩) fun _ => ⟨_, rfl⟩
  obtain ⟨out, sl, hout⟩ := ((C93_exists (ε := (2 : ℝ)⁻¹ ^ 24) (Ω := Ω₀ + 1) (j := 1) (kind := .cd2dInverseDomain)
    (I := stepInputOf thirdData (fun _ _ => (0, 0)) (fun z => z.1) [fun z => 1 + z.2])
    (p := some [("b_x", 1), ("b_y", 2), ("c", 3)]) (ip := none) (beta := 10) (by positivity)
    (sp := fun (_ : Fin 1) _ => .fin 3) (sv := fun _ => .fin 4)).2.2).2 ⟨_, rfl⟩
  exact ⟨Ω₀ + 1, out, sl, hout, (h _ (by linarith) out sl hout).2.2.2⟩

/-- A network whose derivative is NaN: there is a run, and its loss is NaN (`C93_dense_nan`). -/
example : ∃ out, SpecialDense ((2 : ℝ)⁻¹ ^ 24) (2 ^ 128) 1 .poisson { thirdInput with ux := fun _ _ => .nan }
    (some [("eps", 1)]) 10 out ∧ out.lossPde = .nan ∧ ∀ i, out.loss i = .nan := by
  obtain ⟨out, hout⟩ := ((C93_exists (nS := 0) (ε := (2 : ℝ)⁻¹ ^ 24) (Ω := 2 ^ 128) (j := 1) (kind := .poisson)
    (I := { thirdInput with ux := fun _ _ => .nan }) (p := some [("eps", 1)]) (ip := none) (beta := 10)
    (by positivity) (sp := Fin.elim0) (sv := Fin.elim0)).1).2 ⟨_, rfl⟩
  exact ⟨out, hout, (C93_dense_nan hout).1 (.inl ⟨one_pos, .inr (.inr (.inl ⟨0, 0, .inl rfl⟩))⟩)⟩

end FastVPINNs
