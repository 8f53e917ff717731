import Verif.Lemmas.RoundedLoss

/-! # Evaluations of expressions: existence, sign, and the training losses -/

namespace FastVPINNs

open Spec

lemma SumRun.exact {u : ℝ} (hu : 0 ≤ u) : ∀ l : List ℝ, SumRun u l l.sum
  | [] => .nil
  | [x] => by simpa using SumRun.one x
  | x :: y :: l => by
    have := SumRun.add (δ := 0) (List.cons_ne_nil x []) (List.cons_ne_nil y l) (.one x)
      (SumRun.exact hu (y :: l)) (by simpa using hu)
    simpa using this

/-- The exact value is a possible result. -/
lemma ExprOf.run_eval {u : ℝ} (hu : 0 ≤ u) : ∀ e : Expr, e.Run u e.eval
  | val j x => by
    have := one_le_pow_u hu j
    simp only [Run, eval, sub_self, abs_zero]
    exact mul_nonneg (by linarith) (abs_nonneg x)
  | add a b => ⟨_, _, 0, run_eval hu a, run_eval hu b, by simpa using hu, by simp [eval]⟩
  | sub a b => ⟨_, _, 0, run_eval hu a, run_eval hu b, by simpa using hu, by simp [eval]⟩
  | mul a b => ⟨_, _, 0, run_eval hu a, run_eval hu b, by simpa using hu, by simp [eval]⟩
  | sq a => ⟨_, 0, run_eval hu a, by simpa using hu, by simp [eval]⟩
  | abs a => ⟨_, run_eval hu a, rfl⟩
  | sum n f => ⟨fun i => (f i).eval, fun i => run_eval hu (f i), by
      rw [eval, ← List.sum_ofFn]
      exact SumRun.exact hu _⟩
  | mean n f => ⟨fun i => (f i).eval, _, 0, 0, fun i => run_eval hu (f i), SumRun.exact hu _,
      by simpa using hu, by simpa using hu, by simp [eval, List.sum_ofFn]⟩

lemma SumRun.nonneg {u : ℝ} (hu : u ≤ 1) {l : List ℝ} {r : ℝ} (h : SumRun u l r) : (∀ x ∈ l, 0 ≤ x) → 0 ≤ r := by
  induction h with
  | nil => exact fun _ => le_rfl
  | one x => exact fun h => h x (by simp)
  | add _ _ _ _ hδ h1 h2 =>
    intro h
    have := (abs_le.1 hδ).1
    exact mul_nonneg (add_nonneg (h1 fun x hx => h x (by simp [hx])) (h2 fun x hx => h x (by simp [hx])))
      (by linarith)
  | perm hp _ h1 => exact fun h => h1 fun x hx => h x (hp.mem_iff.1 hx)

/-- A computed mean of squares is not negative. -/
lemma meanSquare0E_nonneg {u : ℝ} (hu : u ≤ 1) {m n : ℕ} (R : Fin m → Fin n → Expr) (i : Fin n) {r : ℝ}
    (h : (meanSquare0E R i).Run u r) : 0 ≤ r := by
  obtain ⟨x, s, δ, ε, hx, hs, hδ, hε, rfl⟩ := h
  have h0 : 0 ≤ s := hs.nonneg hu fun y hy => by
    obtain ⟨k, rfl⟩ := (List.mem_ofFn' _ _).1 hy
    obtain ⟨z, δ', _, hδ', e⟩ := hx k
    rw [e]
    have := (abs_le.1 hδ').1
    exact mul_nonneg (sq_nonneg z) (by linarith)
  have h1 := (abs_le.1 hδ).1
  have h2 := (abs_le.1 hε).1
  exact mul_nonneg (mul_nonneg (div_nonneg h0 (Nat.cast_nonneg _)) (by linarith)) (by linarith)

lemma totalPdeE_nonneg {u : ℝ} (hu : u ≤ 1) {m n : ℕ} (R : Fin m → Fin n → Expr) {r : ℝ}
    (h : (totalPdeE (meanSquare0E R)).Run u r) : 0 ≤ r := by
  obtain ⟨x, y, δ, hx, ⟨z, hz, hs⟩, hδ, rfl⟩ := h
  have hx0 : x = 0 := by
    have : |x - 0.0| ≤ 0 := by simpa [ExprOf.Run] using hx
    have := abs_nonpos_iff.1 this
    norm_num at this
    exact this
  have hy : 0 ≤ y := hs.nonneg hu fun w hw => by
    obtain ⟨k, rfl⟩ := (List.mem_ofFn' _ _).1 hw
    exact meanSquare0E_nonneg hu R k (hz k)
  have h1 := (abs_le.1 hδ).1
  rw [hx0, zero_add]
  exact mul_nonneg hy (by linarith)

lemma run_val_zero {u x r : ℝ} (h : (ExprOf.val 0 x).Run u r) : r = x := by
  have : |r - x| ≤ 0 := by simpa [ExprOf.Run] using h
  linarith [abs_nonpos_iff.1 this]

section
variable {nc nt nq : ℕ} {V GX GY : Fin nc → Fin nt → Fin nq → ℝ} {v ux uy : Fin nc → Fin nq → ℝ}
  {F : Fin nt → Fin nc → ℝ} {j : ℕ} {a : Fin nc → Fin nq → ℝ} {b : ℝ × ℝ} {r : ℝ}
  {es : Fin nt → Fin nc → Expr} {u : ℝ}

lemma cell_near (hu : 0 ≤ u) (h : ∀ t c, ResidualExpr V GX GY v ux uy F j a b r (es t c) c t) (c : Fin nc)
    {s : ℝ} (hs : (meanSquare0E es c).Run u s) :
    Near u (2 * nq + nt + 8 * j + 12) (meanSq (residualMag V GX GY v ux uy F a b r c)) s
      (meanSq (testedResidual V GX GY v ux uy F a b r c)) := by
  have h1 := ExprOf.near hu _ hs
  have e1 : (meanSquare0E es c).eval = meanSq (testedResidual V GX GY v ux uy F a b r c) := by
    simp only [meanSquare0E, ExprOf.eval, (h _ c).eval, meanSq, pow_two]
  have e2 : (meanSquare0E es c).mag = meanSq (residualMag V GX GY v ux uy F a b r c) := by
    simp only [meanSquare0E, ExprOf.mag, (h _ c).mag, meanSq, pow_two]
  rw [e1, e2] at h1
  refine h1.mono hu ?_ le_rfl
  rcases Nat.eq_zero_or_pos nt with rfl | hnt
  · simp [meanSquare0E, ExprOf.depth]
  · have : (meanSquare0E es c).depth ≤ (2 * (nq + 4 * j + 5) + 1) + (nt - 1) + 2 :=
      depth_mean_le fun t => by
        have := (h t c).depth
        simp only [ExprOf.depth]
        omega
    omega

/-- The number of roundings in the PDE loss. -/
abbrev pdeRoundings (nc nt nq j : ℕ) : ℕ := 2 * nq + nt + nc + 8 * j + 12

lemma totalPde_near (hu : 0 ≤ u) (h : ∀ t c, ResidualExpr V GX GY v ux uy F j a b r (es t c) c t) {s : ℝ}
    (hs : (totalPdeE (meanSquare0E es)).Run u s) :
    Near u (pdeRoundings nc nt nq j) (∑ c, meanSq (residualMag V GX GY v ux uy F a b r c)) s
      (∑ c, meanSq (testedResidual V GX GY v ux uy F a b r c)) := by
  obtain ⟨x, y, δ, hx, ⟨z, hz, hsum⟩, hδ, rfl⟩ := hs
  have hx0 : x = 0 := by
    have := run_val_zero hx
    norm_num at this
    exact this
  rw [hx0, zero_add]
  have := (sumRun_near hu (fun c => cell_near hu h c (hz c)) hsum).round hδ
  rcases Nat.eq_zero_or_pos nc with rfl | hnc
  · have hy : y = 0 := by
      have := hsum.near hu
      have h0 := this.err
      simp only [List.ofFn_zero, List.length_nil, List.sum_nil, List.map_nil, mul_zero] at h0
      linarith [abs_nonpos_iff.1 h0]
    rw [hy]
    constructor <;> simp
  · exact this.mono hu (by simp only [pdeRoundings]; omega) le_rfl

end

/-- The number of roundings in a mean squared difference. -/
abbrev dataRoundings (n j : ℕ) : ℕ := n + 2 * j + 4

lemma data_near {u : ℝ} (hu : 0 ≤ u) {n dout j : ℕ} {pred : Fin n → Fin dout → ℝ} {actual : Fin n → ℝ}
    {i : Fin dout} {s : ℝ} (hs : (meanSquareErrorE j pred actual i).Run u s) :
    Near u (dataRoundings n j) (dataMag (fun k => pred k i) actual) s
      (meanSq fun k => pred k i - actual k) := by
  have h1 := ExprOf.near hu _ hs
  have e1 : (meanSquareErrorE j pred actual i).eval = meanSq fun k => pred k i - actual k := by
    simp only [meanSquareErrorE, meanSquare0E, ExprOf.eval, meanSq, pow_two]
  have e2 : (meanSquareErrorE j pred actual i).mag = dataMag (fun k => pred k i) actual := by
    simp only [meanSquareErrorE, meanSquare0E, ExprOf.mag, meanSq, dataMag, pow_two]
  rw [e1, e2] at h1
  refine h1.mono hu ?_ le_rfl
  rcases Nat.eq_zero_or_pos n with rfl | hn
  · simp [meanSquareErrorE, meanSquare0E, ExprOf.depth]
  · have : (meanSquareErrorE j pred actual i).depth ≤ (2 * j + 3) + (n - 1) + 2 :=
      depth_mean_le fun k => by
        simp only [ExprOf.depth]
        omega
    simp only [dataRoundings]
    omega

lemma total_near {u : ℝ} (hu : 0 ≤ u) {j k l m : ℕ} {P B p p' b b' beta s : ℝ} (hp : Near u k P p' p)
    (hb : Near u l B b' b) (hk : k ≤ m) (hl : j + l + 1 ≤ m)
    (hs : (ExprOf.add (.val 0 p') (.mul (.val j beta) (.val 0 b'))).Run u s) :
    Near u (m + 1) (P + |beta| * B) s (p + beta * b) := by
  obtain ⟨x, y, δ, hx, ⟨β, z, δ', hβ, hz, hδ', rfl⟩, hδ, rfl⟩ := hs
  rw [run_val_zero hx, run_val_zero hz]
  have hβ' : Near u j |beta| β beta := ⟨hβ, le_rfl⟩
  exact ((hp.mono hu hk le_rfl).plus (((hβ'.times hb).round hδ').mono hu hl le_rfl)).round hδ

lemma total_inverse_near {u : ℝ} (hu : 0 ≤ u) {j k l l' m : ℕ} {P B S p p' b b' t t' beta s : ℝ}
    (hp : Near u k P p' p) (hb : Near u l B b' b) (ht : Near u l' S t' t) (hk : k ≤ m) (hl : j + l + 1 ≤ m)
    (hl' : l' ≤ m) (hs : RoundedTotalInverse u j beta p' b' t' s) :
    Near u (m + 2) (P + |beta| * B + 10 * S) s (p + beta * b + 10 * t) := by
  obtain ⟨x, y, δ, hx, ⟨w, z, δ', hw, hz, hδ', rfl⟩, hδ, rfl⟩ := hs
  rw [run_val_zero hw, run_val_zero hz]
  have h10 : Near u 0 10 10 10 := ⟨by simp, by norm_num⟩
  have h1 := total_near hu hp hb hk hl hx
  have h2 := (h10.times ht).round hδ'
  exact (h1.plus (h2.mono hu (by omega) le_rfl)).round hδ

end FastVPINNs
