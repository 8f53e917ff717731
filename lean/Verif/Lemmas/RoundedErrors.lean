import Verif.Model.RoundedErrors
import Verif.Spec.Rounded
import Verif.Lemmas.RoundedRuns

/-! # Relative accuracy of computations with numbers that are not negative -/

namespace FastVPINNs

open Spec

section
variable {ε : ℝ} {k l : ℕ} {r s x y : ℝ}

lemma pow_nonneg' (h1 : ε < 1) (k : ℕ) : 0 < (1 - ε) ^ k := pow_pos (by linarith) k

lemma pow_le_one' (h0 : 0 ≤ ε) (h1 : ε < 1) (k : ℕ) : (1 - ε) ^ k ≤ 1 :=
  pow_le_one₀ (by linarith) (by linarith)

lemma Spec.Accurate.nonneg (h1 : ε < 1) (h : Accurate ε k r x) (hx : 0 ≤ x) : 0 ≤ r :=
  (mul_nonneg hx (pow_nonneg' h1 k).le).trans h.1

lemma Spec.Accurate.pos (h1 : ε < 1) (h : Accurate ε k r x) (hx : 0 < x) : 0 < r :=
  (mul_pos hx (pow_nonneg' h1 k)).trans_le h.1

lemma Spec.Accurate.refl (h0 : 0 ≤ ε) (h1 : ε < 1) (hx : 0 ≤ x) (k : ℕ) : Accurate ε k x x :=
  ⟨mul_le_of_le_one_right hx (pow_le_one' h0 h1 k), mul_le_of_le_one_right hx (pow_le_one' h0 h1 k)⟩

lemma Spec.Accurate.mono (h0 : 0 ≤ ε) (h1 : ε < 1) (h : Accurate ε k r x) (hx : 0 ≤ x) (hkl : k ≤ l) :
    Accurate ε l r x := by
  have hp : (1 - ε) ^ l ≤ (1 - ε) ^ k := pow_le_pow_of_le_one (by linarith) (by linarith) hkl
  exact ⟨(mul_le_mul_of_nonneg_left hp hx).trans h.1,
    (mul_le_mul_of_nonneg_left hp (h.nonneg h1 hx)).trans h.2⟩

lemma Spec.Accurate.round (h1 : ε < 1) (h : Accurate ε k r x) (hx : 0 ≤ x) {δ : ℝ} (hδ : |δ| ≤ ε) :
    Accurate ε (k + 1) (r * (1 + δ)) x := by
  obtain ⟨d1, d2⟩ := abs_le.1 hδ
  have hr := h.nonneg h1 hx
  have hp := pow_nonneg' h1 k
  constructor
  · rw [pow_succ, ← mul_assoc]
    exact mul_le_mul h.1 (by linarith) (by linarith) hr
  · have e : r * (1 + δ) * (1 - ε) ^ (k + 1) = r * (1 - ε) ^ k * ((1 + δ) * (1 - ε)) := by ring
    rw [e]
    refine (mul_le_of_le_one_right (mul_nonneg hr hp.le) ?_).trans h.2
    nlinarith [sq_nonneg ε]

lemma Spec.Accurate.plus (hx : Accurate ε k r x) (hy : Accurate ε k s y) : Accurate ε k (r + s) (x + y) := by
  constructor
  · rw [add_mul]
    exact add_le_add hx.1 hy.1
  · rw [add_mul]
    exact add_le_add hx.2 hy.2

lemma Spec.Accurate.trans (h1 : ε < 1) {t : ℝ} (h : Accurate ε k r s) (h' : Accurate ε l s t) :
    Accurate ε (k + l) r t := by
  have hk := pow_nonneg' h1 k
  have hl := pow_nonneg' h1 l
  constructor
  · calc t * (1 - ε) ^ (k + l) = t * (1 - ε) ^ l * (1 - ε) ^ k := by ring
      _ ≤ s * (1 - ε) ^ k := mul_le_mul_of_nonneg_right h'.1 hk.le
      _ ≤ r := h.1
  · calc r * (1 - ε) ^ (k + l) = r * (1 - ε) ^ k * (1 - ε) ^ l := by ring
      _ ≤ s * (1 - ε) ^ l := mul_le_mul_of_nonneg_right h.2 hl.le
      _ ≤ t := h'.2

lemma Spec.Accurate.square (h1 : ε < 1) (h : Accurate ε k r x) (hx : 0 ≤ x) : Accurate ε (2 * k) (r ^ 2) (x ^ 2) := by
  have hp := (pow_nonneg' h1 k).le
  have hr := h.nonneg h1 hx
  have e : ∀ z : ℝ, z ^ 2 * (1 - ε) ^ (2 * k) = (z * (1 - ε) ^ k) ^ 2 := fun z => by ring
  constructor
  · rw [e]
    exact pow_le_pow_left₀ (mul_nonneg hx hp) h.1 2
  · rw [e]
    exact pow_le_pow_left₀ (mul_nonneg hr hp) h.2 2

lemma Spec.Accurate.divNat (h : Accurate ε k r x) (n : ℕ) : Accurate ε k (r / n) (x / n) := by
  have hn : (0 : ℝ) ≤ n := Nat.cast_nonneg n
  constructor
  · rw [div_mul_eq_mul_div]
    exact div_le_div_of_nonneg_right h.1 hn
  · rw [div_mul_eq_mul_div]
    exact div_le_div_of_nonneg_right h.2 hn

lemma Spec.Accurate.over (h1 : ε < 1) (hx : Accurate ε k r x) (hx0 : 0 ≤ x) (hy : Accurate ε l s y) (hy0 : 0 < y) :
    Accurate ε (k + l) (r / s) (x / y) := by
  have hs := hy.pos h1 hy0
  have hr := hx.nonneg h1 hx0
  have hk := pow_nonneg' h1 k
  have hl := pow_nonneg' h1 l
  rw [Accurate, div_mul_eq_mul_div, div_mul_eq_mul_div, div_le_div_iff₀ hy0 hs, div_le_div_iff₀ hs hy0]
  constructor
  · calc x * (1 - ε) ^ (k + l) * s = (x * (1 - ε) ^ k) * (s * (1 - ε) ^ l) := by ring
      _ ≤ r * y := mul_le_mul hx.1 hy.2 (mul_nonneg hs.le hl.le) hr
  · calc r * (1 - ε) ^ (k + l) * y = (r * (1 - ε) ^ k) * (y * (1 - ε) ^ l) := by ring
      _ ≤ x * s := mul_le_mul hx.2 hy.1 (mul_nonneg hy0.le hl.le) hx0

lemma Spec.Accurate.sqrt (h0 : 0 ≤ ε) (h1 : ε < 1) (h : Accurate ε k r x) (hx : 0 ≤ x) :
    Accurate ε k (Real.sqrt r) (Real.sqrt x) := by
  have hp := (pow_nonneg' h1 k).le
  have hc : (1 - ε) ^ k ≤ Real.sqrt ((1 - ε) ^ k) := by
    refine Real.le_sqrt_of_sq_le ?_
    rw [pow_two]
    exact mul_le_of_le_one_right hp (pow_le_one' h0 h1 k)
  constructor
  · calc Real.sqrt x * (1 - ε) ^ k ≤ Real.sqrt x * Real.sqrt ((1 - ε) ^ k) :=
          mul_le_mul_of_nonneg_left hc (Real.sqrt_nonneg _)
      _ = Real.sqrt (x * (1 - ε) ^ k) := (Real.sqrt_mul hx _).symm
      _ ≤ Real.sqrt r := Real.sqrt_le_sqrt h.1
  · calc Real.sqrt r * (1 - ε) ^ k ≤ Real.sqrt r * Real.sqrt ((1 - ε) ^ k) :=
          mul_le_mul_of_nonneg_left hc (Real.sqrt_nonneg _)
      _ = Real.sqrt (r * (1 - ε) ^ k) := (Real.sqrt_mul (h.nonneg h1 hx) _).symm
      _ ≤ Real.sqrt x := Real.sqrt_le_sqrt h.2

lemma Spec.Accurate.maximum (h1 : ε < 1) (hx : Accurate ε k r x) (hy : Accurate ε k s y) :
    Accurate ε k (max r s) (max x y) := by
  have hp := (pow_nonneg' h1 k).le
  rw [Accurate, max_mul_of_nonneg _ _ hp, max_mul_of_nonneg _ _ hp]
  exact ⟨max_le_max hx.1 hy.1, max_le_max hx.2 hy.2⟩

/-- Every way of adding up numbers that are not negative. -/
lemma SumRun.accurate (h0 : 0 ≤ ε) (h1 : ε < 1) {xs : List ℝ} (h : SumRun ε xs r) (hx : ∀ z ∈ xs, 0 ≤ z) :
    Accurate ε (xs.length - 1) r xs.sum := by
  induction h with
  | nil => exact .refl h0 h1 (by simp) _
  | one x =>
    rw [List.sum_singleton]
    exact .refl h0 h1 (by simpa using hx) _
  | @add l m x y δ hl hm _ _ hδ ih ih' =>
    have e1 : 1 ≤ l.length := List.length_pos_iff.2 hl
    have e2 : 1 ≤ m.length := List.length_pos_iff.2 hm
    have hl0 : ∀ z ∈ l, 0 ≤ z := fun z hz => hx z (by simp [hz])
    have hm0 : ∀ z ∈ m, 0 ≤ z := fun z hz => hx z (by simp [hz])
    have p := ((ih hl0).mono h0 h1 (List.sum_nonneg hl0) (l := l.length + m.length - 2) (by omega)).plus
      ((ih' hm0).mono h0 h1 (List.sum_nonneg hm0) (l := l.length + m.length - 2) (by omega))
    have q := p.round h1 (add_nonneg (List.sum_nonneg hl0) (List.sum_nonneg hm0)) hδ
    rw [List.sum_append, List.length_append]
    exact q.mono h0 h1 (add_nonneg (List.sum_nonneg hl0) (List.sum_nonneg hm0)) (by omega)
  | perm hp _ ih =>
    rw [← hp.sum_eq, ← hp.length_eq]
    exact ih fun z hz => hx z (hp.mem_iff.1 hz)

lemma accurate_sum {xs ys : List ℝ} (h : List.Forall₂ (Accurate ε k) xs ys) : Accurate ε k xs.sum ys.sum := by
  induction h with
  | nil => simp [Accurate]
  | cons h _ ih =>
    rw [List.sum_cons, List.sum_cons]
    exact h.plus ih

lemma accurate_max (h1 : ε < 1) {xs ys : List ℝ} (h : List.Forall₂ (Accurate ε k) xs ys)
    (hr : npMax xs = .ok r) (hx : npMax ys = .ok x) : Accurate ε k r x := by
  cases h with
  | nil => cases hr
  | @cons a b as bs h t =>
    rw [npMax, Except.ok.injEq] at hr hx
    subst hr hx
    induction t generalizing a b with
    | nil => exact h
    | cons h' _ ih => exact ih (h.maximum h1 h')

/-- Entries of the kind `d.map f`: accurate, with values that are not negative. -/
structure EntriesOK (ε : ℝ) (k : ℕ) (es : List Expr) : Prop where
  nonneg : ∀ e ∈ es, 0 ≤ e.eval
  accurate : ∀ e ∈ es, ∀ r, e.Run ε r → Accurate ε k r e.eval

lemma EntriesOK.forall₂ {es : List Expr} (h : EntriesOK ε k es) {xs : List ℝ} (hxs : RunAll ε es xs) :
    List.Forall₂ (Accurate ε k) xs (es.map ExprOf.eval) := by
  obtain ⟨hn, ha⟩ := h
  induction hxs with
  | nil => exact .nil
  | @cons e x es xs h _ ih =>
    exact .cons (ha e (by simp) x h) (ih (fun e he => hn e (by simp [he])) fun e he => ha e (by simp [he]))

lemma EntriesOK.mean_nonneg {es : List Expr} (h : EntriesOK ε k es) : 0 ≤ npMean (es.map ExprOf.eval) := by
  refine div_nonneg (List.sum_nonneg fun z hz => ?_) (Nat.cast_nonneg _)
  obtain ⟨e, he, rfl⟩ := List.mem_map.1 hz
  exact h.nonneg e he

lemma EntriesOK.mean (h0 : 0 ≤ ε) (h1 : ε < 1) {es : List Expr} (h : EntriesOK ε k es)
    (hr : RoundedMean ε es r) : Accurate ε (k + es.length) r (npMean (es.map ExprOf.eval)) := by
  obtain ⟨hne, xs, s, δ, hxs, hs, hδ, rfl⟩ := hr
  have hall := h.forall₂ hxs
  have hlen : xs.length = es.length := by simpa using hall.length_eq
  have hpos : 1 ≤ es.length := List.length_pos_iff.2 hne
  have hn : ∀ z ∈ es.map ExprOf.eval, 0 ≤ z := fun z hz => by
    obtain ⟨e, he, rfl⟩ := List.mem_map.1 hz
    exact h.nonneg e he
  have hx : ∀ z ∈ xs, 0 ≤ z := by
    intro z hz
    have : List.Forall₂ (fun r x : ℝ => 0 ≤ x → 0 ≤ r) xs (es.map ExprOf.eval) :=
      hall.imp fun r x hrx hx0 => hrx.nonneg h1 hx0
    clear hall hs hxs hlen
    generalize es.map ExprOf.eval = ys at this hn
    induction this with
    | nil => simp at hz
    | cons h _ ih =>
      rcases List.mem_cons.1 hz with rfl | hz
      · exact h (hn _ (by simp))
      · exact ih hz fun w hw => hn w (by simp [hw])
  have t := ((hs.accurate h0 h1 hx).trans h1 (accurate_sum hall)).divNat es.length
  have u := t.round h1 (div_nonneg (List.sum_nonneg hn) (Nat.cast_nonneg _)) hδ
  rw [npMean, List.length_map]
  refine u.mono h0 h1 (div_nonneg (List.sum_nonneg hn) (Nat.cast_nonneg _)) ?_
  omega

end

section
variable {ε : ℝ} {r x : ℝ}

lemma run_sub_accurate (h1 : ε < 1) {a b : ℝ} (h : (ExprOf.sub (.val 0 a) (.val 0 b)).Run ε r) :
    Accurate ε 1 |r| |a - b| := by
  obtain ⟨x, y, δ, hx, hy, hδ, rfl⟩ := h
  rw [run_val_zero hx, run_val_zero hy, abs_mul]
  obtain ⟨d1, d2⟩ := abs_le.1 hδ
  have : |1 + δ| = 1 + δ := abs_of_nonneg (by linarith)
  rw [this]
  have h0 : 0 ≤ ε := (abs_nonneg _).trans hδ
  simpa using (Accurate.refl h0 h1 (abs_nonneg (a - b)) 0).round h1 (abs_nonneg _) hδ

/-- The entries are differences of given numbers. -/
def Differences (es : List Expr) : Prop := ∀ e ∈ es, ∃ a b, e = .sub (.val 0 a) (.val 0 b)

lemma Differences.abs (h1 : ε < 1) {es : List Expr} (h : Differences es) : EntriesOK ε 1 (es.map .abs) := by
  constructor
  · intro e he
    obtain ⟨e', -, rfl⟩ := List.mem_map.1 he
    exact abs_nonneg _
  · intro e he r hr
    obtain ⟨e', he', rfl⟩ := List.mem_map.1 he
    obtain ⟨a, b, rfl⟩ := h e' he'
    obtain ⟨z, hz, rfl⟩ := hr
    exact run_sub_accurate h1 hz

lemma Differences.sq (h1 : ε < 1) {es : List Expr} (h : Differences es) : EntriesOK ε 3 (es.map .sq) := by
  constructor
  · intro e he
    obtain ⟨e', -, rfl⟩ := List.mem_map.1 he
    exact sq_nonneg _
  · intro e he r hr
    obtain ⟨e', he', rfl⟩ := List.mem_map.1 he
    obtain ⟨a, b, rfl⟩ := h e' he'
    obtain ⟨z, δ, hz, hδ, rfl⟩ := hr
    have := ((run_sub_accurate h1 hz).square h1 (abs_nonneg _)).round h1 (sq_nonneg _) hδ
    simpa [sq_abs, ExprOf.eval] using this

lemma read_abs (h0 : 0 ≤ ε) (h1 : ε < 1) (a : List ℝ) : EntriesOK ε 0 ((readAll a).map .abs) := by
  constructor
  · intro e he
    obtain ⟨e', -, rfl⟩ := List.mem_map.1 he
    exact abs_nonneg _
  · intro e he r hr
    obtain ⟨e', he', rfl⟩ := List.mem_map.1 he
    obtain ⟨x, -, rfl⟩ := List.mem_map.1 he'
    obtain ⟨z, hz, rfl⟩ := hr
    rw [run_val_zero hz]
    exact .refl h0 h1 (abs_nonneg _) 0

lemma read_sq (h0 : 0 ≤ ε) (h1 : ε < 1) (a : List ℝ) : EntriesOK ε 1 ((readAll a).map .sq) := by
  constructor
  · intro e he
    obtain ⟨e', -, rfl⟩ := List.mem_map.1 he
    exact sq_nonneg _
  · intro e he r hr
    obtain ⟨e', he', rfl⟩ := List.mem_map.1 he
    obtain ⟨x, -, rfl⟩ := List.mem_map.1 he'
    obtain ⟨z, δ, hz, hδ, rfl⟩ := hr
    rw [run_val_zero hz]
    exact (Accurate.refl h0 h1 (sq_nonneg _) 0).round h1 (sq_nonneg _) hδ

end

/-! ## The subtraction of arrays -/

lemma npSubE_ok {a b : List ℝ} {d : List Expr} (h : npSubE a b = .ok d) :
    npSub a b = .ok (d.map ExprOf.eval) ∧ Differences d := by
  unfold npSubE at h
  unfold npSub
  split_ifs at h ⊢ <;> simp only [Except.ok.injEq] at h <;> subst h
  · refine ⟨?_, ?_⟩
    · rw [List.map_zipWith]
      rfl
    · intro e he
      rw [← List.map_uncurry_zip_eq_zipWith] at he
      obtain ⟨p, -, rfl⟩ := List.mem_map.1 he
      exact ⟨_, _, rfl⟩
  · refine ⟨?_, ?_⟩
    · rw [List.map_map]
      rfl
    · intro e he
      obtain ⟨p, -, rfl⟩ := List.mem_map.1 he
      exact ⟨_, _, rfl⟩
  · refine ⟨?_, ?_⟩
    · rw [List.map_map]
      rfl
    · intro e he
      obtain ⟨p, -, rfl⟩ := List.mem_map.1 he
      exact ⟨_, _, rfl⟩

lemma npSubE_exists {a b d : List ℝ} (h : npSub a b = .ok d) : ∃ es, npSubE a b = .ok es := by
  unfold npSub at h
  unfold npSubE
  split_ifs at h ⊢ <;> exact ⟨_, rfl⟩

end FastVPINNs
