import Verif.Lemmas.RoundedErrors
import Verif.Props.Rounded
import Verif.Props.Utils

/-! # C86: the reported errors are accurate in floating-point arithmetic -/

namespace FastVPINNs

open Spec

section
variable {ε : ℝ} {r x : ℝ} {a b : NDArray}

lemma Spec.Accurate.eq_zero (h1 : ε < 1) {k : ℕ} (h : Accurate ε k r x) (hx : 0 ≤ x) : r = 0 ↔ x = 0 := by
  constructor
  · rintro rfl
    by_contra h0
    exact (h.pos h1 (lt_of_le_of_ne hx (Ne.symm h0))).ne rfl
  · rintro rfl
    have h2 := h.2
    have hr := h.nonneg h1 le_rfl
    by_contra h0
    exact absurd h2 (not_le.2 (mul_pos (lt_of_le_of_ne hr (Ne.symm h0)) (pow_nonneg' h1 k)))

lemma length_diff {a b d : List ℝ} (h : npSub a b = .ok d) : d.length ≤ max a.length b.length := by
  unfold npSub at h
  split_ifs at h <;> simp only [Except.ok.injEq] at h <;> subst h <;> simp

lemma flatten_data (a : NDArray) : a.flatten.data = a.data := rfl

lemma roundedL1_accurate (h0 : 0 ≤ ε) (h1 : ε < 1) (hx : computeL1Error a b = .ok x) (hr : RoundedL1 ε a b r) :
    Accurate ε (max a.data.length b.data.length + 1) r x ∧ 0 ≤ x := by
  obtain ⟨d, hd, hr⟩ := hr
  obtain ⟨e, hdiff⟩ := npSubE_ok hd
  have hlen := length_diff e
  rw [computeL1Error, e] at hx
  simp only [Except.ok.injEq] at hx
  have hE := hdiff.abs h1
  have hm := hE.mean h0 h1 hr
  have hn := hE.mean_nonneg
  have ev : (d.map ExprOf.abs).map ExprOf.eval = (d.map ExprOf.eval).map (|·|) := by
    rw [List.map_map, List.map_map]
    rfl
  rw [ev, hx] at hm hn
  rw [List.length_map] at hm hlen
  simp only [flatten_data] at hlen
  exact ⟨hm.mono h0 h1 hn (by omega), hn⟩

lemma roundedL2_accurate (h0 : 0 ≤ ε) (h1 : ε < 1) (hx : computeL2Error a b = .ok x) (hr : RoundedL2 ε a b r) :
    Accurate ε (max a.data.length b.data.length + 4) r x ∧ 0 ≤ x := by
  obtain ⟨d, m, hd, hm, δ, hδ, rfl⟩ := hr
  obtain ⟨e, hdiff⟩ := npSubE_ok hd
  have hlen := length_diff e
  rw [computeL2Error, e] at hx
  simp only [Except.ok.injEq] at hx
  have hE := hdiff.sq h1
  have hm := hE.mean h0 h1 hm
  have hn := hE.mean_nonneg
  have ev : (d.map ExprOf.sq).map ExprOf.eval = (d.map ExprOf.eval).map (· ^ 2) := by
    rw [List.map_map, List.map_map]
    rfl
  rw [ev] at hm hn
  have hs := (hm.sqrt h0 h1 hn).round h1 (Real.sqrt_nonneg _) hδ
  rw [hx] at hs
  rw [List.length_map] at hs hlen
  simp only [flatten_data] at hlen
  have hx0 : 0 ≤ x := hx ▸ Real.sqrt_nonneg _
  exact ⟨hs.mono h0 h1 hx0 (by omega), hx0⟩

lemma npMax_nonneg {l : List ℝ} (h : ∀ z ∈ l, 0 ≤ z) (hx : npMax l = .ok x) : 0 ≤ x := by
  cases l with
  | nil => cases hx
  | cons y l =>
    rw [npMax, Except.ok.injEq] at hx
    exact (h y (by simp)).trans (hx ▸ (foldl_max y l).1)

lemma roundedLinf_accurate (h1 : ε < 1) (hx : computeLinfError a b = .ok x)
    (hr : RoundedLinf ε a b r) : Accurate ε 1 r x ∧ 0 ≤ x := by
  obtain ⟨d, hd, xs, hxs, hr⟩ := hr
  obtain ⟨e, hdiff⟩ := npSubE_ok hd
  rw [computeLinfError, e] at hx
  simp only at hx
  have ev : (d.map ExprOf.abs).map ExprOf.eval = (d.map ExprOf.eval).map (|·|) := by
    rw [List.map_map, List.map_map]
    rfl
  have hall := (hdiff.abs h1).forall₂ hxs
  rw [ev] at hall
  exact ⟨accurate_max h1 hall hr hx, npMax_nonneg (fun z hz => by
    obtain ⟨w, -, rfl⟩ := List.mem_map.1 hz
    exact abs_nonneg w) hx⟩

lemma roundedDiv_accurate (h1 : ε < 1) {k l : ℕ} {s y t : ℝ} (hr : Accurate ε k r x)
    (hx : 0 ≤ x) (hs : Accurate ε l s y) (hy : 0 ≤ y) (ht : RoundedDiv ε r s t) :
    Accurate ε (k + l + 1) t (x / y) ∧ 0 < y := by
  obtain ⟨hs0, δ, hδ, rfl⟩ := ht
  have hy0 : 0 < y := lt_of_le_of_ne hy fun e => hs0 ((hs.eq_zero h1 hy).2 e.symm)
  exact ⟨(hr.over h1 hx hs hy0).round h1 (div_nonneg hx hy) hδ, hy0⟩

lemma readAll_sq (l : List ℝ) : ((readAll l).map ExprOf.sq).map ExprOf.eval = l.map (· ^ 2) := by
  rw [readAll, List.map_map, List.map_map]
  rfl

lemma readAll_abs (l : List ℝ) : ((readAll l).map ExprOf.abs).map ExprOf.eval = l.map (|·|) := by
  rw [readAll, List.map_map, List.map_map]
  rfl

lemma roundedL2Relative_accurate (h0 : 0 ≤ ε) (h1 : ε < 1) (hx : computeL2ErrorRelative a b = .ok x)
    (hr : RoundedL2Relative ε a b r) :
    Accurate ε (2 * max a.data.length b.data.length + 7) r x ∧ 0 ≤ x := by
  obtain ⟨l2, m, n, h2, hm, ⟨δ, hδ, rfl⟩, hd⟩ := hr
  unfold computeL2ErrorRelative at hx
  simp only at hx
  cases e : computeL2Error a.flatten b.flatten with
  | error e' => rw [e] at hx; cases hx
  | ok y =>
    rw [e] at hx
    simp only [Except.ok.injEq] at hx
    obtain ⟨p1, p2⟩ := roundedL2_accurate h0 h1 e h2
    have hE := read_sq h0 h1 a.flatten.data
    have hm' := hE.mean h0 h1 hm
    have hn := hE.mean_nonneg
    rw [readAll_sq] at hm' hn
    have hs := (hm'.sqrt h0 h1 hn).round h1 (Real.sqrt_nonneg _) hδ
    obtain ⟨q, -⟩ := roundedDiv_accurate h1 p1 p2 hs (Real.sqrt_nonneg _) hd
    rw [hx] at q
    have hx0 : 0 ≤ x := hx ▸ div_nonneg p2 (Real.sqrt_nonneg _)
    refine ⟨q.mono h0 h1 hx0 ?_, hx0⟩
    simp only [flatten_data, readAll, List.length_map]
    omega

lemma roundedL1Relative_accurate (h0 : 0 ≤ ε) (h1 : ε < 1) (hx : computeL1ErrorRelative a b = .ok x)
    (hr : RoundedL1Relative ε a b r) :
    Accurate ε (2 * max a.data.length b.data.length + 2) r x ∧ 0 ≤ x := by
  obtain ⟨l1, n, h2, hm, hd⟩ := hr
  unfold computeL1ErrorRelative at hx
  simp only at hx
  cases e : computeL1Error a.flatten b.flatten with
  | error e' => rw [e] at hx; cases hx
  | ok y =>
    rw [e] at hx
    simp only [Except.ok.injEq] at hx
    obtain ⟨p1, p2⟩ := roundedL1_accurate h0 h1 e h2
    have hE := read_abs h0 h1 a.flatten.data
    have hm' := hE.mean h0 h1 hm
    have hn := hE.mean_nonneg
    rw [readAll_abs] at hm' hn
    obtain ⟨q, -⟩ := roundedDiv_accurate h1 p1 p2 hm' hn hd
    rw [hx] at q
    have hx0 : 0 ≤ x := hx ▸ div_nonneg p2 hn
    refine ⟨q.mono h0 h1 hx0 ?_, hx0⟩
    simp only [flatten_data, readAll, List.length_map]
    omega

lemma roundedLinfRelative_accurate (h0 : 0 ≤ ε) (h1 : ε < 1) (hx : computeLinfErrorRelative a b = .ok x)
    (hr : RoundedLinfRelative ε a b r) : Accurate ε 2 r x ∧ 0 ≤ x := by
  obtain ⟨linf, n, h2, ⟨xs, hxs, hm⟩, hd⟩ := hr
  unfold computeLinfErrorRelative at hx
  simp only at hx
  cases e : computeLinfError a.flatten b.flatten with
  | error e' => rw [e] at hx; cases hx
  | ok y =>
    cases e' : npMax (a.flatten.data.map (|·|)) with
    | error e'' => rw [e, e'] at hx; cases hx
    | ok m =>
      rw [e, e'] at hx
      simp only [Except.ok.injEq] at hx
      obtain ⟨p1, p2⟩ := roundedLinf_accurate h1 e h2
      have hall := (read_abs h0 h1 a.flatten.data).forall₂ hxs
      rw [readAll_abs] at hall
      have hm' := accurate_max h1 hall hm e'
      have hn : 0 ≤ m := npMax_nonneg (fun z hz => by
        obtain ⟨w, -, rfl⟩ := List.mem_map.1 hz
        exact abs_nonneg w) e'
      obtain ⟨q, -⟩ := roundedDiv_accurate h1 p1 p2 hm' hn hd
      rw [hx] at q
      exact ⟨q, hx ▸ div_nonneg p2 hn⟩

end

lemma combined_ok {a b : NDArray} {l2 linf l2r linfr l1 l1r : ℝ}
    (h : computeErrorsCombined a b = .ok (l2, linf, l2r, linfr, l1, l1r)) :
    computeL2Error a.flatten b.flatten = .ok l2 ∧ computeLinfError a.flatten b.flatten = .ok linf ∧
    computeL2ErrorRelative a.flatten b.flatten = .ok l2r ∧
    computeLinfErrorRelative a.flatten b.flatten = .ok linfr ∧
    computeL1Error a.flatten b.flatten = .ok l1 ∧ computeL1ErrorRelative a.flatten b.flatten = .ok l1r := by
  unfold computeErrorsCombined at h
  simp only [bind, Except.bind, pure, Except.pure] at h
  split at h
  · cases h
  rename_i e1
  split at h
  · cases h
  rename_i e2
  split at h
  · cases h
  rename_i e3
  split at h
  · cases h
  rename_i e4
  split at h
  · cases h
  rename_i e5
  split at h
  · cases h
  rename_i e6
  simp only [Except.ok.injEq, Prod.mk.injEq] at h
  obtain ⟨rfl, rfl, rfl, rfl, rfl, rfl⟩ := h
  exact ⟨e1, e2, e3, e4, e5, e6⟩

/-- **C86**.  For arrays with at most `N` entries, whatever the order of summation: the six numbers that
`compute_errors_combined` computes with unit roundoff `ε < 1` are its exact results up to a factor between
`(1 - ε) ^ k` and `(1 - ε) ^ -k`. -/
theorem C86_errors (ε : ℝ) (h0 : 0 ≤ ε) (h1 : ε < 1) (a b : NDArray) (N : ℕ) (ha : a.data.length ≤ N)
    (hb : b.data.length ≤ N) (l2 linf l2r linfr l1 l1r l2' linf' l2r' linfr' l1' l1r' : ℝ)
    (h : computeErrorsCombined a b = .ok (l2, linf, l2r, linfr, l1, l1r))
    (h' : RoundedErrors ε a b (l2', linf', l2r', linfr', l1', l1r')) :
    Accurate ε (N + 4) l2' l2 ∧ Accurate ε 1 linf' linf ∧ Accurate ε (2 * N + 7) l2r' l2r ∧
    Accurate ε 2 linfr' linfr ∧ Accurate ε (N + 1) l1' l1 ∧ Accurate ε (2 * N + 2) l1r' l1r := by
  obtain ⟨e1, e2, e3, e4, e5, e6⟩ := combined_ok h
  obtain ⟨d1, d2, d3, d4, d5, d6⟩ := h'
  have hN : max a.flatten.data.length b.flatten.data.length ≤ N := max_le ha hb
  obtain ⟨p1, q1⟩ := roundedL2_accurate h0 h1 e1 d1
  obtain ⟨p3, q3⟩ := roundedL2Relative_accurate h0 h1 e3 d3
  obtain ⟨p5, q5⟩ := roundedL1_accurate h0 h1 e5 d5
  obtain ⟨p6, q6⟩ := roundedL1Relative_accurate h0 h1 e6 d6
  exact ⟨p1.mono h0 h1 q1 (by omega), (roundedLinf_accurate h1 e2 d2).1, p3.mono h0 h1 q3 (by omega),
    (roundedLinfRelative_accurate h0 h1 e4 d4).1, p5.mono h0 h1 q5 (by omega), p6.mono h0 h1 q6 (by omega)⟩

/-- **C86** (per cent).  What the accuracy means: a relative error of at most `k ε / (1 - k ε)`. -/
theorem C86_relative (ε : ℝ) (h0 : 0 ≤ ε) (k : ℕ) (hk : k * ε < 1) (h1 : ε < 1) (r r' : ℝ) (hr : 0 ≤ r)
    (h : Accurate ε k r' r) : |r' - r| ≤ k * ε / (1 - k * ε) * r := by
  have hb : 1 - k * ε ≤ (1 - ε) ^ k := by
    have := one_add_mul_le_pow (a := -ε) (by linarith) k
    have e : (1 + -ε) ^ k = (1 - ε) ^ k := by rw [← sub_eq_add_neg]
    rw [e] at this
    linarith
  have hc : 0 < 1 - k * ε := by linarith
  have hr' := h.nonneg h1 hr
  have hkε : 0 ≤ k * ε := by positivity
  have hq : k * ε ≤ k * ε / (1 - k * ε) := by
    rw [le_div_iff₀ hc]
    nlinarith
  rw [abs_le]
  constructor
  · have h2 : r * (1 - k * ε) ≤ r' := (mul_le_mul_of_nonneg_left hb hr).trans h.1
    nlinarith [mul_le_mul_of_nonneg_right hq hr]
  · have h3 : r' * (1 - k * ε) ≤ r := (mul_le_mul_of_nonneg_left hb hr').trans h.2
    have h4 : r' ≤ r / (1 - k * ε) := (le_div_iff₀ hc).2 h3
    have e : r / (1 - k * ε) = r + k * ε / (1 - k * ε) * r := by
      field_simp
      ring
    linarith

lemma runAll_exists {ε : ℝ} (h0 : 0 ≤ ε) (es : List Expr) : RunAll ε es (es.map ExprOf.eval) := by
  induction es with
  | nil => exact .nil
  | cons e es ih => exact .cons (ExprOf.run_eval h0 e) ih

lemma roundedMean_exists {ε : ℝ} (h0 : 0 ≤ ε) {es : List Expr} (h : es ≠ []) :
    RoundedMean ε es (npMean (es.map ExprOf.eval)) :=
  ⟨h, es.map ExprOf.eval, (es.map ExprOf.eval).sum, 0, runAll_exists h0 es, SumRun.exact h0 _, by simpa using h0, by
    simp [npMean]⟩

lemma roundedSqrt_exists {ε : ℝ} (h0 : 0 ≤ ε) (x : ℝ) : RoundedSqrt ε x (Real.sqrt x) :=
  ⟨0, by simpa using h0, by simp⟩

lemma roundedDiv_exists {ε : ℝ} (h0 : 0 ≤ ε) (x : ℝ) {y : ℝ} (hy : y ≠ 0) : RoundedDiv ε x y (x / y) :=
  ⟨hy, 0, by simpa using h0, by simp⟩

lemma sum_pos_of_mem {l : List ℝ} (h : ∀ z ∈ l, 0 ≤ z) {x : ℝ} (hx : x ∈ l) (h0 : 0 < x) : 0 < l.sum :=
  h0.trans_le (List.single_le_sum h x hx)

lemma sum_zero_of_forall {l : List ℝ} (h : ∀ z ∈ l, z = 0) : l.sum = 0 :=
  List.sum_eq_zero h

/-- **C86** (results).  There is a result exactly if the exact function returns one and the exact solution is
not zero everywhere; otherwise an array is empty, the lengths do not fit or there is a division by zero. -/
theorem C86_returns (ε : ℝ) (h0 : 0 ≤ ε) (h1 : ε < 1) (a b : NDArray) :
    (∃ out, RoundedErrors ε a b out) ↔
      (∃ out, computeErrorsCombined a b = .ok out) ∧ ∃ x ∈ a.data, x ≠ 0 := by
  constructor
  · rintro ⟨⟨l2, linf, l2r, linfr, l1, l1r⟩, -, ⟨d, hd, xs, hxs, hmax⟩, -, -, -, l, n, -, hn, hn0, -⟩
    obtain ⟨e, -⟩ := npSubE_ok hd
    have hne : d ≠ [] := by
      rintro rfl
      cases hxs
      cases hmax
    have hex : ∃ x ∈ a.data, x ≠ 0 := by
      by_contra hc
      push Not at hc
      have hE := read_abs h0 h1 a.flatten.flatten.data
      have hm := hE.mean h0 h1 hn
      rw [readAll_abs] at hm
      have hz : npMean (a.flatten.flatten.data.map (|·|)) = 0 := by
        rw [npMean, sum_zero_of_forall, zero_div]
        intro z hz
        obtain ⟨w, hw, rfl⟩ := List.mem_map.1 hz
        rw [hc w hw, abs_zero]
      exact hn0 ((hm.eq_zero h1 hz.ge).2 hz)
    refine ⟨?_, hex⟩
    have hdata : a.data ≠ [] := by
      obtain ⟨x, hx, -⟩ := hex
      exact List.ne_nil_of_mem hx
    obtain ⟨c, l, hcl⟩ := List.exists_cons_of_ne_nil hne
    obtain ⟨c', l', hcl'⟩ := List.exists_cons_of_ne_nil hdata
    simp only [NDArray.flatten] at e
    rw [hcl] at e
    rw [hcl'] at e
    unfold computeErrorsCombined computeL1ErrorRelative computeL2ErrorRelative computeLinfErrorRelative
      computeL1Error computeL2Error computeLinfError
    simp only [NDArray.flatten, hcl', e, bind, Except.bind, pure, Except.pure, npMax, List.map_cons]
    exact ⟨_, rfl⟩
  · rintro ⟨⟨⟨l2, linf, l2r, linfr, l1, l1r⟩, h⟩, x, hx, hx0⟩
    obtain ⟨-, e2, -, -, -, -⟩ := combined_ok h
    cases e : npSub a.flatten.flatten.data b.flatten.flatten.data with
    | error e' => rw [computeLinfError, e] at e2; cases e2
    | ok d =>
      rw [computeLinfError, e] at e2
      simp only at e2
      obtain ⟨es, hes⟩ := npSubE_exists e
      obtain ⟨e', hdiff⟩ := npSubE_ok hes
      rw [e, Except.ok.injEq] at e'
      subst e'
      have hne : es ≠ [] := by
        rintro rfl
        cases e2
      have hdata : a.data ≠ [] := List.ne_nil_of_mem hx
      have map_ne : ∀ {f : Expr → Expr} {l : List Expr}, l ≠ [] → l.map f ≠ [] := fun h h' => h (List.map_eq_nil_iff.1 h')
      have read_ne : readAll a.data ≠ [] := fun h' => hdata (List.map_eq_nil_iff.1 h')
      have m2 := roundedMean_exists h0 (map_ne (f := ExprOf.sq) hne)
      have m1 := roundedMean_exists h0 (map_ne (f := ExprOf.abs) hne)
      have n2 := roundedMean_exists h0 (map_ne (f := ExprOf.sq) read_ne)
      have n1 := roundedMean_exists h0 (map_ne (f := ExprOf.abs) read_ne)
      have hlen : (0 : ℝ) < a.data.length := by
        exact_mod_cast List.length_pos_iff.2 hdata
      have p2 : 0 < npMean (((readAll a.data).map ExprOf.sq).map ExprOf.eval) := by
        rw [readAll_sq, npMean]
        refine div_pos (sum_pos_of_mem (x := x ^ 2) (fun z hz => ?_) (List.mem_map.2 ⟨x, hx, rfl⟩) (by positivity))
          (by simpa using hlen)
        obtain ⟨w, -, rfl⟩ := List.mem_map.1 hz
        exact sq_nonneg w
      have p1 : 0 < npMean (((readAll a.data).map ExprOf.abs).map ExprOf.eval) := by
        rw [readAll_abs, npMean]
        refine div_pos (sum_pos_of_mem (x := |x|) (fun z hz => ?_) (List.mem_map.2 ⟨x, hx, rfl⟩) (abs_pos.2 hx0))
          (by simpa using hlen)
        obtain ⟨w, -, rfl⟩ := List.mem_map.1 hz
        exact abs_nonneg w
      have linfRun : RoundedLinf ε a b linf := by
        refine ⟨es, hes, _, runAll_exists h0 _, ?_⟩
        rw [← e2, List.map_map, List.map_map]
        rfl
      obtain ⟨c, l, hcl⟩ := List.exists_cons_of_ne_nil hdata
      have maxRun : ∃ m, RoundedMax ε ((readAll a.data).map ExprOf.abs) m ∧ m ≠ 0 := by
        refine ⟨(l.map (|·|)).foldl max |c|, ⟨_, runAll_exists h0 _, ?_⟩, ?_⟩
        · rw [readAll_abs, hcl]
          rfl
        · obtain ⟨g1, g2, -⟩ := foldl_max |c| (l.map (|·|))
          rw [hcl] at hx
          have : |x| ≤ (l.map (|·|)).foldl max |c| := by
            rcases List.mem_cons.1 hx with rfl | hx
            · exact g1
            · exact g2 _ (List.mem_map.2 ⟨x, hx, rfl⟩)
          exact ((abs_pos.2 hx0).trans_le this).ne'
      obtain ⟨m, hm, hm0⟩ := maxRun
      have l2Run := roundedSqrt_exists h0 (npMean ((es.map ExprOf.sq).map ExprOf.eval))
      have n2Run := roundedSqrt_exists h0 (npMean (((readAll a.data).map ExprOf.sq).map ExprOf.eval))
      refine ⟨(_, linf, _, linf / m, _, _), ⟨es, _, hes, m2, l2Run⟩, linfRun,
        ⟨_, _, _, ⟨es, _, hes, m2, l2Run⟩, n2, n2Run, roundedDiv_exists h0 _ (Real.sqrt_pos.2 p2).ne'⟩,
        ⟨linf, m, linfRun, hm, roundedDiv_exists h0 _ hm0⟩, ⟨es, hes, m1⟩,
        ⟨_, _, ⟨es, hes, m1⟩, n1, roundedDiv_exists h0 _ p1.ne'⟩⟩

/-- **C86** (zero).  A computed error is zero exactly if the two arrays are equal. -/
theorem C86_zero (ε : ℝ) (h0 : 0 ≤ ε) (h1 : ε < 1) {n : ℕ} (hn : 0 < n) (s s' : List ℕ) (u v : Fin n → ℝ)
    (r : ℝ) (h : RoundedL1 ε ⟨s, List.ofFn u⟩ ⟨s', List.ofFn v⟩ r ∨ RoundedL2 ε ⟨s, List.ofFn u⟩ ⟨s', List.ofFn v⟩ r
      ∨ RoundedLinf ε ⟨s, List.ofFn u⟩ ⟨s', List.ofFn v⟩ r) : r = 0 ↔ u = v := by
  obtain ⟨d1, e1, -, z1, -⟩ := C53_l1 hn
  obtain ⟨d2, e2, -, z2, -⟩ := C53_l2 hn
  obtain ⟨d3, e3, -, z3, -⟩ := C53_linf hn
  rcases h with h | h | h
  · obtain ⟨p, q⟩ := roundedL1_accurate h0 h1 (e1 s s' u v) h
    rw [p.eq_zero h1 q, z1]
  · obtain ⟨p, q⟩ := roundedL2_accurate h0 h1 (e2 s s' u v) h
    rw [p.eq_zero h1 q, z2]
  · obtain ⟨p, q⟩ := roundedLinf_accurate h1 (e3 s s' u v) h
    rw [p.eq_zero h1 q, z3]

/-! ## Boundary and sensor losses -/

lemma meanSq_nonneg' {n : ℕ} (f : Fin n → ℝ) : 0 ≤ meanSq f :=
  div_nonneg (Finset.sum_nonneg fun _ _ => mul_self_nonneg _) (Nat.cast_nonneg _)

lemma data_accurate {ε : ℝ} (h0 : 0 ≤ ε) (h1 : ε < 1) {n dout : ℕ} {pred : Fin n → Fin dout → ℝ}
    {actual : Fin n → ℝ} {i : Fin dout} {s : ℝ} (hs : (meanSquareErrorE 0 pred actual i).Run ε s) :
    Accurate ε (n + 4) s (meanSq fun k => pred k i - actual k) := by
  obtain ⟨x, t, δ, ε', hx, ht, hδ, hε, rfl⟩ := hs
  have hxi : ∀ k, Accurate ε 3 (x k) ((pred k i - actual k) * (pred k i - actual k)) := fun k => by
    obtain ⟨z, δ', hz, hδ', e⟩ := hx k
    have := ((run_sub_accurate h1 hz).square h1 (abs_nonneg _)).round h1 (sq_nonneg _) hδ'
    rw [sq_abs, sq_abs] at this
    rw [e, ← pow_two]
    exact this
  have hall : List.Forall₂ (Accurate ε 3) (List.ofFn x)
      (List.ofFn fun k => (pred k i - actual k) * (pred k i - actual k)) := by
    rw [List.forall₂_iff_get]
    refine ⟨by simp, fun k hk hk' => ?_⟩
    simpa using hxi ⟨k, by simpa using hk⟩
  have hx0 : ∀ z ∈ List.ofFn x, 0 ≤ z := fun z hz => by
    obtain ⟨k, rfl⟩ := (List.mem_ofFn' _ _).1 hz
    exact (hxi k).nonneg h1 (mul_self_nonneg _)
  have hsum := ((ht.accurate h0 h1 hx0).trans h1 (accurate_sum hall)).divNat n
  rw [List.sum_ofFn] at hsum
  have hm := meanSq_nonneg' fun k => pred k i - actual k
  have := (hsum.round h1 hm hδ).round h1 hm hε
  rcases Nat.eq_zero_or_pos n with rfl | hn
  · simp [meanSq, Accurate]
  · refine this.mono h0 h1 hm ?_
    rw [List.length_ofFn]
    omega

section
variable {nc nt nq nIn nBd nS : ℕ} (M : ModelData nc nt nq nIn nBd) (pt : Fin nc → Fin nq → ℝ × ℝ)
  (hM : Shaped M pt) (ε : ℝ) (h0 : 0 ≤ ε) (h1 : ε < 1) (beta : ℝ) (p ip : ParamDict) (sp : Fin nS → ℝ × ℝ)
  (sv : Fin nS → ℝ)

include hM h0 h1 in
/-- **C86** (losses).  For given values of the network and given data, the boundary and sensor losses have
the relative accuracy of `n + 4` roundings for `n` points. -/
theorem C86_data_losses (net : Network 1) (u : Fin 1 → ℝ × ℝ → ℝ) (hu : RowWise net u) :
    (∀ kind out out', LossKind.forward kind → trainStepDense (lossOf kind nc nt nq) M net beta p = .ok out →
      RoundedDense ε 0 kind M net beta p out' →
      Accurate ε (nBd + 4) (out'.lossDirichlet 0) (out.lossDirichlet 0)) ∧
    (∀ out out', trainStepInverse (lossPoissonInverse nc nt nq) M sp sv ip net beta p = .ok out →
      RoundedInverse ε 0 .poissonInverse M sp sv ip net beta p out' →
      Accurate ε (nBd + 4) (out'.lossDirichlet 0) (out.lossDirichlet 0) ∧
      Accurate ε (nS + 4) (out'.sensorLoss 0) (out.sensorLoss 0)) := by
  refine ⟨fun kind out out' hk h h' => ?_, fun out out' h h' => ?_⟩
  · obtain ⟨a, b, r, hc, e1, e2, e3, -⟩ := (C47_dense M pt hM beta p kind hk net u hu).2 out h
    obtain ⟨es, hes, -, h2, -⟩ := h'
    have := data_accurate h0 h1 (h2 0)
    simp only [hu _ M.dirichletInput] at this
    rwa [e2]
  · obtain ⟨eps, hc, e1, e2, e4, -, e3, -⟩ := (C47_inverse M pt hM beta p ip sp sv net u hu).2 out h
    obtain ⟨es, hes, -, h2, h4, -⟩ := h'
    have n2 := data_accurate h0 h1 (h2 0)
    have n4 := data_accurate h0 h1 (h4 0)
    simp only [hu _ M.dirichletInput] at n2
    simp only [hu _ sp] at n4
    rw [e2, e4]
    exact ⟨n2, n4⟩

include hM h0 h1 in
/-- **C86** (losses, `DenseModel_Inverse_Domain`). -/
theorem C86_data_losses_domain {dout : ℕ} (net : Network (dout + 2)) (u : Fin (dout + 2) → ℝ × ℝ → ℝ)
    (hu : RowWise net u) (out out' : TrainOutInverse 1)
    (h : trainStepInverseDomain (lossCd2dInverseDomain nc nt nq) M sp sv net beta p = .ok out)
    (h' : RoundedInverseDomain ε 0 M sp sv net beta p out') :
    Accurate ε (nBd + 4) (out'.lossDirichlet 0) (out.lossDirichlet 0) ∧
    Accurate ε (nS + 4) (out'.sensorLoss 0) (out.sensorLoss 0) := by
  obtain ⟨bx, b2, r, hx, hy, hr, e1, e2, e4, e3, -⟩ :=
    (C47_inverse_domain M pt hM beta p sp sv (by omega) net u hu).2 out h
  obtain ⟨gx, gy, v, k, es, -, -, -, -, -, -, h2, h4, -⟩ := h'
  have n2 := data_accurate h0 h1 h2
  have n4 := data_accurate h0 h1 h4
  simp only [hu _ M.dirichletInput] at n2
  simp only [hu _ sp] at n4
  rw [e2, e4]
  exact ⟨n2, n4⟩

end

/-! ### Examples -/

/-- The hypotheses of `C86_errors` are met: `float32` and the arrays `[1/3, 1]` and `[1/3, 2]`. -/
example : (∃ out, computeErrorsCombined ⟨[2], [1 / 3, 1]⟩ ⟨[2], [1 / 3, 2]⟩ = .ok out) ∧
    ∃ out, RoundedErrors ((2 : ℝ)⁻¹ ^ 24) ⟨[2], [1 / 3, 1]⟩ ⟨[2], [1 / 3, 2]⟩ out := by
  have h : ∃ out, computeErrorsCombined ⟨[2], [1 / 3, 1]⟩ ⟨[2], [1 / 3, 2]⟩ = .ok out := ⟨_, rfl⟩
  exact ⟨h, (C86_returns _ (by positivity) (by norm_num) _ _).2 ⟨h, 1, by simp, one_ne_zero⟩⟩

/-- A computed error that is not the exact one: `|1 - 0|` with one rounding upwards. -/
example : RoundedL1 (1 / 8) ⟨[1], [1]⟩ ⟨[1], [0]⟩ (9 / 8) ∧ computeL1Error ⟨[1], [1]⟩ ⟨[1], [0]⟩ = .ok 1 ∧
    Accurate (1 / 8) 2 (9 / 8) 1 := by
  refine ⟨⟨[.sub (.val 0 1) (.val 0 0)], rfl, by simp, [9 / 8], 9 / 8, 0, .cons ?_ .nil, .one _, by norm_num, by
    norm_num⟩, ?_, by norm_num [Accurate]⟩
  · exact ⟨9 / 8, ⟨1, 0, 1 / 8, by simp [ExprOf.Run], by simp [ExprOf.Run], by norm_num, by norm_num⟩, by norm_num⟩
  · simp [computeL1Error, npSub, npMean, NDArray.flatten]

/-- The exact solution zero has no relative error. -/
example : ¬ ∃ out, RoundedErrors ((2 : ℝ)⁻¹ ^ 24) ⟨[2], [0, 0]⟩ ⟨[2], [1, 2]⟩ out := by
  rw [C86_returns _ (by positivity) (by norm_num)]
  rintro ⟨-, x, hx, h⟩
  simp at hx
  exact h hx

end FastVPINNs
