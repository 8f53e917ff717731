import Verif.Lemmas.UnderflowErrors
import Verif.Props.RoundedErrors
import Verif.Props.Underflow

/-! # C113: the reported errors with underflow -/

namespace FastVPINNs

open Spec

section
variable {ε η r x : ℝ} {a b : NDArray}

lemma npSub_length {a b d : List ℝ} (h : npSub a b = .ok d) : d.length ≤ max a.length b.length := length_diff h

lemma underflowLinf_accurate (h1 : ε < 1) (hx : computeLinfError a b = .ok x)
    (hr : UnderflowLinf (FlS ε η) a b r) : AccurateUpTo ε 1 η r x ∧ 0 ≤ r ∧ 0 ≤ x := by
  obtain ⟨ds, ⟨d, hd, hds⟩, hr⟩ := hr
  rw [computeLinfError, hd] at hx
  simp only at hx
  exact ⟨accurateUpTo_max h1 (map_abs_forall₂ h1 hds) hr hx, npMax_nonneg (abs_map_nonneg _) hr,
    npMax_nonneg (abs_map_nonneg _) hx⟩

lemma underflowL1_accurate (h0 : 0 ≤ ε) (h1 : ε < 1) (hη : 0 ≤ η) (hx : computeL1Error a b = .ok x)
    (hr : UnderflowL1 (FlS ε η) a b r) {N : ℕ} (ha : a.data.length ≤ N) (hb : b.data.length ≤ N) :
    AccurateUpTo ε (N + 1) (3 * η) r x ∧ 0 ≤ r ∧ 0 ≤ x := by
  obtain ⟨ds, ⟨d, hd, hds⟩, hr⟩ := hr
  rw [computeL1Error, hd] at hx
  simp only [Except.ok.injEq, npMean] at hx
  obtain ⟨p, q⟩ := underflowMean_accurate h0 h1 hη hη (map_abs_forall₂ h1 hds) (abs_map_nonneg _) (abs_map_nonneg _) hr
  have hlen := npSub_length hd
  simp only [flatten_data] at hlen
  have hx0 : 0 ≤ x := hx ▸ div_nonneg (List.sum_nonneg (abs_map_nonneg _)) (Nat.cast_nonneg _)
  rw [hx, List.length_map] at p
  exact ⟨p.mono h0 h1 hx0 q (by omega) (by linarith), q, hx0⟩

lemma underflowL2_accurate (h0 : 0 ≤ ε) (h1 : ε < 1) (hη : 0 ≤ η) (hx : computeL2Error a b = .ok x)
    (hr : UnderflowL2 (FlS ε η) a b r) {N : ℕ} (ha : a.data.length ≤ N) (hb : b.data.length ≤ N) :
    AccurateUpTo ε (N + 3) (Real.sqrt (3 * η) + 2 * η) r x ∧ 0 ≤ r ∧ 0 ≤ x := by
  obtain ⟨ds, ⟨d, hd, hds⟩, hr⟩ := hr
  rw [computeL2Error, hd] at hx
  simp only [Except.ok.injEq, npMean, List.length_map] at hx
  obtain ⟨p, q⟩ := underflowRms_accurate h0 h1 hη hr
  have hlen := npSub_length hd
  simp only [flatten_data] at hlen
  have hx0 : 0 ≤ x := hx ▸ Real.sqrt_nonneg _
  have hall := hds.imp fun _ _ h => flS_abs h1 h
  have p2 : AccurateUpTo ε 1 η (rootMeanSquare ds) x := by
    rw [← hx]
    exact ⟨rms_le (pow_nonneg' h1 1).le hη (hall.imp fun _ _ h => h.1),
      rms_le (pow_nonneg' h1 1).le hη (List.Forall₂.flip (hall.imp fun _ _ h => h.2))⟩
  have hl : ds.length = d.length := hds.length_eq.symm
  exact ⟨(p.trans h0 h1 (by positivity) hη p2).mono h0 h1 hx0 q (by omega) (by linarith), q, hx0⟩

end

/-- **C113**.  With unit roundoff `ε < 1` and operations that lose at most `η` by underflow, for arrays with at most `N`
entries and whatever the order of summation: the absolute errors that `compute_errors_combined` computes have the accuracy
of a few roundings up to an absolute amount, which is `η` for the largest error, `3 η` for the mean and `√(3 η) + 2 η` for
the root mean square. -/
theorem C113_errors (ε η : ℝ) (h0 : 0 ≤ ε) (h1 : ε < 1) (hη : 0 ≤ η) (a b : NDArray) (N : ℕ) (ha : a.data.length ≤ N)
    (hb : b.data.length ≤ N) (l2 linf l2r linfr l1 l1r l2' linf' l2r' linfr' l1' l1r' : ℝ)
    (h : computeErrorsCombined a b = .ok (l2, linf, l2r, linfr, l1, l1r))
    (h' : UnderflowErrors (FlS ε η) a b (l2', linf', l2r', linfr', l1', l1r')) :
    AccurateUpTo ε (N + 3) (Real.sqrt (3 * η) + 2 * η) l2' l2 ∧ AccurateUpTo ε 1 η linf' linf ∧
    AccurateUpTo ε (N + 1) (3 * η) l1' l1 := by
  obtain ⟨e1, e2, -, -, e5, -⟩ := combined_ok h
  obtain ⟨d1, d2, -, -, d5, -⟩ := h'
  exact ⟨(underflowL2_accurate h0 h1 hη e1 d1 ha hb).1, (underflowLinf_accurate h1 e2 d2).1,
    (underflowL1_accurate h0 h1 hη e5 d5 ha hb).1⟩

lemma isMaxAbs_npMax {l : List ℝ} {m n : ℝ} (hm : IsMaxAbs l m) (h : npMax (l.map fun x => |x|) = .ok n) : n = m := by
  cases l with
  | nil => cases h
  | cons y l =>
    rw [List.map_cons, npMax, Except.ok.injEq] at h
    obtain ⟨g1, g2, g3⟩ := foldl_max |y| (l.map fun x => |x|)
    rw [h] at g1 g2 g3
    refine le_antisymm ?_ ?_
    · rcases g3 with g3 | g3
      · rw [g3]
        exact hm.1 y (by simp)
      · obtain ⟨w, hw, e⟩ := List.mem_map.1 g3
        rw [← e]
        exact hm.1 w (by simp [hw])
    · obtain ⟨w, hw, rfl⟩ := hm.2
      rcases List.mem_cons.1 hw with rfl | hw
      · exact g1
      · exact g2 _ (List.mem_map.2 ⟨w, hw, rfl⟩)

/-- **C113** (relative errors).  The same for the relative errors, with the absolute amounts divided by the norm of the
exact solution plus `η`, if that norm is not so small that underflow takes more than the fraction `ε` of it; for the
largest error there is no such condition. -/
theorem C113_relative (ε η : ℝ) (h0 : 0 ≤ ε) (h1 : ε < 1) (hη : 0 ≤ η) (a b : NDArray) (N : ℕ)
    (ha : a.data.length ≤ N) (hb : b.data.length ≤ N)
    (l2 linf l2r linfr l1 l1r l2' linf' l2r' linfr' l1' l1r' : ℝ)
    (h : computeErrorsCombined a b = .ok (l2, linf, l2r, linfr, l1, l1r))
    (h' : UnderflowErrors (FlS ε η) a b (l2', linf', l2r', linfr', l1', l1r')) :
    (0 < rootMeanSquare a.data → Real.sqrt (3 * η) + η ≤ ε * (rootMeanSquare a.data * (1 - ε) ^ (N + 2)) →
      AccurateUpTo ε (2 * N + 7) ((Real.sqrt (3 * η) + 2 * η) / rootMeanSquare a.data + η) l2r' l2r) ∧
    (∀ m, IsMaxAbs a.data m → AccurateUpTo ε 2 (η / m + η) linfr' linfr) ∧
    (0 < meanAbs a.data → 2 * η ≤ ε * (meanAbs a.data * (1 - ε) ^ N) →
      AccurateUpTo ε (2 * N + 3) (3 * η / meanAbs a.data + η) l1r' l1r) := by
  obtain ⟨-, -, e3, e4, -, e6⟩ := combined_ok h
  obtain ⟨-, -, ⟨x2, n2, d2, f2, -, g2⟩, ⟨xi, ni, di, fi, -, gi⟩, -, ⟨x1, n1, d1, f1, -, g1⟩⟩ := h'
  refine ⟨fun hn hs => ?_, fun m hm => ?_, fun hn hs => ?_⟩
  · unfold computeL2ErrorRelative at e3
    simp only at e3
    cases e : computeL2Error a.flatten.flatten b.flatten.flatten with
    | error e' => rw [e] at e3; cases e3
    | ok y =>
      rw [e] at e3
      simp only [Except.ok.injEq] at e3
      have er : Real.sqrt (npMean (a.flatten.flatten.data.map (· ^ 2))) = rootMeanSquare a.data := by
        simp only [flatten_data, npMean, List.length_map, rootMeanSquare]
      rw [er] at e3
      obtain ⟨p, q, s⟩ := underflowL2_accurate h0 h1 hη e d2 ha hb
      obtain ⟨pn, qn⟩ := underflowRms_accurate h0 h1 hη f2
      have pn' : AccurateUpTo ε (N + 2) (Real.sqrt (3 * η) + η) n2 (rootMeanSquare a.data) :=
        pn.mono h0 h1 hn.le qn (Nat.add_le_add_right ha 2) le_rfl
      obtain ⟨z, o⟩ := p.over h0 h1 (by positivity) q s pn' hn hs
      have := o.round h1 (by positivity) (by positivity) g2
      rw [e3] at this
      exact this.mono h0 h1 (e3 ▸ div_nonneg s hn.le) (g2.2.1 (by positivity)) (by omega) le_rfl
  · unfold computeLinfErrorRelative at e4
    simp only at e4
    cases e : computeLinfError a.flatten.flatten b.flatten.flatten with
    | error e' => rw [e] at e4; cases e4
    | ok y =>
      have e' : npMax (a.flatten.flatten.data.map (|·|)) = .ok ni := fi
      rw [e, e'] at e4
      simp only [Except.ok.injEq] at e4
      obtain rfl := isMaxAbs_npMax hm fi
      have hn : 0 ≤ ni := npMax_nonneg (abs_map_nonneg _) fi
      obtain ⟨p, q, s⟩ := underflowLinf_accurate h1 e di
      have := (p.divBy hn).round h1 (by positivity) (by positivity) gi
      rwa [e4] at this
  · unfold computeL1ErrorRelative at e6
    simp only at e6
    cases e : computeL1Error a.flatten.flatten b.flatten.flatten with
    | error e' => rw [e] at e6; cases e6
    | ok y =>
      rw [e] at e6
      simp only [Except.ok.injEq] at e6
      have er : npMean (a.flatten.flatten.data.map (|·|)) = meanAbs a.data := by
        simp only [flatten_data, npMean, List.length_map, meanAbs]
      rw [er] at e6
      obtain ⟨p, q, s⟩ := underflowL1_accurate h0 h1 hη e d1 ha hb
      have hall : List.Forall₂ (AccurateUpTo ε 0 0) (a.data.map fun x => |x|) (a.data.map fun x => |x|) := by
        rw [List.forall₂_same]
        intro z hz
        exact .refl h0 h1 (abs_map_nonneg _ z hz) le_rfl 0
      obtain ⟨pn, qn⟩ := underflowMean_accurate h0 h1 hη le_rfl hall (abs_map_nonneg _) (abs_map_nonneg _) f1
      rw [List.length_map, zero_add, add_zero] at pn
      have pn' : AccurateUpTo ε N (2 * η) n1 (meanAbs a.data) := pn.mono h0 h1 hn.le qn ha le_rfl
      obtain ⟨z, o⟩ := p.over h0 h1 (by positivity) q s pn' hn hs
      have := o.round h1 (by positivity) (by positivity) g1
      rw [e6] at this
      exact this.mono h0 h1 (e6 ▸ div_nonneg s hn.le) (g1.2.1 (by positivity)) (by omega) le_rfl

/-! ## Zero -/

section
variable {R : ℝ → ℝ → Prop} {r : ℝ}

lemma sumRunR_zero (hR : ∀ r, R 0 r → r = 0) {xs : List ℝ} (h : SumRunR R xs r) (hx : ∀ z ∈ xs, z = 0) : r = 0 := by
  induction h with
  | nil => rfl
  | one x => exact hx x (by simp)
  | add _ _ _ _ hr ih ih' =>
    rw [ih fun z hz => hx z (by simp [hz]), ih' fun z hz => hx z (by simp [hz]), add_zero] at hr
    exact hR _ hr
  | perm hp _ ih => exact ih fun z hz => hx z (hp.mem_iff.1 hz)

lemma underflowMean_zero (hR : ∀ r, R 0 r → r = 0) {xs : List ℝ} (h : UnderflowMean R xs r) (hx : ∀ z ∈ xs, z = 0) :
    r = 0 := by
  obtain ⟨-, s, hs, hr⟩ := h
  rw [sumRunR_zero hR hs hx, zero_div] at hr
  exact hR _ hr

lemma underflowRms_zero (hR : ∀ r, R 0 r → r = 0) {ds : List ℝ} (h : UnderflowRms R ds r)
    (hx : ∀ d ∈ ds, ∀ s, R (d ^ 2) s → s = 0) : r = 0 := by
  obtain ⟨ss, m, hss, hm, hr⟩ := h
  rw [underflowMean_zero hR hm, Real.sqrt_zero] at hr
  · exact hR _ hr
  · intro z hz
    clear hm
    unfold UnderflowSquare at hss
    induction hss with
    | nil => simp at hz
    | @cons d s ds ss h _ ih =>
      rcases List.mem_cons.1 hz with rfl | hz
      · exact hx d (by simp) _ h
      · exact ih (fun d hd => hx d (by simp [hd])) hz

lemma npSub_self (l : List ℝ) : ∃ d, npSub l l = .ok d ∧ ∀ z ∈ d, z = 0 := by
  refine ⟨_, by rw [npSub, if_pos rfl], fun z hz => ?_⟩
  rw [← List.map_uncurry_zip_eq_zipWith] at hz
  obtain ⟨p, hp, rfl⟩ := List.mem_map.1 hz
  have : p.1 = p.2 := by
    clear hz
    induction l with
    | nil => simp at hp
    | cons x l ih =>
      rcases List.mem_cons.1 hp with rfl | hp
      · rfl
      · exact ih hp
  simp [Function.uncurry, this]

lemma underflowSub_self (hR : ∀ r, R 0 r → r = 0) {l ds : List ℝ} (h : UnderflowSub R l l ds) : ∀ z ∈ ds, z = 0 := by
  obtain ⟨d, hd, hds⟩ := h
  obtain ⟨d', hd', h0⟩ := npSub_self l
  rw [hd, Except.ok.injEq] at hd'
  subst hd'
  clear hd
  induction hds with
  | nil => simp
  | @cons a b as bs h _ ih =>
    intro z hz
    rcases List.mem_cons.1 hz with rfl | hz
    · rw [h0 a (by simp)] at h
      exact hR _ h
    · exact ih (fun z hz => h0 z (by simp [hz])) z hz

end

/-- **C113** (no error).  If both arrays have the same entries, every absolute error that is computed is exactly zero, for
every rounding of zero to zero. -/
theorem C113_zero (R : ℝ → ℝ → Prop) (hR : ∀ r, R 0 r → r = 0) (a b : NDArray) (hab : a.data = b.data) (r : ℝ)
    (h : UnderflowL1 R a b r ∨ UnderflowL2 R a b r ∨ UnderflowLinf R a b r) : r = 0 := by
  rcases h with ⟨ds, hds, h⟩ | ⟨ds, hds, h⟩ | ⟨ds, hds, h⟩ <;> rw [flatten_data, flatten_data, ← hab] at hds <;>
    have h0 := underflowSub_self hR hds
  · refine underflowMean_zero hR h fun z hz => ?_
    obtain ⟨w, hw, rfl⟩ := List.mem_map.1 hz
    rw [h0 w hw, abs_zero]
  · refine underflowRms_zero hR h fun d hd s hs => ?_
    rw [h0 d hd, zero_pow two_ne_zero] at hs
    exact hR _ hs
  · cases ds with
    | nil => cases h
    | cons y l =>
      rw [List.map_cons, npMax, Except.ok.injEq] at h
      obtain ⟨-, -, g3⟩ := foldl_max |y| (l.map fun x => |x|)
      rw [← h]
      rcases g3 with g3 | g3
      · rw [g3, h0 y (by simp), abs_zero]
      · obtain ⟨w, hw, e⟩ := List.mem_map.1 g3
        rw [← e, h0 w (by simp [hw]), abs_zero]

/-! ## Arithmetics -/

section
variable {R R' : ℝ → ℝ → Prop} (hR : ∀ x r, R x r → R' x r) {a b : NDArray} {r : ℝ}
include hR

lemma SumRunR.imp {xs : List ℝ} (h : SumRunR R xs r) : SumRunR R' xs r := by
  induction h with
  | nil => exact .nil
  | one x => exact .one x
  | add hl hm _ _ hr ih ih' => exact .add hl hm ih ih' (hR _ _ hr)
  | perm h _ ih => exact .perm h ih

lemma UnderflowMean.imp {xs : List ℝ} (h : UnderflowMean R xs r) : UnderflowMean R' xs r := by
  obtain ⟨hne, s, hs, hr⟩ := h
  exact ⟨hne, s, SumRunR.imp hR hs, hR _ _ hr⟩

lemma UnderflowRms.imp {xs : List ℝ} (h : UnderflowRms R xs r) : UnderflowRms R' xs r := by
  obtain ⟨ss, m, hs, hm, hr⟩ := h
  exact ⟨ss, m, List.Forall₂.imp (fun _ _ h => hR _ _ h) hs, UnderflowMean.imp hR hm, hR _ _ hr⟩

lemma UnderflowSub.imp {xs ys ds : List ℝ} (h : UnderflowSub R xs ys ds) : UnderflowSub R' xs ys ds := by
  obtain ⟨d, hd, hds⟩ := h
  exact ⟨d, hd, hds.imp hR⟩

lemma UnderflowL2.imp (h : UnderflowL2 R a b r) : UnderflowL2 R' a b r := by
  obtain ⟨ds, hd, h⟩ := h
  exact ⟨ds, UnderflowSub.imp hR hd, UnderflowRms.imp hR h⟩

lemma UnderflowL1.imp (h : UnderflowL1 R a b r) : UnderflowL1 R' a b r := by
  obtain ⟨ds, hd, h⟩ := h
  exact ⟨ds, UnderflowSub.imp hR hd, UnderflowMean.imp hR h⟩

lemma UnderflowLinf.imp (h : UnderflowLinf R a b r) : UnderflowLinf R' a b r := by
  obtain ⟨ds, hd, h⟩ := h
  exact ⟨ds, UnderflowSub.imp hR hd, h⟩

lemma UnderflowErrors.imp {out} (h : UnderflowErrors R a b out) : UnderflowErrors R' a b out := by
  obtain ⟨l2, linf, l2r, linfr, l1, l1r⟩ := out
  obtain ⟨d1, d2, ⟨x2, n2, d3, f3, z3, g3⟩, ⟨xi, ni, d4, f4, z4, g4⟩, d5, ⟨x1, n1, d6, f6, z6, g6⟩⟩ := h
  exact ⟨UnderflowL2.imp hR d1, UnderflowLinf.imp hR d2,
    ⟨x2, n2, UnderflowL2.imp hR d3, UnderflowRms.imp hR f3, z3, hR _ _ g3⟩,
    ⟨xi, ni, UnderflowLinf.imp hR d4, f4, z4, hR _ _ g4⟩, UnderflowL1.imp hR d5,
    ⟨x1, n1, UnderflowL1.imp hR d6, UnderflowMean.imp hR f6, z6, hR _ _ g6⟩⟩

end

lemma round_nonneg' {x : ℝ} (h : 0 ≤ x) : (0 : ℝ) ≤ round x := by
  have : (0 : ℤ) ≤ round x := by
    rw [round_eq]
    exact Int.floor_nonneg.2 (by linarith)
  exact_mod_cast this

lemma round_nonpos' {x : ℝ} (h : x ≤ 0) : (round x : ℝ) ≤ 0 := by
  have : round x ≤ (0 : ℤ) := by
    rw [round_eq]
    have : ⌊x + 1 / 2⌋ < (1 : ℤ) := Int.floor_lt.2 (by push_cast; linarith)
    omega
  exact_mod_cast this

lemma nearest_sign (p : ℕ) (x : ℝ) : (0 ≤ x → 0 ≤ nearest p x) ∧ (x ≤ 0 → nearest p x ≤ 0) := by
  unfold nearest
  exact ⟨fun h => mul_nonneg (round_nonneg' (div_nonneg h (by positivity))) (by positivity),
    fun h => mul_nonpos_of_nonpos_of_nonneg (round_nonpos' (div_nonpos_of_nonpos_of_nonneg h (by positivity)))
      (by positivity)⟩

lemma flS_flushed (p : ℕ) (emin : ℤ) (x : ℝ) : FlS ((2 : ℝ)⁻¹ ^ p) (2 ^ emin) x (flushed p emin x) := by
  refine ⟨flU_flushed p emin x, ?_⟩
  unfold flushed
  split_ifs
  · simp
  · exact nearest_sign p x

lemma flS_gradual (p : ℕ) (emin : ℤ) (x : ℝ) : FlS ((2 : ℝ)⁻¹ ^ p) (2 ^ (emin - p)) x (gradual p emin x) := by
  refine ⟨flU_gradual p emin x, ?_⟩
  unfold gradual
  split_ifs
  · exact ⟨fun h => mul_nonneg (round_nonneg' (div_nonneg h (by positivity))) (by positivity),
      fun h => mul_nonpos_of_nonpos_of_nonneg (round_nonpos' (div_nonpos_of_nonpos_of_nonneg h (by positivity)))
        (by positivity)⟩
  · exact nearest_sign p x

/-- **C113** (arithmetics).  Rounding to nearest with `p` significant binary digits where results below `2 ^ emin` are
replaced by zero, or by the nearest multiple of the smallest subnormal number, is covered with unit roundoff `2⁻ᵖ` and
`η = 2 ^ emin`, or `η = 2 ^ (emin - p)`. -/
theorem C113_arithmetic (p : ℕ) (emin : ℤ) (a b : NDArray) (out : ℝ × ℝ × ℝ × ℝ × ℝ × ℝ) :
    (UnderflowErrors (fun x r => r = flushed p emin x) a b out →
      UnderflowErrors (FlS ((2 : ℝ)⁻¹ ^ p) (2 ^ emin)) a b out) ∧
    (UnderflowErrors (fun x r => r = gradual p emin x) a b out →
      UnderflowErrors (FlS ((2 : ℝ)⁻¹ ^ p) (2 ^ (emin - p))) a b out) :=
  ⟨UnderflowErrors.imp fun x _ h => h ▸ flS_flushed p emin x, UnderflowErrors.imp fun x _ h => h ▸ flS_gradual p emin x⟩

/-- **C113** (errors that vanish).  In an arithmetic that replaces results below `2 ^ emin` by zero: if four times the
square of every difference is below `2 ^ emin`, every computed root-mean-square error is exactly zero, though the exact
one is positive as soon as the arrays differ; and if four times the square of every entry of the exact solution is below
`2 ^ emin`, the relative error divides by zero. -/
theorem C113_vanishing (p : ℕ) (emin : ℤ) {n : ℕ} (s s' : List ℕ) (u v : Fin n → ℝ) :
    ((∀ i, 4 * (u i - v i) ^ 2 < 2 ^ emin) →
      (∀ r, UnderflowL2 (fun x r => r = flushed p emin x) ⟨s, List.ofFn u⟩ ⟨s', List.ofFn v⟩ r → r = 0) ∧
      (u ≠ v → ∃ r > 0, computeL2Error ⟨s, List.ofFn u⟩ ⟨s', List.ofFn v⟩ = .ok r)) ∧
    ((∀ i, 4 * u i ^ 2 < 2 ^ emin) →
      ¬ ∃ r, UnderflowL2Relative (fun x r => r = flushed p emin x) ⟨s, List.ofFn u⟩ ⟨s', List.ofFn v⟩ r) := by
  have hR : ∀ r, r = flushed p emin 0 → r = 0 := fun r h => h.trans (flushed_zero p emin)
  refine ⟨fun h => ⟨?_, fun hne => ?_⟩, fun h => ?_⟩
  · rintro r ⟨ds, ⟨d, hd, hds⟩, hr⟩
    simp only [flatten_data, npSub_ofFn, Except.ok.injEq] at hd
    subst hd
    refine underflowRms_zero hR hr fun z hz s hs => ?_
    rw [hs]
    obtain ⟨i, rfl⟩ : ∃ i, z = flushed p emin (u i - v i) := by
      obtain ⟨k, hk, e⟩ := List.getElem_of_mem hz
      rw [List.forall₂_iff_get] at hds
      have hk' : k < n := by
        have := hds.1
        rw [List.length_ofFn] at this
        omega
      have := hds.2 k (by simpa using hk') hk
      simp only [List.get_eq_getElem, List.getElem_ofFn, e] at this
      exact ⟨⟨k, hk'⟩, this⟩
    exact flushed_sq p emin (h i)
  · obtain ⟨i, hi⟩ : ∃ i, u i ≠ v i := by
      by_contra hc
      push Not at hc
      exact hne (funext hc)
    refine ⟨_, ?_, by rw [computeL2Error, flatten_data, flatten_data, npSub_ofFn]⟩
    refine Real.sqrt_pos.2 (div_pos (sum_pos_of_mem (x := (u i - v i) ^ 2) (sq_map_nonneg _) ?_ ?_) ?_)
    · exact List.mem_map.2 ⟨u i - v i, List.mem_ofFn.2 ⟨i, rfl⟩, rfl⟩
    · have := sub_ne_zero.2 hi
      positivity
    · have := i.pos
      simpa using this
  · rintro ⟨r, l2, m, -, hm, hm0, -⟩
    refine hm0 (underflowRms_zero hR hm fun z hz s hs => ?_)
    obtain ⟨i, rfl⟩ := List.mem_ofFn.1 hz
    rw [hs, flushed, if_pos]
    rw [abs_of_nonneg (sq_nonneg _)]
    have := h i
    nlinarith [sq_nonneg (u i)]

/-! ## Results -/

section
variable {ε η : ℝ} (h0 : 0 ≤ ε) (hη : 0 ≤ η)
include h0 hη

lemma sumRunR_exact (l : List ℝ) : SumRunR (FlS ε η) l l.sum := by
  rcases l with _ | ⟨x, l⟩
  · exact .nil
  · induction l generalizing x with
    | nil => simpa using SumRunR.one (R := FlS ε η) x
    | cons y l ih =>
      have := SumRunR.add (List.cons_ne_nil x []) (List.cons_ne_nil y l) (.one x) (ih y)
        (FlS.refl (ε := ε) h0 hη (x + (y :: l).sum))
      simpa using this

lemma underflowMean_exact {l : List ℝ} (h : l ≠ []) : UnderflowMean (FlS ε η) l (npMean l) :=
  ⟨h, l.sum, sumRunR_exact h0 hη l, FlS.refl h0 hη _⟩

lemma underflowRms_exact {l : List ℝ} (h : l ≠ []) : UnderflowRms (FlS ε η) l (Real.sqrt (npMean (l.map (· ^ 2)))) := by
  refine ⟨l.map (· ^ 2), _, ?_, underflowMean_exact h0 hη (by simpa using h), FlS.refl h0 hη _⟩
  unfold UnderflowSquare
  rw [List.forall₂_map_right_iff, List.forall₂_same]
  exact fun x _ => FlS.refl h0 hη _

end

/-- **C113** (results).  The exact results are among those that this arithmetic may give; no result exists if the exact
function fails or the exact solution is zero everywhere. -/
theorem C113_returns (ε η : ℝ) (h0 : 0 ≤ ε) (hη : 0 ≤ η) (a b : NDArray) :
    (∀ out, computeErrorsCombined a b = .ok out → (∃ x ∈ a.data, x ≠ 0) → UnderflowErrors (FlS ε η) a b out) ∧
    ((∃ out, UnderflowErrors (FlS ε η) a b out) →
      (∃ out, computeErrorsCombined a b = .ok out) ∧ ∃ x ∈ a.data, x ≠ 0) := by
  constructor
  · rintro ⟨l2, linf, l2r, linfr, l1, l1r⟩ h ⟨x, hx, hx0⟩
    obtain ⟨e1, e2, e3, e4, e5, e6⟩ := combined_ok h
    have hdata : a.data ≠ [] := List.ne_nil_of_mem hx
    have hlen : (0 : ℝ) < a.data.length := by exact_mod_cast List.length_pos_iff.2 hdata
    cases e : npSub a.data b.data with
    | error e' => rw [computeLinfError] at e2; simp only [flatten_data, e] at e2; cases e2
    | ok d =>
      have hsub : UnderflowSub (FlS ε η) a.data b.data d :=
        ⟨d, e, List.forall₂_same.2 fun x _ => FlS.refl h0 hη x⟩
      unfold computeL1ErrorRelative at e6
      unfold computeL2ErrorRelative at e3
      unfold computeLinfErrorRelative at e4
      unfold computeL1Error at e5 e6
      unfold computeL2Error at e1 e3
      unfold computeLinfError at e2 e4
      simp only [flatten_data, e, Except.ok.injEq] at e1 e2 e3 e4 e5 e6
      rw [e2] at e4
      have hne : d ≠ [] := by
        rintro rfl
        cases e2
      have L2 : UnderflowL2 (FlS ε η) a.flatten b.flatten l2 := ⟨d, hsub, e1 ▸ underflowRms_exact h0 hη hne⟩
      have LI : UnderflowLinf (FlS ε η) a.flatten b.flatten linf := ⟨d, hsub, e2⟩
      have L1 : UnderflowL1 (FlS ε η) a.flatten b.flatten l1 :=
        ⟨d, hsub, e5 ▸ underflowMean_exact h0 hη (by simpa using hne)⟩
      have p2 : 0 < Real.sqrt (npMean (a.data.map (· ^ 2))) :=
        Real.sqrt_pos.2 (div_pos (sum_pos_of_mem (sq_map_nonneg _) (List.mem_map.2 ⟨x, hx, rfl⟩) (by positivity))
          (by simpa using hlen))
      have p1 : 0 < npMean (a.data.map (|·|)) :=
        div_pos (sum_pos_of_mem (abs_map_nonneg _) (List.mem_map.2 ⟨x, hx, rfl⟩) (abs_pos.2 hx0)) (by simpa using hlen)
      refine ⟨L2, LI, ⟨l2, _, L2, underflowRms_exact h0 hη hdata, p2.ne', ?_⟩, ?_, L1,
        ⟨l1, _, L1, underflowMean_exact h0 hη (by simpa [flatten_data] using hdata), p1.ne', ?_⟩⟩
      · rw [← e3, e1]
        exact FlS.refl h0 hη _
      · cases em : npMax (a.data.map (|·|)) with
        | error e' => rw [em] at e4; cases e4
        | ok m =>
          rw [em] at e4
          simp only [Except.ok.injEq] at e4
          refine ⟨linf, m, LI, em, ?_, by rw [← e4]; exact FlS.refl h0 hη _⟩
          obtain ⟨c, l, hcl⟩ := List.exists_cons_of_ne_nil hdata
          rw [hcl, List.map_cons, npMax, Except.ok.injEq] at em
          obtain ⟨g1, g2, -⟩ := foldl_max |c| (l.map (|·|))
          have : |x| ≤ m := by
            rw [← em]
            rw [hcl] at hx
            rcases List.mem_cons.1 hx with rfl | hx
            · exact g1
            · exact g2 _ (List.mem_map.2 ⟨x, hx, rfl⟩)
          exact ((abs_pos.2 hx0).trans_le this).ne'
      · rw [← e6, e5]
        exact FlS.refl h0 hη _
  · rintro ⟨⟨l2, linf, l2r, linfr, l1, l1r⟩, -, ⟨ds, ⟨d, hd, hds⟩, hmax⟩, -, -, -, x1, n, -, hn, hn0, -⟩
    have hex : ∃ x ∈ a.data, x ≠ 0 := by
      by_contra hc
      push Not at hc
      refine hn0 (underflowMean_zero (fun r h => FlS.zero h) hn fun z hz => ?_)
      obtain ⟨w, hw, rfl⟩ := List.mem_map.1 hz
      simp only [flatten_data] at hw
      rw [hc w hw, abs_zero]
    refine ⟨?_, hex⟩
    have hne : d ≠ [] := by
      rintro rfl
      cases hds
      cases hmax
    have hdata : a.data ≠ [] := by
      obtain ⟨x, hx, -⟩ := hex
      exact List.ne_nil_of_mem hx
    obtain ⟨c, l, hcl⟩ := List.exists_cons_of_ne_nil hne
    obtain ⟨c', l', hcl'⟩ := List.exists_cons_of_ne_nil hdata
    simp only [NDArray.flatten] at hd
    rw [hcl] at hd
    rw [hcl'] at hd
    unfold computeErrorsCombined computeL1ErrorRelative computeL2ErrorRelative computeLinfErrorRelative
      computeL1Error computeL2Error computeLinfError
    simp only [NDArray.flatten, hcl', hd, bind, Except.bind, pure, Except.pure, npMax, List.map_cons]
    exact ⟨_, rfl⟩

/-! ### Examples -/

/-- The hypotheses of `C113_errors` are met: `float32` with numbers below the smallest normal one replaced by zero, and the
arrays `[1/3, 1]` and `[1/3, 2]`. -/
example : ∃ out, computeErrorsCombined ⟨[2], [1 / 3, 1]⟩ ⟨[2], [1 / 3, 2]⟩ = .ok out ∧
    UnderflowErrors (FlS ((2 : ℝ)⁻¹ ^ 24) (2 ^ (-126 : ℤ))) ⟨[2], [1 / 3, 1]⟩ ⟨[2], [1 / 3, 2]⟩ out := by
  have h : ∃ out, computeErrorsCombined ⟨[2], [1 / 3, 1]⟩ ⟨[2], [1 / 3, 2]⟩ = .ok out := ⟨_, rfl⟩
  obtain ⟨out, h⟩ := h
  exact ⟨out, h, (C113_returns _ _ (by positivity) (by positivity) _ _).1 out h ⟨1, by simp, one_ne_zero⟩⟩

/-- Nor are the conditions of `C113_relative` on the norms out of reach: the exact solution `[1, 1]`, `float32`. -/
example : 0 < rootMeanSquare [1, 1] ∧ 0 < meanAbs [1, 1] ∧ IsMaxAbs [1, 1] 1 ∧
    2 * (2 : ℝ) ^ (-126 : ℤ) ≤ (2 : ℝ)⁻¹ ^ 24 * (meanAbs [1, 1] * (1 - (2 : ℝ)⁻¹ ^ 24) ^ 2) ∧
    Real.sqrt (3 * 2 ^ (-126 : ℤ)) + 2 ^ (-126 : ℤ)
      ≤ (2 : ℝ)⁻¹ ^ 24 * (rootMeanSquare [1, 1] * (1 - (2 : ℝ)⁻¹ ^ 24) ^ 4) := by
  have e1 : rootMeanSquare [1, 1] = 1 := by norm_num [rootMeanSquare]
  have e2 : meanAbs [1, 1] = 1 := by norm_num [meanAbs]
  have h : Real.sqrt (3 * 2 ^ (-126 : ℤ)) ≤ 2 ^ (-62 : ℤ) := by
    refine Real.sqrt_le_iff.2 ⟨by positivity, by norm_num⟩
  refine ⟨by rw [e1]; norm_num, by rw [e2]; norm_num, ⟨by simp, 1, by simp, by simp⟩, by rw [e2]; norm_num, ?_⟩
  rw [e1]
  refine (add_le_add_left h _).trans ?_
  norm_num

/-- An error of `2 ^ -70` in single precision: the root-mean-square error is reported as zero. -/
example (r : ℝ) :
    UnderflowL2 (fun x r => r = flushed 24 (-126) x) ⟨[1], [(2 : ℝ) ^ (-70 : ℤ)]⟩ ⟨[1], [0]⟩ r ↔ r = 0 := by
  have key := (C113_vanishing 24 (-126) [1] [1] (fun _ : Fin 1 => (2 : ℝ) ^ (-70 : ℤ)) (fun _ => 0)).1
    (fun i => by norm_num)
  constructor
  · intro h
    exact key.1 r (by simpa using h)
  · rintro rfl
    have z := flushed_zero 24 (-126)
    have q := flushed_sq 24 (-126) (x := (2 : ℝ) ^ (-70 : ℤ)) (by norm_num)
    refine ⟨[flushed 24 (-126) (2 ^ (-70 : ℤ))], ⟨[2 ^ (-70 : ℤ) - 0], rfl, .cons (by rw [sub_zero]) .nil⟩,
      [0], 0, .cons q.symm .nil, ⟨by simp, 0, .one 0, by simp [z]⟩, by simp [z]⟩

end FastVPINNs
