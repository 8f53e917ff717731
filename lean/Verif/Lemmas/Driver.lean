import Verif.Model.Driver
import Verif.Spec.Driver
import Verif.Spec.Run
import Verif.Lemmas.Smooth
import Verif.Props.Utils
import Verif.Props.Attention

/-! # Lemmas on the driver scripts -/

namespace FastVPINNs

open Spec

/-! ## The loop -/

section
variable {α ρ : Type} (step : TrainState → Except PyErr (α × TrainState))
  (report : ℕ → α → TrainState → Files → Except PyErr (ρ × Files)) (update : ℤ) (N : ℕ)

lemma epochLoop_append (l : List ℕ) (e : ℕ) (s : LoopState α ρ) :
    epochLoop step report update N (l ++ [e]) s
      = match epochLoop step report update N l s with
        | .error x => .error x
        | .ok s' => epochBody step report update N e s' := by
  induction l generalizing s with
  | nil =>
    simp only [List.nil_append, epochLoop]
    cases epochBody step report update N e s <;> rfl
  | cons a l ih =>
    simp only [List.cons_append, epochLoop]
    cases epochBody step report update N a s with
    | error x => rfl
    | ok s' => exact ih s'

/-- The loop succeeds exactly if there is a sequence of states connected by the body. -/
lemma epochLoop_range (n : ℕ) (s s' : LoopState α ρ) :
    epochLoop step report update N (List.range n) s = .ok s' ↔
      ∃ S : ℕ → LoopState α ρ, S 0 = s ∧ S n = s' ∧
        ∀ k < n, epochBody step report update N k (S k) = .ok (S (k + 1)) := by
  induction n generalizing s' with
  | zero =>
    simp only [List.range_zero, epochLoop, Except.ok.injEq, Nat.not_lt_zero, false_implies, implies_true,
      and_true]
    exact ⟨fun h => ⟨fun _ => s, rfl, h⟩, fun ⟨S, h1, h2⟩ => h1.symm.trans h2⟩
  | succ n ih =>
    rw [List.range_succ, epochLoop_append]
    constructor
    · intro h
      split at h
      · exact absurd h (by simp)
      · rename_i s1 h1
        obtain ⟨S, h0, hn, hS⟩ := (ih s1).1 h1
        refine ⟨fun k => if k ≤ n then S k else s', by simpa using h0, by simp, fun k hk => ?_⟩
        rcases Nat.lt_succ_iff_lt_or_eq.1 hk with hk | rfl
        · simp only [hk.le, if_true, Nat.succ_le_of_lt hk, hS k hk]
        · simpa [hn] using h
    · rintro ⟨S, h0, hn, hS⟩
      rw [(ih (S n)).2 ⟨S, h0, rfl, fun k hk => hS k (by omega)⟩]
      simp only
      rw [hS n (by omega), hn]

/-- Epoch `e` is reported exactly if it is in the list of the specification. -/
lemma reportDue_iff (hu : update ≠ 0) (e : ℕ) (he : e < N) :
    reportDue update N e = .ok (decide (e ∈ reportEpochs update N)) := by
  unfold reportDue
  rw [if_neg hu]
  congr 1
  rw [Bool.eq_iff_iff]
  simp only [Bool.or_eq_true, decide_eq_true_eq, reportEpochs, List.mem_filter, List.mem_range, he, true_and,
    Int.dvd_iff_emod_eq_zero]
  constructor
  · rintro (h | h)
    · exact Or.inl h
    · exact Or.inr (by omega)
  · rintro (h | h)
    · exact Or.inl h
    · exact Or.inr (by omega)

lemma reportEpochs_filter (u : ℤ) (N n : ℕ) :
    (List.range (n + 1)).filter (fun e => decide (e ∈ reportEpochs u N))
      = (List.range n).filter (fun e => decide (e ∈ reportEpochs u N))
        ++ if n ∈ reportEpochs u N then [n] else [] := by
  rw [List.range_succ, List.filter_append]
  congr 1
  by_cases h : n ∈ reportEpochs u N <;> simp [h]

lemma reportEpochs_self (u : ℤ) (N : ℕ) :
    (List.range N).filter (fun e => decide (e ∈ reportEpochs u N)) = reportEpochs u N := by
  conv_rhs => rw [reportEpochs]
  refine List.filter_congr fun e he => ?_
  rw [List.mem_range] at he
  simp [reportEpochs, he]

/-- What a successful loop has done. -/
lemma epochLoop_ok (s s' : LoopState α ρ) (hl : s.losses = []) (hr : s.reports = [])
    (h : epochLoop step report update N (List.range N) s = .ok s') :
    (0 < N → update ≠ 0) ∧ s'.losses.length = N ∧
    ∃ (st : ℕ → TrainState) (fs : ℕ → Files), st 0 = s.model ∧ st N = s'.model ∧ fs 0 = s.files ∧
      fs N = s'.files ∧ IsRun step st s'.losses ∧
      List.Forall₂ (fun e r => ∃ out, s'.losses[e]? = some out ∧
        report e out (st (e + 1)) (fs e) = .ok (r, fs (e + 1))) (reportEpochs update N) s'.reports ∧
      ∀ e < N, e ∉ reportEpochs update N → fs (e + 1) = fs e := by
  obtain ⟨S, h0, hN, hS⟩ := (epochLoop_range step report update N N s s').1 h
  have hu : 0 < N → update ≠ 0 := by
    rintro hpos rfl
    have := hS 0 hpos
    unfold epochBody at this
    split at this
    · exact absurd this (by simp)
    · simp [reportDue] at this
  have hbody : ∀ k < N, ∃ loss, step (S k).model = .ok (loss, (S (k + 1)).model) ∧
      (S (k + 1)).losses = (S k).losses ++ [loss] ∧
      (k ∈ reportEpochs update N → ∃ r, report k loss (S (k + 1)).model (S k).files
        = .ok (r, (S (k + 1)).files) ∧ (S (k + 1)).reports = (S k).reports ++ [r]) ∧
      (k ∉ reportEpochs update N → (S (k + 1)).files = (S k).files ∧ (S (k + 1)).reports = (S k).reports) := by
    intro k hk
    have h1 := hS k hk
    unfold epochBody at h1
    split at h1
    · exact absurd h1 (by simp)
    · rename_i loss model h2
      rw [reportDue_iff update N (hu (by omega)) k hk] at h1
      by_cases hm : k ∈ reportEpochs update N
      · simp only [hm, decide_true] at h1
        split at h1
        · exact absurd h1 (by simp)
        · rename_i r files h3
          rw [← Except.ok.inj h1]
          exact ⟨loss, h2, rfl, fun _ => ⟨r, h3, rfl⟩, fun hn => absurd hm hn⟩
      · simp only [hm, decide_false] at h1
        rw [← Except.ok.inj h1]
        exact ⟨loss, h2, rfl, fun hn => absurd hn hm, fun _ => ⟨rfl, rfl⟩⟩
  have hlen : ∀ k ≤ N, (S k).losses.length = k := by
    intro k
    induction k with
    | zero => intro _; rw [h0, hl]; rfl
    | succ k ih =>
      intro hk
      obtain ⟨loss, -, h1, -⟩ := hbody k (by omega)
      rw [h1, List.length_append, ih (by omega)]
      rfl
  have hget : ∀ k ≤ N, ∀ j < k, s'.losses[j]? = (S k).losses[j]? := by
    intro k hk
    obtain ⟨d, hd⟩ := Nat.exists_eq_add_of_le hk
    induction d generalizing k with
    | zero => intro j _; rw [← hN, hd]; rfl
    | succ d ih =>
      intro j hj
      rw [ih (k + 1) (by omega) (by omega) j (by omega)]
      obtain ⟨loss, -, h1, -⟩ := hbody k (by omega)
      rw [h1, List.getElem?_append_left (by rw [hlen k (by omega)]; exact hj)]
  have hloss : ∀ k < N, ∃ loss, s'.losses[k]? = some loss ∧ step (S k).model = .ok (loss, (S (k + 1)).model) ∧
      (k ∈ reportEpochs update N → ∃ r, report k loss (S (k + 1)).model (S k).files
        = .ok (r, (S (k + 1)).files) ∧ (S (k + 1)).reports = (S k).reports ++ [r]) := by
    intro k hk
    obtain ⟨loss, h1, h2, h3, -⟩ := hbody k hk
    refine ⟨loss, ?_, h1, h3⟩
    rw [hget (k + 1) (by omega) k (by omega), h2,
      List.getElem?_append_right (by rw [hlen k (by omega)]), hlen k (by omega)]
    simp
  have hrep : ∀ k ≤ N, List.Forall₂ (fun e r => ∃ out, s'.losses[e]? = some out ∧
      report e out (S (e + 1)).model (S e).files = .ok (r, (S (e + 1)).files))
      ((List.range k).filter fun e => decide (e ∈ reportEpochs update N)) (S k).reports := by
    intro k
    induction k with
    | zero => intro _; rw [h0, hr]; exact List.Forall₂.nil
    | succ k ih =>
      intro hk
      rw [reportEpochs_filter]
      obtain ⟨loss, h1, h2, h3⟩ := hloss k (by omega)
      by_cases hm : k ∈ reportEpochs update N
      · obtain ⟨r, h4, h5⟩ := h3 hm
        rw [if_pos hm, h5]
        exact List.rel_append (ih (by omega)) (.cons ⟨loss, h1, h4⟩ .nil)
      · obtain ⟨-, -, -, -, h6⟩ := hbody k (by omega)
        rw [if_neg hm, List.append_nil, (h6 hm).2]
        exact ih (by omega)
  refine ⟨hu, by rw [← hN]; exact hlen N le_rfl, fun k => (S k).model, fun k => (S k).files,
    by simp only [h0], by simp only [hN], by simp only [h0], by simp only [hN], fun k hk => ?_, ?_, fun e he hm => ?_⟩
  · have hk' : k < N := by rwa [← hlen N le_rfl, hN]
    obtain ⟨loss, h1, h2, -⟩ := hloss k hk'
    rw [List.getElem?_eq_getElem hk] at h1
    rw [Option.some.inj h1]
    exact h2
  · have := hrep N le_rfl
    rwa [reportEpochs_self, hN] at this
  · obtain ⟨-, -, -, -, h6⟩ := hbody e he
    exact (h6 hm).1

/-- The loop succeeds if all steps and reports do. -/
lemma epochLoop_succeeds (hu : update ≠ 0) (hstep : ∀ s, ∃ r, step s = .ok r)
    (hrep : ∀ e l s f, ∃ r, report e l s f = .ok r) (l : List ℕ) (s : LoopState α ρ) :
    ∃ s', epochLoop step report update N l s = .ok s' := by
  induction l generalizing s with
  | nil => exact ⟨s, rfl⟩
  | cons e l ih =>
    have : ∃ s1, epochBody step report update N e s = .ok s1 := by
      obtain ⟨⟨loss, model⟩, h1⟩ := hstep s.model
      obtain ⟨⟨r, files⟩, h2⟩ := hrep e loss model s.files
      unfold epochBody reportDue
      rw [h1, if_neg hu]
      simp only
      cases (decide (((e : ℤ) + 1) % update = 0) || decide ((e : ℤ) = N - 1))
      · exact ⟨_, rfl⟩
      · simp only [h2]; exact ⟨_, rfl⟩
    obtain ⟨s1, h1⟩ := this
    simp only [epochLoop, h1]
    exact ih s1

/-- The same when reports need and keep a property of the files. -/
lemma epochLoop_invariant (hu : update ≠ 0) (hstep : ∀ s, ∃ r, step s = .ok r) (I : Files → Prop) (J : ρ → Prop)
    (hrep : ∀ e l s f, I f → ∃ r f', report e l s f = .ok (r, f') ∧ I f' ∧ J r) (l : List ℕ) (s : LoopState α ρ)
    (hI : I s.files) (hJ : ∀ r ∈ s.reports, J r) :
    ∃ s', epochLoop step report update N l s = .ok s' ∧ I s'.files ∧ ∀ r ∈ s'.reports, J r := by
  induction l generalizing s with
  | nil => exact ⟨s, rfl, hI, hJ⟩
  | cons e l ih =>
    have : ∃ s1, epochBody step report update N e s = .ok s1 ∧ I s1.files ∧ ∀ r ∈ s1.reports, J r := by
      obtain ⟨⟨loss, model⟩, h1⟩ := hstep s.model
      obtain ⟨r, files, h2, h3, h4⟩ := hrep e loss model s.files hI
      unfold epochBody reportDue
      rw [h1, if_neg hu]
      simp only
      cases (decide (((e : ℤ) + 1) % update = 0) || decide ((e : ℤ) = N - 1))
      · exact ⟨_, rfl, hI, hJ⟩
      · simp only [h2]
        refine ⟨_, rfl, h3, fun r hr => ?_⟩
        rcases List.mem_append.1 hr with hr | hr
        · exact hJ r hr
        · rw [List.mem_singleton.1 hr]; exact h4
    obtain ⟨s1, h1, h2, h3⟩ := this
    simp only [epochLoop, h1]
    exact ih s1 h2 h3

end

/-- The last epoch is always reported. -/
lemma reportEpochs_last (u : ℤ) (N : ℕ) (h : 0 < N) :
    (reportEpochs u N).getLast? = some (N - 1) := by
  obtain ⟨n, rfl⟩ : ∃ n, N = n + 1 := ⟨N - 1, by omega⟩
  rw [reportEpochs, List.range_succ, List.filter_append]
  simp

lemma forall₂_getLast {β γ : Type} {R : β → γ → Prop} {l : List β} {m : List γ} (h : List.Forall₂ R l m) :
    (l = [] ∧ m = []) ∨ ∃ a b, l.getLast? = some a ∧ m.getLast? = some b ∧ R a b := by
  induction h with
  | nil => exact Or.inl ⟨rfl, rfl⟩
  | cons h t ih =>
    right
    rcases ih with ⟨rfl, rfl⟩ | ⟨a, b, h1, h2, h3⟩
    · exact ⟨_, _, rfl, rfl, h⟩
    · refine ⟨a, b, ?_, ?_, h3⟩
      · rw [List.getLast?_cons, h1]; rfl
      · rw [List.getLast?_cons, h2]; rfl

lemma forall₂_with_mem {α β : Type} {R : α → β → Prop} {l : List α} {l' : List β}
    (h : List.Forall₂ R l l') : List.Forall₂ (fun a b => a ∈ l ∧ R a b) l l' := by
  induction h with
  | nil => exact .nil
  | cons h _ ih => exact .cons ⟨by simp, h⟩ (ih.imp fun a b hab => ⟨by simp [hab.1], hab.2⟩)

lemma forall₂_mem_left {β γ : Type} {R : β → γ → Prop} {l : List β} {m : List γ} (h : List.Forall₂ R l m)
    {a : β} (ha : a ∈ l) : ∃ b ∈ m, R a b := by
  induction h with
  | nil => simp at ha
  | cons h t ih =>
    rcases List.mem_cons.1 ha with rfl | ha
    · exact ⟨_, by simp, h⟩
    · obtain ⟨b, hb, hr⟩ := ih ha
      exact ⟨b, by simp [hb], hr⟩

/-! ## The network -/

lemma kernels_layersAt_eq (θ : Weights) (k₀ n : ℕ) (specs : List LayerSpec) (k i j : ℕ)
    (hk : k < specs.length) (hi : i < (n :: specs.map LayerSpec.units).getD k 0) (hj : j < specs[k].units) :
    kernels (layersAt θ k₀ n specs) k i j = θ (.kernel (k₀ + k) i j) := by
  induction specs generalizing k₀ n k with
  | nil => simp at hk
  | cons s rest ih =>
    cases k with
    | zero =>
      have h1 : i < n := by simpa using hi
      have h2 : j < s.units := by simpa using hj
      simp [kernels, layersAt, kernelAt, h1, h2]
    | succ k =>
      have := ih (k₀ + 1) s.units k (by simpa using hk) (by simpa using hi) (by simpa using hj)
      rw [show k₀ + (k + 1) = k₀ + 1 + k by omega, ← this]
      simp [kernels, layersAt]

lemma biases_layersAt_eq (θ : Weights) (k₀ n : ℕ) (specs : List LayerSpec) (k j : ℕ)
    (hk : k < specs.length) (hj : j < specs[k].units) :
    biases (layersAt θ k₀ n specs) k j = θ (.bias (k₀ + k) j) := by
  induction specs generalizing k₀ n k with
  | nil => simp at hk
  | cons s rest ih =>
    cases k with
    | zero =>
      have h2 : j < s.units := by simpa using hj
      simp [biases, layersAt, biasAt, h2]
    | succ k =>
      have := ih (k₀ + 1) s.units k (by simpa using hk) (by simpa using hj)
      rw [show k₀ + (k + 1) = k₀ + 1 + k by omega, ← this]
      simp [biases, layersAt]

lemma hiddenValues_weights_congr (σ : ℝ → ℝ) (dims : ℕ → ℕ) (W W' : ℕ → ℕ → ℕ → ℝ) (b b' : ℕ → ℕ → ℝ)
    (x : ℕ → ℝ) (m : ℕ) (hW : ∀ k ≤ m, ∀ i < dims k, ∀ j < dims (k + 1), W k i j = W' k i j)
    (hb : ∀ k ≤ m, ∀ j < dims (k + 1), b k j = b' k j) (k : ℕ) (hk : k ≤ m) :
    ∀ j < dims k, hiddenValues σ dims W b x k j = hiddenValues σ dims W' b' x k j := by
  induction k with
  | zero => intro j _; rfl
  | succ k ih =>
    intro j hj
    simp only [hiddenValues]
    rw [hb k (by omega) j hj, Finset.sum_congr rfl fun i hi => by
      rw [ih (by omega) i (Finset.mem_range.1 hi), hW k (by omega) i (Finset.mem_range.1 hi) j hj]]

/-- The model with the weights `θ` computes the network of the specification. -/
lemma outputValue_layersAt (σ : ℝ → ℝ) (dims : List ℕ) (a : String) (specs : List LayerSpec)
    (h : 2 ≤ dims.length) (hs : layerSpecs dims a = .ok specs) (θ : Weights) (x : ℕ → ℝ) (j : ℕ)
    (hj : j < dims.getD (dims.length - 1) 0) :
    outputValue σ (fun k => dims.getD k 0) (kernels (layersAt θ 0 (dims.getD 0 0) specs))
        (biases (layersAt θ 0 (dims.getD 0 0) specs)) (dims.length - 2) x j
      = outputValue σ (fun k => dims.getD k 0) (fun k i j => θ (.kernel k i j)) (fun k j => θ (.bias k j))
        (dims.length - 2) x j := by
  obtain ⟨specs', h1, h2, h3⟩ := C51_layers dims a h
  obtain rfl : specs = specs' := Except.ok.inj (hs.symm.trans h1)
  have hu : ∀ k (hk : k < specs.length), specs[k].units = dims.getD (k + 1) 0 := fun k hk => by
    rw [h3 k hk (by omega), getD_lt _ _ _ (by omega)]
  have hd : dims.getD 0 0 :: specs.map LayerSpec.units = dims := by
    refine List.ext_getElem (by simpa using h2) fun k hk hk' => ?_
    cases k with
    | zero => simp [List.getD_eq_getElem?_getD, List.getElem?_eq_getElem hk']
    | succ k =>
      rw [List.getElem_cons_succ, List.getElem_map, h3 k (by simpa using hk) (by omega)]
  have hW : ∀ k ≤ dims.length - 2, ∀ i < dims.getD k 0, ∀ j < dims.getD (k + 1) 0,
      kernels (layersAt θ 0 (dims.getD 0 0) specs) k i j = θ (.kernel k i j) := fun k hk i hi j hj => by
    rw [kernels_layersAt_eq θ 0 _ specs k i j (by omega) (by rw [hd]; exact hi)
      (by rw [hu k (by omega)]; exact hj), Nat.zero_add]
  have hb : ∀ k ≤ dims.length - 2, ∀ j < dims.getD (k + 1) 0,
      biases (layersAt θ 0 (dims.getD 0 0) specs) k j = θ (.bias k j) := fun k hk j hj => by
    rw [biases_layersAt_eq θ 0 _ specs k j (by omega) (by rw [hu k (by omega)]; exact hj), Nat.zero_add]
  have hj' : j < dims.getD (dims.length - 2 + 1) 0 := by
    rwa [show dims.length - 2 + 1 = dims.length - 1 by omega]
  unfold outputValue
  rw [hb _ le_rfl j hj', Finset.sum_congr rfl fun i hi => by
    rw [hiddenValues_weights_congr σ (fun k => dims.getD k 0) _ _ _ _ x (dims.length - 2) hW hb _ le_rfl i
      (Finset.mem_range.1 hi), hW _ le_rfl i (Finset.mem_range.1 hi) j hj']]

/-- The values a model without attention predicts at a list of points. -/
lemma callDense_points (act : String → ℝ → ℝ) (attention : Batch → Except PyErr Batch) (dims : List ℕ)
    (a : String) (specs : List LayerSpec) (h : 2 ≤ dims.length) (hs : layerSpecs dims a = .ok specs)
    (h0 : dims.getD 0 0 = 2) (hl : dims.getD (dims.length - 1) 0 = 1) (θ : Weights) (pts : List (ℝ × ℝ)) :
    callDense act attention false (layersAt θ 0 2 specs) (pts.map fun z => [z.1, z.2])
      = .ok ((pts.map (networkValue (act a) dims θ)).map fun v => [v]) := by
  have harch := layersAt_arch dims a specs h hs θ
  obtain ⟨Y, hY, hlen, hrow⟩ := C51_call act a dims _ harch attention (pts.map fun z => [z.1, z.2]) (by
      intro x hx
      obtain ⟨z, -, rfl⟩ := List.mem_map.1 hx
      rw [h0]; rfl)
  rw [h0] at hY
  rw [hY]
  congr 1
  refine List.ext_getElem (by simpa using hlen) fun k hk hk' => ?_
  obtain ⟨h1, h2⟩ := hrow k (by rw [← hlen]; exact hk) hk
  rw [hl] at h1 h2
  obtain ⟨v, hv⟩ := List.length_eq_one_iff.1 h1
  have h3 := h2 0 (by norm_num)
  rw [hv] at h3 ⊢
  simp only [List.getElem_map, List.cons.injEq, and_true]
  have h3' : v = _ := h3
  rw [h3', outputValue_layersAt (act a) dims a specs h hs θ _ 0 (by rw [hl]; norm_num)]
  unfold networkValue
  refine outputValue_congr _ _ _ _ _ _ (fun i hi => ?_) _ _
  rw [h0] at hi
  interval_cases i <;> simp

lemma pointRows_ofList (pts : List (ℝ × ℝ)) :
    pointRows (fun i : Fin pts.length => pts[i]) = pts.map fun z => [z.1, z.2] := by
  unfold pointRows
  exact List.ext_getElem (by simp) fun k _ _ => by simp

lemma attended_get (pts : List (ℝ × ℝ)) (r : Fin pts.length) :
    attended (fun i : Fin pts.length => pts[i]) r = attendedPoint pts pts[r] := by
  have hs : ∀ f : ℝ × ℝ → ℝ, ∑ s : Fin pts.length, f pts[s] = (pts.map f).sum := fun f => by
    rw [← List.sum_ofFn]
    congr 1
    exact List.ext_getElem (by simp) fun k _ _ => by simp
  unfold attended attendedPoint
  rw [hs fun x => Real.exp (dot pts[r] x) * x.1, hs fun x => Real.exp (dot pts[r] x) * x.2,
    hs fun x => Real.exp (dot pts[r] x)]

/-- What the attention layer makes of a list of points. -/
lemma attentionDot_points (pts : List (ℝ × ℝ)) :
    attentionDot (pts.map fun z => [z.1, z.2])
      = .ok ((pts.map (attendedPoint pts)).map fun z => [z.1, z.2]) := by
  rw [← pointRows_ofList, attentionDot_pointRows]
  congr 1
  unfold pointRows
  refine List.ext_getElem (by simp) fun k h1 h2 => ?_
  simp only [List.getElem_ofFn, List.getElem_map]
  rw [attended_get]
  rfl

/-- With attention, a model is the model without attention at the averaged points. -/
lemma callDense_attend (act : String → ℝ → ℝ) (attention : Batch → Except PyErr Batch) (att : Bool)
    (hatt : att = true → attention = attentionDot) (layers : List DenseLayer) (pts : List (ℝ × ℝ)) :
    callDense act attention att layers (pts.map fun z => [z.1, z.2])
      = callDense act attention false layers
          ((pts.map fun p => if att then attendedPoint pts p else p).map fun z => [z.1, z.2]) := by
  cases att
  · simp
  · rw [hatt rfl]
    simp only [callDense, if_true, attentionDot_points, Bool.false_eq_true, if_false]

/-- The values a model predicts at a list of points. -/
lemma callDense_batch (act : String → ℝ → ℝ) (attention : Batch → Except PyErr Batch) (att : Bool)
    (hatt : att = true → attention = attentionDot) (dims : List ℕ)
    (a : String) (specs : List LayerSpec) (h : 2 ≤ dims.length) (hs : layerSpecs dims a = .ok specs)
    (h0 : dims.getD 0 0 = 2) (hl : dims.getD (dims.length - 1) 0 = 1) (θ : Weights) (pts : List (ℝ × ℝ)) :
    callDense act attention att (layersAt θ 0 2 specs) (pts.map fun z => [z.1, z.2])
      = .ok ((pts.map (batchValue att pts (act a) dims θ)).map fun v => [v]) := by
  rw [callDense_attend act attention att hatt, callDense_points act attention dims a specs h hs h0 hl,
    List.map_map, List.map_map, List.map_map]
  rfl

lemma flatten_singletons (l : List ℝ) : (l.map fun v => [v]).flatten = l := by
  induction l with
  | nil => rfl
  | cons v l ih => simp only [List.map_cons, List.flatten_cons, ih, List.singleton_append]

/-! ## The errors -/

lemma errors_at (pts : List (ℝ × ℝ)) (hne : pts ≠ []) (u v : ℝ × ℝ → ℝ) :
    ∃ l2 linf l2r linfr l1 l1r,
      computeErrorsCombined (array1 (pts.map u)) (array1 (pts.map v)) = .ok (l2, linf, l2r, linfr, l1, l1r) ∧
      ErrorsAt pts u v l2 linf l2r linfr l1 l1r := by
  have hn : 0 < pts.length := List.length_pos_iff.2 hne
  have hl : ∀ {β : Type} (g : ℝ × ℝ → β), pts.map g = List.ofFn fun i : Fin pts.length => g (pts.get i) :=
    fun g => by
      conv_lhs => rw [← List.ofFn_get pts]
      rw [List.map_ofFn]; rfl
  have hset : ∀ g : ℝ × ℝ → ℝ, {x | ∃ p ∈ pts, g p = x} = Set.range fun i : Fin pts.length => g (pts.get i) := by
    intro g
    ext x
    simp only [Set.mem_setOf_eq, Set.mem_range]
    constructor
    · rintro ⟨p, hp, rfl⟩
      obtain ⟨i, rfl⟩ := List.get_of_mem hp
      exact ⟨i, rfl⟩
    · rintro ⟨i, rfl⟩
      exact ⟨_, List.get_mem _ _, rfl⟩
  obtain ⟨l2, linf, l2r, linfr, l1, l1r, a1, a2, a3, a4, a5, a6, h⟩ := C56_combined hn
    [(pts.map u).length] [(pts.map v).length] (fun i => u (pts.get i)) (fun i => v (pts.get i)) [] []
  rw [← hl u, ← hl v] at h
  refine ⟨l2, linf, l2r, linfr, l1, l1r, h, ?_⟩
  obtain ⟨m1, m2, minf, b1, b2, b3, c1, c2, c3, c4, c5⟩ := C53_formulas hn [] [] (fun i => u (pts.get i))
    (fun i => v (pts.get i))
  obtain rfl := Except.ok.inj (b1.symm.trans a5)
  obtain rfl := Except.ok.inj (b2.symm.trans a1)
  obtain rfl := Except.ok.inj (b3.symm.trans a2)
  have hgr : IsGreatest {x | ∃ p ∈ pts, |u p - v p| = x} minf := by
    rw [hset fun p => |u p - v p|]
    refine ⟨?_, ?_⟩
    · obtain ⟨i, hi⟩ := c5
      exact ⟨i, hi⟩
    · rintro x ⟨i, rfl⟩
      exact c4 i
  refine ⟨?_, c2, ?_, hgr, ?_⟩
  · rw [c1, hl, List.sum_ofFn]
  · rw [c3, hl, List.sum_ofFn]
  · rintro ⟨p, hp, hup⟩
    obtain ⟨d1, d2, d3, m, k, d4, d5, d6⟩ := C55_formulas hn [] [] (fun i => u (pts.get i))
      (fun i => v (pts.get i)) (by
        obtain ⟨i, rfl⟩ := List.get_of_mem hp
        exact fun hz => hup (congrFun hz i)) l1r l2r linfr a6 a3 a4
    refine ⟨?_, d2, ?_, k, ?_, ?_⟩
    · rw [hl, hl, List.sum_ofFn, List.sum_ofFn]; exact d1
    · rw [hl, hl, List.sum_ofFn, List.sum_ofFn]; exact d3
    · rw [hset fun p => |u p|]; exact d5
    · rw [d6]
      rw [hset fun p => |u p - v p|] at hgr
      exact d4.unique hgr

lemma npSub_map (pts : List (ℝ × ℝ)) (u v : ℝ × ℝ → ℝ) :
    npSub (pts.map u) (pts.map v) = .ok (pts.map fun p => u p - v p) := by
  unfold npSub
  rw [if_pos (by simp)]
  congr 1
  rw [List.zipWith_map, List.zipWith_self]

end FastVPINNs
