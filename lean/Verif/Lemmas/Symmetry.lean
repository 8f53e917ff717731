import Verif.Spec.Symmetry
import Verif.Lemmas.Training
import Mathlib.Analysis.Calculus.Deriv.Shift
import Mathlib.Data.List.GetD

/-! # Lemmas on renumbered units -/

namespace FastVPINNs

open Spec

/-- What enters layer `k` afterwards. -/
def Spec.Relabelling.row (S : Relabelling) (k : ℕ) (x : List ℝ) : List ℝ :=
  List.ofFn fun i : Fin x.length => S.sign k i * x.getD (S.perm k i) 0

section
variable {S : Relabelling}

lemma relabel_length (k : ℕ) (x : List ℝ) : (S.row k x).length = x.length := by simp [Relabelling.row]

lemma relabel_trivial {k : ℕ} (h : ∀ i, S.perm k i = i ∧ S.sign k i = 1) (x : List ℝ) : S.row k x = x := by
  refine List.ext_getElem (relabel_length k x) fun i h1 h2 => ?_
  simp [Relabelling.row, h]

/-- Sums over the units. -/
lemma sum_relabel {n : ℕ} (e : Equiv.Perm ℕ) (h : ∀ i, e i < n ↔ i < n) (f : ℕ → ℝ) :
    ∑ i : Fin n, f (e i) = ∑ i : Fin n, f i := by
  have hi : ∀ i : Fin n, e.symm i < n := fun i => by
    have := h (e.symm i)
    rw [Equiv.apply_symm_apply] at this
    exact this.1 i.isLt
  exact Fintype.sum_equiv ⟨fun i => ⟨e i, (h i).2 i.isLt⟩, fun i => ⟨e.symm i, hi i⟩, fun i => by simp, fun i => by simp⟩
    _ _ fun i => rfl

lemma applyLayer_relabel {act : String → ℝ → ℝ} {θ : Weights} {k n : ℕ} {l : LayerSpec}
    (hn : ∀ i, S.perm k i < n ↔ i < n) (hu : ∀ j, S.perm (k + 1) j < l.units ↔ j < l.units)
    (hs : ∀ j, S.sign (k + 1) j = 1 ∨ S.sign (k + 1) j = -1) (hs' : ∀ i, S.sign k i = 1 ∨ S.sign k i = -1)
    (ho : ∀ j, S.sign (k + 1) j = 1 ∨ ∀ a, l.activation = some a → ∀ z, act a (-z) = -act a z) (x : List ℝ) :
    applyLayer act ⟨n, l.units, fun i j => S.apply θ (.kernel k i j), fun j => S.apply θ (.bias k j), l.activation⟩ (S.row k x)
      = (applyLayer act ⟨n, l.units, fun i j => θ (.kernel k i j), fun j => θ (.bias k j), l.activation⟩ x).map
        (S.row (k + 1)) := by
  unfold applyLayer
  by_cases hx : x.length = n
  · have hx' : (S.row k x).length = n := by rw [relabel_length, hx]
    simp only [dif_pos hx, dif_pos hx', Except.map]
    congr 1
    refine List.ext_getElem (by simp [relabel_length]) fun j h1 h2 => ?_
    have hj : j < l.units := by simpa using h1
    have hpj : S.perm (k + 1) j < l.units := (hu j).2 hj
    have hz : (∑ i : Fin n, (S.row k x)[i.val]'(by omega) * S.apply θ (.kernel k i j)) + S.apply θ (.bias k j)
        = S.sign (k + 1) j * ((∑ i : Fin n, x[i.val]'(by omega) * θ (.kernel k i (S.perm (k + 1) j)))
          + θ (.bias k (S.perm (k + 1) j))) := by
      have h3 := sum_relabel (S.perm k) hn fun i => x.getD i 0 * θ (.kernel k i (S.perm (k + 1) j))
      have h4 : ∑ i : Fin n, x[i.val]'(by omega) * θ (.kernel k i (S.perm (k + 1) j))
          = ∑ i : Fin n, x.getD i 0 * θ (.kernel k i (S.perm (k + 1) j)) :=
        Finset.sum_congr rfl fun i _ => by rw [List.getD_eq_getElem _ _ (by omega)]
      rw [h4, ← h3, mul_add, Finset.mul_sum]
      congr 1
      refine Finset.sum_congr rfl fun i _ => ?_
      have e : S.sign k i * S.sign k i = 1 := by rcases hs' i with h | h <;> rw [h] <;> norm_num
      simp only [Relabelling.row, List.getElem_ofFn, Relabelling.apply, Relabelling.factor, Relabelling.source]
      linear_combination (x.getD (S.perm k i) 0 * (S.sign (k + 1) j * θ (.kernel k (S.perm k i) (S.perm (k + 1) j)))) * e
    simp only [Relabelling.row, List.getElem_ofFn] at hz ⊢
    rw [List.getD_eq_getElem _ _ (by simpa using hpj), List.getElem_ofFn]
    simp only
    rw [hz]
    cases ha : l.activation with
    | none => rfl
    | some a =>
      simp only
      rcases ho j with h | h
      · rw [h, one_mul, one_mul]
      · rcases hs j with h' | h'
        · rw [h', one_mul, one_mul]
        · rw [h', neg_one_mul, neg_one_mul, h a ha]
  · have hx' : ¬ (S.row k x).length = n := by rw [relabel_length]; exact hx
    simp only [dif_neg hx, dif_neg hx', Except.map]

lemma mapE_map_row {f g : List ℝ → Except PyErr (List ℝ)} {a b : List ℝ → List ℝ} (h : ∀ x, f (a x) = (g x).map b) :
    ∀ xs : Batch, mapE f (xs.map a) = (mapE g xs).map fun ys => ys.map b
  | [] => rfl
  | x :: xs => by
    simp only [List.map_cons, mapE, h x, mapE_map_row h xs]
    cases g x <;> cases mapE g xs <;> rfl

lemma applyLayers_relabel {act : String → ℝ → ℝ} {θ : Weights} (hsg : ∀ k j, S.sign k j = 1 ∨ S.sign k j = -1) :
    ∀ (specs : List LayerSpec) (k n : ℕ), (∀ i, S.perm k i < n ↔ i < n) →
    (∀ q l, specs[q]? = some l → ∀ j, S.perm (k + q + 1) j < l.units ↔ j < l.units) →
    (∀ q l, specs[q]? = some l → ∀ j, S.sign (k + q + 1) j = 1 ∨ ∀ a, l.activation = some a → ∀ z, act a (-z) = -act a z) →
    ∀ xs : Batch, applyLayers act (layersAt (S.apply θ) k n specs) (xs.map (S.row k))
      = (applyLayers act (layersAt θ k n specs) xs).map fun ys => ys.map (S.row (k + specs.length))
  | [], k, n, _, _, _, xs => rfl
  | l :: specs, k, n, hn, hu, ho, xs => by
    simp only [layersAt, applyLayers]
    rw [mapE_map_row (applyLayer_relabel hn (hu 0 l rfl) (hsg _) (hsg _) (ho 0 l rfl)) xs]
    cases mapE (applyLayer act ⟨n, l.units, fun i j => θ (.kernel k i j), fun j => θ (.bias k j), l.activation⟩) xs with
    | error e => rfl
    | ok y =>
      have := applyLayers_relabel (θ := θ) hsg specs (k + 1) l.units (hu 0 l rfl)
        (fun q l' h => by have := hu (q + 1) l' h; rwa [show k + (q + 1) + 1 = k + 1 + q + 1 by ring] at this)
        (fun q l' h => by have := ho (q + 1) l' h; rwa [show k + (q + 1) + 1 = k + 1 + q + 1 by ring] at this) y
      rw [show k + (l :: specs).length = k + 1 + specs.length by simp; ring]
      exact this

variable {act : String → ℝ → ℝ} {specs : List LayerSpec} (hS : HiddenUnits act specs S)
include hS

lemma callDense_apply (attention : Batch → Except PyErr Batch) (useAttention : Bool) (inDim : ℕ) (θ : Weights) (xs : Batch) :
    callDense act attention useAttention (layersAt (S.apply θ) 0 inDim specs) xs
      = callDense act attention useAttention (layersAt θ 0 inDim specs) xs := by
  have key : ∀ xs : Batch, applyLayers act (layersAt (S.apply θ) 0 inDim specs) xs
      = applyLayers act (layersAt θ 0 inDim specs) xs := by
    intro xs
    have h := applyLayers_relabel (θ := θ) hS.signs specs 0 inDim (fun i => by rw [(hS.inputs i).1])
      (fun q l h => by simpa using hS.within q l h) (fun q l h => by simpa using hS.odd q l h) xs
    have e1 : xs.map (S.row 0) = xs := by
      rw [List.map_congr_left fun x _ => relabel_trivial hS.inputs x, List.map_id']
    have e2 : (fun ys : Batch => ys.map (S.row (0 + specs.length))) = id := by
      funext ys
      rw [Nat.zero_add, List.map_congr_left fun x _ => relabel_trivial hS.outputs x, List.map_id']
      rfl
    rw [e1, e2] at h
    rw [h]
    cases applyLayers act (layersAt θ 0 inDim specs) xs <;> rfl
  unfold callDense
  split
  · cases attention xs with
    | error e => rfl
    | ok x => exact key x
  · exact key xs

lemma factor_sign (v : Var) : S.factor v = 1 ∨ S.factor v = -1 := by
  cases v with
  | kernel k i j =>
    rcases hS.signs k i with h | h <;> rcases hS.signs (k + 1) j with h' | h' <;> simp [Relabelling.factor, h, h']
  | bias k j => exact hS.signs _ _
  | inverse key => exact .inl rfl

omit hS in
lemma source_injective : Function.Injective S.source := by
  intro v w h
  cases v <;> cases w <;> simp_all [Relabelling.source]
  · obtain ⟨rfl, h1, h2⟩ := h
    exact ⟨(S.perm _).injective h1, (S.perm _).injective h2⟩
  · obtain ⟨rfl, h1⟩ := h
    exact (S.perm _).injective h1

omit hS in
lemma source_mem_layerVars (v : Var) : ∀ (sp : List LayerSpec) (k n : ℕ), (∀ i, S.perm k i < n ↔ i < n) →
    (∀ q l, sp[q]? = some l → ∀ j, S.perm (k + q + 1) j < l.units ↔ j < l.units) →
    (S.source v ∈ layerVars k n sp ↔ v ∈ layerVars k n sp)
  | [], _, _, _, _ => by simp [layerVars]
  | l :: sp, k, n, hn, hu => by
    have ih := source_mem_layerVars v sp (k + 1) l.units (hu 0 l rfl)
      (fun q l' h => by have := hu (q + 1) l' h; rwa [show k + (q + 1) + 1 = k + 1 + q + 1 by ring] at this)
    have h0 : ∀ j, S.perm (k + 1) j < l.units ↔ j < l.units := hu 0 l rfl
    simp only [layerVars, List.mem_append, ih]
    refine or_congr (or_congr ?_ ?_) Iff.rfl
    · simp only [List.mem_flatMap, List.mem_map, List.mem_range]
      cases v with
      | kernel k' i j =>
        simp only [Relabelling.source, Var.kernel.injEq]
        constructor
        · rintro ⟨i', h1, j', h2, rfl, rfl, rfl⟩
          exact ⟨i, (hn i).1 h1, j, (h0 j).1 h2, rfl, rfl, rfl⟩
        · rintro ⟨i', h1, j', h2, rfl, rfl, rfl⟩
          exact ⟨_, (hn _).2 h1, _, (h0 _).2 h2, rfl, rfl, rfl⟩
      | bias k' j => simp [Relabelling.source]
      | inverse key => simp [Relabelling.source]
    · simp only [List.mem_map, List.mem_range]
      cases v with
      | kernel k' i j => simp [Relabelling.source]
      | bias k' j =>
        simp only [Relabelling.source, Var.bias.injEq]
        constructor
        · rintro ⟨j', h2, rfl, rfl⟩
          exact ⟨j, (h0 j).1 h2, rfl, rfl⟩
        · rintro ⟨j', h2, rfl, rfl⟩
          exact ⟨_, (h0 _).2 h2, rfl, rfl⟩
      | inverse key => simp [Relabelling.source]

lemma relabel_mem (inDim : ℕ) (keys : List String) (v : Var) :
    S.source v ∈ trainableVariables inDim specs keys ↔ v ∈ trainableVariables inDim specs keys := by
  simp only [trainableVariables, List.mem_append]
  refine or_congr (source_mem_layerVars v specs 0 inDim (fun i => by rw [(hS.inputs i).1])
    (fun q l h => by simpa using hS.within q l h)) ?_
  cases v <;> simp [Relabelling.source]

lemma lossGradient_apply {α : Type} {fwd : Forward α} (h : ∀ θ, fwd (S.apply θ) = fwd θ) (θ : Weights) (v : Var) :
    lossGradient fwd (S.apply θ) v = S.factor v * lossGradient fwd θ (S.source v) := by
  have ht : ∀ θ, fwd.total (S.apply θ) = fwd.total θ := fun θ => by unfold Forward.total; rw [h]
  have hf := factor_sign hS v
  have hff : S.factor v * S.factor v = 1 := by rcases hf with h | h <;> rw [h] <;> norm_num
  have hup : ∀ y, Function.update (S.apply θ) v y = S.apply (Function.update θ (S.source v) (S.factor v * y)) := by
    intro y
    funext w
    by_cases hw : w = v
    · subst hw
      simp only [Function.update_self, Relabelling.apply]
      rw [← mul_assoc, hff, one_mul]
    · have : S.source w ≠ S.source v := fun e => hw (source_injective e)
      simp [Relabelling.apply, hw, this]
  unfold lossGradient
  simp only [hup, ht]
  show deriv (fun t => fwd.total (Function.update θ (S.source v) (S.factor v * t))) (S.factor v * θ (S.source v)) = _
  rcases hf with h | h
  · simp only [h, one_mul]
  · simp only [h, neg_one_mul]
    rw [deriv_comp_neg (fun t => fwd.total (Function.update θ (S.source v) t)), neg_neg]

lemma trainStep_apply {α : Type} {fwd : Forward α} (h : ∀ θ, fwd (S.apply θ) = fwd θ) {vars : List Var} (hn : vars.Nodup)
    (hm : ∀ v, S.source v ∈ vars ↔ v ∈ vars) (lr : LearningRate) (s : TrainState) :
    trainStepWith fwd vars lr (S.state s) = (trainStepWith fwd vars lr s).map fun r => (r.1, S.state r.2) := by
  unfold trainStepWith
  have e : fwd (S.state s).weights = fwd s.weights := h s.weights
  rw [e]
  cases fwd s.weights with
  | error e => rfl
  | ok o =>
    simp only [Except.map]
    rw [applyGradients_eq lr _ vars hn, applyGradients_eq lr _ vars hn]
    have hg : ∀ x, lossGradient fwd (S.state s).weights x = S.factor x * lossGradient fwd s.weights (S.source x) :=
      lossGradient_apply hS h s.weights
    have hM : ∀ x, adamM ((S.state s).adam.m x) (lossGradient fwd (S.state s).weights x)
        = S.factor x * adamM (s.adam.m (S.source x)) (lossGradient fwd s.weights (S.source x)) := by
      intro x
      rw [hg]
      simp only [Relabelling.state, Relabelling.apply, adamM]
      ring
    have hV : ∀ x, adamV ((S.state s).adam.v x) (lossGradient fwd (S.state s).weights x)
        = adamV (s.adam.v (S.source x)) (lossGradient fwd s.weights (S.source x)) := by
      intro x
      have hff : S.factor x ^ 2 = 1 := by rcases factor_sign hS x with h | h <;> rw [h] <;> norm_num
      rw [hg]
      simp only [Relabelling.state, adamV, mul_pow, hff, one_mul]
    simp only [hM, hV]
    simp only [Relabelling.state, Relabelling.apply, Except.ok.injEq, Prod.mk.injEq, TrainState.mk.injEq,
      AdamState.mk.injEq, true_and, and_true, hm]
    refine ⟨?_, ?_⟩ <;> funext x <;> simp only [Relabelling.apply, hm]
    · split_ifs
      · ring
      · rfl
    · split_ifs <;> rfl

omit hS in
lemma trainEpochs_apply {α : Type} {step : TrainState → Except PyErr (α × TrainState)}
    (h : ∀ s, step (S.state s) = (step s).map fun r => (r.1, S.state r.2)) : ∀ (n : ℕ) (s : TrainState),
    trainEpochs step n (S.state s) = (trainEpochs step n s).map fun r => (r.1, S.state r.2)
  | 0, _ => rfl
  | n + 1, s => by
    simp only [trainEpochs, h s]
    cases step s with
    | error e => rfl
    | ok o =>
      simp only [Except.map]
      rw [trainEpochs_apply h n o.2]
      cases trainEpochs step n o.2 <;> rfl

end

end FastVPINNs
