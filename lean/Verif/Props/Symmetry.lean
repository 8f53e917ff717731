import Verif.Lemmas.Symmetry
import Verif.Props.Tape

/-! # C103 Training does not depend on the numbering of the hidden units -/

namespace FastVPINNs

open Spec

lemma trainsAlike {α : Type} {S : Relabelling} {step : TrainState → Except PyErr (α × TrainState)}
    (h : ∀ s, step (S.state s) = (step s).map fun r => (r.1, S.state r.2)) (n : ℕ) (s : TrainState) :
    TrainsAlike S step n s := by
  unfold TrainsAlike
  rw [trainEpochs_apply h n s]
  cases trainEpochs step n s <;> rfl

section
variable {act : String → ℝ → ℝ} {specs : List LayerSpec} {S : Relabelling} (hS : HiddenUnits act specs S)
  (attention : Batch → Except PyErr Batch) (useAttention : Bool) (inDim dout : ℕ)
include hS

/-- The prediction does not depend on the numbering of the hidden units, and not on common signs of the entries of units
with an odd activation. -/
theorem C103_network (θ : Weights) :
    networkAt act attention useAttention inDim specs dout (S.apply θ)
        = networkAt act attention useAttention inDim specs dout θ ∧
      ∀ hard, networkHard act attention useAttention (layersAt (S.apply θ) 0 inDim specs) hard dout
        = networkHard act attention useAttention (layersAt θ 0 inDim specs) hard dout := by
  constructor
  · funext n X r j
    simp only [networkAt, networkDense, callDense_apply hS]
  · intro hard
    funext n X r j
    simp only [networkHard, callHard, callDense_apply hS]

variable {nc nt nq nIn nBd : ℕ} (L : LossFunction nc nt nq) (M : ModelData nc nt nq nIn nBd) (beta : ℝ)
  (bilinear : ParamDict) (lr : LearningRate) (n : ℕ) (s : TrainState)

/-- **Training**: with renumbered units at the start, every epoch returns the same losses, and the training ends with the
same state, renumbered, for each of the four models; if it fails, it fails in the same way. -/
theorem C103_training {nS : ℕ} (sp : Fin nS → ℝ × ℝ) (sv : Fin nS → ℝ) (keys : List String) (hkeys : keys.Nodup)
    (hard : Batch → Batch → Batch) :
    TrainsAlike S (trainStepWith (forwardDense L M act attention useAttention inDim specs dout beta bilinear)
        (trainableVariables inDim specs []) lr) n s ∧
    TrainsAlike S (trainStepWith (forwardHard L M act attention useAttention inDim specs dout beta bilinear hard)
        (trainableVariables inDim specs []) lr) n s ∧
    TrainsAlike S (trainStepInverseFull L M act attention useAttention inDim specs dout beta bilinear sp sv keys lr) n s ∧
    TrainsAlike S (trainStepWith (forwardInverseDomain L M act attention useAttention inDim specs dout beta bilinear sp sv)
        (trainableVariables inDim specs []) lr) n s := by
  have hnd := trainableVariables_nodup inDim specs [] List.nodup_nil
  have hmem := relabel_mem hS inDim []
  have hN := fun θ => C103_network hS attention useAttention inDim dout θ
  refine ⟨?_, ?_, ?_, ?_⟩ <;> refine trainsAlike (fun s => ?_) n s
  · refine trainStep_apply hS (fun θ => ?_) hnd hmem lr s
    unfold forwardDense
    rw [(hN θ).1]
  · refine trainStep_apply hS (fun θ => ?_) hnd hmem lr s
    unfold forwardHard
    rw [(hN θ).2]
  · have hi : ∀ θ, inverseAt (S.apply θ) keys = inverseAt θ keys := by
      intro θ
      simp [inverseAt, Relabelling.apply, Relabelling.factor, Relabelling.source]
    have h := trainStep_apply hS (fwd := forwardInverse L M act attention useAttention inDim specs dout beta bilinear sp sv
      keys) (fun θ => by unfold forwardInverse; rw [(hN θ).1, hi]) (trainableVariables_nodup inDim specs keys hkeys)
      (relabel_mem hS inDim keys) lr s
    unfold trainStepInverseFull
    rw [h]
    cases trainStepWith (forwardInverse L M act attention useAttention inDim specs dout beta bilinear sp sv
      keys) (trainableVariables inDim specs keys) lr s with
    | error e => rfl
    | ok o =>
      have e : inverseAt (S.state o.2).weights keys = inverseAt o.2.weights keys := hi o.2.weights
      simp only [Except.map, e]
  · refine trainStep_apply hS (fun θ => ?_) hnd hmem lr s
    unfold forwardInverseDomain
    rw [(hN θ).1]

end

section
variable {act : String → ℝ → ℝ} {specs : List LayerSpec} (attention : Batch → Except PyErr Batch) (useAttention : Bool)
  (inDim dout : ℕ) {nc nt nq nIn nBd : ℕ} (L : LossFunction nc nt nq) (M : ModelData nc nt nq nIn nBd) (beta : ℝ)
  (bilinear : ParamDict) (lr : LearningRate) (n : ℕ) (s : TrainState)

/-- A property of states that says that a renumbering changes nothing is kept by the training. -/
lemma fixed_training {S : Relabelling} (hS : HiddenUnits act specs S) (h : S.state s = s) {nS : ℕ} (sp : Fin nS → ℝ × ℝ)
    (sv : Fin nS → ℝ) (keys : List String) (hkeys : keys.Nodup) (hard : Batch → Batch → Batch) :
    (∀ outs t, trainEpochs (trainStepWith (forwardDense L M act attention useAttention inDim specs dout beta bilinear)
        (trainableVariables inDim specs []) lr) n s = .ok (outs, t) → S.state t = t) ∧
    (∀ outs t, trainEpochs (trainStepWith (forwardHard L M act attention useAttention inDim specs dout beta bilinear hard)
        (trainableVariables inDim specs []) lr) n s = .ok (outs, t) → S.state t = t) ∧
    (∀ outs t, trainEpochs (trainStepInverseFull L M act attention useAttention inDim specs dout beta bilinear sp sv keys
        lr) n s = .ok (outs, t) → S.state t = t) ∧
    (∀ outs t, trainEpochs (trainStepWith (forwardInverseDomain L M act attention useAttention inDim specs dout beta
        bilinear sp sv) (trainableVariables inDim specs []) lr) n s = .ok (outs, t) → S.state t = t) := by
  obtain ⟨h1, h2, h3, h4⟩ := C103_training hS attention useAttention inDim dout L M beta bilinear lr n s sp sv keys hkeys hard
  simp only [TrainsAlike, h] at h1 h2 h3 h4
  refine ⟨fun outs t e => ?_, fun outs t e => ?_, fun outs t e => ?_, fun outs t e => ?_⟩
  · rw [e] at h1; simpa using h1.symm
  · rw [e] at h2; simpa using h2.symm
  · rw [e] at h3; simpa using h3.symm
  · rw [e] at h4; simpa using h4.symm

/-- The renumbering that exchanges two units of layer `k`. -/
def exchange (k a b : ℕ) : Relabelling := ⟨fun l => if l = k + 1 then Equiv.swap a b else 1, fun _ _ => 1⟩

/-- The renumbering that changes the sign of a unit of layer `k`. -/
noncomputable def flipSign (k a : ℕ) : Relabelling := ⟨fun _ => 1, fun l j => if l = k + 1 ∧ j = a then -1 else 1⟩

lemma exchange_hidden {k a b : ℕ} {l : LayerSpec} (hl : specs[k]? = some l) (hk : k + 1 < specs.length) (ha : a < l.units)
    (hb : b < l.units) : HiddenUnits act specs (exchange k a b) := by
  refine ⟨fun i => ⟨by simp [exchange], rfl⟩, fun j => ⟨?_, rfl⟩, fun q l' h j => ?_, fun _ _ => .inl rfl,
    fun _ _ _ _ => .inl rfl⟩
  · simp [exchange, show specs.length ≠ k + 1 by omega]
  · by_cases hq : q = k
    · subst hq
      rw [hl] at h
      cases h
      simp only [exchange, if_true]
      by_cases h1 : j = a
      · subst h1; simp [ha, hb]
      · by_cases h2 : j = b
        · subst h2; simp [ha, hb]
        · rw [Equiv.swap_apply_of_ne_of_ne h1 h2]
    · simp [exchange, hq]

lemma flipSign_hidden {k a : ℕ} {l : LayerSpec} (hl : specs[k]? = some l) (hk : k + 1 < specs.length)
    (ho : ∀ c, l.activation = some c → ∀ z, act c (-z) = -act c z) : HiddenUnits act specs (flipSign k a) := by
  refine ⟨fun i => ⟨rfl, by simp [flipSign]⟩, fun j => ⟨rfl, ?_⟩, fun _ _ _ _ => Iff.rfl, fun q j => ?_, fun q l' h j => ?_⟩
  · simp [flipSign, show specs.length ≠ k + 1 by omega]
  · simp only [flipSign]
    split_ifs <;> simp
  · by_cases hq : q = k
    · subst hq
      rw [hl] at h
      cases h
      exact .inr ho
    · exact .inl (by simp [flipSign, hq])

lemma exchange_fixed (k a b : ℕ) (θ : Var → ℝ) : (exchange k a b).apply θ = θ ↔ SameUnits k a b θ := by
  constructor
  · intro h
    refine ⟨fun i => ?_, ?_, fun j => ?_⟩
    · have := congrFun h (.kernel k i a)
      simpa [exchange, Relabelling.apply, Relabelling.factor, Relabelling.source] using this.symm
    · have := congrFun h (.bias k a)
      simpa [exchange, Relabelling.apply, Relabelling.factor, Relabelling.source] using this.symm
    · have := congrFun h (.kernel (k + 1) a j)
      simpa [exchange, Relabelling.apply, Relabelling.factor, Relabelling.source] using this.symm
  · rintro ⟨h1, h2, h3⟩
    have key : ∀ (f : ℕ → ℝ) (j : ℕ), f a = f b → f (Equiv.swap a b j) = f j := by
      intro f j h
      by_cases e1 : j = a
      · subst e1; simp [h]
      · by_cases e2 : j = b
        · subst e2; simp [h]
        · rw [Equiv.swap_apply_of_ne_of_ne e1 e2]
    funext v
    cases v with
    | kernel q i j =>
      simp only [exchange, Relabelling.apply, Relabelling.factor, Relabelling.source, one_mul]
      by_cases e1 : q = k
      · subst e1
        simpa using key (fun j => θ (.kernel q i j)) j (h1 i)
      · by_cases e2 : q = k + 1
        · subst e2
          simpa using key (fun i => θ (.kernel (k + 1) i j)) i (h3 j)
        · simp [e1, e2]
    | bias q j =>
      simp only [exchange, Relabelling.apply, Relabelling.factor, Relabelling.source, one_mul]
      by_cases e1 : q = k
      · subst e1
        simpa using key (fun j => θ (.bias q j)) j h2
      · simp [e1]
    | inverse key => simp [Relabelling.apply, Relabelling.factor, Relabelling.source]

lemma exchange_state (k a b : ℕ) (s : TrainState) : (exchange k a b).state s = s ↔
    SameUnits k a b s.weights ∧ SameUnits k a b s.adam.m ∧ SameUnits k a b s.adam.v := by
  have hf : ∀ v, (exchange k a b).factor v = 1 := by
    intro v
    cases v <;> simp [exchange, Relabelling.factor]
  have hv : (fun v => s.adam.v ((exchange k a b).source v)) = (exchange k a b).apply s.adam.v := by
    funext v
    simp [Relabelling.apply, hf]
  rw [← exchange_fixed, ← exchange_fixed, ← exchange_fixed, ← hv]
  obtain ⟨w, m, v, t⟩ := s
  simp [Relabelling.state]

lemma flipSign_state (k a : ℕ) (s : TrainState) : (flipSign k a).state s = s ↔
    ZeroUnit k a s.weights ∧ ZeroUnit k a s.adam.m := by
  have key : ∀ θ : Var → ℝ, (flipSign k a).apply θ = θ ↔ ZeroUnit k a θ := by
    intro θ
    constructor
    · intro h
      refine ⟨fun i => ?_, ?_, fun j => ?_⟩
      · have := congrFun h (.kernel k i a)
        simp [flipSign, Relabelling.apply, Relabelling.factor, Relabelling.source] at this
        linarith
      · have := congrFun h (.bias k a)
        simp [flipSign, Relabelling.apply, Relabelling.factor, Relabelling.source] at this
        linarith
      · have := congrFun h (.kernel (k + 1) a j)
        simp [flipSign, Relabelling.apply, Relabelling.factor, Relabelling.source] at this
        linarith
    · rintro ⟨h1, h2, h3⟩
      funext v
      cases v with
      | kernel q i j =>
        simp only [flipSign, Relabelling.apply, Relabelling.factor, Relabelling.source, Equiv.Perm.one_apply]
        by_cases e1 : q = k + 1 ∧ i = a
        · obtain ⟨rfl, rfl⟩ := e1
          simp [h3]
        · by_cases e2 : q + 1 = k + 1 ∧ j = a
          · obtain ⟨e2, rfl⟩ := e2
            obtain rfl : q = k := by omega
            simp [h1]
          · rw [if_neg e1, if_neg e2, one_mul, one_mul]
      | bias q j =>
        simp only [flipSign, Relabelling.apply, Relabelling.factor, Relabelling.source, Equiv.Perm.one_apply]
        by_cases e2 : q + 1 = k + 1 ∧ j = a
        · obtain ⟨e2, rfl⟩ := e2
          obtain rfl : q = k := by omega
          simp [h2]
        · rw [if_neg e2, one_mul]
      | inverse key => simp [Relabelling.apply, Relabelling.factor, Relabelling.source]
  have hs : ∀ v, (flipSign k a).source v = v := by
    intro v
    cases v <;> simp [flipSign, Relabelling.source]
  rw [← key, ← key]
  obtain ⟨w, m, v, t⟩ := s
  simp [Relabelling.state, hs]

/-- **Equal units stay equal**: two units of a hidden layer that start with the same incoming and outgoing weights (and
moments) have the same weights after any number of epochs, so the second one never adds anything to the network. -/
theorem C103_equal_units {k a b : ℕ} {l : LayerSpec} (hl : specs[k]? = some l) (hk : k + 1 < specs.length)
    (ha : a < l.units) (hb : b < l.units) (h1 : SameUnits k a b s.weights) (h2 : SameUnits k a b s.adam.m)
    (h3 : SameUnits k a b s.adam.v) {nS : ℕ} (sp : Fin nS → ℝ × ℝ) (sv : Fin nS → ℝ) (keys : List String)
    (hkeys : keys.Nodup) (hard : Batch → Batch → Batch) :
    (∀ outs t, trainEpochs (trainStepWith (forwardDense L M act attention useAttention inDim specs dout beta bilinear)
        (trainableVariables inDim specs []) lr) n s = .ok (outs, t) → SameUnits k a b t.weights) ∧
    (∀ outs t, trainEpochs (trainStepWith (forwardHard L M act attention useAttention inDim specs dout beta bilinear hard)
        (trainableVariables inDim specs []) lr) n s = .ok (outs, t) → SameUnits k a b t.weights) ∧
    (∀ outs t, trainEpochs (trainStepInverseFull L M act attention useAttention inDim specs dout beta bilinear sp sv keys
        lr) n s = .ok (outs, t) → SameUnits k a b t.weights) ∧
    (∀ outs t, trainEpochs (trainStepWith (forwardInverseDomain L M act attention useAttention inDim specs dout beta
        bilinear sp sv) (trainableVariables inDim specs []) lr) n s = .ok (outs, t) → SameUnits k a b t.weights) := by
  obtain ⟨e1, e2, e3, e4⟩ := fixed_training (act := act) attention useAttention inDim dout L M beta bilinear lr n s
    (exchange_hidden hl hk ha hb) ((exchange_state k a b s).2 ⟨h1, h2, h3⟩) sp sv keys hkeys hard
  exact ⟨fun o t h => ((exchange_state k a b t).1 (e1 o t h)).1, fun o t h => ((exchange_state k a b t).1 (e2 o t h)).1,
    fun o t h => ((exchange_state k a b t).1 (e3 o t h)).1, fun o t h => ((exchange_state k a b t).1 (e4 o t h)).1⟩

/-- **Idle units**: with an odd activation such as `tanh`, a hidden unit whose incoming and outgoing weights are all zero at
the start (with a new optimizer) keeps them for ever. -/
theorem C103_idle_unit {k a : ℕ} {l : LayerSpec} (hl : specs[k]? = some l) (hk : k + 1 < specs.length)
    (ho : ∀ c, l.activation = some c → ∀ z, act c (-z) = -act c z) (h1 : ZeroUnit k a s.weights)
    (h2 : ZeroUnit k a s.adam.m) {nS : ℕ} (sp : Fin nS → ℝ × ℝ) (sv : Fin nS → ℝ) (keys : List String)
    (hkeys : keys.Nodup) (hard : Batch → Batch → Batch) :
    (∀ outs t, trainEpochs (trainStepWith (forwardDense L M act attention useAttention inDim specs dout beta bilinear)
        (trainableVariables inDim specs []) lr) n s = .ok (outs, t) → ZeroUnit k a t.weights) ∧
    (∀ outs t, trainEpochs (trainStepWith (forwardHard L M act attention useAttention inDim specs dout beta bilinear hard)
        (trainableVariables inDim specs []) lr) n s = .ok (outs, t) → ZeroUnit k a t.weights) ∧
    (∀ outs t, trainEpochs (trainStepInverseFull L M act attention useAttention inDim specs dout beta bilinear sp sv keys
        lr) n s = .ok (outs, t) → ZeroUnit k a t.weights) ∧
    (∀ outs t, trainEpochs (trainStepWith (forwardInverseDomain L M act attention useAttention inDim specs dout beta
        bilinear sp sv) (trainableVariables inDim specs []) lr) n s = .ok (outs, t) → ZeroUnit k a t.weights) := by
  obtain ⟨e1, e2, e3, e4⟩ := fixed_training (act := act) attention useAttention inDim dout L M beta bilinear lr n s
    (flipSign_hidden (a := a) hl hk ho) ((flipSign_state k a s).2 ⟨h1, h2⟩) sp sv keys hkeys hard
  exact ⟨fun o t h => ((flipSign_state k a t).1 (e1 o t h)).1, fun o t h => ((flipSign_state k a t).1 (e2 o t h)).1,
    fun o t h => ((flipSign_state k a t).1 (e3 o t h)).1, fun o t h => ((flipSign_state k a t).1 (e4 o t h)).1⟩

end

/-! ## Cases that meet the hypotheses -/

section
private def symSpecs : List LayerSpec := [⟨3, some "tanh"⟩, ⟨2, some "tanh"⟩, ⟨1, none⟩]

private noncomputable def symAct : String → ℝ → ℝ := fun _ => Real.tanh

/-- Exchange the first two units of the first layer, and flip the sign of the second of them afterwards. -/
private noncomputable def symRelabelling : Relabelling :=
  ⟨fun l => if l = 1 then Equiv.swap 0 1 else 1, fun l j => if l = 1 ∧ j = 1 then -1 else 1⟩

example : HiddenUnits symAct symSpecs symRelabelling := by
  refine ⟨fun i => by simp [symRelabelling], fun j => by simp [symRelabelling, symSpecs], fun k l h j => ?_,
    fun k j => ?_, fun k l h j => .inr fun a _ z => Real.tanh_neg z⟩
  · by_cases hk : k = 0
    · subst hk
      cases h
      simp only [symRelabelling]
      by_cases h1 : j = 0
      · subst h1; simp
      · by_cases h2 : j = 1
        · subst h2; simp
        · simp [Equiv.swap_apply_of_ne_of_ne h1 h2]
    · simp [symRelabelling, hk]
  · simp only [symRelabelling]
    split_ifs <;> simp

/-- It changes the weights. -/
example : ∃ θ : Weights, symRelabelling.apply θ ≠ θ := by
  refine ⟨fun v => if v = .bias 0 0 then 1 else 0, fun h => ?_⟩
  have := congrFun h (.bias 0 0)
  simp [symRelabelling, Relabelling.apply, Relabelling.factor, Relabelling.source] at this

/-- Constant initial weights: all units of a layer are equal. -/
example : symSpecs[0]? = some ⟨3, some "tanh"⟩ ∧ 0 + 1 < symSpecs.length ∧ SameUnits 0 0 2 (fun _ => (1 : ℝ)) ∧
    SameUnits 0 0 2 AdamState.init.m ∧ SameUnits 0 0 2 AdamState.init.v ∧ ZeroUnit 0 1 AdamState.init.m ∧
    ZeroUnit 0 1 (fun v => if v = .kernel 0 0 0 then 1 else 0) :=
  ⟨rfl, by decide, ⟨fun _ => rfl, rfl, fun _ => rfl⟩, ⟨fun _ => rfl, rfl, fun _ => rfl⟩, ⟨fun _ => rfl, rfl, fun _ => rfl⟩,
    ⟨fun _ => rfl, rfl, fun _ => rfl⟩, ⟨fun i => by simp, by simp, fun j => by simp⟩⟩

end

end FastVPINNs
