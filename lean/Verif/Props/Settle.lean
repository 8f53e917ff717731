import Verif.Lemmas.Settle
import Verif.Props.OutputLayer

/-! # C107: where a training settles -/

namespace FastVPINNs

open Spec Filter Topology

section
variable {nc nt nq nIn nBd : ℕ} (M : ModelData nc nt nq nIn nBd) (pt : Fin nc → Fin nq → ℝ × ℝ)
  (hM : Shaped M pt) (act : String → ℝ → ℝ) (attention : Batch → Except PyErr Batch) (a : String)
  (hσ : ContDiff ℝ 2 (act a))
  (dims : List ℕ) (specs : List LayerSpec) (h : 2 ≤ dims.length) (hs : layerSpecs dims a = .ok specs)
  (hin : dims.getD 0 0 = 2) (beta : ℝ) (p : ParamDict) (rate : ℝ) (hrate : rate ≠ 0)
  (st : ℕ → TrainState) (θ : Weights) (hlim : ∀ x, Tendsto (fun k => (st k).weights x) atTop (𝓝 (θ x)))
include hM h hs hin hσ hrate hlim

/-- **C107** (`DenseModel`).  Let the weights of a training without end, with a constant learning rate other than
zero, converge, from whatever weights and state of the optimizer it started.  Then the reported losses
converge to the loss at the limit; there the derivative of the reported loss with respect to every trainable
variable is zero; and if `beta ≥ 0`, no other output layer on the same hidden layers has a smaller loss. -/
theorem C107_dense (hout : dims.getD (dims.length - 1) 0 = 1) (kind : LossKind) (hk : kind.forward)
    (A : Fin nc → Fin nq → ℝ) (b : ℝ × ℝ) (r : ℝ) (hco : Coefficients kind p none [] A b r)
    (outs : ℕ → TrainOut 1)
    (hst : ∀ k, trainStepWith (forwardDense (lossOf kind nc nt nq) M act attention false (dims.getD 0 0) specs 1
      beta p) (trainableVariables (dims.getD 0 0) specs []) (.constant rate) (st k) = .ok (outs k, st (k + 1))) :
    ∃ o, trainStepDense (lossOf kind nc nt nq) M
        (networkAt act attention false (dims.getD 0 0) specs 1 θ) beta p = .ok o ∧
      Tendsto (fun k => (outs k).loss 0) atTop (𝓝 (o.loss 0)) ∧
      (∀ x ∈ trainableVariables (dims.getD 0 0) specs [], ∀ L : ℝ → ℝ,
        (∀ t, ∃ o', trainStepDense (lossOf kind nc nt nq) M (networkAt act attention false (dims.getD 0 0) specs 1
          (Function.update θ x t)) beta p = .ok o' ∧ o'.loss 0 = L t) → HasDerivAt L 0 (θ x)) ∧
      (0 ≤ beta → ∀ θ' o', DifferOnly (OutputColumn (dims.length - 2) 0)
        (trainableVariables (dims.getD 0 0) specs []) θ θ' →
        trainStepDense (lossOf kind nc nt nq) M
          (networkAt act attention false (dims.getD 0 0) specs 1 θ') beta p = .ok o' → o.loss 0 ≤ o'.loss 0) := by
  have hsm := forwardDense_smooth M pt hM act attention a hσ dims specs h hs hin beta p hout kind hk A b r hco
  obtain ⟨hg, ht⟩ := settles hsm _ specs [] List.nodup_nil (.constant rate) rate hrate (fun _ => rfl) st
    (fun k => ⟨_, hst k⟩) θ hlim
  have hval : ∀ θ o, trainStepDense (lossOf kind nc nt nq) M
      (networkAt act attention false (dims.getD 0 0) specs 1 θ) beta p = .ok o →
      (forwardDense (lossOf kind nc nt nq) M act attention false (dims.getD 0 0) specs 1 beta p).total θ
        = o.loss 0 := by
    intro θ o ho
    unfold Forward.total forwardDense
    rw [ho]
    simp
  have hu := netFn_rowWise act a dims specs h hs hin 1 hout attention θ
  obtain ⟨o, ho⟩ := (C47_dense M pt hM beta p kind hk _ _ hu).1.2 ⟨A, b, r, hco⟩
  refine ⟨o, ho, ?_, fun x hx L hL => ?_, fun hβ θ' o' hd ho' => ?_⟩
  · rw [← hval θ o ho]
    refine ht.congr fun k => ?_
    have hk := hst k
    unfold trainStepWith forwardDense at hk
    cases ho' : trainStepDense (lossOf kind nc nt nq) M
        (networkAt act attention false (dims.getD 0 0) specs 1 (st k).weights) beta p with
    | error e => rw [ho'] at hk; exact absurd hk (by simp)
    | ok o' =>
      rw [hval _ _ ho']
      rw [ho'] at hk
      simp only [Except.ok.injEq, Prod.mk.injEq] at hk
      rw [hk.1]
  · have hd := hsm.hasDerivAt θ x
    rw [hg x hx] at hd
    refine hd.congr_of_eventuallyEq (Filter.Eventually.of_forall fun t => ?_)
    obtain ⟨o', h1, h2⟩ := hL t
    rw [← h2, ← hval _ _ h1]
  · obtain ⟨J, h1, -, h2⟩ := C106_dense M pt hM act attention a hσ dims specs h hs hin beta p hβ hout kind hk A b r
      hco
    have hle := h2 θ (fun v hv _ => hg v hv) θ' hd
    obtain ⟨o1, e1, e2⟩ := h1 θ
    obtain ⟨o2, e3, e4⟩ := h1 θ'
    obtain rfl := Except.ok.inj (ho.symm.trans e1)
    obtain rfl := Except.ok.inj (ho'.symm.trans e3)
    rw [e2, e4]
    exact hle

/-- **C107** (`DenseModel_Hard`).  The same with a constraint `B + ℓ · N`, for every `beta`. -/
theorem C107_hard (hout : dims.getD (dims.length - 1) 0 = 1) (kind : LossKind) (hk : kind.forward)
    (A : Fin nc → Fin nq → ℝ) (b : ℝ × ℝ) (r : ℝ) (hco : Coefficients kind p none [] A b r)
    (B ℓ : ℝ × ℝ → ℝ) (hB : ContDiff ℝ 2 B) (hℓ : ContDiff ℝ 2 ℓ) (outs : ℕ → TrainOutHard)
    (hst : ∀ k, trainStepWith (forwardHard (lossOf kind nc nt nq) M act attention false (dims.getD 0 0) specs 1
      beta p (List.zipWith fun x v => v.map fun y => B (x.getD 0 0, x.getD 1 0) + ℓ (x.getD 0 0, x.getD 1 0) * y))
      (trainableVariables (dims.getD 0 0) specs []) (.constant rate) (st k) = .ok (outs k, st (k + 1))) :
    ∃ o, trainStepHard (lossOf kind nc nt nq) M (networkHard act attention false
        (layersAt θ 0 (dims.getD 0 0) specs) (List.zipWith fun x v => v.map fun y =>
          B (x.getD 0 0, x.getD 1 0) + ℓ (x.getD 0 0, x.getD 1 0) * y) 1) beta p = .ok o ∧
      Tendsto (fun k => (outs k).loss) atTop (𝓝 o.loss) ∧
      (∀ x ∈ trainableVariables (dims.getD 0 0) specs [], ∀ L : ℝ → ℝ,
        (∀ t, ∃ o', trainStepHard (lossOf kind nc nt nq) M (networkHard act attention false
          (layersAt (Function.update θ x t) 0 (dims.getD 0 0) specs) (List.zipWith fun x v => v.map fun y =>
            B (x.getD 0 0, x.getD 1 0) + ℓ (x.getD 0 0, x.getD 1 0) * y) 1) beta p = .ok o' ∧ o'.loss = L t) →
        HasDerivAt L 0 (θ x)) ∧
      (∀ θ' o', DifferOnly (OutputColumn (dims.length - 2) 0)
        (trainableVariables (dims.getD 0 0) specs []) θ θ' →
        trainStepHard (lossOf kind nc nt nq) M (networkHard act attention false
          (layersAt θ' 0 (dims.getD 0 0) specs) (List.zipWith fun x v => v.map fun y =>
            B (x.getD 0 0, x.getD 1 0) + ℓ (x.getD 0 0, x.getD 1 0) * y) 1) beta p = .ok o' → o.loss ≤ o'.loss) := by
  have hg' : ContDiff ℝ 2 fun q : (ℝ × ℝ) × ℝ => B q.1 + ℓ q.1 * q.2 :=
    (hB.comp contDiff_fst).add ((hℓ.comp contDiff_fst).mul contDiff_snd)
  have hsm := forwardHard_smooth M pt hM act attention a hσ dims specs h hs hin beta p hout kind hk A b r hco
    (fun z y => B z + ℓ z * y) hg'
  obtain ⟨hg, ht⟩ := settles hsm _ specs [] List.nodup_nil (.constant rate) rate hrate (fun _ => rfl) st
    (fun k => ⟨_, hst k⟩) θ hlim
  have hval : ∀ θ o, trainStepHard (lossOf kind nc nt nq) M (networkHard act attention false
      (layersAt θ 0 (dims.getD 0 0) specs) (List.zipWith fun x v => v.map fun y =>
        B (x.getD 0 0, x.getD 1 0) + ℓ (x.getD 0 0, x.getD 1 0) * y) 1) beta p = .ok o →
      (forwardHard (lossOf kind nc nt nq) M act attention false (dims.getD 0 0) specs 1 beta p
        (List.zipWith fun x v => v.map fun y => B (x.getD 0 0, x.getD 1 0)
          + ℓ (x.getD 0 0, x.getD 1 0) * y)).total θ = o.loss := by
    intro θ o ho
    unfold Forward.total forwardHard
    rw [ho]
  obtain ⟨J, h1, -, h2⟩ := C106_hard M pt hM act attention a hσ dims specs h hs hin beta p hout kind hk A b r
    hco B ℓ hB hℓ
  obtain ⟨o, ho, e0⟩ := h1 θ
  refine ⟨o, ho, ?_, fun x hx L hL => ?_, fun θ' o' hd ho' => ?_⟩
  · rw [← hval θ o ho]
    refine ht.congr fun k => ?_
    have hk := hst k
    unfold trainStepWith forwardHard at hk
    cases ho' : trainStepHard (lossOf kind nc nt nq) M (networkHard act attention false
        (layersAt (st k).weights 0 (dims.getD 0 0) specs) (List.zipWith fun x v => v.map fun y =>
          B (x.getD 0 0, x.getD 1 0) + ℓ (x.getD 0 0, x.getD 1 0) * y) 1) beta p with
    | error e => rw [ho'] at hk; exact absurd hk (by simp)
    | ok o' =>
      rw [hval _ _ ho']
      rw [ho'] at hk
      simp only [Except.ok.injEq, Prod.mk.injEq] at hk
      rw [hk.1]
  · have hd := hsm.hasDerivAt θ x
    rw [hg x hx] at hd
    refine hd.congr_of_eventuallyEq (Filter.Eventually.of_forall fun t => ?_)
    obtain ⟨o', h1, h2⟩ := hL t
    rw [← h2, ← hval _ _ h1]
  · have hle := h2 θ (fun v hv _ => hg v hv) θ' hd
    obtain ⟨o2, e3, e4⟩ := h1 θ'
    obtain rfl := Except.ok.inj (ho'.symm.trans e3)
    rw [e0, e4]
    exact hle

/-- **C107** (`DenseModel_Inverse`).  The same for network and parameter; at the limit neither another output
layer alone nor another parameter alone gives a smaller loss. -/
theorem C107_inverse (hout : dims.getD (dims.length - 1) 0 = 1) {nS : ℕ} (sp : Fin nS → ℝ × ℝ)
    (sv : Fin nS → ℝ) (keys : List String) (hkey : "eps" ∈ keys) (hkeys : keys.Nodup)
    (outs : ℕ → TrainOutInverse 1)
    (hst : ∀ k, trainStepInverseFull (lossPoissonInverse nc nt nq) M act attention false (dims.getD 0 0) specs 1
      beta p sp sv keys (.constant rate) (st k) = .ok (outs k, st (k + 1))) :
    ∃ o, trainStepInverse (lossPoissonInverse nc nt nq) M sp sv (inverseAt θ keys)
        (networkAt act attention false (dims.getD 0 0) specs 1 θ) beta p = .ok o ∧
      Tendsto (fun k => (outs k).loss 0) atTop (𝓝 (o.loss 0)) ∧
      (∀ x ∈ trainableVariables (dims.getD 0 0) specs keys, ∀ L : ℝ → ℝ,
        (∀ t, ∃ o', trainStepInverse (lossPoissonInverse nc nt nq) M sp sv (inverseAt (Function.update θ x t) keys)
          (networkAt act attention false (dims.getD 0 0) specs 1 (Function.update θ x t)) beta p = .ok o' ∧
            o'.loss 0 = L t) → HasDerivAt L 0 (θ x)) ∧
      (0 ≤ beta → ∀ P θ' o', (P = OutputColumn (dims.length - 2) 0 ∨ P = (· = Var.inverse "eps")) →
        DifferOnly P (trainableVariables (dims.getD 0 0) specs keys) θ θ' →
        trainStepInverse (lossPoissonInverse nc nt nq) M sp sv (inverseAt θ' keys)
          (networkAt act attention false (dims.getD 0 0) specs 1 θ') beta p = .ok o' → o.loss 0 ≤ o'.loss 0) := by
  have hsm := forwardInverse_smooth M pt hM act attention a hσ dims specs h hs hin beta p hout sp sv keys hkey
  have hval : ∀ θ o, trainStepInverse (lossPoissonInverse nc nt nq) M sp sv (inverseAt θ keys)
      (networkAt act attention false (dims.getD 0 0) specs 1 θ) beta p = .ok o →
      (forwardInverse (lossPoissonInverse nc nt nq) M act attention false (dims.getD 0 0) specs 1 beta p sp sv
        keys).total θ = o.loss 0 := by
    intro θ o ho
    unfold Forward.total forwardInverse
    rw [ho]
    simp
  have hplain : ∀ k, ∃ out, trainStepWith (forwardInverse (lossPoissonInverse nc nt nq) M act attention false
      (dims.getD 0 0) specs 1 beta p sp sv keys) (trainableVariables (dims.getD 0 0) specs keys) (.constant rate)
      (st k) = .ok (out, st (k + 1)) ∧ (outs k).loss = out.loss := by
    intro k
    have := hst k
    unfold trainStepInverseFull at this
    split at this
    · exact absurd this (by simp)
    · rename_i out s1 h1
      simp only [Except.ok.injEq, Prod.mk.injEq] at this
      obtain ⟨e1, rfl⟩ := this
      exact ⟨out, h1, by rw [← e1]⟩
  obtain ⟨hg, ht⟩ := settles hsm _ specs keys hkeys (.constant rate) rate hrate (fun _ => rfl) st
    (fun k => (hplain k).imp fun _ hh => hh.1) θ hlim
  have hu := netFn_rowWise act a dims specs h hs hin 1 hout attention θ
  obtain ⟨o, ho⟩ := (C47_inverse M pt hM beta p (inverseAt θ keys) sp sv _ _ hu).1.2
    ⟨_, hasParam_inverseAt θ keys "eps" hkey⟩
  refine ⟨o, ho, ?_, fun x hx L hL => ?_, fun hβ P θ' o' hP hd ho' => ?_⟩
  · rw [← hval θ o ho]
    refine ht.congr fun k => ?_
    obtain ⟨out, hk, hl⟩ := hplain k
    unfold trainStepWith forwardInverse at hk
    cases ho' : trainStepInverse (lossPoissonInverse nc nt nq) M sp sv (inverseAt (st k).weights keys)
        (networkAt act attention false (dims.getD 0 0) specs 1 (st k).weights) beta p with
    | error e => rw [ho'] at hk; exact absurd hk (by simp)
    | ok o' =>
      rw [hval _ _ ho']
      rw [ho'] at hk
      simp only [Except.ok.injEq, Prod.mk.injEq] at hk
      rw [hl, hk.1]
  · have hd := hsm.hasDerivAt θ x
    rw [hg x hx] at hd
    refine hd.congr_of_eventuallyEq (Filter.Eventually.of_forall fun t => ?_)
    obtain ⟨o', h1, h2⟩ := hL t
    rw [← h2, ← hval _ _ h1]
  · obtain ⟨J, h1, h2⟩ := C106_inverse M pt hM act attention a hσ dims specs h hs hin beta p hβ hout sp sv keys hkey
    have hle := (h2 P hP).2 θ (fun v hv _ => hg v hv) θ' hd
    obtain ⟨o1, e1, e2⟩ := h1 θ
    obtain ⟨o2, e3, e4⟩ := h1 θ'
    obtain rfl := Except.ok.inj (ho.symm.trans e1)
    obtain rfl := Except.ok.inj (ho'.symm.trans e3)
    rw [e2, e4]
    exact hle

/-- **C107** (`DenseModel_Inverse_Domain`).  The same; at the limit no other values of the column of the output
layer for the solution, and no other values of the column for the coefficient, give a smaller loss. -/
theorem C107_inverse_domain (hout : dims.getD (dims.length - 1) 0 = 2) {nS : ℕ} (sp : Fin nS → ℝ × ℝ)
    (sv : Fin nS → ℝ) (b : ℝ × ℝ) (r : ℝ) (hb1 : HasParam p "b_x" b.1) (hb2 : HasParam p "b_y" b.2)
    (hr : HasParam p "c" r) (outs : ℕ → TrainOutInverse 1)
    (hst : ∀ k, trainStepWith (forwardInverseDomain (lossCd2dInverseDomain nc nt nq) M act attention false
      (dims.getD 0 0) specs 2 beta p sp sv) (trainableVariables (dims.getD 0 0) specs []) (.constant rate) (st k)
      = .ok (outs k, st (k + 1))) :
    ∃ o, trainStepInverseDomain (lossCd2dInverseDomain nc nt nq) M sp sv
        (networkAt act attention false (dims.getD 0 0) specs 2 θ) beta p = .ok o ∧
      Tendsto (fun k => (outs k).loss 0) atTop (𝓝 (o.loss 0)) ∧
      (∀ x ∈ trainableVariables (dims.getD 0 0) specs [], ∀ L : ℝ → ℝ,
        (∀ t, ∃ o', trainStepInverseDomain (lossCd2dInverseDomain nc nt nq) M sp sv
          (networkAt act attention false (dims.getD 0 0) specs 2 (Function.update θ x t)) beta p = .ok o' ∧
            o'.loss 0 = L t) → HasDerivAt L 0 (θ x)) ∧
      (0 ≤ beta → ∀ (j : Fin 2) θ' o', DifferOnly (OutputColumn (dims.length - 2) j)
        (trainableVariables (dims.getD 0 0) specs []) θ θ' →
        trainStepInverseDomain (lossCd2dInverseDomain nc nt nq) M sp sv
          (networkAt act attention false (dims.getD 0 0) specs 2 θ') beta p = .ok o' → o.loss 0 ≤ o'.loss 0) := by
  have hsm := forwardInverseDomain_smooth M pt hM act attention a hσ dims specs h hs hin beta p hout sp sv b r
    hb1 hb2 hr
  obtain ⟨hg, ht⟩ := settles hsm _ specs [] List.nodup_nil (.constant rate) rate hrate (fun _ => rfl) st
    (fun k => ⟨_, hst k⟩) θ hlim
  have hval : ∀ θ o, trainStepInverseDomain (lossCd2dInverseDomain nc nt nq) M sp sv
      (networkAt act attention false (dims.getD 0 0) specs 2 θ) beta p = .ok o →
      (forwardInverseDomain (lossCd2dInverseDomain nc nt nq) M act attention false (dims.getD 0 0) specs 2 beta p
        sp sv).total θ = o.loss 0 := by
    intro θ o ho
    unfold Forward.total forwardInverseDomain
    rw [ho]
    simp
  have hu := netFn_rowWise act a dims specs h hs hin 2 hout attention θ
  obtain ⟨o, ho⟩ := (C47_inverse_domain M pt hM beta p sp sv le_rfl _ _ hu).1.2 ⟨_, _, _, hb1, hb2, hr⟩
  refine ⟨o, ho, ?_, fun x hx L hL => ?_, fun hβ j θ' o' hd ho' => ?_⟩
  · rw [← hval θ o ho]
    refine ht.congr fun k => ?_
    have hk := hst k
    unfold trainStepWith forwardInverseDomain at hk
    cases ho' : trainStepInverseDomain (lossCd2dInverseDomain nc nt nq) M sp sv
        (networkAt act attention false (dims.getD 0 0) specs 2 (st k).weights) beta p with
    | error e => rw [ho'] at hk; exact absurd hk (by simp)
    | ok o' =>
      rw [hval _ _ ho']
      rw [ho'] at hk
      simp only [Except.ok.injEq, Prod.mk.injEq] at hk
      rw [hk.1]
  · have hd := hsm.hasDerivAt θ x
    rw [hg x hx] at hd
    refine hd.congr_of_eventuallyEq (Filter.Eventually.of_forall fun t => ?_)
    obtain ⟨o', h1, h2⟩ := hL t
    rw [← h2, ← hval _ _ h1]
  · obtain ⟨J, h1, h2⟩ := C106_inverse_domain M pt hM act attention a hσ dims specs h hs hin beta p hβ hout sp sv b r
      hb1 hb2 hr
    have hle := (h2 j).2 θ (fun v hv _ => hg v hv) θ' hd
    obtain ⟨o1, e1, e2⟩ := h1 θ
    obtain ⟨o2, e3, e4⟩ := h1 θ'
    obtain rfl := Except.ok.inj (ho.symm.trans e1)
    obtain rfl := Except.ok.inj (ho'.symm.trans e3)
    rw [e2, e4]
    exact hle

end

/-- The loss of `lineModel` for the network without hidden layers. -/
lemma line_total {nt : ℕ} (F : Fin nt → ℝ) (attention : Batch → Except PyErr Batch) (act : String → ℝ → ℝ) (beta : ℝ)
    (θ : Weights) :
    (forwardDense (lossOf .poisson 1 nt 1) (lineModel F) act attention false 2 [⟨1, none⟩] 1 beta
      (some [("eps", 1)])).total θ = (meanSq fun t => θ (.kernel 0 0 0) - F t) + beta * θ (.bias 0 0) ^ 2 := by
  have hco : Coefficients (nc := 1) (nq := 1) .poisson (some [("eps", 1)]) none [] (fun _ _ => 1) (0, 0) 0 :=
    ⟨1, ⟨_, rfl, rfl⟩, rfl, rfl, rfl⟩
  refine (forwardDense_total (lineModel F) _ (lineModel_shaped _) act attention "tanh" [2, 1] [⟨1, none⟩] (by simp)
    demo_layerSpecs rfl beta (some [("eps", 1)]) rfl .poisson (Or.inl rfl) _ _ _ hco θ).trans ?_
  rw [lineModel_pdeLoss]
  simp only [demo_net]
  simp [meanSq, lineModel]
  exact Or.inl (by ring)

lemma line_step {nt : ℕ} (F : Fin nt → ℝ) (attention : Batch → Except PyErr Batch) (act : String → ℝ → ℝ) (beta : ℝ)
    (θ : Weights) :
    ∃ out, trainStepDense (lossOf .poisson 1 nt 1) (lineModel F) (networkAt act attention false 2 [⟨1, none⟩] 1 θ)
      beta (some [("eps", 1)]) = .ok out := by
  have hu := netFn_rowWise act "tanh" [2, 1] [⟨1, none⟩] (by simp) demo_layerSpecs rfl 1 rfl attention θ
  exact (C47_dense (lineModel F) _ (lineModel_shaped F) beta (some [("eps", 1)]) .poisson (Or.inl rfl) _ _ hu).1.2
    ⟨fun _ _ => 1, (0, 0), 0, 1, ⟨_, rfl, rfl⟩, rfl, rfl, rfl⟩

/-- **C107** (scheduler).  With the learning rate schedule on the conclusion is wrong: for every schedule with
`0 ≤ decay_rate < 1` there is a problem with one cell and one test function, and a training without end from
zero weights whose weights converge, but to a state where the derivative of the loss with respect to one of
the weights is not zero (and a network with the same layers has loss zero). -/
theorem C107_scheduler (d : List (String × PyVal)) (initial decay : ℝ) (steps : ℕ) (hsteps : 0 < steps)
    (u : PyVal) (hi : d.lookup "initial_learning_rate" = some (.num initial))
    (hu : d.lookup "use_lr_scheduler" = some u) (hs : d.lookup "decay_steps" = some (.num steps))
    (hr : d.lookup "decay_rate" = some (.num decay)) (hon : u.truthy = true) (hd0 : 0 ≤ decay)
    (hd1 : decay < 1) (lr : LearningRate) (hlr : learningRateFn d = .ok lr) (act : String → ℝ → ℝ)
    (attention : Batch → Except PyErr Batch) (beta : ℝ) :
    ∃ (F : Fin 1 → ℝ) (st : ℕ → TrainState) (outs : ℕ → TrainOut 1) (θ : Weights),
      st 0 = ⟨fun _ => 0, AdamState.init⟩ ∧
      (∀ k, trainStepWith (forwardDense (lossOf .poisson 1 1 1) (lineModel F) act attention false 2 [⟨1, none⟩] 1 beta
        (some [("eps", 1)])) (trainableVariables 2 [⟨1, none⟩] []) lr (st k) = .ok (outs k, st (k + 1))) ∧
      (∀ x, Tendsto (fun k => (st k).weights x) atTop (𝓝 (θ x))) ∧
      (∃ x ∈ trainableVariables 2 [⟨1, none⟩] [], ∃ (L : ℝ → ℝ) (c : ℝ), c ≠ 0 ∧ HasDerivAt L c (θ x) ∧
        ∀ t, ∃ o, trainStepDense (lossOf .poisson 1 1 1) (lineModel F) (networkAt act attention false 2 [⟨1, none⟩] 1
          (Function.update θ x t)) beta (some [("eps", 1)]) = .ok o ∧ o.loss 0 = L t) ∧
      ∃ θ' o, trainStepDense (lossOf .poisson 1 1 1) (lineModel F) (networkAt act attention false 2 [⟨1, none⟩] 1 θ')
        beta (some [("eps", 1)]) = .ok o ∧ o.loss 0 = 0 := by
  let R : ℝ := 73 / 10 * |initial| * steps / (1 - decay)
  let F : Fin 1 → ℝ := fun _ => R + 1
  let fwd := forwardDense (lossOf .poisson 1 1 1) (lineModel F) act attention false 2 [⟨1, none⟩] 1 beta
    (some [("eps", 1)])
  have hval : ∀ θ o, trainStepDense (lossOf .poisson 1 1 1) (lineModel F)
      (networkAt act attention false 2 [⟨1, none⟩] 1 θ) beta (some [("eps", 1)]) = .ok o →
      o.loss 0 = (θ (.kernel 0 0 0) - (R + 1)) ^ 2 + beta * θ (.bias 0 0) ^ 2 := by
    intro θ o ho
    have := line_total F attention act beta θ
    unfold Forward.total forwardDense at this
    rw [ho] at this
    simp only [Fin.sum_univ_one] at this
    rw [this]
    simp [meanSq, F]
    ring
  have hstep : ∀ s, ∃ q : TrainOut 1 × TrainState,
      trainStepWith fwd (trainableVariables 2 [⟨1, none⟩] []) lr s = .ok q := by
    intro s
    obtain ⟨o, ho⟩ := line_step F attention act beta s.weights
    unfold trainStepWith
    simp only [fwd, forwardDense, ho]
    exact ⟨_, rfl⟩
  choose q hq using hstep
  let st : ℕ → TrainState := fun k => (fun s => (q s).2)^[k] ⟨fun _ => 0, AdamState.init⟩
  have hst : ∀ k, trainStepWith fwd (trainableVariables 2 [⟨1, none⟩] []) lr (st k)
      = .ok ((q (st k)).1, st (k + 1)) := by
    intro k
    rw [hq (st k)]
    simp only [st, Function.iterate_succ_apply']
  have hlim := C74_converges fwd 2 [⟨1, none⟩] [] List.nodup_nil d initial decay steps hsteps u hi hu hs hr hon hd0 hd1
    lr hlr st rfl fun k => ⟨_, hst k⟩
  choose θ hθ using hlim
  have hbound : ∀ k, |(st k).weights (.kernel 0 0 0)| ≤ R := by
    intro k
    have hrun := (trainEpochs_iff (trainStepWith fwd (trainableVariables 2 [⟨1, none⟩] []) lr) k
      ⟨fun _ => 0, AdamState.init⟩ (st k) (List.ofFn fun i : Fin k => (q (st i)).1)).2 ⟨by simp, st, fun j hj => by
        simpa using hst j, rfl, rfl⟩
    have := C74_scheduler fwd 2 [⟨1, none⟩] [] List.nodup_nil d initial decay steps hsteps u hi hu hs hr hon hd0 hd1
      lr hlr _ k _ _ hrun (.kernel 0 0 0)
    simpa using this
  have hle : θ (.kernel 0 0 0) ≤ R := by
    refine le_of_tendsto (hθ (.kernel 0 0 0)) (Eventually.of_forall fun k => ?_)
    exact (le_abs_self _).trans (hbound k)
  refine ⟨F, st, fun k => (q (st k)).1, θ, rfl, hst, hθ, ⟨.kernel 0 0 0,
    by simp [trainableVariables, layerVars, List.range_succ],
    fun t => (t - (R + 1)) ^ 2 + beta * θ (.bias 0 0) ^ 2, 2 * (θ (.kernel 0 0 0) - (R + 1)), ?_, ?_, fun t => ?_⟩, ?_⟩
  · intro hz
    linarith
  · have := ((((hasDerivAt_id (θ (.kernel 0 0 0))).sub_const (R + 1)).pow 2).add_const (beta * θ (.bias 0 0) ^ 2))
    refine this.congr_deriv ?_
    simp
  · obtain ⟨o, ho⟩ := line_step F attention act beta (Function.update θ (.kernel 0 0 0) t)
    refine ⟨o, ho, ?_⟩
    rw [hval _ _ ho]
    simp [Function.update]
  · let θ' : Weights := fun v => if v = .kernel 0 0 0 then R + 1 else 0
    obtain ⟨o, ho⟩ := line_step F attention act beta θ'
    refine ⟨θ', o, ho, ?_⟩
    rw [hval _ _ ho]
    simp [θ']

/-! ## The hypotheses are met -/

/-- A training that settles at once, with loss one: zero weights are stationary for the contradictory problem
`lineModel ![1, -1]`; `C107_dense` concludes that no weights of the network (which has an output layer only)
have a smaller loss. -/
example (attention : Batch → Except PyErr Batch) : ∃ (st : ℕ → TrainState) (outs : ℕ → TrainOut 1),
    (∀ k, trainStepWith (forwardDense (lossOf .poisson 1 2 1) (lineModel ![1, -1]) (fun _ => Real.tanh) attention
      false 2 [⟨1, none⟩] 1 10 (some [("eps", 1)])) (trainableVariables 2 [⟨1, none⟩] []) (.constant (1 / 1000)) (st k)
      = .ok (outs k, st (k + 1))) ∧
    (∀ x, Tendsto (fun k => (st k).weights x) atTop (𝓝 0)) ∧ Tendsto (fun k => (outs k).loss 0) atTop (𝓝 1) := by
  let fwd := forwardDense (lossOf .poisson 1 2 1) (lineModel ![1, -1]) (fun _ => Real.tanh) attention
      false 2 [⟨1, none⟩] 1 10 (some [("eps", 1)])
  have hval : ∀ θ, fwd.total θ = θ (.kernel 0 0 0) ^ 2 + 1 + 10 * θ (.bias 0 0) ^ 2 := by
    intro θ
    refine (line_total ![1, -1] attention (fun _ => Real.tanh) 10 θ).trans ?_
    simp [meanSq, Fin.sum_univ_two]
    ring
  have hgrad : ∀ v, v ∈ trainableVariables 2 [⟨1, none⟩] [] → lossGradient fwd (fun _ => 0) v = 0 := by
    intro v hv
    unfold lossGradient
    simp only [hval]
    have hv' : v = .kernel 0 0 0 ∨ v = .kernel 0 1 0 ∨ v = .bias 0 0 := by
      simp [trainableVariables, layerVars, List.range_succ] at hv
      tauto
    rcases hv' with rfl | rfl | rfl <;> simp [Function.update]
  obtain ⟨o, ho⟩ := line_step ![1, -1] attention (fun _ => Real.tanh) 10 fun _ => 0
  let st : ℕ → TrainState := fun k => ⟨fun _ => 0, ⟨fun _ => 0, fun _ => 0, k⟩⟩
  have hst : ∀ k, trainStepWith fwd (trainableVariables 2 [⟨1, none⟩] []) (.constant (1 / 1000)) (st k)
      = .ok (o, st (k + 1)) := by
    intro k
    have hf : fwd (st k).weights = .ok (o, ∑ j, o.loss j) := by
      simp only [fwd, forwardDense, st]
      rw [ho]
    unfold trainStepWith
    rw [hf]
    simp only [Except.ok.injEq, Prod.mk.injEq, true_and]
    rw [applyGradients_eq _ _ _ (trainableVariables_nodup 2 [⟨1, none⟩] [] List.nodup_nil)]
    simp only [st, TrainState.mk.injEq, AdamState.mk.injEq]
    refine ⟨funext fun x => ?_, funext fun x => ?_, funext fun x => ?_, trivial⟩
    · split_ifs with hx
      · rw [hgrad x hx]; simp [adamM]
      · rfl
    · split_ifs with hx
      · rw [hgrad x hx]; simp [adamM]
      · rfl
    · split_ifs with hx
      · rw [hgrad x hx]; simp [adamV]
      · rfl
  have hlim : ∀ x, Tendsto (fun k => (st k).weights x) atTop (𝓝 ((fun _ => 0 : Weights) x)) := fun x =>
    tendsto_const_nhds
  have hco : Coefficients (nc := 1) (nq := 1) .poisson (some [("eps", 1)]) none [] (fun _ _ => 1) (0, 0) 0 :=
    ⟨1, ⟨_, rfl, rfl⟩, rfl, rfl, rfl⟩
  obtain ⟨o', h1, h2, -⟩ := C107_dense (lineModel ![1, -1]) _ (lineModel_shaped _) (fun _ => Real.tanh) attention
    "tanh" contDiff_tanh [2, 1] [⟨1, none⟩] (by simp) demo_layerSpecs rfl 10 (some [("eps", 1)]) (1 / 1000)
    (by norm_num) st (fun _ => 0) hlim rfl .poisson (Or.inl rfl) _ _ _ hco (fun _ => o) hst
  refine ⟨st, fun _ => o, hst, hlim, ?_⟩
  have e : o.loss 0 = 1 := by
    have := hval fun _ => 0
    simp only [fwd] at this
    unfold Forward.total forwardDense at this
    rw [ho] at this
    simpa using this
  rw [← e]
  exact tendsto_const_nhds

/-- `C107_scheduler` with the values of the Poisson example and the scheduler on. -/
example (act : String → ℝ → ℝ) (attention : Batch → Except PyErr Batch) : ∃ lr, learningRateFn
      [("initial_learning_rate", .num (1 / 1000)), ("use_lr_scheduler", .bool true),
        ("decay_steps", .num (1000 : ℕ)), ("decay_rate", .num (99 / 100))] = .ok lr ∧
    ∃ (F : Fin 1 → ℝ) (st : ℕ → TrainState), ∀ k, ∃ o, trainStepWith (forwardDense (lossOf .poisson 1 1 1)
      (lineModel F) act attention false 2 [⟨1, none⟩] 1 10 (some [("eps", 1)])) (trainableVariables 2 [⟨1, none⟩] []) lr
      (st k) = .ok (o, st (k + 1)) := by
  obtain ⟨lr, hlr, -⟩ := C50_rate [("initial_learning_rate", .num (1 / 1000)), ("use_lr_scheduler", .bool true),
    ("decay_steps", .num (1000 : ℕ)), ("decay_rate", .num (99 / 100))] (1 / 1000) (99 / 100) 1000 (by norm_num)
    (.bool true) rfl rfl rfl rfl
  obtain ⟨F, st, outs, -, -, h, -⟩ := C107_scheduler _ (1 / 1000) (99 / 100) 1000 (by norm_num) (.bool true) rfl rfl rfl
    rfl rfl (by norm_num) (by norm_num) lr hlr act attention 10
  exact ⟨lr, hlr, F, st, fun k => ⟨_, h k⟩⟩

lemma zero_run {α : Type} (fwd : Forward α) (hpos : ∀ θ, 0 ≤ fwd.total θ) (vars : List Var) (hn : vars.Nodup)
    (lr : LearningRate) (θ : Weights) (out : α) (h0 : fwd θ = .ok (out, 0)) (k : ℕ) :
    trainStepWith fwd vars lr ⟨θ, ⟨fun _ => 0, fun _ => 0, k⟩⟩
      = .ok (out, ⟨θ, ⟨fun _ => 0, fun _ => 0, k + 1⟩⟩) := by
  have ht : fwd.total θ = 0 := by unfold Forward.total; rw [h0]
  have hg := lossGradient_eq_zero fwd hpos θ ht
  unfold trainStepWith
  rw [h0]
  simp only [Except.ok.injEq, Prod.mk.injEq, true_and]
  rw [applyGradients_eq _ _ _ hn]
  simp only [TrainState.mk.injEq, AdamState.mk.injEq]
  refine ⟨funext fun x => ?_, funext fun x => ?_, funext fun x => ?_, trivial⟩ <;>
    split_ifs <;> simp [hg, adamM, adamV]

/-- The hypotheses of `C107_hard`: a settled training with the constraint `x + x N` for the solution `x`. -/
example (attention : Batch → Except PyErr Batch) : ∃ (st : ℕ → TrainState) (o : TrainOutHard),
    (∀ k, trainStepWith (forwardHard (lossOf .poisson 1 1 1) (lineModel fun _ : Fin 1 => 1) (fun _ => Real.tanh)
      attention false 2 [⟨1, none⟩] 1 10 (some [("eps", 1)]) (List.zipWith fun x v => v.map fun y =>
        (fun z : ℝ × ℝ => z.1) (x.getD 0 0, x.getD 1 0) + (fun z : ℝ × ℝ => z.1) (x.getD 0 0, x.getD 1 0) * y))
      (trainableVariables 2 [⟨1, none⟩] []) (.constant (1 / 1000)) (st k) = .ok (o, st (k + 1))) ∧
    (∀ x, Tendsto (fun k => (st k).weights x) atTop (𝓝 0)) ∧
    ∀ θ' o', DifferOnly (OutputColumn 0 0) (trainableVariables 2 [⟨1, none⟩] []) (fun _ => 0) θ' →
      trainStepHard (lossOf .poisson 1 1 1) (lineModel fun _ : Fin 1 => 1) (networkHard (fun _ => Real.tanh) attention
        false (layersAt θ' 0 2 [⟨1, none⟩]) (List.zipWith fun x v => v.map fun y =>
        (fun z : ℝ × ℝ => z.1) (x.getD 0 0, x.getD 1 0) + (fun z : ℝ × ℝ => z.1) (x.getD 0 0, x.getD 1 0) * y) 1) 10
        (some [("eps", 1)]) = .ok o' → o.loss ≤ o'.loss := by
  have hco : Coefficients (nc := 1) (nq := 1) .poisson (some [("eps", 1)]) none [] (fun _ _ => 1) (0, 0) 0 :=
    ⟨1, ⟨_, rfl, rfl⟩, rfl, rfl, rfl⟩
  have htot := forwardHard_total (lineModel fun _ : Fin 1 => 1) _ (lineModel_shaped _) (fun _ => Real.tanh) attention
    "tanh" [2, 1] [⟨1, none⟩] (by simp) demo_layerSpecs rfl 10 (some [("eps", 1)]) rfl .poisson (Or.inl rfl) _ _ _ hco
    (fun z y => z.1 + z.1 * y) (fun _ => 0)
  obtain ⟨J, h1, -⟩ := C106_hard (lineModel fun _ : Fin 1 => 1) _ (lineModel_shaped _) (fun _ => Real.tanh) attention
    "tanh" contDiff_tanh [2, 1] [⟨1, none⟩] (by simp) demo_layerSpecs rfl 10 (some [("eps", 1)]) rfl .poisson
    (Or.inl rfl) _ _ _ hco (fun z => z.1) (fun z => z.1) contDiff_fst contDiff_fst
  obtain ⟨o, ho, -⟩ := h1 fun _ => 0
  have hz : o.loss = 0 := by
    unfold Forward.total forwardHard at htot
    rw [ho] at htot
    dsimp only at htot
    rw [htot]
    have e : (fun z : ℝ × ℝ => z.1 + z.1 * netFn (fun _ => Real.tanh) "tanh" [2, 1] [⟨1, none⟩] (fun _ => 0) 0 z)
        = fun z => z.1 * 1 + z.2 * 0 + 0 := by
      funext z
      rw [demo_net]
      ring
    rw [e]
    simp only [pdeLoss, demo_dx, demo_dy]
    simp [meanSq, testedResidual, lineModel]
  have hst := zero_run (forwardHard (lossOf .poisson 1 1 1) (lineModel fun _ : Fin 1 => 1) (fun _ => Real.tanh)
      attention false 2 [⟨1, none⟩] 1 10 (some [("eps", 1)]) (List.zipWith fun x v => v.map fun y =>
        (fun z : ℝ × ℝ => z.1) (x.getD 0 0, x.getD 1 0) + (fun z : ℝ × ℝ => z.1) (x.getD 0 0, x.getD 1 0) * y))
    (fun θ => forwardHard_nonneg _ _ _ _ _ _ _ _ θ .poisson (Or.inl rfl) _)
    (trainableVariables 2 [⟨1, none⟩] []) (trainableVariables_nodup 2 [⟨1, none⟩] [] List.nodup_nil)
    (.constant (1 / 1000)) (fun _ => 0) o (by
      unfold forwardHard
      rw [show layersAt (fun _ => 0) 0 2 [⟨1, none⟩] = layersAt (fun _ => 0) 0 ([2, 1].getD 0 0) [⟨1, none⟩] from rfl, ho]
      simp only [hz])
  obtain ⟨o1, e1, -, -, e2⟩ := C107_hard (lineModel fun _ : Fin 1 => 1) _ (lineModel_shaped _) (fun _ => Real.tanh)
    attention "tanh" contDiff_tanh [2, 1] [⟨1, none⟩] (by simp) demo_layerSpecs rfl 10 (some [("eps", 1)]) (1 / 1000)
    (by norm_num) (fun k => ⟨fun _ => 0, ⟨fun _ => 0, fun _ => 0, k⟩⟩) (fun _ => 0) (fun _ => tendsto_const_nhds) rfl
    .poisson (Or.inl rfl) _ _ _ hco (fun z => z.1) (fun z => z.1) contDiff_fst contDiff_fst (fun _ => o) hst
  obtain rfl := Except.ok.inj (ho.symm.trans e1)
  exact ⟨_, o, hst, fun _ => tendsto_const_nhds, e2⟩

/-- The hypotheses of `C107_inverse` and `C107_inverse_domain`: trainings settled at the solution `x` with the
parameter, or the coefficient, one. -/
example (attention : Batch → Except PyErr Batch) :
    (∃ (st : ℕ → TrainState) (o : TrainOutInverse 1) (θ : Weights),
      (∀ k, trainStepInverseFull (lossPoissonInverse 1 1 1) (lineModel fun _ : Fin 1 => 1) (fun _ => Real.tanh)
        attention false 2 [⟨1, none⟩] 1 10 none (fun _ : Fin 1 => (4, 0)) (fun _ => 4) ["eps"] (.constant (1 / 1000))
        (st k) = .ok (o, st (k + 1))) ∧ (∀ x, Tendsto (fun k => (st k).weights x) atTop (𝓝 (θ x))) ∧
      ∀ θ' o', DifferOnly (· = Var.inverse "eps") (trainableVariables 2 [⟨1, none⟩] ["eps"]) θ θ' →
        trainStepInverse (lossPoissonInverse 1 1 1) (lineModel fun _ : Fin 1 => 1) (fun _ : Fin 1 => (4, 0))
          (fun _ => 4) (inverseAt θ' ["eps"]) (networkAt (fun _ => Real.tanh) attention false 2 [⟨1, none⟩] 1 θ') 10
          none = .ok o' → o.loss 0 ≤ o'.loss 0) ∧
    ∃ (st : ℕ → TrainState) (o : TrainOutInverse 1) (θ : Weights),
      (∀ k, trainStepWith (forwardInverseDomain (lossCd2dInverseDomain 1 1 1) (lineModel fun _ : Fin 1 => 1)
        (fun _ => Real.tanh) attention false 2 [⟨2, none⟩] 2 10 (some [("b_x", 0), ("b_y", 0), ("c", 0)])
        (fun _ : Fin 1 => (4, 0)) (fun _ => 4)) (trainableVariables 2 [⟨2, none⟩] []) (.constant (1 / 1000)) (st k)
        = .ok (o, st (k + 1))) ∧ (∀ x, Tendsto (fun k => (st k).weights x) atTop (𝓝 (θ x))) ∧
      ∀ θ' o', DifferOnly (OutputColumn 0 1) (trainableVariables 2 [⟨2, none⟩] []) θ θ' →
        trainStepInverseDomain (lossCd2dInverseDomain 1 1 1) (lineModel fun _ : Fin 1 => 1) (fun _ : Fin 1 => (4, 0))
          (fun _ => 4) (networkAt (fun _ => Real.tanh) attention false 2 [⟨2, none⟩] 2 θ') 10
          (some [("b_x", 0), ("b_y", 0), ("c", 0)]) = .ok o' → o.loss 0 ≤ o'.loss 0 := by
  let w : Weights := fun v => if v = .kernel 0 0 0 ∨ v = .inverse "eps" ∨ v = .bias 0 1 then 1 else 0
  constructor
  · obtain ⟨J, h1, -⟩ := C106_inverse (lineModel fun _ : Fin 1 => 1) _ (lineModel_shaped _) (fun _ => Real.tanh)
      attention "tanh" contDiff_tanh [2, 1] [⟨1, none⟩] (by simp) demo_layerSpecs rfl 10 none (by norm_num) rfl
      (fun _ : Fin 1 => (4, 0)) (fun _ => 4) ["eps"] (by simp)
    have htot := forwardInverse_total (lineModel fun _ : Fin 1 => 1) _ (lineModel_shaped _) (fun _ => Real.tanh)
      attention "tanh" [2, 1] [⟨1, none⟩] (by simp) demo_layerSpecs rfl 10 none rfl
      (fun _ : Fin 1 => (4, 0)) (fun _ => 4) ["eps"] (by simp) w
    obtain ⟨o, ho, -⟩ := h1 w
    have hf : forwardInverse (lossPoissonInverse 1 1 1) (lineModel fun _ : Fin 1 => 1) (fun _ => Real.tanh)
        attention false 2 [⟨1, none⟩] 1 10 none (fun _ : Fin 1 => (4, 0)) (fun _ => 4) ["eps"] w
        = .ok (o, 0) := by
      have e : forwardInverse (lossPoissonInverse 1 1 1) (lineModel fun _ : Fin 1 => 1) (fun _ => Real.tanh)
          attention false 2 [⟨1, none⟩] 1 10 none (fun _ : Fin 1 => (4, 0)) (fun _ => 4) ["eps"] w
          = .ok (o, ∑ j, o.loss j) := by
        unfold forwardInverse
        rw [show networkAt (fun _ => Real.tanh) attention false 2 [⟨1, none⟩] 1 w
          = networkAt (fun _ => Real.tanh) attention false ([2, 1].getD 0 0) [⟨1, none⟩] 1 w from rfl, ho]
      rw [e]
      unfold Forward.total at htot
      rw [show [2, 1].getD 0 0 = 2 from rfl, e] at htot
      dsimp only at htot
      rw [htot, lineModel_pdeLoss]
      simp only [demo_net]
      simp [meanSq, lineModel, w]
    have hinv : o.inverseParams = inverseAt w ["eps"] := by
      have hu := netFn_rowWise (fun _ => Real.tanh) "tanh" [2, 1] [⟨1, none⟩] (by simp) demo_layerSpecs rfl 1 rfl
        attention w
      obtain ⟨eps, -, -, -, -, e, -⟩ := (C47_inverse (lineModel fun _ : Fin 1 => 1) _ (lineModel_shaped _) 10 none
        (inverseAt w ["eps"]) (fun _ : Fin 1 => (4, 0)) (fun _ => 4) _ _ hu).2 o ho
      exact e
    have hst : ∀ k, trainStepInverseFull (lossPoissonInverse 1 1 1) (lineModel fun _ : Fin 1 => 1) (fun _ => Real.tanh)
        attention false 2 [⟨1, none⟩] 1 10 none (fun _ : Fin 1 => (4, 0)) (fun _ => 4) ["eps"] (.constant (1 / 1000))
        ⟨w, ⟨fun _ => 0, fun _ => 0, k⟩⟩ = .ok (o, ⟨w, ⟨fun _ => 0, fun _ => 0, k + 1⟩⟩) := by
      intro k
      unfold trainStepInverseFull
      rw [zero_run _ (fun θ => forwardInverse_nonneg _ _ _ _ _ _ _ _ θ (by norm_num) _ _ _) _
        (trainableVariables_nodup 2 [⟨1, none⟩] ["eps"] (by simp)) _ w o hf k]
      simp only [← hinv]
    obtain ⟨o1, e1, -, -, e2⟩ := C107_inverse (lineModel fun _ : Fin 1 => 1) _ (lineModel_shaped _)
      (fun _ => Real.tanh) attention "tanh" contDiff_tanh [2, 1] [⟨1, none⟩] (by simp) demo_layerSpecs rfl 10 none
      (1 / 1000) (by norm_num) (fun k => ⟨w, ⟨fun _ => 0, fun _ => 0, k⟩⟩) w (fun _ => tendsto_const_nhds) rfl
      (fun _ : Fin 1 => (4, 0)) (fun _ => 4) ["eps"] (by simp) (by simp) (fun _ => o) hst
    obtain rfl := Except.ok.inj (ho.symm.trans e1)
    exact ⟨_, o, w, hst, fun _ => tendsto_const_nhds, fun θ' o' hd h' => e2 (by norm_num) _ θ' o' (Or.inr rfl) hd h'⟩
  · have hls : layerSpecs [2, 2] "tanh" = .ok [⟨2, none⟩] := rfl
    have hnet : ∀ z, netFn (fun _ => Real.tanh) "tanh" [2, 2] [⟨2, none⟩] w 0 z = z.1 * 1 + z.2 * 0 + 0 ∧
        netFn (fun _ => Real.tanh) "tanh" [2, 2] [⟨2, none⟩] w 1 z = 1 := by
      intro z
      constructor <;>
        simp [netFn, outputValue, hiddenValues, kernels, biases, kernelAt, biasAt, layersAt, Finset.sum_range_succ, w]
    obtain ⟨J, h1, -⟩ := C106_inverse_domain (lineModel fun _ : Fin 1 => 1) _ (lineModel_shaped _)
      (fun _ => Real.tanh) attention "tanh" contDiff_tanh [2, 2] [⟨2, none⟩] (by simp) hls rfl 10
      (some [("b_x", 0), ("b_y", 0), ("c", 0)]) (by norm_num) rfl (fun _ : Fin 1 => (4, 0)) (fun _ => 4) (0, 0) 0
      ⟨_, rfl, rfl⟩ ⟨_, rfl, rfl⟩ ⟨_, rfl, rfl⟩
    have htot := forwardInverseDomain_total (lineModel fun _ : Fin 1 => 1) _ (lineModel_shaped _)
      (fun _ => Real.tanh) attention "tanh" [2, 2] [⟨2, none⟩] (by simp) hls rfl 10
      (some [("b_x", 0), ("b_y", 0), ("c", 0)]) rfl (fun _ : Fin 1 => (4, 0)) (fun _ => 4) (0, 0) 0
      ⟨_, rfl, rfl⟩ ⟨_, rfl, rfl⟩ ⟨_, rfl, rfl⟩ w
    obtain ⟨o, ho, -⟩ := h1 w
    have hf : forwardInverseDomain (lossCd2dInverseDomain 1 1 1) (lineModel fun _ : Fin 1 => 1) (fun _ => Real.tanh)
        attention false 2 [⟨2, none⟩] 2 10 (some [("b_x", 0), ("b_y", 0), ("c", 0)]) (fun _ : Fin 1 => (4, 0))
        (fun _ => 4) w = .ok (o, 0) := by
      have e : forwardInverseDomain (lossCd2dInverseDomain 1 1 1) (lineModel fun _ : Fin 1 => 1) (fun _ => Real.tanh)
          attention false 2 [⟨2, none⟩] 2 10 (some [("b_x", 0), ("b_y", 0), ("c", 0)]) (fun _ : Fin 1 => (4, 0))
          (fun _ => 4) w = .ok (o, ∑ j, o.loss j) := by
        unfold forwardInverseDomain
        rw [show networkAt (fun _ => Real.tanh) attention false 2 [⟨2, none⟩] 2 w
          = networkAt (fun _ => Real.tanh) attention false ([2, 2].getD 0 0) [⟨2, none⟩] 2 w from rfl, ho]
      rw [e]
      unfold Forward.total at htot
      rw [show [2, 2].getD 0 0 = 2 from rfl, e] at htot
      dsimp only at htot
      rw [htot]
      have hfun : netFn (fun _ => Real.tanh) "tanh" [2, 2] [⟨2, none⟩] w 0 = fun z => z.1 * 1 + z.2 * 0 + 0 :=
        funext fun z => (hnet z).1
      rw [hfun]
      simp only [(hnet _).2, pdeLoss, demo_dx, demo_dy]
      simp [meanSq, testedResidual, lineModel]
    have hst := zero_run _ (fun θ => forwardInverseDomain_nonneg _ _ _ _ _ _ _ _ θ (by norm_num) _ _) _
        (trainableVariables_nodup 2 [⟨2, none⟩] [] List.nodup_nil) (.constant (1 / 1000)) w o hf
    obtain ⟨o1, e1, -, -, e2⟩ := C107_inverse_domain (lineModel fun _ : Fin 1 => 1) _ (lineModel_shaped _)
      (fun _ => Real.tanh) attention "tanh" contDiff_tanh [2, 2] [⟨2, none⟩] (by simp) hls rfl 10
      (some [("b_x", 0), ("b_y", 0), ("c", 0)]) (1 / 1000) (by norm_num)
      (fun k => ⟨w, ⟨fun _ => 0, fun _ => 0, k⟩⟩) w (fun _ => tendsto_const_nhds) rfl
      (fun _ : Fin 1 => (4, 0)) (fun _ => 4) (0, 0) 0 ⟨_, rfl, rfl⟩ ⟨_, rfl, rfl⟩ ⟨_, rfl, rfl⟩ (fun _ => o) hst
    obtain rfl := Except.ok.inj (ho.symm.trans e1)
    exact ⟨_, o, w, hst, fun _ => tendsto_const_nhds, fun θ' o' hd h' => e2 (by norm_num) 1 θ' o' hd h'⟩

end FastVPINNs
