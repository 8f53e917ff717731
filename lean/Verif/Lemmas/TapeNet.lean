import Verif.Lemmas.Tape
import Verif.Lemmas.Network
import Verif.Lemmas.SmoothModels
import Verif.Spec.Tape
import Mathlib.Analysis.SpecialFunctions.ExpDeriv
import Mathlib.Analysis.Calculus.Deriv.ZPow
import Mathlib.Data.List.GetD

/-! # The recorded network: values and regularity -/

namespace FastVPINNs

open Filter Topology Spec

/-- The numbers of a batch. -/
noncomputable def valBatch {n : ℕ} (ρ : Source n → ℝ) (x : NodeBatch n) : Batch := x.map (List.map (Node.value ρ))

/-- All entries are regular. -/
def RegBatch {n : ℕ} (m : ℕ) (ρ : Source n → ℝ) (x : NodeBatch n) : Prop := ∀ row ∈ x, ∀ e ∈ row, e.Regular m ρ

lemma getD_map_value {ι : Type} (ρ : ι → ℝ) (r : List (Node ι)) (i : ℕ) :
    (r.map (Node.value ρ)).getD i 0 = (r.getD i (.const 0)).value ρ := by
  rw [List.getD_eq_getElem?_getD, List.getD_eq_getElem?_getD, List.getElem?_map]
  cases r[i]? <;> rfl

section
variable {n : ℕ} (act : String → ℕ → ℝ → ℝ) (X : Fin n → ℝ × ℝ) (θ : Weights)

lemma applyLayerN_value (k inDim : ℕ) (s : LayerSpec) (x : List (Node (Source n))) :
    applyLayer (fun a => act a 0) ⟨inDim, s.units, fun i j => θ (.kernel k i j), fun j => θ (.bias k j), s.activation⟩
        (x.map (Node.value (Source.at X θ)))
      = (applyLayerN act k inDim s x).map (List.map (Node.value (Source.at X θ))) := by
  unfold applyLayer applyLayerN
  by_cases h : x.length = inDim
  · subst h
    simp only [List.length_map, dif_pos, Except.map, List.map_ofFn]
    congr 2
    funext j
    cases s.activation <;> simp [Node.value, Source.at]
  · simp [h, Except.map]

lemma mapE_natural {α β α' β' ε : Type} {f : α → Except ε β} {g : α' → Except ε β'} {a : α → α'} {b : β → β'}
    (h : ∀ x, g (a x) = (f x).map b) (l : List α) : mapE g (l.map a) = (mapE f l).map (List.map b) := by
  induction l with
  | nil => rfl
  | cons x l ih =>
    simp only [mapE, List.map_cons, h, ih]
    cases f x with
    | error e => rfl
    | ok y => cases mapE f l <;> rfl

lemma applyLayersN_value : ∀ (specs : List LayerSpec) (k inDim : ℕ) (x : NodeBatch n),
    applyLayers (fun a => act a 0) (layersAt θ k inDim specs) (valBatch (Source.at X θ) x)
      = (applyLayersN act k inDim specs x).map (valBatch (Source.at X θ))
  | [], _, _, _ => rfl
  | s :: rest, k, inDim, x => by
    simp only [layersAt, applyLayers, applyLayersN]
    rw [valBatch, mapE_natural (applyLayerN_value act X θ k inDim s)]
    cases mapE (applyLayerN act k inDim s) x with
    | error e => rfl
    | ok y => exact applyLayersN_value rest (k + 1) s.units y

lemma mapE_nodes_forall₂ {α β ε : Type} {f : α → Except ε β} : ∀ {l : List α} {l' : List β}, mapE f l = .ok l' →
    ∀ b ∈ l', ∃ a ∈ l, f a = .ok b
  | [], l', h, b, hb => by
    cases h
    cases hb
  | a :: l, l', h, b, hb => by
    simp only [mapE] at h
    cases ha : f a with
    | error e => simp [ha] at h
    | ok y =>
      cases hl : mapE f l with
      | error e => simp [ha, hl] at h
      | ok ys =>
        simp only [ha, hl, Except.ok.injEq] at h
        subst h
        rcases List.mem_cons.1 hb with rfl | hb
        · exact ⟨a, by simp, ha⟩
        · obtain ⟨c, hc, h⟩ := mapE_nodes_forall₂ hl b hb
          exact ⟨c, by simp [hc], h⟩

lemma Spec.SmoothAt.regular {f : ℕ → ℝ → ℝ} {z : ℝ} (h : SmoothAt f z) :
    ∀ i < 2, ∀ᶠ y in 𝓝 z, HasDerivAt (f (0 + i)) (f (0 + i + 1) y) y := by
  intro i hi
  interval_cases i
  · exact h.1
  · exact h.2

lemma applyLayerN_regular (k inDim : ℕ) (s : LayerSpec) {x y : List (Node (Source n))}
    (h : applyLayerN act k inDim s x = .ok y) (hx : ∀ e ∈ x, e.Regular 2 (Source.at X θ))
    (L : DenseLayer) (hL : L = ⟨inDim, s.units, fun i j => θ (.kernel k i j), fun j => θ (.bias k j), s.activation⟩)
    (hs : ∀ a, L.activation = some a → ∀ j, SmoothAt (act a) (preActivation L (x.map (Node.value (Source.at X θ))) j)) :
    (∀ e ∈ y, e.Regular 2 (Source.at X θ)) ∧ y.map (Node.value (Source.at X θ)) = List.ofFn fun j =>
      match L.activation with
      | none => preActivation L (x.map (Node.value (Source.at X θ))) j
      | some a => act a 0 (preActivation L (x.map (Node.value (Source.at X θ))) j) := by
  subst hL
  unfold applyLayerN at h
  split at h
  · rename_i hl
    subst hl
    simp only [Except.ok.injEq] at h
    subst h
    have hz : ∀ j : Fin s.units, (Node.add (.sum x.length fun i => .mul (x[i.val]) (.source (.var (.kernel k i j))))
        (.source (.var (.bias k j)))).value (Source.at X θ) = preActivation ⟨x.length, s.units,
          fun i j => θ (.kernel k i j), fun j => θ (.bias k j), s.activation⟩ (x.map (Node.value (Source.at X θ))) j := by
      intro j
      simp [Node.value, Source.at, preActivation]
    constructor
    · intro e he
      obtain ⟨j, rfl⟩ := (List.mem_ofFn).1 he
      have hr : (Node.add (.sum x.length fun i => .mul (x[i.val]) (.source (.var (.kernel k i j))))
          (.source (.var (.bias k j)))).Regular 2 (Source.at X θ) :=
        ⟨fun i => ⟨hx _ (List.getElem_mem _), trivial⟩, trivial⟩
      cases ha : s.activation with
      | none => exact hr
      | some a =>
        refine ⟨hr, ?_⟩
        rw [hz j]
        exact (hs a ha j).regular
    · rw [List.map_ofFn]
      congr 1
      funext j
      dsimp only [Function.comp]
      cases ha : s.activation with
      | none => dsimp only; rw [hz j, ha]
      | some a =>
        show act a 0 (Node.value _ _) = _
        rw [hz j, ha]
  · cases h

lemma applyLayersN_regular : ∀ (specs : List LayerSpec) (k inDim : ℕ) {x y : NodeBatch n},
    applyLayersN act k inDim specs x = .ok y → RegBatch 2 (Source.at X θ) x →
    (∀ row ∈ valBatch (Source.at X θ) x, NoKink act (layersAt θ k inDim specs) row) → RegBatch 2 (Source.at X θ) y
  | [], _, _, _, _, h, hx, _ => by
    cases h
    exact hx
  | s :: rest, k, inDim, x, y, h, hx, hs => by
    simp only [applyLayersN] at h
    cases hm : mapE (applyLayerN act k inDim s) x with
    | error e => simp [hm] at h
    | ok z =>
      rw [hm] at h
      have hrow : ∀ row ∈ z, ∃ r ∈ x, applyLayerN act k inDim s r = .ok row := mapE_nodes_forall₂ hm
      refine applyLayersN_regular rest (k + 1) s.units h (fun row hrow' => ?_) (fun row hrow' => ?_)
      · obtain ⟨r, hr, he⟩ := hrow row hrow'
        have hk := hs (r.map (Node.value (Source.at X θ))) (List.mem_map_of_mem hr)
        exact (applyLayerN_regular act X θ k inDim s he (hx r hr) _ rfl hk.1).1
      · obtain ⟨row', hr', rfl⟩ := List.mem_map.1 hrow'
        obtain ⟨r, hr, he⟩ := hrow row' hr'
        have hk := hs (r.map (Node.value (Source.at X θ))) (List.mem_map_of_mem hr)
        rw [(applyLayerN_regular act X θ k inDim s he (hx r hr) _ rfl hk.1).2]
        exact hk.2

/-! ## Attention -/

/-- The registered derivatives are the derivatives everywhere. -/
def SmoothOps (f : ℕ → ℝ → ℝ) : Prop := ∀ k z, HasDerivAt (f k) (f (k + 1) z) z

lemma expOps_smooth : SmoothOps expOps := fun _ z => Real.hasDerivAt_exp z

lemma invOps_hasDerivAt (k : ℕ) {z : ℝ} (hz : z ≠ 0) : HasDerivAt (invOps k) (invOps (k + 1) z) z := by
  have h := (hasDerivAt_zpow (-(k + 1 : ℤ)) z (.inl hz)).const_mul ((-1 : ℝ) ^ k * k.factorial)
  refine h.congr_deriv ?_
  simp only [invOps, Nat.factorial_succ]
  push_cast
  rw [show (-(k + 1 : ℤ) - 1) = -((k : ℤ) + 1 + 1) by ring]
  ring

lemma value_sumList {ι : Type} (ρ : ι → ℝ) (l : List (Node ι)) :
    (Node.sumList l).value ρ = (l.map (Node.value ρ)).sum := by
  simp only [Node.sumList, Node.value]
  rw [← List.sum_ofFn]
  congr 1
  apply List.ext_getElem <;> simp

lemma regular_sumList {ι : Type} {m : ℕ} {ρ : ι → ℝ} {l : List (Node ι)} (h : ∀ e ∈ l, e.Regular m ρ) :
    (Node.sumList l).Regular m ρ := fun _ => h _ (List.getElem_mem _)

lemma attentionN_value (x : NodeBatch n) : attentionDot (valBatch (Source.at X θ) x)
    = (attentionN x).map (valBatch (Source.at X θ)) := by
  unfold attentionDot attentionN Except.map
  dsimp only
  congr 1
  simp only [valBatch, List.map_map]
  refine List.map_congr_left fun q _ => ?_
  dsimp only [Function.comp]
  simp only [List.length_map, List.map_map]
  refine List.map_congr_left fun j _ => ?_
  dsimp only [Function.comp]
  rw [value_sumList]
  congr 1
  rw [List.map_zipWith, List.zipWith_map_right]
  unfold softmax
  simp only [List.map_map]
  rw [List.zipWith_map_left, List.zipWith_map_left]
  apply List.ext_getElem
  · simp
  · intro i h1 h2
    simp only [List.getElem_zipWith, Node.value, Function.comp, expOps, invOps, value_sumList, dotRows, List.map_map,
      List.map_zipWith, List.zipWith_map]
    congr 1
    · simp [div_eq_mul_inv, Function.comp_def, value_sumList, Node.value, List.map_zipWith, expOps, dotRows,
        List.zipWith_map]
    · exact getD_map_value _ _ _

lemma regular_unary_smooth {ι : Type} {m : ℕ} {ρ : ι → ℝ} {f : ℕ → ℝ → ℝ} (hf : SmoothOps f) {k : ℕ} {e : Node ι}
    (he : e.Regular m ρ) : (Node.unary f k e).Regular m ρ :=
  ⟨he, fun i _ => .of_forall fun z => hf (k + i) z⟩

lemma attentionN_regular {m : ℕ} (ρ : Source n → ℝ) {x y : NodeBatch n} (h : attentionN x = .ok y)
    (hx : RegBatch m ρ x) : RegBatch m ρ y := by
  unfold attentionN at h
  cases h
  intro row hrow e he
  obtain ⟨q, hq, rfl⟩ := List.mem_map.1 hrow
  obtain ⟨j, -, rfl⟩ := List.mem_map.1 he
  have hscore : ∀ s ∈ x.map fun v => Node.sumList (List.zipWith .mul q v), s.Regular m ρ := by
    intro s hs
    obtain ⟨v, hv, rfl⟩ := List.mem_map.1 hs
    refine regular_sumList fun e he => ?_
    obtain ⟨i, hi, rfl⟩ := List.mem_iff_getElem.1 he
    rw [List.getElem_zipWith]
    exact ⟨hx q hq _ (List.getElem_mem _), hx v hv _ (List.getElem_mem _)⟩
  have hsum : ∀ e ∈ (x.map fun v => Node.sumList (List.zipWith .mul q v)).map (Node.unary expOps 0),
      e.Regular m ρ := by
    intro e he
    obtain ⟨s, hs, rfl⟩ := List.mem_map.1 he
    exact regular_unary_smooth expOps_smooth (hscore s hs)
  refine regular_sumList fun e he => ?_
  obtain ⟨i, hi, rfl⟩ := List.mem_iff_getElem.1 he
  rw [List.getElem_zipWith, List.getElem_map]
  refine ⟨⟨regular_unary_smooth expOps_smooth (hscore _ (List.getElem_mem _)), regular_sumList hsum, ?_⟩, ?_⟩
  · intro k _
    have hpos : 0 < (Node.sumList ((x.map fun v => Node.sumList (List.zipWith .mul q v)).map
        (Node.unary expOps 0))).value ρ := by
      rw [value_sumList]
      refine List.sum_pos _ (fun z hz => ?_) ?_
      · obtain ⟨e, he, rfl⟩ := List.mem_map.1 hz
        obtain ⟨s, -, rfl⟩ := List.mem_map.1 he
        exact Real.exp_pos _
      · intro h0
        simp only [List.map_eq_nil_iff] at h0
        rw [h0] at hq
        cases hq
    filter_upwards [lt_mem_nhds hpos] with z hz
    exact invOps_hasDerivAt _ hz.ne'
  · by_cases hj : j < (x[i]'(by simpa using hi)).length
    · rw [List.getD_eq_getElem _ _ hj]
      exact hx _ (List.getElem_mem _) _ (List.getElem_mem _)
    · rw [List.getD_eq_default _ _ (by omega)]
      trivial

/-! ## The calls -/

lemma callN_value (useAttention : Bool) (inDim : ℕ) (specs : List LayerSpec) (x : NodeBatch n) :
    callDense (fun a => act a 0) attentionDot useAttention (layersAt θ 0 inDim specs) (valBatch (Source.at X θ) x)
      = (callN act useAttention inDim specs x).map (valBatch (Source.at X θ)) := by
  unfold callDense callN
  cases useAttention with
  | false => exact applyLayersN_value act X θ specs 0 inDim x
  | true =>
    simp only [if_true]
    rw [attentionN_value X θ x]
    cases h : attentionN x with
    | error e => rfl
    | ok y => exact applyLayersN_value act X θ specs 0 inDim y

lemma callN_regular (useAttention : Bool) (inDim : ℕ) (specs : List LayerSpec) {x y : NodeBatch n}
    (h : callN act useAttention inDim specs x = .ok y) (hx : RegBatch 2 (Source.at X θ) x)
    (hs : ∀ rows, (if useAttention then attentionDot (valBatch (Source.at X θ) x)
      else .ok (valBatch (Source.at X θ) x)) = .ok rows → ∀ r ∈ rows, NoKink act (layersAt θ 0 inDim specs) r) :
    RegBatch 2 (Source.at X θ) y := by
  unfold callN at h
  cases useAttention with
  | false => exact applyLayersN_regular act X θ specs 0 inDim h hx (hs _ rfl)
  | true =>
    simp only [if_true] at h hs
    cases ha : attentionN x with
    | error e => simp [ha] at h
    | ok z =>
      rw [ha] at h
      refine applyLayersN_regular act X θ specs 0 inDim h (attentionN_regular _ ha hx) (hs _ ?_)
      rw [attentionN_value X θ x, ha]
      rfl

/-! ## Hard constraints -/

lemma tanhOps_hasDerivAt : ∀ k < 2, ∀ z, HasDerivAt (tanhOps k) (tanhOps (k + 1) z) z := by
  intro k hk z
  unfold tanhOps
  rw [iteratedDeriv_succ]
  refine DifferentiableAt.hasDerivAt ?_
  exact (contDiff_tanh.differentiable_iteratedDeriv k (by exact_mod_cast hk)) z

lemma hardN_value (ρ : Source n → ℝ) (inputs x : NodeBatch n) :
    applyHardBoundaryConstraints (valBatch ρ inputs) (valBatch ρ x) = valBatch ρ (hardN inputs x) := by
  unfold applyHardBoundaryConstraints hardN valBatch
  rw [List.map_zipWith, List.zipWith_map]
  congr 1
  funext r u
  simp only [List.map_map]
  refine List.map_congr_left fun v _ => ?_
  simp only [Function.comp, Node.value, hardAnsatz, getD_map_value, tanhOps, iteratedDeriv_zero]

lemma hardN_regular {ρ : Source n → ℝ} {inputs x : NodeBatch n} (hi : RegBatch 2 ρ inputs) (hx : RegBatch 2 ρ x) :
    RegBatch 2 ρ (hardN inputs x) := by
  intro row hrow e he
  unfold hardN at hrow
  obtain ⟨i, hi', rfl⟩ := List.mem_iff_getElem.1 hrow
  rw [List.getElem_zipWith] at he
  obtain ⟨v, hv, rfl⟩ := List.mem_map.1 he
  have hg : ∀ j, ((inputs[i]'(by simp at hi'; omega)).getD j (.const 0)).Regular 2 ρ := by
    intro j
    by_cases hj : j < (inputs[i]'(by simp at hi'; omega)).length
    · rw [List.getD_eq_getElem _ _ hj]
      exact hi _ (List.getElem_mem _) _ (List.getElem_mem _)
    · rw [List.getD_eq_default _ _ (by omega)]
      trivial
  have ht : ∀ e : Node (Source n), e.Regular 2 ρ → (Node.unary tanhOps 0 e).Regular 2 ρ := fun e he =>
    ⟨he, fun k hk => .of_forall fun z => by rw [Nat.zero_add]; exact tanhOps_hasDerivAt k hk z⟩
  exact ⟨⟨⟨⟨ht _ ⟨trivial, hg 0⟩, ht _ ⟨trivial, hg 1⟩⟩, ht _ ⟨trivial, hg 0, trivial⟩⟩, ht _ ⟨trivial, hg 1, trivial⟩⟩,
    hx _ (List.getElem_mem _) v hv⟩

lemma callHardN_value (useAttention : Bool) (inDim : ℕ) (specs : List LayerSpec) (x : NodeBatch n) :
    callHard (fun a => act a 0) attentionDot useAttention (layersAt θ 0 inDim specs) applyHardBoundaryConstraints
        (valBatch (Source.at X θ) x)
      = (callHardN act useAttention inDim specs x).map (valBatch (Source.at X θ)) := by
  unfold callHard callHardN
  rw [callN_value act X θ]
  cases callN act useAttention inDim specs x with
  | error e => rfl
  | ok y => simp [Except.map, hardN_value]

lemma callHardN_regular (useAttention : Bool) (inDim : ℕ) (specs : List LayerSpec) {x y : NodeBatch n}
    (h : callHardN act useAttention inDim specs x = .ok y) (hx : RegBatch 2 (Source.at X θ) x)
    (hs : ∀ rows, (if useAttention then attentionDot (valBatch (Source.at X θ) x)
      else .ok (valBatch (Source.at X θ) x)) = .ok rows → ∀ r ∈ rows, NoKink act (layersAt θ 0 inDim specs) r) :
    RegBatch 2 (Source.at X θ) y := by
  unfold callHardN at h
  cases hc : callN act useAttention inDim specs x with
  | error e => simp [hc] at h
  | ok z =>
    simp only [hc, Except.ok.injEq] at h
    subst h
    exact hardN_regular hx (callN_regular act X θ useAttention inDim specs hc hx hs)

/-! ## Entries -/

lemma valBatch_sourceRows : valBatch (Source.at X θ) (sourceRows n) = pointRows X := by
  unfold valBatch sourceRows pointRows
  rw [List.map_ofFn]
  rfl

lemma valBatch_constRows {m : ℕ} (ρ : Source n → ℝ) (P : Fin m → ℝ × ℝ) : valBatch ρ (constRows P) = pointRows P := by
  unfold valBatch constRows pointRows
  rw [List.map_ofFn]
  rfl

lemma regBatch_sourceRows (m : ℕ) (ρ : Source n → ℝ) : RegBatch m ρ (sourceRows n) := by
  intro row hrow e he
  obtain ⟨r, rfl⟩ := (List.mem_ofFn).1 hrow
  simp only [List.mem_cons, List.not_mem_nil, or_false] at he
  rcases he with rfl | rfl <;> trivial

lemma regBatch_constRows (m : ℕ) {k : ℕ} (ρ : Source n → ℝ) (P : Fin k → ℝ × ℝ) :
    RegBatch m ρ (constRows P : NodeBatch n) := by
  intro row hrow e he
  obtain ⟨r, rfl⟩ := (List.mem_ofFn).1 hrow
  simp only [List.mem_cons, List.not_mem_nil, or_false] at he
  rcases he with rfl | rfl <;> trivial

lemma nodeEntry_value (ρ : Source n → ℝ) (out : Except PyErr (NodeBatch n)) (r j : ℕ) :
    (nodeEntry out r j).value ρ = batchEntry (out.map (valBatch ρ)) r j := by
  cases out with
  | error e => rfl
  | ok b =>
    simp only [nodeEntry, batchEntry, Except.map, valBatch]
    have h1 : (b.map (List.map (Node.value ρ))).getD r [] = (b.getD r []).map (Node.value ρ) := by
      rw [List.getD_eq_getElem?_getD, List.getD_eq_getElem?_getD, List.getElem?_map]
      cases b[r]? <;> rfl
    rw [h1, getD_map_value]

lemma nodeEntry_regular {m : ℕ} {ρ : Source n → ℝ} {out : Except PyErr (NodeBatch n)}
    (h : ∀ y, out = .ok y → RegBatch m ρ y) (r j : ℕ) : (nodeEntry out r j).Regular m ρ := by
  cases out with
  | error e => trivial
  | ok b =>
    simp only [nodeEntry]
    by_cases hr : r < b.length
    · rw [List.getD_eq_getElem _ _ hr]
      by_cases hj : j < b[r].length
      · rw [List.getD_eq_getElem _ _ hj]
        exact h b rfl _ (List.getElem_mem _) _ (List.getElem_mem _)
      · rw [List.getD_eq_default _ _ (by omega)]
        trivial
    · rw [List.getD_eq_default b _ (by omega)]
      trivial

end

end FastVPINNs
