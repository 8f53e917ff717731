import Verif.Model.Models
import Verif.Model.Examples
import Verif.Spec.Training
import Verif.Lemmas.Network
import Mathlib.Analysis.SpecialFunctions.Trigonometric.DerivHyp
import Mathlib.Tactic.NormNum.OfScientific
import Mathlib.Tactic.IntervalCases
import Mathlib.Tactic.Linarith

/-! # C48, C51: layers, networks and hard constraints -/

namespace FastVPINNs

open Finset

/-! ## C51: layers -/

theorem layerSpecs_eq (dims : List ℕ) (a : String) (h : 2 ≤ dims.length) :
    layerSpecs dims a = .ok ((List.range (dims.length - 2)).map (fun k => ⟨dims.getD (k + 1) 0, some a⟩) ++
      [⟨dims.getD (dims.length - 1) 0, none⟩]) := by
  unfold layerSpecs
  rw [mapE_eq_map (g := fun k => dims.getD (k + 1) 0)]
  · have hl : pyIndex dims (-1) = .ok (dims.getD (dims.length - 1) 0) := by
      unfold pyIndex
      have e : (-1 + (dims.length : ℤ)).toNat = dims.length - 1 := by omega
      rw [if_neg (by omega), if_pos (by omega), e, List.getElem?_eq_getElem (by omega),
        getD_lt _ _ _ (by omega)]
    rw [hl]
    simp only [List.map_map]
    rfl
  · intro k hk
    have hk' := List.mem_range.mp hk
    unfold pyIndex
    have e : ((k : ℤ) + 1).toNat = k + 1 := by omega
    rw [if_pos (by omega), e, List.getElem?_eq_getElem (by omega), getD_lt _ _ _ (by omega)]

/-- The layers: `len - 2` hidden ones of the listed widths with the activation, and a linear one of the
last width. -/
theorem C51_layers (dims : List ℕ) (a : String) (h : 2 ≤ dims.length) :
    ∃ specs, layerSpecs dims a = .ok specs ∧ specs.length + 1 = dims.length ∧
      ∀ (k : ℕ) (hk : k < specs.length) (hd : k + 1 < dims.length),
        specs[k] = ⟨dims[k + 1], if k + 1 < specs.length then some a else none⟩ := by
  refine ⟨_, layerSpecs_eq dims a h, by simp; omega, fun k hk hd => ?_⟩
  simp only [List.length_append, List.length_map, List.length_range, List.length_cons, List.length_nil] at hk ⊢
  by_cases hlt : k < dims.length - 2
  · rw [List.getElem_append_left (by simpa using hlt), if_pos (by omega)]
    simp [hd]
  · have : k = dims.length - 2 := by omega
    rw [List.getElem_append_right (by simpa using hlt), if_neg (by omega)]
    have e : dims.length - 1 = k + 1 := by omega
    simp [this ▸ e, ← this, hd]

/-- An empty list of widths is an `IndexError`; a list with one width gives a single linear layer. -/
theorem C51_short (n : ℕ) (a : String) :
    layerSpecs [] a = .error .indexError ∧ layerSpecs [n] a = .ok [⟨n, none⟩] := ⟨rfl, rfl⟩

theorem buildLayers_length (init : ℕ → (i o : ℕ) → Fin i → Fin o → ℝ) (k n : ℕ) (specs : List LayerSpec) :
    (buildLayers init k n specs).length = specs.length := by
  induction specs generalizing k n with
  | nil => rfl
  | cons s rest ih => simp [buildLayers, ih]

theorem buildLayers_get (init : ℕ → (i o : ℕ) → Fin i → Fin o → ℝ) (k n : ℕ) (specs : List LayerSpec)
    (i : ℕ) (hi : i < (buildLayers init k n specs).length) (hs : i < specs.length) :
    (buildLayers init k n specs)[i].inDim = (n :: specs.map LayerSpec.units).getD i 0 ∧
    (buildLayers init k n specs)[i].units = specs[i].units ∧
    (buildLayers init k n specs)[i].activation = specs[i].activation ∧
    ∀ b : Fin (buildLayers init k n specs)[i].units, (buildLayers init k n specs)[i].bias b = 0 := by
  induction specs generalizing k n i with
  | nil => simp at hs
  | cons s rest ih =>
    cases i with
    | zero => exact ⟨rfl, rfl, rfl, fun _ => rfl⟩
    | succ i =>
      have := ih (k + 1) s.units i (by simpa [buildLayers] using hi) (by simpa using hs)
      exact this

/-- The built network has the architecture `layer_dims`, biases zero, and
`Σ (dims[k] + 1) * dims[k+1]` trainable numbers. -/
theorem C51_build (dims : List ℕ) (a : String) (h : 2 ≤ dims.length)
    (init : ℕ → (i o : ℕ) → Fin i → Fin o → ℝ) :
    ∃ specs n, layerSpecs dims a = .ok specs ∧ pyIndex dims 0 = .ok n ∧
      Spec.Architecture dims a (buildLayers init 0 n specs) ∧
      (∀ L ∈ buildLayers init 0 n specs, ∀ j, L.bias j = 0) ∧
      ((buildLayers init 0 n specs).map DenseLayer.numParams).sum
        = ∑ k ∈ range (dims.length - 1), (dims.getD k 0 + 1) * dims.getD (k + 1) 0 := by
  obtain ⟨specs, h1, h2, h3⟩ := C51_layers dims a h
  obtain ⟨n, rest, rfl⟩ : ∃ n rest, dims = n :: rest := by
    cases dims with
    | nil => simp at h
    | cons n rest => exact ⟨n, rest, rfl⟩
  have hlen := buildLayers_length init 0 n specs
  have hunits : specs.map LayerSpec.units = rest := by
    simp only [List.length_cons] at h2
    refine List.ext_getElem (by simpa using h2) fun k hk1 hk2 => ?_
    rw [List.getElem_map, h3 k (by simpa using hk1) (by simpa using hk2)]
    simp
  have hlayer : ∀ (k : ℕ) (hk : k < (buildLayers init 0 n specs).length),
      (buildLayers init 0 n specs)[k].inDim = (n :: rest).getD k 0 ∧
      (buildLayers init 0 n specs)[k].units = (n :: rest).getD (k + 1) 0 ∧
      (buildLayers init 0 n specs)[k].activation
        = (if k + 1 < (buildLayers init 0 n specs).length then some a else none) ∧
      ∀ b : Fin (buildLayers init 0 n specs)[k].units, (buildLayers init 0 n specs)[k].bias b = 0 := by
    intro k hk
    obtain ⟨b1, b2, b3, b4⟩ := buildLayers_get init 0 n specs k hk (by omega)
    have hs := h3 k (by omega) (by omega)
    rw [hunits] at b1
    refine ⟨b1, ?_, ?_, b4⟩
    · rw [b2, hs]
      exact (getD_lt _ _ _ (by omega)).symm
    · rw [b3, hs, hlen]
  refine ⟨specs, n, h1, rfl, ⟨by omega, by omega, fun k hk => ?_⟩, ?_, ?_⟩
  · obtain ⟨l1, l2, l3, -⟩ := hlayer k hk
    rw [getD_lt _ _ _ (by omega)] at l1 l2
    exact ⟨l1, l2, l3⟩
  · intro L hL j
    obtain ⟨k, hk, rfl⟩ := List.mem_iff_getElem.mp hL
    exact (hlayer k hk).2.2.2 j
  · have hmap : (buildLayers init 0 n specs).map DenseLayer.numParams
        = (List.range ((n :: rest).length - 1)).map
            fun k => ((n :: rest).getD k 0 + 1) * (n :: rest).getD (k + 1) 0 := by
      refine List.ext_getElem (by simp; simp at h2; omega) fun k hk1 hk2 => ?_
      rw [List.getElem_map, List.getElem_map, List.getElem_range]
      obtain ⟨l1, l2, -, -⟩ := hlayer k (by simpa using hk1)
      rw [DenseLayer.numParams, l1, l2]
      ring
    rw [hmap]
    rfl

/-- The network maps a batch of rows of width `dims[0]` to a batch of as many rows of width `dims[-1]`, and
every output row is the fully connected network applied to its input row, for all weights. -/
theorem C51_call (act : String → ℝ → ℝ) (a : String) (dims : List ℕ) (layers : List DenseLayer)
    (h : Spec.Architecture dims a layers) (attention : Batch → Except PyErr Batch)
    (X : Batch) (hX : ∀ x ∈ X, x.length = dims.getD 0 0) :
    ∃ Y, callDense act attention false layers X = .ok Y ∧ Y.length = X.length ∧
      ∀ (r : ℕ) (hr : r < X.length) (hy : r < Y.length),
        Y[r].length = dims.getD (dims.length - 1) 0 ∧
        ∀ j < dims.getD (dims.length - 1) 0, Y[r].getD j 0
          = Spec.outputValue (act a) (fun k => dims.getD k 0) (Spec.kernels layers) (Spec.biases layers)
              (dims.length - 2) (fun i => X[r].getD i 0) j := by
  obtain ⟨h1, h2⟩ := applyLayers_arch act a layers dims h X hX
  have hc := h.count
  have e1 : dims.length - 1 = layers.length := by omega
  have e2 : dims.length - 2 = layers.length - 1 := by omega
  refine ⟨X.map (rowFn act layers), ?_, List.length_map _, fun r hr hy => ?_⟩
  · unfold callDense
    rw [if_neg (by simp), h1]
  · rw [List.getElem_map, e1, e2]
    exact h2 X[r] (List.getElem_mem hr)

theorem mapE_error {α β ε : Type*} (f : α → Except ε β) (e : ε) (l : List α)
    (h : ∀ a ∈ l, f a = .error e ∨ ∃ b, f a = .ok b) (he : ∃ a ∈ l, f a = .error e) :
    mapE f l = .error e := by
  induction l with
  | nil => simp at he
  | cons a l ih =>
    rcases h a (by simp) with h1 | ⟨b, h1⟩
    · simp [mapE, h1]
    · have he' : ∃ a ∈ l, f a = .error e := by
        obtain ⟨c, hc, hce⟩ := he
        rcases List.mem_cons.mp hc with rfl | hc
        · rw [h1] at hce
          cases hce
        · exact ⟨c, hc, hce⟩
      simp [mapE, h1, ih (fun c hc => h c (List.mem_cons_of_mem _ hc)) he']

/-- A row of any other width is a `ValueError`. -/
theorem C51_wrong_width (act : String → ℝ → ℝ) (a : String) (dims : List ℕ) (layers : List DenseLayer)
    (h : Spec.Architecture dims a layers) (attention : Batch → Except PyErr Batch)
    (X : Batch) (hX : ∃ x ∈ X, x.length ≠ dims.getD 0 0) :
    callDense act attention false layers X = .error .valueError := by
  unfold callDense
  rw [if_neg (by simp)]
  cases layers with
  | nil => exact absurd h.pos (by simp)
  | cons L rest =>
    have hl := (h.layer 0 (by simp)).1
    have hc := h.count
    rw [List.getElem_cons_zero, ← getD_lt _ 0 _ (by omega)] at hl
    have : mapE (applyLayer act L) X = .error .valueError := by
      refine mapE_error _ _ _ (fun x _ => ?_) ?_
      · by_cases hx : x.length = L.inDim
        · exact Or.inr ⟨_, applyLayer_eq act L x hx⟩
        · exact Or.inl (by unfold applyLayer; rw [dif_neg hx])
      · obtain ⟨x, hx, hne⟩ := hX
        exact ⟨x, hx, by unfold applyLayer; rw [dif_neg (by rw [hl]; exact hne)]⟩
    simp [applyLayers, this]

theorem batchEntry_ok (Y : Batch) (r j : ℕ) (hr : r < Y.length) :
    batchEntry (.ok Y) r j = (Y[r]).getD j 0 := by
  simp only [batchEntry]
  rw [getD_lt _ _ _ hr]

theorem pointRows_width {n : ℕ} (X : Fin n → ℝ × ℝ) : ∀ x ∈ pointRows X, x.length = 2 := by
  intro x hx
  obtain ⟨i, rfl⟩ := (List.mem_ofFn' _ _).mp hx
  rfl

theorem pointRows_length {n : ℕ} (X : Fin n → ℝ × ℝ) : (pointRows X).length = n := by simp [pointRows]

theorem pointRows_get {n : ℕ} (X : Fin n → ℝ × ℝ) (r : ℕ) (h : r < n) :
    (pointRows X)[r]'(by rw [pointRows_length]; exact h) = [(X ⟨r, h⟩).1, (X ⟨r, h⟩).2] := by
  simp [pointRows]

/-- So a network with `layer_dims[0] = 2` without attention is, for all weights, a function of the single
point, the one the training theorems ask for; with a differentiable activation it is differentiable. -/
theorem C51_network (act : String → ℝ → ℝ) (a : String) (dims : List ℕ) (layers : List DenseLayer)
    (h : Spec.Architecture dims a layers) (hin : dims.getD 0 0 = 2) (dout : ℕ)
    (hout : dims.getD (dims.length - 1) 0 = dout) (attention : Batch → Except PyErr Batch) :
    ∃ u : Fin dout → ℝ × ℝ → ℝ, Spec.RowWise (networkDense act attention false layers dout) u ∧
      (∀ j p, u j p = Spec.outputValue (act a) (fun k => dims.getD k 0) (Spec.kernels layers)
        (Spec.biases layers) (dims.length - 2) (fun i => if i = 0 then p.1 else p.2) j) ∧
      (Differentiable ℝ (act a) → ∀ j, Differentiable ℝ (u j)) := by
  refine ⟨fun j p => Spec.outputValue (act a) (fun k => dims.getD k 0) (Spec.kernels layers)
        (Spec.biases layers) (dims.length - 2) (fun i => if i = 0 then p.1 else p.2) j, ?_,
    fun _ _ => rfl, fun hσ j => ?_⟩
  · intro n X r j
    obtain ⟨Y, hY, hlen, hrow⟩ := C51_call act a dims layers h attention (pointRows X)
      (fun x hx => by rw [pointRows_width X x hx, hin])
    rw [pointRows_length] at hlen
    have hr : r.val < Y.length := by rw [hlen]; exact r.isLt
    have hr' : r.val < (pointRows X).length := by rw [pointRows_length]; exact r.isLt
    obtain ⟨-, h2⟩ := hrow r.val hr' hr
    unfold networkDense
    rw [hY, batchEntry_ok _ _ _ hr, h2 j.val (by rw [hout]; exact j.isLt)]
    refine outputValue_congr _ _ _ _ _ _ (fun i hi => ?_) _ _
    rw [hin] at hi
    rw [pointRows_get X r.val r.isLt]
    interval_cases i <;> simp
  · refine outputValue_differentiable _ hσ _ _ _ (fun (p : ℝ × ℝ) i => if i = 0 then p.1 else p.2)
      (fun i => ?_) _ _
    by_cases hi : i = 0
    · simp only [hi, if_true]
      exact differentiable_fst
    · simp only [hi, if_false]
      exact differentiable_snd

/-- The default activation is differentiable. -/
theorem tanh_differentiable : Differentiable ℝ Real.tanh := by
  have h : Real.tanh = fun x => Real.sinh x / Real.cosh x := funext Real.tanh_eq_sinh_div_cosh
  rw [h]
  exact Real.differentiable_sinh.fun_div Real.differentiable_cosh fun x => (Real.cosh_pos x).ne'

/-- The network `[2, 30, 30, 30, 1]` of the examples: 1,981 trainable numbers. -/
example : layerSpecs [2, 30, 30, 30, 1] "tanh"
      = .ok [⟨30, some "tanh"⟩, ⟨30, some "tanh"⟩, ⟨30, some "tanh"⟩, ⟨1, none⟩] ∧
    ∑ k ∈ range 4, ([2, 30, 30, 30, 1].getD k 0 + 1) * [2, 30, 30, 30, 1].getD (k + 1) 0 = 1981 :=
  ⟨rfl, rfl⟩

/-- A network `[2, 2, 1]` with all weights one computes `tanh (x+y+1) + tanh (x+y+1) + 1`. -/
example : ∃ layers, Spec.Architecture [2, 2, 1] "tanh" layers ∧ ∀ p : ℝ × ℝ,
    Spec.outputValue Real.tanh (fun k => [2, 2, 1].getD k 0) (Spec.kernels layers) (Spec.biases layers) 1
      (fun i => if i = 0 then p.1 else p.2) 0
      = Real.tanh (p.1 + p.2 + 1) + Real.tanh (p.1 + p.2 + 1) + 1 := by
  refine ⟨[⟨2, 2, fun _ _ => 1, fun _ => 1, some "tanh"⟩, ⟨2, 1, fun _ _ => 1, fun _ => 1, none⟩],
    ⟨rfl, by simp, fun k hk => ?_⟩, fun p => ?_⟩
  · have : k = 0 ∨ k = 1 := by simp only [List.length_cons, List.length_nil] at hk; omega
    rcases this with rfl | rfl <;> simp
  · simp [Spec.outputValue, Spec.hiddenValues, Spec.kernels, Spec.biases, Spec.kernelAt, Spec.biasAt,
      Finset.sum_range_succ]

/-! ## C48: hard constraints -/

theorem applyLayers_length (act : String → ℝ → ℝ) (layers : List DenseLayer) (X Y : Batch)
    (h : applyLayers act layers X = .ok Y) : Y.length = X.length := by
  have hm : ∀ (f : List ℝ → Except PyErr (List ℝ)) (l m : List (List ℝ)), mapE f l = .ok m →
      m.length = l.length := by
    intro f l
    induction l with
    | nil => intro m hm; cases hm; rfl
    | cons a l ih =>
      intro m hm
      unfold mapE at hm
      cases ha : f a with
      | error e => simp [ha] at hm
      | ok b =>
        cases hl : mapE f l with
        | error e => simp [ha, hl] at hm
        | ok bs =>
          simp only [ha, hl, Except.ok.injEq] at hm
          subst hm
          simp [ih bs hl]
  induction layers generalizing X with
  | nil => cases h; rfl
  | cons L rest ih =>
    unfold applyLayers at h
    cases hL : mapE (applyLayer act L) X with
    | error e => simp [hL] at h
    | ok Z =>
      simp only [hL] at h
      rw [ih Z h, hm _ _ _ hL]

theorem callDense_length (act : String → ℝ → ℝ) (attention : Batch → Except PyErr Batch)
    (hatt : ∀ X Y, attention X = .ok Y → Y.length = X.length) (useAttention : Bool)
    (layers : List DenseLayer) (X Y : Batch) (h : callDense act attention useAttention layers X = .ok Y) :
    Y.length = X.length := by
  unfold callDense at h
  cases useAttention with
  | false => exact applyLayers_length _ _ _ _ (by simpa using h)
  | true =>
    rw [if_pos rfl] at h
    cases ha : attention X with
    | error e => simp [ha] at h
    | ok Z =>
      simp only [ha] at h
      rw [applyLayers_length _ _ _ _ h, hatt _ _ ha]

/-- If the constraint function forces the value `d x` at the points of `B`, so does the model, whatever the
layers and their weights, with and without attention. -/
theorem C48_hard (act : String → ℝ → ℝ) (attention : Batch → Except PyErr Batch)
    (hatt : ∀ X Y, attention X = .ok Y → Y.length = X.length) (useAttention : Bool)
    (layers : List DenseLayer) (hard : Batch → Batch → Batch) (B : Set (List ℝ)) (d : List ℝ → List ℝ)
    (hg : ∀ (X U : Batch) (r : ℕ) (x : List ℝ), U.length = X.length → X[r]? = some x → x ∈ B →
      (hard X U)[r]? = some (d x))
    (X out : Batch) (h : callHard act attention useAttention layers hard X = .ok out) :
    ∀ (r : ℕ) (x : List ℝ), X[r]? = some x → x ∈ B → out[r]? = some (d x) := by
  unfold callHard at h
  cases hc : callDense act attention useAttention layers X with
  | error e => simp [hc] at h
  | ok U =>
    simp only [hc, Except.ok.injEq] at h
    subst h
    intro r x hx hB
    exact hg X U r x (callDense_length act attention hatt useAttention layers X U hc) hx hB

/-- The output is `g(inputs, network(inputs))`, with the inputs as given (not after attention), and errors
are those of the network. -/
theorem C48_output (act : String → ℝ → ℝ) (attention : Batch → Except PyErr Batch) (useAttention : Bool)
    (layers : List DenseLayer) (hard : Batch → Batch → Batch) (X : Batch) :
    callHard act attention useAttention layers hard X
      = (callDense act attention useAttention layers X).map (hard X) := by
  unfold callHard
  cases callDense act attention useAttention layers X <;> rfl

/-- Without a constraint function (`lambda x, y: y`) the output is that of the plain network. -/
theorem C48_unconstrained (act : String → ℝ → ℝ) (attention : Batch → Except PyErr Batch)
    (useAttention : Bool) (layers : List DenseLayer) (X : Batch) :
    callHard act attention useAttention layers (fun _ y => y) X
      = callDense act attention useAttention layers X := by
  rw [C48_output]
  cases callDense act attention useAttention layers X <;> rfl

/-- For a constraint acting row by row, the constrained model is a function of the single point:
`u p = g p (network p)`. -/
theorem C48_network (act : String → ℝ → ℝ) (a : String) (dims : List ℕ) (layers : List DenseLayer)
    (h : Spec.Architecture dims a layers) (hin : dims.getD 0 0 = 2)
    (hout : dims.getD (dims.length - 1) 0 = 1) (attention : Batch → Except PyErr Batch)
    (g : ℝ × ℝ → ℝ → ℝ) :
    ∃ u₀ : ℝ × ℝ → ℝ, Spec.RowWise (networkDense act attention false layers 1) (fun _ => u₀) ∧
      Spec.RowWise (networkHard act attention false layers
        (List.zipWith fun x v => v.map (g (x.getD 0 0, x.getD 1 0))) 1) (fun _ p => g p (u₀ p)) := by
  obtain ⟨u, hu, -, -⟩ := C51_network act a dims layers h hin 1 hout attention
  refine ⟨u 0, fun n X r j => ?_, fun n X r j => ?_⟩
  · rw [hu n X r j]
    obtain rfl : j = 0 := Subsingleton.elim _ _
    rfl
  · obtain ⟨Y, hY, hlen, hrow⟩ := C51_call act a dims layers h attention (pointRows X)
      (fun x hx => by rw [pointRows_width X x hx, hin])
    rw [pointRows_length] at hlen
    have hr : r.val < Y.length := by rw [hlen]; exact r.isLt
    have hr' : r.val < (pointRows X).length := by rw [pointRows_length]; exact r.isLt
    have hnet := hu n X r 0
    unfold networkDense at hnet
    rw [hY, batchEntry_ok _ _ _ hr] at hnet
    obtain ⟨hl, -⟩ := hrow r.val hr' hr
    rw [hout] at hl
    obtain ⟨v, hv⟩ := List.length_eq_one_iff.mp hl
    unfold networkHard
    rw [C48_output, hY]
    simp only [Except.map]
    rw [batchEntry_ok _ _ _ (by simp only [List.length_zipWith]; omega), List.getElem_zipWith, hv,
      pointRows_get X r.val r.isLt]
    obtain rfl : j = 0 := Subsingleton.elim _ _
    rw [hv] at hnet
    have hv0 : v = u 0 (X r) := by simpa using hnet
    simp [hv0]

/-- Boundary loss zero: at Dirichlet points where the constraint forces the prescribed value, the mean
squared error of the constrained model is zero for all weights. -/
theorem C48_dirichlet (act : String → ℝ → ℝ) (a : String) (dims : List ℕ) (layers : List DenseLayer)
    (h : Spec.Architecture dims a layers) (hin : dims.getD 0 0 = 2)
    (hout : dims.getD (dims.length - 1) 0 = 1) (attention : Batch → Except PyErr Batch)
    (g : ℝ × ℝ → ℝ → ℝ) {n : ℕ} (X : Fin n → ℝ × ℝ) (d : Fin n → ℝ)
    (hg : ∀ i v, g (X i) v = d i) :
    meanSquareError (networkHard act attention false layers
        (List.zipWith fun x v => v.map (g (x.getD 0 0, x.getD 1 0))) 1 n X) d = fun _ => 0 := by
  obtain ⟨u₀, -, hu⟩ := C48_network act a dims layers h hin hout attention g
  funext j
  unfold meanSquareError meanSquare0
  have e : ∀ i, networkHard act attention false layers
      (List.zipWith fun x v => v.map (g (x.getD 0 0, x.getD 1 0))) 1 n X i j - d i = 0 := fun i => by
    rw [hu n X i j]
    exact sub_eq_zero.mpr (hg i _)
  simp only [e]
  simp

theorem tanh_zero_iff (x : ℝ) : Real.tanh x = 0 ↔ x = 0 := by
  rw [Real.tanh_eq_sinh_div_cosh, div_eq_zero_iff]
  simp [(Real.cosh_pos x).ne']

/-- The constraint of `main_poisson2d_hard.py` forces the value zero on the four lines through the
sides of the unit square, for all weights. -/
theorem C48_example (act : String → ℝ → ℝ) (attention : Batch → Except PyErr Batch)
    (hatt : ∀ X Y, attention X = .ok Y → Y.length = X.length) (useAttention : Bool)
    (layers : List DenseLayer) (X out : Batch)
    (h : callHard act attention useAttention layers applyHardBoundaryConstraints X = .ok out)
    (r : ℕ) (x y : ℝ) (hr : X[r]? = some [x, y]) (hB : x = 0 ∨ x = 1 ∨ y = 0 ∨ y = 1) :
    ∃ row, out[r]? = some row ∧ ∀ v ∈ row, v = 0 := by
  unfold callHard at h
  cases hc : callDense act attention useAttention layers X with
  | error e => simp [hc] at h
  | ok U =>
    simp only [hc, Except.ok.injEq] at h
    subst h
    have hlen := callDense_length act attention hatt useAttention layers X U hc
    obtain ⟨hr1, hr2⟩ := List.getElem?_eq_some_iff.mp hr
    refine ⟨U[r].map fun v => hardAnsatz [x, y] * v, ?_, ?_⟩
    · unfold applyHardBoundaryConstraints
      rw [List.getElem?_eq_getElem (by simp only [List.length_zipWith]; omega), List.getElem_zipWith, hr2]
    · intro v hv
      obtain ⟨w, -, rfl⟩ := List.mem_map.mp hv
      have h0 : Real.tanh 0 = 0 := (tanh_zero_iff 0).mpr rfl
      have hz : hardAnsatz [x, y] = 0 := by
        unfold hardAnsatz
        rcases hB with rfl | rfl | rfl | rfl <;> norm_num [h0]
      rw [hz, zero_mul]

/-- Off the four lines the factor is not zero, so the model is not constrained there. -/
theorem C48_example_interior (x y : ℝ) (hx0 : x ≠ 0) (hx1 : x ≠ 1) (hy0 : y ≠ 0) (hy1 : y ≠ 1) :
    hardAnsatz [x, y] ≠ 0 := by
  have hpi := Real.pi_ne_zero
  have e1 : x - 1 ≠ 0 := sub_ne_zero.mpr hx1
  have e2 : y - 1 ≠ 0 := sub_ne_zero.mpr hy1
  unfold hardAnsatz
  simp only [List.getD_cons_zero, List.getD_cons_succ, ne_eq, mul_eq_zero, tanh_zero_iff]
  norm_num [hpi, hx0, hy0, e1, e2]

/-- The example's constraint satisfies the hypothesis of `C48_hard` on the lines, for one output. -/
example (X U : Batch) (r : ℕ) (y : ℝ) (hU : U.length = X.length) (hX : X[r]? = some [0, y])
    (h1 : ∀ u ∈ U, u.length = 1) : (applyHardBoundaryConstraints X U)[r]? = some [0] := by
  obtain ⟨hr1, hr2⟩ := List.getElem?_eq_some_iff.mp hX
  unfold applyHardBoundaryConstraints
  rw [List.getElem?_eq_getElem (by simp only [List.length_zipWith]; omega), List.getElem_zipWith, hr2]
  obtain ⟨v, hv⟩ := List.length_eq_one_iff.mp (h1 (U[r]'(by omega)) (List.getElem_mem _))
  rw [hv]
  have h0 : Real.tanh 0 = 0 := (tanh_zero_iff 0).mpr rfl
  simp [hardAnsatz, h0]

/-- Hypotheses of `C48_hard`: the constraint `(x, u) ↦ x` (values forced everywhere). -/
example : ∀ (X U : Batch) (r : ℕ) (x : List ℝ), U.length = X.length → X[r]? = some x → x ∈ Set.univ →
    ((fun X _ => X : Batch → Batch → Batch) X U)[r]? = some (id x) := fun _ _ _ _ _ h _ => h

end FastVPINNs
