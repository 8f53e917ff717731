import Verif.Spec.Tracing
import Verif.Lemmas.Lookup
import Mathlib.Data.List.Nodup

/-! # C94: the compiled training step -/

namespace FastVPINNs
open Spec Compiled

section
variable {A S α : Type} (text : StepText A S α)

/-- All graphs were built with the present attributes. -/
def Compiled.Current (c : Compiled A S) : Prop := ∀ g ∈ c.graphs, g.2 = c.attrs

lemma graph_mem {c : Compiled A S} {k : StepKey} {a : A} (h : c.graph k = some a) : (k, a) ∈ c.graphs := by
  classical
  unfold Compiled.graph at h
  cases hf : c.graphs.find? (fun g => decide (g.1 = k)) with
  | none => rw [hf] at h; cases h
  | some g =>
    rw [hf] at h
    have h1 := List.find?_some hf
    have h2 := List.mem_of_find?_eq_some hf
    simp only [Option.map_some, Option.some.injEq] at h
    simp only [decide_eq_true_eq] at h1
    rw [← h1, ← h]
    exact h2

lemma graph_append_of_some {c : Compiled A S} {k : StepKey} {a : A} (h : c.graph k = some a)
    (l : List (StepKey × A)) (b : A) (s : S) : (⟨b, c.graphs ++ l, s⟩ : Compiled A S).graph k = some a := by
  classical
  unfold Compiled.graph at h ⊢
  cases hf : c.graphs.find? (fun g => decide (g.1 = k)) with
  | none => rw [hf] at h; cases h
  | some g =>
    rw [hf] at h
    simp only [List.find?_append, hf, Option.some_or]
    exact h

lemma graph_append_of_none {c : Compiled A S} {k : StepKey} (h : c.graph k = none) (a b : A) (s : S) :
    (⟨b, c.graphs ++ [(k, a)], s⟩ : Compiled A S).graph k = some a := by
  classical
  unfold Compiled.graph at h ⊢
  rw [Option.map_eq_none_iff] at h
  simp [List.find?_append, h]

/-- The result of a call is the text with the attributes of the graph, if there is one, or with the present ones. -/
lemma call_eq (args : StepArgs) (c : Compiled A S) :
    (c.call text args).1 = (textCall text ((c.graph args.key).getD c.attrs) args c.state).1 ∧
    (c.call text args).2.state = (textCall text ((c.graph args.key).getD c.attrs) args c.state).2 ∧
    (c.call text args).2.attrs = c.attrs := by
  unfold Compiled.call textCall
  cases c.graph args.key with
  | some a =>
    dsimp only [Option.getD_some]
    cases text a args.beta.value args.params c.state <;> exact ⟨rfl, rfl, rfl⟩
  | none =>
    dsimp only [Option.getD_none]
    cases text c.attrs args.beta.value args.params c.state <;> exact ⟨rfl, rfl, rfl⟩

lemma call_graphs (args : StepArgs) (c : Compiled A S) :
    (c.call text args).2.graphs = c.graphs ∨
      c.graph args.key = none ∧ (c.call text args).2.graphs = c.graphs ++ [(args.key, c.attrs)] := by
  unfold Compiled.call
  cases h : c.graph args.key with
  | some a =>
    dsimp only
    cases text a args.beta.value args.params c.state <;> exact Or.inl rfl
  | none =>
    dsimp only
    cases text c.attrs args.beta.value args.params c.state
    · exact Or.inl rfl
    · exact Or.inr ⟨rfl, rfl⟩

lemma call_current {c : Compiled A S} (hc : c.Current) (args : StepArgs) : (c.call text args).2.Current := by
  intro g hg
  rw [(call_eq text args c).2.2]
  rcases call_graphs text args c with h | ⟨-, h⟩
  · rw [h] at hg
    exact hc g hg
  · rw [h, List.mem_append, List.mem_singleton] at hg
    rcases hg with hg | hg
    · exact hc g hg
    · rw [hg]

lemma graph_current {c : Compiled A S} (hc : c.Current) (k : StepKey) : (c.graph k).getD c.attrs = c.attrs := by
  cases h : c.graph k with
  | none => rfl
  | some a => exact hc _ (graph_mem h)

lemma exec_current {c : Compiled A S} (hc : c.Current) (calls : List StepArgs) :
    (c.exec text (calls.map .step)).1 = (textRun text (calls.map .step) c.attrs c.state).1 ∧
    (c.exec text (calls.map .step)).2.state = (textRun text (calls.map .step) c.attrs c.state).2 := by
  induction calls generalizing c with
  | nil => exact ⟨rfl, rfl⟩
  | cons args rest ih =>
    obtain ⟨e1, e2, e3⟩ := call_eq text args c
    rw [graph_current hc] at e1 e2
    obtain ⟨i1, i2⟩ := ih (call_current text hc args)
    rw [e2, e3] at i1 i2
    simp only [List.map_cons, Compiled.exec, textRun]
    exact ⟨by rw [e1, i1], i2⟩

/-- **C94** (compilation changes nothing).  As long as the attributes of the model are not assigned, the compiled
steps return what the Python text returns, exceptions included, and leave the same weights: for any steps, also with
changing values of `beta` and of the parameters. -/
theorem C94_text (a : A) (s : S) (calls : List StepArgs) :
    ((Compiled.new a s).exec text (calls.map .step)).1 = (textRun text (calls.map .step) a s).1 ∧
    ((Compiled.new a s).exec text (calls.map .step)).2.state = (textRun text (calls.map .step) a s).2 :=
  exec_current text (c := Compiled.new a s) (fun _ h => nomatch h) calls

lemma exec_graph {c : Compiled A S} {k : StepKey} {a : A} (h : c.graph k = some a) (ops : List (Op A)) :
    (c.exec text ops).2.graph k = some a := by
  induction ops generalizing c with
  | nil => exact h
  | cons op rest ih =>
    cases op with
    | assign b =>
      simp only [Compiled.exec]
      exact ih h
    | step args =>
      simp only [Compiled.exec]
      refine ih ?_
      rcases call_graphs text args c with e | ⟨-, e⟩
      · unfold Compiled.graph at h ⊢
        rw [e]
        exact h
      · have := graph_append_of_some h [(args.key, c.attrs)] c.attrs (c.call text args).2.state
        unfold Compiled.graph at this ⊢
        rw [e]
        exact this

/-- **C94** (attributes are those of the first step).  A step with a new signature uses the attributes of this
moment.  Once it has succeeded, a step with the same signature uses these attributes for ever, whatever has been
assigned and called in the meantime; the values of the arguments and the weights are those of the moment. -/
theorem C94_first_step (c : Compiled A S) (args args' : StepArgs) (hnew : c.graph args.key = none) (out : α)
    (hok : (c.call text args).1 = .ok out) (mid : List (Op A)) (hkey : args'.key = args.key) :
    (textCall text c.attrs args c.state).1 = .ok out ∧
    (((c.call text args).2.exec text mid).2.call text args').1
      = (textCall text c.attrs args' ((c.call text args).2.exec text mid).2.state).1 := by
  obtain ⟨e1, -, -⟩ := call_eq text args c
  rw [hnew, Option.getD_none] at e1
  refine ⟨e1 ▸ hok, ?_⟩
  have hg : (c.call text args).2.graph args.key = some c.attrs := by
    rcases call_graphs text args c with e | ⟨-, e⟩
    · exfalso
      unfold Compiled.call at e hok
      rw [hnew] at e hok
      dsimp only at e hok
      cases ht : text c.attrs args.beta.value args.params c.state with
      | error x => rw [ht] at hok; cases hok
      | ok r =>
        rw [ht] at e
        have := congrArg List.length e
        simp at this
    · have := graph_append_of_none hnew c.attrs c.attrs (c.call text args).2.state
      unfold Compiled.graph at this ⊢
      rw [e]
      exact this
  have h2 := exec_graph text hg mid
  obtain ⟨f1, -, -⟩ := call_eq text args' ((c.call text args).2.exec text mid).2
  rw [f1, hkey, h2, Option.getD_some]

/-! ## Loops over the epochs -/

lemma epochs_current (text : StepText A TrainState α) {c : Compiled A TrainState} (hc : c.Current) (args : StepArgs)
    (n : ℕ) :
    match c.epochs text args n, trainEpochs (text c.attrs args.beta.value args.params) n c.state with
    | .ok (outs, c'), .ok (outs', s') => outs = outs' ∧ c'.state = s' ∧ c'.attrs = c.attrs
    | .error e, .error e' => e = e'
    | _, _ => False := by
  induction n generalizing c with
  | zero => exact ⟨rfl, rfl, rfl⟩
  | succ n ih =>
    obtain ⟨e1, e2, e3⟩ := call_eq text args c
    rw [graph_current hc] at e1 e2
    have hcur := call_current text hc args
    simp only [trainEpochs, Compiled.epochs]
    unfold textCall at e1 e2
    cases ht : text c.attrs args.beta.value args.params c.state with
    | error e =>
      rw [ht] at e1 e2
      cases hcall : c.call text args with
      | mk r c' =>
        rw [hcall] at e1
        dsimp only at e1
        subst e1
        rfl
    | ok r =>
      obtain ⟨out, s'⟩ := r
      rw [ht] at e1 e2
      cases hcall : c.call text args with
      | mk r c' =>
        rw [hcall] at e1 e2 e3 hcur
        dsimp only at e1 e2 e3 hcur
        subst e1
        have := ih hcur
        rw [e2, e3] at this
        dsimp only
        revert this
        cases c'.epochs text args n <;>
          cases trainEpochs (text c.attrs args.beta.value args.params) n s' <;> dsimp only
        · exact id
        · exact id
        · exact id
        · rintro ⟨h1, h2, h3⟩
          exact ⟨by rw [h1], h2, h3⟩

/-- **C94** (training loops).  A loop over the epochs with the compiled step returns the same losses and weights as the
loop with the Python text, or fails with the same exception. -/
theorem C94_epochs (text : StepText A TrainState α) (a : A) (s : TrainState) (args : StepArgs) (n : ℕ) :
    match (Compiled.new a s).epochs text args n, trainEpochs (text a args.beta.value args.params) n s with
    | .ok (outs, c'), .ok (outs', s') => outs = outs' ∧ c'.state = s' ∧ c'.attrs = a
    | .error e, .error e' => e = e'
    | _, _ => False :=
  epochs_current text (c := Compiled.new a s) (fun _ h => nomatch h) args n

/-! ## The number of graphs -/

lemma call_ok_graphs {c : Compiled A S} {args : StepArgs} {out : α} (h : (c.call text args).1 = .ok out) :
    (c.call text args).2.graphs = if c.graph args.key = none then c.graphs ++ [(args.key, c.attrs)] else c.graphs := by
  unfold Compiled.call at h ⊢
  cases hg : c.graph args.key with
  | some a =>
    rw [hg] at h
    dsimp only at h ⊢
    cases ht : text a args.beta.value args.params c.state with
    | error e => rw [ht] at h; cases h
    | ok r => rfl
  | none =>
    rw [hg] at h
    dsimp only at h ⊢
    cases ht : text c.attrs args.beta.value args.params c.state with
    | error e => rw [ht] at h; cases h
    | ok r => rfl

lemma graph_eq_none_iff (c : Compiled A S) (k : StepKey) : c.graph k = none ↔ k ∉ c.graphs.map Prod.fst := by
  classical
  unfold Compiled.graph
  rw [Option.map_eq_none_iff, List.find?_eq_none]
  simp only [decide_eq_true_eq, List.mem_map, not_exists, not_and]

/-- **C94** (number of graphs).  After steps that all succeed there is one graph for each signature that occurred: one
graph if all tensors and Python numbers keep their type and the Python numbers their value, but as many graphs as
steps if each step has another Python number. -/
theorem C94_graphs (a : A) (s : S) (calls : List StepArgs)
    (hok : ∀ r ∈ ((Compiled.new a s).exec text (calls.map .step)).1, ∃ out, r = .ok out) :
    (((Compiled.new a s).exec text (calls.map .step)).2.graphs.map Prod.fst).Nodup ∧
    ∀ k, k ∈ ((Compiled.new a s).exec text (calls.map .step)).2.graphs.map Prod.fst
      ↔ k ∈ calls.map StepArgs.key := by
  suffices H : ∀ (calls : List StepArgs) (c : Compiled A S), (c.graphs.map Prod.fst).Nodup →
      (∀ r ∈ (c.exec text (calls.map .step)).1, ∃ out, r = .ok out) →
      ((c.exec text (calls.map .step)).2.graphs.map Prod.fst).Nodup ∧
      ∀ k, k ∈ (c.exec text (calls.map .step)).2.graphs.map Prod.fst
        ↔ k ∈ c.graphs.map Prod.fst ∨ k ∈ calls.map StepArgs.key by
    have := H calls (Compiled.new a s) List.nodup_nil hok
    refine ⟨this.1, fun k => (this.2 k).trans ?_⟩
    simp [Compiled.new]
  intro calls
  induction calls with
  | nil =>
    intro c hn _
    exact ⟨hn, fun k => by simp [Compiled.exec]⟩
  | cons args rest ih =>
    intro c hn hok
    simp only [List.map_cons, Compiled.exec] at hok ⊢
    obtain ⟨out, h1⟩ := hok _ (List.mem_cons_self ..)
    have hg := call_ok_graphs text h1
    have hrest := fun r hr => hok r (List.mem_cons_of_mem _ hr)
    by_cases hnone : c.graph args.key = none
    · rw [if_pos hnone] at hg
      have hn' : ((c.call text args).2.graphs.map Prod.fst).Nodup := by
        rw [hg, List.map_append, List.nodup_append]
        refine ⟨hn, by simp, ?_⟩
        intro x hx y hy
        simp only [List.map_cons, List.map_nil, List.mem_singleton] at hy
        rw [hy]
        rintro rfl
        exact (graph_eq_none_iff c _).1 hnone hx
      obtain ⟨i1, i2⟩ := ih _ hn' hrest
      refine ⟨i1, fun k => (i2 k).trans ?_⟩
      rw [hg]
      simp only [List.map_append, List.map_cons, List.map_nil, List.mem_append, List.mem_cons]
      tauto
    · rw [if_neg hnone] at hg
      have hn' : ((c.call text args).2.graphs.map Prod.fst).Nodup := hg ▸ hn
      obtain ⟨i1, i2⟩ := ih _ hn' hrest
      refine ⟨i1, fun k => (i2 k).trans ?_⟩
      have hmem : args.key ∈ c.graphs.map Prod.fst := by
        by_contra hx
        exact hnone ((graph_eq_none_iff c _).2 hx)
      rw [hg]
      simp only [List.mem_cons]
      constructor
      · tauto
      · rintro (h | h | h)
        · exact Or.inl h
        · exact Or.inl (h ▸ hmem)
        · exact Or.inr h

end

/-- **C94** (signatures).  Calls with different Python numbers for `beta` have different signatures; calls that differ
in the values of tensors, or in the order of the dictionary, have the same. -/
theorem C94_signatures (x y : ℝ) (d d' : Option (List (String × TfArg))) (l l' : List (String × ℝ))
    (h : l.map Prod.fst = l'.map Prod.fst) (m m' : List (String × TfArg)) (b : TfArg) (hm : m.Perm m')
    (hn : (m.map Prod.fst).Nodup) :
    (x ≠ y → (StepArgs.mk (.py x) d).key ≠ (StepArgs.mk (.py y) d').key) ∧
    (StepArgs.mk (.py x) d).key ≠ (StepArgs.mk (.tensor y) d').key ∧
    (StepArgs.mk (.tensor x) (some (l.map fun e => (e.1, .tensor e.2)))).key
      = (StepArgs.mk (.tensor y) (some (l'.map fun e => (e.1, .tensor e.2)))).key ∧
    (StepArgs.mk b (some m)).key = (StepArgs.mk b (some m')).key := by
  refine ⟨fun hxy e => hxy ?_, fun e => ?_, ?_, ?_⟩
  · have := congrArg Prod.fst e
    simpa [StepArgs.key, TfArg.key] using this
  · have := congrArg Prod.fst e
    simp [StepArgs.key, TfArg.key] at this
  · simp only [StepArgs.key, TfArg.key, Option.map_some, Prod.mk.injEq, Option.some.injEq, true_and]
    funext k
    induction l generalizing l' with
    | nil =>
      cases l' with
      | nil => rfl
      | cons => cases h
    | cons e l ih =>
      cases l' with
      | nil => cases h
      | cons e' l' =>
        simp only [List.map_cons, List.cons.injEq] at h
        simp only [List.map_cons, List.lookup_cons, h.1]
        cases k == e'.1
        · exact ih l' h.2
        · rfl
  · simp only [StepArgs.key, Option.map_some, Prod.mk.injEq, Option.some.injEq, true_and]
    funext k
    rw [lookup_perm hm hn]

section
variable {nc nt nq nIn nBd dout : ℕ} (act : String → ℝ → ℝ) (attention : Batch → Except PyErr Batch)

lemma textDense_ok {a : DenseAttrs nc nt nq nIn nBd} {args : StepArgs} {s : TrainState} {out : TrainOut dout}
    (h : (textCall (textDense act attention dout) a args s).1 = .ok out) :
    ∃ residuals, cellsResidual a.loss a.data (networkAt act attention a.useAttention a.inDim a.specs dout s.weights)
        args.params [] = .ok residuals ∧
      out.lossDirichlet = meanSquareError (networkAt act attention a.useAttention a.inDim a.specs dout s.weights _
        a.data.dirichletInput) a.data.dirichletActual := by
  unfold textCall textDense trainStepWith forwardDense trainStepDense at h
  dsimp only at h
  cases hr : cellsResidual a.loss a.data (networkAt act attention a.useAttention a.inDim a.specs dout s.weights)
      args.params [] with
  | error e => rw [hr] at h; cases h
  | ok residuals =>
    rw [hr] at h
    dsimp only at h
    refine ⟨residuals, rfl, ?_⟩
    cases h
    rfl

/-- The model with other boundary values. -/
def DenseAttrs.withBoundary (a : DenseAttrs nc nt nq nIn nBd) (v : Fin nBd → ℝ) : DenseAttrs nc nt nq nIn nBd :=
  { a with data := { a.data with dirichletActual := v } }

/-- **C94** (assignments are lost).  After a successful step of a `DenseModel` (with at least one boundary point) other
boundary values can be assigned, but the next steps with the same signature do not use them: there are values for
which the loss that the text computes is different from the loss that the compiled step returns. -/
theorem C94_assignment_lost (c : Compiled (DenseAttrs nc nt nq nIn nBd) TrainState) (args args' : StepArgs)
    (hnew : c.graph args.key = none) (out : TrainOut dout)
    (hok : (c.call (textDense act attention dout) args).1 = .ok out) (hkey : args'.key = args.key)
    (hbd : 0 < nBd) (j : Fin dout) (out₂ : TrainOut dout)
    (hok₂ : ((c.call (textDense act attention dout) args).2.call (textDense act attention dout) args').1 = .ok out₂) :
    ∃ (v : Fin nBd → ℝ) (out₃ : TrainOut dout),
      (((c.call (textDense act attention dout) args).2.exec (textDense act attention dout)
        [.assign (c.attrs.withBoundary v)]).2.call (textDense act attention dout) args').1 = .ok out₂ ∧
      (textCall (textDense act attention dout) (c.attrs.withBoundary v) args'
        (c.call (textDense act attention dout) args).2.state).1 = .ok out₃ ∧
      out₃.lossDirichlet j ≠ out₂.lossDirichlet j := by
  have h0 := (C94_first_step _ c args args' hnew out hok [] hkey).2
  have h0' : (textCall (textDense act attention dout) c.attrs args'
      (c.call (textDense act attention dout) args).2.state).1 = .ok out₂ := h0.symm.trans hok₂
  obtain ⟨residuals, hr, hd⟩ := textDense_ok act attention h0'
  set s := (c.call (textDense act attention dout) args).2.state with hs
  set net := networkAt act attention c.attrs.useAttention c.attrs.inDim c.attrs.specs dout s.weights with hnet
  refine ⟨fun r => net _ c.attrs.data.dirichletInput r j - (1 + out₂.lossDirichlet j), ?_⟩
  set v : Fin nBd → ℝ := fun r => net _ c.attrs.data.dirichletInput r j - (1 + out₂.lossDirichlet j) with hv
  have h1 := (C94_first_step _ c args args' hnew out hok [.assign (c.attrs.withBoundary v)] hkey).2
  have hr' : cellsResidual (c.attrs.withBoundary v).loss (c.attrs.withBoundary v).data
      (networkAt act attention (c.attrs.withBoundary v).useAttention (c.attrs.withBoundary v).inDim
        (c.attrs.withBoundary v).specs dout s.weights) args'.params [] = .ok residuals := hr
  have hnn : 0 ≤ out₂.lossDirichlet j := by
    rw [hd]
    unfold meanSquareError meanSquare0
    positivity
  have h3 : ∃ out₃ : TrainOut dout, (textCall (textDense act attention dout) (c.attrs.withBoundary v) args' s).1
      = .ok out₃ ∧ out₃.lossDirichlet = meanSquareError (net _ c.attrs.data.dirichletInput) v := by
    unfold textCall textDense trainStepWith forwardDense trainStepDense
    dsimp only
    rw [hr']
    exact ⟨_, rfl, rfl⟩
  obtain ⟨out₃, h3, h4⟩ := h3
  refine ⟨out₃, h1.trans h0', h3, ?_⟩
  have hn : (nBd : ℝ) ≠ 0 := by exact_mod_cast hbd.ne'
  have : meanSquareError (net _ c.attrs.data.dirichletInput) v j = (1 + out₂.lossDirichlet j) ^ 2 := by
    unfold meanSquareError meanSquare0
    simp only [hv]
    simp
    field_simp
  rw [h4, this]
  nlinarith

/-- **C94** (the models).  The training loops of the four models with their compiled steps: the losses and weights are
those of the loops that the other theorems are about, or the exception is the same. -/
theorem C94_models {nS : ℕ} (a : InverseAttrs nc nt nq nIn nBd nS) (hard : Batch → Batch → Batch) (s : TrainState)
    (args : StepArgs) (n : ℕ) :
    (((Compiled.new a.toDenseAttrs s).epochs (textDense act attention dout) args n).map fun r => (r.1, r.2.state))
      = trainEpochs (trainStepWith (forwardDense a.loss a.data act attention a.useAttention a.inDim a.specs dout
          args.beta.value args.params) (trainableVariables a.inDim a.specs []) a.lr) n s ∧
    (((Compiled.new (a.toDenseAttrs, hard) s).epochs (textHard act attention dout) args n).map
        fun r => (r.1, r.2.state))
      = trainEpochs (trainStepWith (forwardHard a.loss a.data act attention a.useAttention a.inDim a.specs dout
          args.beta.value args.params hard) (trainableVariables a.inDim a.specs []) a.lr) n s ∧
    (((Compiled.new a s).epochs (textInverse act attention dout) args n).map fun r => (r.1, r.2.state))
      = trainEpochs (trainStepInverseFull a.loss a.data act attention a.useAttention a.inDim a.specs dout
          args.beta.value args.params a.sensorPoints a.sensorValues a.keys a.lr) n s ∧
    (((Compiled.new a s).epochs (textInverseDomain act attention dout) args n).map fun r => (r.1, r.2.state))
      = trainEpochs (trainStepWith (forwardInverseDomain a.loss a.data act attention a.useAttention a.inDim a.specs dout
          args.beta.value args.params a.sensorPoints a.sensorValues) (trainableVariables a.inDim a.specs []) a.lr) n s := by
  have key : ∀ {A α : Type} (text : StepText A TrainState α) (a : A),
      (((Compiled.new a s).epochs text args n).map fun r => (r.1, r.2.state))
        = trainEpochs (text a args.beta.value args.params) n s := by
    intro A α text a
    have := C94_epochs text a s args n
    revert this
    cases (Compiled.new a s).epochs text args n <;>
      cases trainEpochs (text a args.beta.value args.params) n s <;> dsimp only
    · rintro rfl
      rfl
    · exact False.elim
    · exact False.elim
    · rintro ⟨h1, h2, -⟩
      show Except.ok _ = Except.ok _
      exact congrArg Except.ok (Prod.ext h1 h2)
  exact ⟨key _ _, key _ _, key _ _, key _ _⟩

end

/-- A model with one boundary point and no cells: the first and the second step succeed, so the hypotheses of
`C94_first_step` and `C94_assignment_lost` hold. -/
example : ∃ (c : Compiled (DenseAttrs 0 0 0 0 1) TrainState) (args : StepArgs) (out out₂ : TrainOut 1),
    c.graph args.key = none ∧ (c.call (textDense (fun _ x => x) .ok 1) args).1 = .ok out ∧
    ((c.call (textDense (fun _ x => x) .ok 1) args).2.call (textDense (fun _ x => x) .ok 1) args).1 = .ok out₂ := by
  let a : DenseAttrs 0 0 0 0 1 := ⟨lossPoisson 0 0 0, ⟨fun c => c.elim0, fun c => c.elim0, fun c => c.elim0,
    fun c => c.elim0, fun c => c.elim0, fun _ => (0, 0), fun _ => 1, 0⟩, false, 2, [⟨1, none⟩], .constant 1⟩
  let args : StepArgs := ⟨.py 10, some [("eps", .tensor 1)]⟩
  have hall : ∀ s : TrainState, ∃ out, (textCall (textDense (fun _ x => x) .ok 1) a args s).1 = .ok out := by
    intro s
    have : ∀ net : Network 1, ∃ r, cellsResidual a.loss a.data net args.params [] = .ok r := fun net => ⟨_, rfl⟩
    obtain ⟨r, hr⟩ := this (networkAt (fun _ x => x) .ok a.useAttention a.inDim a.specs 1 s.weights)
    unfold textCall textDense trainStepWith forwardDense trainStepDense
    dsimp only
    rw [hr]
    exact ⟨_, rfl⟩
  let s : TrainState := ⟨fun _ => 0, AdamState.init⟩
  have hnew : (Compiled.new a s).graph args.key = none := rfl
  obtain ⟨out, h1⟩ := hall s
  have e1 := (call_eq (textDense (fun _ x => x) .ok 1) args (Compiled.new a s)).1
  rw [hnew, Option.getD_none] at e1
  have hok := e1.trans h1
  have h2 := (C94_first_step _ (Compiled.new a s) args args hnew out hok [] rfl).2
  obtain ⟨out₂, h3⟩ := hall ((Compiled.new a s).call (textDense (fun _ x => x) .ok 1) args).2.state
  exact ⟨_, args, out, out₂, hnew, hok, h2.trans h3⟩

end FastVPINNs
