import Verif.Spec.ConfigFile
import Verif.Model.ConfigShipped
import Verif.Props.DriverGear
import Verif.Props.DriverDomain

/-! # C81: the configuration files -/

namespace FastVPINNs

open Spec

/-! ## Looking up entries -/

lemma getPath_ok_iff (y : Yaml) (path : List String) (v : Yaml) : y.getPath path = .ok v ↔ At y path v := by
  induction path generalizing y with
  | nil =>
    constructor
    · intro h
      obtain rfl := Except.ok.inj h
      exact .here _
    · rintro ⟨⟩
      rfl
  | cons k path ih =>
    constructor
    · intro h
      simp only [Yaml.getPath] at h
      split at h
      · exact absurd h (by simp)
      · rename_i w hw
        cases y with
        | dict d =>
          simp only [Yaml.get] at hw
          split at hw
          · rename_i w' hl
            obtain rfl := Except.ok.inj hw
            exact .step hl ((ih _).1 h)
          · exact absurd hw (by simp)
        | _ => simp [Yaml.get] at hw
    · intro h
      cases h with
      | step hl hat =>
        simp only [Yaml.getPath, Yaml.get, hl]
        exact (ih _).2 hat

lemma Spec.At.unique {y : Yaml} {path : List String} {v w : Yaml} (hv : At y path v) (hw : At y path w) : v = w := by
  rw [← getPath_ok_iff] at hv hw
  exact Except.ok.inj (hv.symm.trans hw)

lemma readVars_ok_iff (y : Yaml) (l : List (String × List String)) (vars : List (String × Yaml)) :
    readVars y l = .ok vars ↔ List.Forall₂ (fun e b => e.1 = b.1 ∧ At y e.2 b.2) l vars := by
  induction l generalizing vars with
  | nil =>
    simp only [readVars, List.forall₂_nil_left_iff, Except.ok.injEq]
    exact eq_comm
  | cons e l ih =>
    obtain ⟨name, path⟩ := e
    simp only [readVars]
    rcases hp : y.getPath path with e | v
    · simp only [reduceCtorEq, List.forall₂_cons_left_iff, false_iff]
      rintro ⟨b, u, ⟨-, hat⟩, -⟩
      rw [← getPath_ok_iff, hp] at hat
      exact absurd hat (by simp)
    · rw [getPath_ok_iff] at hp
      dsimp only
      rcases hr : readVars y l with e | vs
      · simp only [reduceCtorEq, List.forall₂_cons_left_iff, false_iff]
        rintro ⟨b, u, -, hf, -⟩
        rw [← ih, hr] at hf
        exact absurd hf (by simp)
      · simp only [Except.ok.injEq, List.forall₂_cons_left_iff]
        constructor
        · rintro rfl
          exact ⟨(name, v), vs, ⟨rfl, hp⟩, (ih vs).1 hr, rfl⟩
        · rintro ⟨⟨n', v'⟩, u, ⟨h1, hat⟩, hf, rfl⟩
          rw [← ih, hr] at hf
          obtain rfl := Except.ok.inj hf
          dsimp only at h1 hat
          rw [h1, hp.unique hat]

lemma readVars_exists (y : Yaml) (l : List (String × List String)) :
    (∃ vars, readVars y l = .ok vars) ↔ ∀ e ∈ l, ∃ v, At y e.2 v := by
  induction l with
  | nil => simp [readVars]
  | cons e l ih =>
    obtain ⟨name, path⟩ := e
    simp only [readVars_ok_iff] at ih ⊢
    simp only [List.forall₂_cons_left_iff, List.forall_mem_cons, ← ih]
    constructor
    · rintro ⟨_, b, u, ⟨-, h⟩, hf, rfl⟩
      exact ⟨⟨_, h⟩, u, hf⟩
    · rintro ⟨⟨v, h⟩, u, hf⟩
      exact ⟨_, (name, v), u, ⟨rfl, h⟩, hf, rfl⟩

lemma reads_mem {y : Yaml} {l : List (String × List String)} {vars : List (String × Yaml)}
    (h : List.Forall₂ (fun e b => e.1 = b.1 ∧ At y e.2 b.2) l vars) : ∀ e ∈ l, ∃ v, At y e.2 v :=
  (readVars_exists y l).1 ⟨vars, (readVars_ok_iff y l vars).2 h⟩

lemma forall₂_append_left {α β : Type} {R : α → β → Prop} :
    ∀ {l l' : List α} {u : List β}, List.Forall₂ R (l ++ l') u →
      ∃ v v', List.Forall₂ R l v ∧ List.Forall₂ R l' v' ∧ u = v ++ v'
  | [], l', u, h => ⟨[], u, .nil, h, rfl⟩
  | a :: l, l', u, h => by
    obtain ⟨b, w, hab, h', rfl⟩ := List.forall₂_cons_left_iff.1 h
    obtain ⟨v, v', h1, h2, rfl⟩ := forall₂_append_left (l := l) h'
    exact ⟨b :: v, v', .cons hab h1, h2, rfl⟩

/-- The variables after the assignments: every name is bound to the entry under its path. -/
lemma lookup_reads {y : Yaml} {l : List (String × List String)} {vars : List (String × Yaml)}
    (h : List.Forall₂ (fun e b => e.1 = b.1 ∧ At y e.2 b.2) l vars) (hn : (l.map Prod.fst).Nodup)
    {name : String} {path : List String} (hm : (name, path) ∈ l) (v : Yaml) :
    vars.lookup name = some v ↔ At y path v := by
  induction h with
  | nil => simp at hm
  | @cons e b l vars heb _ ih =>
    obtain ⟨n', v'⟩ := b
    obtain ⟨h1, h2⟩ := heb
    dsimp only at h1 h2
    rw [List.map_cons, List.nodup_cons] at hn
    rcases List.mem_cons.1 hm with rfl | hm
    · dsimp only at h1 h2
      subst h1
      simp only [List.lookup, beq_self_eq_true, Option.some.injEq]
      exact ⟨fun h => h ▸ h2, fun h => h2.unique h⟩
    · have : name ≠ e.1 := by
        rintro rfl
        exact hn.1 (List.mem_map.2 ⟨_, hm, rfl⟩)
      rw [← ih hn.2 hm]
      simp only [List.lookup, ← h1, beq_false_of_ne this]

/-- The assignments of a script: no variable is assigned twice, and the data type is among them. -/
structure ConfigReads.Good (r : ConfigReads) : Prop where
  nodup : ((r.before ++ r.after).map Prod.fst).Nodup
  dtype : ("i_dtype", ["model", "dtype"]) ∈ r.before

lemma readsForward_good : readsForward.Good := ⟨by decide, by decide⟩
lemma readsHard_good : readsHard.Good := ⟨by decide, by decide⟩
lemma readsInverse_good : readsInverse.Good := ⟨by decide, by decide⟩
lemma readsCircle_good : readsCircle.Good := ⟨by decide, by decide⟩

lemma run_ok_iff (r : ConfigReads) (hr : r.Good) (y : Yaml) (vars : List (String × Yaml)) :
    r.run y = .ok vars ↔ List.Forall₂ (fun e b => e.1 = b.1 ∧ At y e.2 b.2) (r.before ++ r.after) vars ∧
      ∃ dtype, At y ["model", "dtype"] (.str dtype) ∧ (dtype = "float64" ∨ dtype = "float32") := by
  have hnb : (r.before.map Prod.fst).Nodup := by
    have := hr.nodup
    rw [List.map_append, List.nodup_append] at this
    exact this.1
  unfold ConfigReads.run
  rcases hb : readVars y r.before with e | vb
  · simp only [reduceCtorEq, false_iff]
    rintro ⟨h, -⟩
    obtain ⟨_, h'⟩ := (readVars_exists y r.before).2 fun e he => reads_mem h e (List.mem_append_left _ he)
    rw [hb] at h'
    exact absurd h' (by simp)
  rw [readVars_ok_iff] at hb
  have hd := lookup_reads hb hnb hr.dtype
  have hfa : ∀ va, List.Forall₂ (fun e b => e.1 = b.1 ∧ At y e.2 b.2) (r.before ++ r.after) va ↔
      ∃ va', va = vb ++ va' ∧ readVars y r.after = .ok va' := by
    intro va
    constructor
    · intro h
      obtain ⟨l1, l2, h1, h2, rfl⟩ := forall₂_append_left h
      rw [← readVars_ok_iff] at hb h1 h2
      obtain rfl := Except.ok.inj (hb.symm.trans h1)
      exact ⟨l2, rfl, h2⟩
    · rintro ⟨va', rfl, h⟩
      exact List.rel_append hb ((readVars_ok_iff _ _ _).1 h)
  rw [hfa]
  dsimp only
  split
  · rename_i dtype hl
    have hat := (hd _).1 hl
    by_cases hs : dtype = "float64" ∨ dtype = "float32"
    · rw [if_pos hs]
      rcases ha : readVars y r.after with e | va
      · simp
      · simp only [Except.ok.injEq]
        constructor
        · rintro rfl
          exact ⟨⟨va, rfl, rfl⟩, dtype, hat, hs⟩
        · rintro ⟨⟨va', rfl, rfl⟩, -⟩
          rfl
    · rw [if_neg hs]
      simp only [reduceCtorEq, false_iff]
      rintro ⟨-, dtype', hat', hs'⟩
      obtain rfl := Yaml.str.inj (hat.unique hat')
      exact hs hs'
  · rename_i hl
    simp only [reduceCtorEq, false_iff]
    rintro ⟨-, dtype', hat', hs'⟩
    exact hl dtype' ((hd _).2 hat')

/-! ## Typed variables -/

lemma asStr_iff {v : Yaml} {x : String} : v.asStr = some x ↔ v = .str x := by
  cases v <;> simp [Yaml.asStr]

lemma asBool_iff {v : Yaml} {x : Bool} : v.asBool = some x ↔ v = .bool x := by
  cases v <;> simp [Yaml.asBool]

lemma asInt_iff {v : Yaml} {x : ℤ} : v.asInt = some x ↔ v = .int x := by
  cases v <;> simp [Yaml.asInt]

lemma asNat_iff {v : Yaml} {x : ℕ} : v.asNat = some x ↔ v = .int x := by
  cases v with
  | int n =>
    simp only [Yaml.asNat, Yaml.int.injEq]
    split
    · simp only [Option.some.injEq]
      omega
    · simp only [reduceCtorEq, false_iff]
      omega
  | _ => simp [Yaml.asNat]

lemma asNum_iff {v : Yaml} {x : ℝ} : v.asNum = some x ↔ IsNumber v x := by
  cases v <;> simp [Yaml.asNum, IsNumber, eq_comm]

lemma asNats_iff {v : Yaml} {x : List ℕ} : v.asNats = some x ↔ v = .list (x.map fun n => .int n) := by
  cases v with
  | list l =>
    simp only [Yaml.asNats, Yaml.list.injEq]
    induction l generalizing x with
    | nil => cases x <;> simp
    | cons a l ih =>
      rw [List.mapM_cons]
      simp only [bind, Option.bind_eq_some_iff, pure, Option.some.injEq, asNat_iff, ih]
      constructor
      · rintro ⟨n, rfl, t, rfl, rfl⟩
        rfl
      · cases x with
        | nil => simp
        | cons n t =>
          intro h
          obtain ⟨rfl, rfl⟩ := List.cons.inj h
          exact ⟨n, rfl, t, rfl, rfl⟩
  | _ => simp [Yaml.asNats]

lemma asPyVal_iff {v : Yaml} {x : PyVal} : v.asPyVal = some x ↔ IsRate v x := by
  constructor
  · intro h
    cases v <;> simp only [Yaml.asPyVal, Option.some.injEq, reduceCtorEq] at h <;> subst h
    · exact .flag _
    · exact .number (Or.inl ⟨_, rfl, rfl⟩)
    · exact .number (Or.inr rfl)
  · rintro (⟨⟨n, rfl, rfl⟩ | rfl⟩ | b) <;> rfl

lemma asRates_iff {v : Yaml} {x : List (String × PyVal)} : v.asRates = some x ↔
    ∃ d, v = .dict d ∧ List.Forall₂ (fun e r => e.1 = r.1 ∧ IsRate e.2 r.2) d x := by
  cases v with
  | dict d =>
    simp only [Yaml.asRates, Yaml.dict.injEq, exists_eq_left']
    induction d generalizing x with
    | nil => cases x <;> simp
    | cons a d ih =>
      rw [List.mapM_cons]
      simp only [bind, Option.bind_eq_some_iff, pure, Option.some.injEq, Option.map_eq_some_iff, ih, asPyVal_iff,
        List.forall₂_cons_left_iff]
      constructor
      · rintro ⟨b, ⟨r, hr, rfl⟩, t, ht, rfl⟩
        exact ⟨_, t, ⟨rfl, hr⟩, ht, rfl⟩
      · rintro ⟨⟨n, r⟩, t, ⟨h1, hr⟩, ht, rfl⟩
        exact ⟨_, ⟨r, hr, rfl⟩, t, ht, by rw [h1]⟩
  | _ => simp [Yaml.asRates]

lemma forwardConfigOf_iff (vars : List (String × Yaml)) (plot : Option Bool) (cfg : ForwardConfig) :
    forwardConfigOf vars plot = some cfg ↔
      typedVar vars Yaml.asStr "i_output_path" = some cfg.outputPath ∧
      typedVar vars Yaml.asStr "i_mesh_generation_method" = some cfg.meshGenerationMethod ∧
      plot = some cfg.generateMeshPlot ∧ typedVar vars Yaml.asStr "i_mesh_type" = some cfg.meshType ∧
      typedVar vars Yaml.asNum "i_x_min" = some cfg.xMin ∧ typedVar vars Yaml.asNum "i_x_max" = some cfg.xMax ∧
      typedVar vars Yaml.asNum "i_y_min" = some cfg.yMin ∧ typedVar vars Yaml.asNum "i_y_max" = some cfg.yMax ∧
      typedVar vars Yaml.asNat "i_n_cells_x" = some cfg.nCellsX ∧
      typedVar vars Yaml.asNat "i_n_cells_y" = some cfg.nCellsY ∧
      typedVar vars Yaml.asNat "i_n_boundary_points" = some cfg.nBoundaryPoints ∧
      typedVar vars Yaml.asNat "i_n_test_points_x" = some cfg.nTestPointsX ∧
      typedVar vars Yaml.asNat "i_n_test_points_y" = some cfg.nTestPointsY ∧
      typedVar vars Yaml.asStr "i_mesh_file_name" = some cfg.meshFileName ∧
      typedVar vars Yaml.asNat "i_boundary_refinement_level" = some cfg.boundaryRefinementLevel ∧
      typedVar vars Yaml.asStr "i_boundary_sampling_method" = some cfg.boundarySamplingMethod ∧
      typedVar vars Yaml.asInt "i_fe_order" = some cfg.feOrder ∧
      typedVar vars Yaml.asStr "i_fe_type" = some cfg.feType ∧
      typedVar vars Yaml.asInt "i_quad_order" = some cfg.quadOrder ∧
      typedVar vars Yaml.asStr "i_quad_type" = some cfg.quadType ∧
      typedVar vars Yaml.asNats "i_model_architecture" = some cfg.modelArchitecture ∧
      typedVar vars Yaml.asStr "i_activation" = some cfg.activation ∧
      typedVar vars Yaml.asBool "i_use_attention" = some cfg.useAttention ∧
      typedVar vars Yaml.asNat "i_epochs" = some cfg.epochs ∧
      typedVar vars Yaml.asStr "i_dtype" = some cfg.dtype ∧
      typedVar vars Yaml.asRates "i_learning_rate_dict" = some cfg.learningRate ∧
      typedVar vars Yaml.asNum "i_beta" = some cfg.beta ∧
      typedVar vars Yaml.asInt "i_update_console_output" = some cfg.updateConsoleOutput := by
  unfold forwardConfigOf
  constructor
  · intro h
    obtain ⟨_, h0, h⟩ := Option.bind_eq_some_iff.1 h
    obtain ⟨_, h1, h⟩ := Option.bind_eq_some_iff.1 h
    obtain ⟨_, h2, h⟩ := Option.bind_eq_some_iff.1 h
    obtain ⟨_, h3, h⟩ := Option.bind_eq_some_iff.1 h
    obtain ⟨_, h4, h⟩ := Option.bind_eq_some_iff.1 h
    obtain ⟨_, h5, h⟩ := Option.bind_eq_some_iff.1 h
    obtain ⟨_, h6, h⟩ := Option.bind_eq_some_iff.1 h
    obtain ⟨_, h7, h⟩ := Option.bind_eq_some_iff.1 h
    obtain ⟨_, h8, h⟩ := Option.bind_eq_some_iff.1 h
    obtain ⟨_, h9, h⟩ := Option.bind_eq_some_iff.1 h
    obtain ⟨_, h10, h⟩ := Option.bind_eq_some_iff.1 h
    obtain ⟨_, h11, h⟩ := Option.bind_eq_some_iff.1 h
    obtain ⟨_, h12, h⟩ := Option.bind_eq_some_iff.1 h
    obtain ⟨_, h13, h⟩ := Option.bind_eq_some_iff.1 h
    obtain ⟨_, h14, h⟩ := Option.bind_eq_some_iff.1 h
    obtain ⟨_, h15, h⟩ := Option.bind_eq_some_iff.1 h
    obtain ⟨_, h16, h⟩ := Option.bind_eq_some_iff.1 h
    obtain ⟨_, h17, h⟩ := Option.bind_eq_some_iff.1 h
    obtain ⟨_, h18, h⟩ := Option.bind_eq_some_iff.1 h
    obtain ⟨_, h19, h⟩ := Option.bind_eq_some_iff.1 h
    obtain ⟨_, h20, h⟩ := Option.bind_eq_some_iff.1 h
    obtain ⟨_, h21, h⟩ := Option.bind_eq_some_iff.1 h
    obtain ⟨_, h22, h⟩ := Option.bind_eq_some_iff.1 h
    obtain ⟨_, h23, h⟩ := Option.bind_eq_some_iff.1 h
    obtain ⟨_, h24, h⟩ := Option.bind_eq_some_iff.1 h
    obtain ⟨_, h25, h⟩ := Option.bind_eq_some_iff.1 h
    obtain ⟨_, h26, h⟩ := Option.bind_eq_some_iff.1 h
    obtain ⟨_, h27, h⟩ := Option.bind_eq_some_iff.1 h
    obtain rfl := Option.some.inj h
    exact ⟨h0, h1, h2, h3, h4, h5, h6, h7, h8, h9, h10, h11, h12, h13, h14, h15, h16, h17, h18, h19, h20, h21, h22, h23, h24, h25, h26, h27⟩
  · rintro ⟨h0, h1, h2, h3, h4, h5, h6, h7, h8, h9, h10, h11, h12, h13, h14, h15, h16, h17, h18, h19, h20, h21, h22, h23, h24, h25, h26, h27⟩
    rw [h0, h1, h2, h3, h4, h5, h6, h7, h8, h9, h10, h11, h12, h13, h14, h15, h16, h17, h18, h19, h20, h21, h22, h23, h24, h25, h26, h27]
    rfl

lemma typed_iff {y : Yaml} {l : List (String × List String)} {vars : List (String × Yaml)}
    (h : List.Forall₂ (fun e b => e.1 = b.1 ∧ At y e.2 b.2) l vars) (hn : (l.map Prod.fst).Nodup)
    {name : String} {path : List String} (hm : (name, path) ∈ l) {α : Type} (as : Yaml → Option α) (x : α) :
    typedVar vars as name = some x ↔ ∃ v, At y path v ∧ as v = some x := by
  unfold typedVar
  rw [Option.bind_eq_some_iff]
  simp only [lookup_reads h hn hm]

/-- The entries all scripts read. -/
def commonReads : List (String × List String) :=
  [("i_output_path", ["experimentation", "output_path"]),
   ("i_mesh_generation_method", ["geometry", "mesh_generation_method"]),
   ("i_mesh_type", ["geometry", "mesh_type"])] ++ readsInternal ++ readsRest ++
  [("i_set_memory_growth", ["model", "set_memory_growth"]),
   ("i_learning_rate_dict", ["model", "learning_rate"]),
   ("i_beta", ["pde", "beta"]),
   ("i_update_console_output", ["logging", "update_console_output"])]

/-- The configuration of a script is the one the file describes. -/
lemma common_iff {y : Yaml} {l : List (String × List String)} {vars : List (String × Yaml)}
    (h : List.Forall₂ (fun e b => e.1 = b.1 ∧ At y e.2 b.2) l vars) (hn : (l.map Prod.fst).Nodup)
    (hl : ∀ e ∈ commonReads, e ∈ l)
    (hd : ∃ dtype, At y ["model", "dtype"] (.str dtype) ∧ (dtype = "float64" ∨ dtype = "float32"))
    (plot : Option Bool) (cfg : ForwardConfig) :
    forwardConfigOf vars plot = some cfg ↔ plot = some cfg.generateMeshPlot ∧ CommonFile y cfg := by
  have t := fun {name : String} {path : List String} (hm : (name, path) ∈ commonReads) {α : Type}
    (as : Yaml → Option α) (x : α) => typed_iff h hn (hl _ hm) as x
  rw [forwardConfigOf_iff, t (name := "i_output_path") (path := ["experimentation", "output_path"]) (by decide),
    t (name := "i_mesh_generation_method") (path := ["geometry", "mesh_generation_method"]) (by decide),
    t (name := "i_mesh_type") (path := ["geometry", "mesh_type"]) (by decide),
    t (name := "i_x_min") (path := ["geometry", "internal_mesh_params", "x_min"]) (by decide),
    t (name := "i_x_max") (path := ["geometry", "internal_mesh_params", "x_max"]) (by decide),
    t (name := "i_y_min") (path := ["geometry", "internal_mesh_params", "y_min"]) (by decide),
    t (name := "i_y_max") (path := ["geometry", "internal_mesh_params", "y_max"]) (by decide),
    t (name := "i_n_cells_x") (path := ["geometry", "internal_mesh_params", "n_cells_x"]) (by decide),
    t (name := "i_n_cells_y") (path := ["geometry", "internal_mesh_params", "n_cells_y"]) (by decide),
    t (name := "i_n_boundary_points") (path := ["geometry", "internal_mesh_params", "n_boundary_points"]) (by decide),
    t (name := "i_n_test_points_x") (path := ["geometry", "internal_mesh_params", "n_test_points_x"]) (by decide),
    t (name := "i_n_test_points_y") (path := ["geometry", "internal_mesh_params", "n_test_points_y"]) (by decide),
    t (name := "i_mesh_file_name") (path := ["geometry", "external_mesh_params", "mesh_file_name"]) (by decide),
    t (name := "i_boundary_refinement_level") (path := ["geometry", "external_mesh_params", "boundary_refinement_level"]) (by decide),
    t (name := "i_boundary_sampling_method") (path := ["geometry", "external_mesh_params", "boundary_sampling_method"]) (by decide),
    t (name := "i_fe_order") (path := ["fe", "fe_order"]) (by decide),
    t (name := "i_fe_type") (path := ["fe", "fe_type"]) (by decide),
    t (name := "i_quad_order") (path := ["fe", "quad_order"]) (by decide),
    t (name := "i_quad_type") (path := ["fe", "quad_type"]) (by decide),
    t (name := "i_model_architecture") (path := ["model", "model_architecture"]) (by decide),
    t (name := "i_activation") (path := ["model", "activation"]) (by decide),
    t (name := "i_use_attention") (path := ["model", "use_attention"]) (by decide),
    t (name := "i_epochs") (path := ["model", "epochs"]) (by decide),
    t (name := "i_dtype") (path := ["model", "dtype"]) (by decide),
    t (name := "i_learning_rate_dict") (path := ["model", "learning_rate"]) (by decide),
    t (name := "i_beta") (path := ["pde", "beta"]) (by decide),
    t (name := "i_update_console_output") (path := ["logging", "update_console_output"]) (by decide)]
  simp only [asStr_iff, asBool_iff, asInt_iff, asNat_iff, asNats_iff, asNum_iff, asRates_iff, exists_eq_right]
  constructor
  · rintro ⟨h0, h1, hp, h3, h4, h5, h6, h7, h8, h9, h10, h11, h12, h13, h14, h15, h16, h17, h18, h19, h20, h21, h22, h23, h24, h25, h26, h27⟩
    refine ⟨hp, ?_⟩
    obtain ⟨dtype, e1, e2⟩ := hd
    obtain rfl := Yaml.str.inj (e1.unique h24)
    obtain ⟨_, h25, d, rfl, hlr⟩ := h25
    have hg := reads_mem h _ (hl ("i_set_memory_growth", ["model", "set_memory_growth"]) (by decide))
    exact {outputPath := h0, meshGenerationMethod := h1, meshType := h3, xMin := h4, xMax := h5, yMin := h6, yMax := h7, nCellsX := h8, nCellsY := h9, nBoundaryPoints := h10, nTestPointsX := h11, nTestPointsY := h12, meshFileName := h13, boundaryRefinementLevel := h14, boundarySamplingMethod := h15, feOrder := h16, feType := h17, quadOrder := h18, quadType := h19, modelArchitecture := h20, activation := h21, useAttention := h22, epochs := h23, dtype := h24, beta := h26, updateConsoleOutput := h27,
            supported := e2, setMemoryGrowth := hg, learningRate := ⟨d, h25, hlr⟩ }
  · rintro ⟨hp, c⟩
    obtain ⟨d, h1, h2⟩ := c.learningRate
    exact ⟨c.outputPath, c.meshGenerationMethod, hp, c.meshType, c.xMin, c.xMax, c.yMin, c.yMax, c.nCellsX, c.nCellsY, c.nBoundaryPoints, c.nTestPointsX, c.nTestPointsY, c.meshFileName, c.boundaryRefinementLevel, c.boundarySamplingMethod, c.feOrder, c.feType, c.quadOrder, c.quadType, c.modelArchitecture, c.activation, c.useAttention, c.epochs, c.dtype, ⟨_, h1, d, rfl, h2⟩, c.beta, c.updateConsoleOutput⟩

/-! ## The configuration of each script -/

lemma forward_iff (y : Yaml) (cfg : ForwardConfig) :
    (∃ vars, readsForward.run y = .ok vars ∧ forwardConfigOf vars (typedVar vars Yaml.asBool "i_generate_mesh_plot") = some cfg) ↔ ForwardFile y cfg := by
  have hg := readsForward_good
  constructor
  · rintro ⟨vars, h, hc⟩
    obtain ⟨hf, hd⟩ := (run_ok_iff _ hg _ _).1 h
    rw [common_iff hf hg.nodup (by decide) hd, typed_iff hf hg.nodup (name := "i_generate_mesh_plot") (path := ["geometry", "generate_mesh_plot"]) (by decide)] at hc
    obtain ⟨⟨_, h1, h2⟩, hc⟩ := hc
    rw [asBool_iff] at h2
    subst h2
    exact ⟨⟨hc, h1⟩, reads_mem hf ("i_exact_solution_generation", _) (by decide),
      reads_mem hf ("i_exact_solution_file_name", _) (by decide)⟩
  · intro h
    have hd : ∃ dtype, At y ["model", "dtype"] (.str dtype) ∧ (dtype = "float64" ∨ dtype = "float32") :=
      ⟨_, h.dtype, h.supported⟩
    obtain ⟨vars, hv⟩ := (readVars_exists y (readsForward.before ++ readsForward.after)).2 (by
      simp only [readsForward, readsExact, readsInternal, readsRest, List.cons_append,
        List.nil_append, List.forall_mem_cons]
      have xm : ∀ {path : List String} {q : Yaml → Prop}, (∃ v, At y path v ∧ q v) → ∃ v, At y path v :=
        fun ⟨v, h, _⟩ => ⟨v, h⟩
      have xr : ∃ v, At y ["model", "learning_rate"] v := let ⟨_, h, _⟩ := h.learningRate; ⟨_, h⟩
      exact ⟨⟨_, h.outputPath⟩, ⟨_, h.meshGenerationMethod⟩, ⟨_, h.plot⟩, ⟨_, h.meshType⟩, xm h.xMin, xm h.xMax, xm h.yMin, xm h.yMax, ⟨_, h.nCellsX⟩, ⟨_, h.nCellsY⟩,
      ⟨_, h.nBoundaryPoints⟩, ⟨_, h.nTestPointsX⟩, ⟨_, h.nTestPointsY⟩, h.exactGeneration, h.exactFileName, ⟨_, h.meshFileName⟩, ⟨_, h.boundaryRefinementLevel⟩,
      ⟨_, h.boundarySamplingMethod⟩, ⟨_, h.feOrder⟩, ⟨_, h.feType⟩, ⟨_, h.quadOrder⟩, ⟨_, h.quadType⟩,
      ⟨_, h.modelArchitecture⟩, ⟨_, h.activation⟩, ⟨_, h.useAttention⟩, ⟨_, h.epochs⟩, ⟨_, h.dtype⟩,
      h.setMemoryGrowth, xr, xm h.beta, ⟨_, h.updateConsoleOutput⟩, by simp⟩)
    have hf := (readVars_ok_iff _ _ _).1 hv
    refine ⟨vars, (run_ok_iff _ hg _ _).2 ⟨hf, hd⟩, ?_⟩
    rw [common_iff hf hg.nodup (by decide) hd, typed_iff hf hg.nodup (name := "i_generate_mesh_plot") (path := ["geometry", "generate_mesh_plot"]) (by decide)]
    exact ⟨⟨_, h.plot, rfl⟩, h.toCommonFile⟩

lemma hard_iff (y : Yaml) (cfg : ForwardConfig) :
    (∃ vars, readsHard.run y = .ok vars ∧ forwardConfigOf vars (typedVar vars Yaml.asBool "i_generate_mesh_plot") = some cfg) ↔ HardFile y cfg := by
  have hg := readsHard_good
  constructor
  · rintro ⟨vars, h, hc⟩
    obtain ⟨hf, hd⟩ := (run_ok_iff _ hg _ _).1 h
    rw [common_iff hf hg.nodup (by decide) hd, typed_iff hf hg.nodup (name := "i_generate_mesh_plot") (path := ["geometry", "generate_mesh_plot"]) (by decide)] at hc
    obtain ⟨⟨_, h1, h2⟩, hc⟩ := hc
    rw [asBool_iff] at h2
    subst h2
    exact ⟨hc, h1⟩
  · intro h
    have hd : ∃ dtype, At y ["model", "dtype"] (.str dtype) ∧ (dtype = "float64" ∨ dtype = "float32") :=
      ⟨_, h.dtype, h.supported⟩
    obtain ⟨vars, hv⟩ := (readVars_exists y (readsHard.before ++ readsHard.after)).2 (by
      simp only [readsHard, readsForward, readsInternal, readsRest, List.cons_append,
        List.nil_append, List.forall_mem_cons]
      have xm : ∀ {path : List String} {q : Yaml → Prop}, (∃ v, At y path v ∧ q v) → ∃ v, At y path v :=
        fun ⟨v, h, _⟩ => ⟨v, h⟩
      have xr : ∃ v, At y ["model", "learning_rate"] v := let ⟨_, h, _⟩ := h.learningRate; ⟨_, h⟩
      exact ⟨⟨_, h.outputPath⟩, ⟨_, h.meshGenerationMethod⟩, ⟨_, h.plot⟩, ⟨_, h.meshType⟩, xm h.xMin, xm h.xMax, xm h.yMin, xm h.yMax, ⟨_, h.nCellsX⟩, ⟨_, h.nCellsY⟩,
      ⟨_, h.nBoundaryPoints⟩, ⟨_, h.nTestPointsX⟩, ⟨_, h.nTestPointsY⟩, ⟨_, h.meshFileName⟩, ⟨_, h.boundaryRefinementLevel⟩,
      ⟨_, h.boundarySamplingMethod⟩, ⟨_, h.feOrder⟩, ⟨_, h.feType⟩, ⟨_, h.quadOrder⟩, ⟨_, h.quadType⟩,
      ⟨_, h.modelArchitecture⟩, ⟨_, h.activation⟩, ⟨_, h.useAttention⟩, ⟨_, h.epochs⟩, ⟨_, h.dtype⟩,
      h.setMemoryGrowth, xr, xm h.beta, ⟨_, h.updateConsoleOutput⟩, by simp⟩)
    have hf := (readVars_ok_iff _ _ _).1 hv
    refine ⟨vars, (run_ok_iff _ hg _ _).2 ⟨hf, hd⟩, ?_⟩
    rw [common_iff hf hg.nodup (by decide) hd, typed_iff hf hg.nodup (name := "i_generate_mesh_plot") (path := ["geometry", "generate_mesh_plot"]) (by decide)]
    exact ⟨⟨_, h.plot, rfl⟩, h.toCommonFile⟩

lemma gear_iff (y : Yaml) (cfg : GearConfig) :
    (∃ vars, readsForward.run y = .ok vars ∧ gearConfigOf vars = some cfg) ↔ GearFile y cfg := by
  have hg := readsForward_good
  constructor
  · rintro ⟨vars, h, hc⟩
    obtain ⟨hf, hd⟩ := (run_ok_iff _ hg _ _).1 h
    obtain ⟨c, hcc, h⟩ := Option.bind_eq_some_iff.1 hc
    clear hc
    obtain ⟨e1, he1, h⟩ := Option.bind_eq_some_iff.1 h
    obtain ⟨e2, he2, h⟩ := Option.bind_eq_some_iff.1 h
    obtain rfl := Option.some.inj h
    have hc := hcc
    rw [common_iff hf hg.nodup (by decide) hd, typed_iff hf hg.nodup (name := "i_generate_mesh_plot") (path := ["geometry", "generate_mesh_plot"]) (by decide)] at hc
    rw [typed_iff hf hg.nodup (name := "i_exact_solution_generation") (path := ["geometry", "exact_solution", "exact_solution_generation"]) (by decide)] at he1
    rw [typed_iff hf hg.nodup (name := "i_exact_solution_file_name") (path := ["geometry", "exact_solution", "exact_solution_file_name"]) (by decide)] at he2
    simp only [asStr_iff, asBool_iff, exists_eq_right] at hc he1 he2
    exact ⟨⟨hc.2, hc.1⟩, he1, he2⟩
  · intro h
    have hd : ∃ dtype, At y ["model", "dtype"] (.str dtype) ∧ (dtype = "float64" ∨ dtype = "float32") :=
      ⟨_, h.dtype, h.supported⟩
    obtain ⟨vars, hv⟩ := (readVars_exists y (readsForward.before ++ readsForward.after)).2 (by
      simp only [readsForward, readsExact, readsInternal, readsRest, List.cons_append,
        List.nil_append, List.forall_mem_cons]
      have xm : ∀ {path : List String} {q : Yaml → Prop}, (∃ v, At y path v ∧ q v) → ∃ v, At y path v :=
        fun ⟨v, h, _⟩ => ⟨v, h⟩
      have xr : ∃ v, At y ["model", "learning_rate"] v := let ⟨_, h, _⟩ := h.learningRate; ⟨_, h⟩
      exact ⟨⟨_, h.outputPath⟩, ⟨_, h.meshGenerationMethod⟩, ⟨_, h.plot⟩, ⟨_, h.meshType⟩, xm h.xMin, xm h.xMax, xm h.yMin, xm h.yMax, ⟨_, h.nCellsX⟩, ⟨_, h.nCellsY⟩,
      ⟨_, h.nBoundaryPoints⟩, ⟨_, h.nTestPointsX⟩, ⟨_, h.nTestPointsY⟩, ⟨_, h.exactGeneration⟩, ⟨_, h.exactFileName⟩, ⟨_, h.meshFileName⟩, ⟨_, h.boundaryRefinementLevel⟩,
      ⟨_, h.boundarySamplingMethod⟩, ⟨_, h.feOrder⟩, ⟨_, h.feType⟩, ⟨_, h.quadOrder⟩, ⟨_, h.quadType⟩,
      ⟨_, h.modelArchitecture⟩, ⟨_, h.activation⟩, ⟨_, h.useAttention⟩, ⟨_, h.epochs⟩, ⟨_, h.dtype⟩,
      h.setMemoryGrowth, xr, xm h.beta, ⟨_, h.updateConsoleOutput⟩, by simp⟩)
    have hf := (readVars_ok_iff _ _ _).1 hv
    refine ⟨vars, (run_ok_iff _ hg _ _).2 ⟨hf, hd⟩, ?_⟩
    have h0 := (common_iff hf hg.nodup (by decide) hd
      (typedVar vars Yaml.asBool "i_generate_mesh_plot") cfg.toForwardConfig).2
      ⟨(typed_iff hf hg.nodup (name := "i_generate_mesh_plot") (path := ["geometry", "generate_mesh_plot"]) (by decide) Yaml.asBool cfg.generateMeshPlot).2 ⟨_, h.plot, rfl⟩, h.toCommonFile⟩
    have h1 := (typed_iff hf hg.nodup (name := "i_exact_solution_generation") (path := ["geometry", "exact_solution", "exact_solution_generation"]) (by decide) Yaml.asStr cfg.exactSolutionGeneration).2 ⟨_, h.exactGeneration, rfl⟩
    have h2 := (typed_iff hf hg.nodup (name := "i_exact_solution_file_name") (path := ["geometry", "exact_solution", "exact_solution_file_name"]) (by decide) Yaml.asStr cfg.exactSolutionFileName).2 ⟨_, h.exactFileName, rfl⟩
    unfold gearConfigOf
    rw [h0, h1, h2]
    rfl

lemma inverse_iff (y : Yaml) (cfg : InverseConfig) :
    (∃ vars, readsInverse.run y = .ok vars ∧ inverseConfigOf vars = some cfg) ↔ InverseFile y cfg := by
  have hg := readsInverse_good
  constructor
  · rintro ⟨vars, h, hc⟩
    obtain ⟨hf, hd⟩ := (run_ok_iff _ hg _ _).1 h
    obtain ⟨c, hcc, h⟩ := Option.bind_eq_some_iff.1 hc
    clear hc
    obtain ⟨e1, he1, h⟩ := Option.bind_eq_some_iff.1 h
    obtain rfl := Option.some.inj h
    have hc := hcc
    rw [common_iff hf hg.nodup (by decide) hd] at hc
    rw [typed_iff hf hg.nodup (name := "i_num_sensor_points") (path := ["inverse", "num_sensor_points"]) (by decide)] at he1
    simp only [asNat_iff, exists_eq_right, Option.some.injEq] at hc he1
    exact ⟨hc.2, hc.1.symm, he1⟩
  · intro h
    have hd : ∃ dtype, At y ["model", "dtype"] (.str dtype) ∧ (dtype = "float64" ∨ dtype = "float32") :=
      ⟨_, h.dtype, h.supported⟩
    obtain ⟨vars, hv⟩ := (readVars_exists y (readsInverse.before ++ readsInverse.after)).2 (by
      simp only [readsInverse, readsInternal, readsRest, List.cons_append,
        List.nil_append, List.forall_mem_cons]
      have xm : ∀ {path : List String} {q : Yaml → Prop}, (∃ v, At y path v ∧ q v) → ∃ v, At y path v :=
        fun ⟨v, h, _⟩ => ⟨v, h⟩
      have xr : ∃ v, At y ["model", "learning_rate"] v := let ⟨_, h, _⟩ := h.learningRate; ⟨_, h⟩
      exact ⟨⟨_, h.outputPath⟩, ⟨_, h.meshGenerationMethod⟩, ⟨_, h.meshType⟩, xm h.xMin, xm h.xMax, xm h.yMin, xm h.yMax, ⟨_, h.nCellsX⟩, ⟨_, h.nCellsY⟩,
      ⟨_, h.nBoundaryPoints⟩, ⟨_, h.nTestPointsX⟩, ⟨_, h.nTestPointsY⟩, ⟨_, h.meshFileName⟩, ⟨_, h.boundaryRefinementLevel⟩,
      ⟨_, h.boundarySamplingMethod⟩, ⟨_, h.feOrder⟩, ⟨_, h.feType⟩, ⟨_, h.quadOrder⟩, ⟨_, h.quadType⟩,
      ⟨_, h.modelArchitecture⟩, ⟨_, h.activation⟩, ⟨_, h.useAttention⟩, ⟨_, h.epochs⟩, ⟨_, h.dtype⟩,
      h.setMemoryGrowth, xr, ⟨_, h.numSensorPoints⟩, xm h.beta, ⟨_, h.updateConsoleOutput⟩, by simp⟩)
    have hf := (readVars_ok_iff _ _ _).1 hv
    refine ⟨vars, (run_ok_iff _ hg _ _).2 ⟨hf, hd⟩, ?_⟩
    have h0 := (common_iff hf hg.nodup (by decide) hd (some false) cfg.toForwardConfig).2
      ⟨by rw [h.plot], h.toCommonFile⟩
    have h1 := (typed_iff hf hg.nodup (name := "i_num_sensor_points") (path := ["inverse", "num_sensor_points"]) (by decide) Yaml.asNat cfg.numSensorPoints).2
      ⟨_, h.numSensorPoints, asNat_iff.2 rfl⟩
    have h2 : inverseConfigOf vars = some cfg := by
      unfold inverseConfigOf
      rw [h0, h1]
      rfl
    exact h2

lemma circle_iff (y : Yaml) (cfg : InverseConfig) (file : String) :
    (∃ vars, readsCircle.run y = .ok vars ∧ inverseConfigOf vars = some cfg ∧
      typedVar vars Yaml.asStr "i_sensor_data_file" = some file) ↔ CircleFile y cfg file := by
  have hg := readsCircle_good
  constructor
  · rintro ⟨vars, h, hc, hs⟩
    obtain ⟨hf, hd⟩ := (run_ok_iff _ hg _ _).1 h
    obtain ⟨c, hcc, h⟩ := Option.bind_eq_some_iff.1 hc
    clear hc
    obtain ⟨e1, he1, h⟩ := Option.bind_eq_some_iff.1 h
    obtain rfl := Option.some.inj h
    have hc := hcc
    rw [common_iff hf hg.nodup (by decide) hd] at hc
    rw [typed_iff hf hg.nodup (name := "i_num_sensor_points") (path := ["inverse", "num_sensor_points"]) (by decide)] at he1
    simp only [asNat_iff, exists_eq_right, Option.some.injEq] at hc he1
    rw [typed_iff hf hg.nodup (name := "i_sensor_data_file") (path := ["inverse", "sensor_data_file"]) (by decide)] at hs
    simp only [asStr_iff, exists_eq_right] at hs
    exact ⟨⟨hc.2, hc.1.symm, he1⟩, hs⟩
  · intro h
    have hd : ∃ dtype, At y ["model", "dtype"] (.str dtype) ∧ (dtype = "float64" ∨ dtype = "float32") :=
      ⟨_, h.dtype, h.supported⟩
    obtain ⟨vars, hv⟩ := (readVars_exists y (readsCircle.before ++ readsCircle.after)).2 (by
      simp only [readsCircle, readsInverse, readsInternal, readsRest, List.cons_append,
        List.nil_append, List.forall_mem_cons]
      have xm : ∀ {path : List String} {q : Yaml → Prop}, (∃ v, At y path v ∧ q v) → ∃ v, At y path v :=
        fun ⟨v, h, _⟩ => ⟨v, h⟩
      have xr : ∃ v, At y ["model", "learning_rate"] v := let ⟨_, h, _⟩ := h.learningRate; ⟨_, h⟩
      exact ⟨⟨_, h.outputPath⟩, ⟨_, h.meshGenerationMethod⟩, ⟨_, h.meshType⟩, xm h.xMin, xm h.xMax, xm h.yMin, xm h.yMax, ⟨_, h.nCellsX⟩, ⟨_, h.nCellsY⟩,
      ⟨_, h.nBoundaryPoints⟩, ⟨_, h.nTestPointsX⟩, ⟨_, h.nTestPointsY⟩, ⟨_, h.meshFileName⟩, ⟨_, h.boundaryRefinementLevel⟩,
      ⟨_, h.boundarySamplingMethod⟩, ⟨_, h.feOrder⟩, ⟨_, h.feType⟩, ⟨_, h.quadOrder⟩, ⟨_, h.quadType⟩,
      ⟨_, h.modelArchitecture⟩, ⟨_, h.activation⟩, ⟨_, h.useAttention⟩, ⟨_, h.epochs⟩, ⟨_, h.dtype⟩,
      h.setMemoryGrowth, xr, ⟨_, h.numSensorPoints⟩, ⟨_, h.sensorDataFile⟩, xm h.beta, ⟨_, h.updateConsoleOutput⟩, by simp⟩)
    have hf := (readVars_ok_iff _ _ _).1 hv
    refine ⟨vars, (run_ok_iff _ hg _ _).2 ⟨hf, hd⟩, ?_⟩
    have h0 := (common_iff hf hg.nodup (by decide) hd (some false) cfg.toForwardConfig).2
      ⟨by rw [h.plot], h.toCommonFile⟩
    have h1 := (typed_iff hf hg.nodup (name := "i_num_sensor_points") (path := ["inverse", "num_sensor_points"]) (by decide) Yaml.asNat cfg.numSensorPoints).2
      ⟨_, h.numSensorPoints, asNat_iff.2 rfl⟩
    have h2 : inverseConfigOf vars = some cfg := by
      unfold inverseConfigOf
      rw [h0, h1]
      rfl
    exact ⟨h2, (typed_iff hf hg.nodup (name := "i_sensor_data_file") (path := ["inverse", "sensor_data_file"]) (by decide) Yaml.asStr file).2
      ⟨_, h.sensorDataFile, rfl⟩⟩

/-! ## The scripts with their files -/

lemma startScript_ok_iff (r : ConfigReads) (load : String → Except PyErr Yaml) (argv : List String)
    (vars : List (String × Yaml)) : startScript r load argv = .ok vars ↔
      ∃ prog path y, argv = [prog, path] ∧ load path = .ok y ∧ r.run y = .ok vars := by
  constructor
  · intro h
    unfold startScript at h
    split at h
    · rename_i prog path
      split at h
      · exact absurd h (by simp)
      · rename_i y hy
        refine ⟨prog, path, y, rfl, hy, ?_⟩
        rcases hr : r.run y with e | v <;> rw [hr] at h <;> simp [Stop.of] at h
        rw [h]
    · exact absurd h (by simp)
  · rintro ⟨prog, path, y, rfl, hl, hr⟩
    simp only [startScript, hl, hr, Stop.of]

lemma stop_of_ok {α : Type} {x : Except PyErr α} {a : α} (h : Stop.of x = .ok a) : x = .ok a := by
  cases x <;> simp [Stop.of] at h
  rw [h]

/-- **C81** (scripts on the rectangle): a file that describes `cfg` is run with `cfg`, and the script finishes only with a file
that describes some configuration. -/
theorem C81_uniform (mc : Machine) (load : String → Except PyErr Yaml) (ω : Draws) (θ : Weights) (files : Files) (pb : Problem) :
    (∀ prog path y cfg, load path = .ok y → ForwardFile y cfg →
      scriptUniform mc load [prog, path] ω θ files pb = Stop.of (mainUniform mc pb cfg (ω.sample _) θ files)) ∧
    ∀ argv R, scriptUniform mc load argv ω θ files pb = .ok R →
      ∃ prog path y cfg, argv = [prog, path] ∧ load path = .ok y ∧ ForwardFile y cfg ∧
        mainUniform mc pb cfg (ω.sample _) θ files = .ok R := by
  constructor
  · intro prog path y cfg hl h
    obtain ⟨vars, h1, h2⟩ := (forward_iff y cfg).2 h
    unfold scriptUniform
    simp only [startScript, hl, h1, Stop.of, h2]
  · intro argv R h
    unfold scriptUniform at h
    split at h
    · exact absurd h (by simp)
    rename_i vars hs
    obtain ⟨prog, path, y, rfl, hl, hr⟩ := (startScript_ok_iff _ _ _ _).1 hs
    split at h
    · exact absurd h (by simp)
    rename_i cfg hc
    exact ⟨prog, path, y, cfg, rfl, hl, (forward_iff y cfg).1 ⟨vars, hr, hc⟩, stop_of_ok h⟩

/-- **C81** (script with hard constraints): a file that describes `cfg` is run with `cfg`, and the script finishes only with a file
that describes some configuration. -/
theorem C81_hard (mc : Machine) (load : String → Except PyErr Yaml) (ω : Draws) (θ : Weights) (files : Files) (pb : Problem) :
    (∀ prog path y cfg, load path = .ok y → HardFile y cfg →
      scriptHard mc load [prog, path] ω θ files pb = Stop.of (mainHard mc pb cfg (ω.sample _) θ files)) ∧
    ∀ argv R, scriptHard mc load argv ω θ files pb = .ok R →
      ∃ prog path y cfg, argv = [prog, path] ∧ load path = .ok y ∧ HardFile y cfg ∧
        mainHard mc pb cfg (ω.sample _) θ files = .ok R := by
  constructor
  · intro prog path y cfg hl h
    obtain ⟨vars, h1, h2⟩ := (hard_iff y cfg).2 h
    unfold scriptHard
    simp only [startScript, hl, h1, Stop.of, h2]
  · intro argv R h
    unfold scriptHard at h
    split at h
    · exact absurd h (by simp)
    rename_i vars hs
    obtain ⟨prog, path, y, rfl, hl, hr⟩ := (startScript_ok_iff _ _ _ _).1 hs
    split at h
    · exact absurd h (by simp)
    rename_i cfg hc
    exact ⟨prog, path, y, cfg, rfl, hl, (hard_iff y cfg).1 ⟨vars, hr, hc⟩, stop_of_ok h⟩

/-- **C81** (scripts on mesh files): a file that describes `cfg` is run with `cfg`, and the script finishes only with a file
that describes some configuration. -/
theorem C81_external (mc : Machine) (load : String → Except PyErr Yaml) (ω : Draws) (θ : Weights) (files : Files) (pb : Problem) (layerDims : ForwardConfig → List ℕ) :
    (∀ prog path y cfg, load path = .ok y → ForwardFile y cfg →
      scriptExternal mc load [prog, path] ω θ files pb layerDims = Stop.of (mainExternal mc pb layerDims cfg (ω.lhs _) θ files)) ∧
    ∀ argv R, scriptExternal mc load argv ω θ files pb layerDims = .ok R →
      ∃ prog path y cfg, argv = [prog, path] ∧ load path = .ok y ∧ ForwardFile y cfg ∧
        mainExternal mc pb layerDims cfg (ω.lhs _) θ files = .ok R := by
  constructor
  · intro prog path y cfg hl h
    obtain ⟨vars, h1, h2⟩ := (forward_iff y cfg).2 h
    unfold scriptExternal
    simp only [startScript, hl, h1, Stop.of, h2]
  · intro argv R h
    unfold scriptExternal at h
    split at h
    · exact absurd h (by simp)
    rename_i vars hs
    obtain ⟨prog, path, y, rfl, hl, hr⟩ := (startScript_ok_iff _ _ _ _).1 hs
    split at h
    · exact absurd h (by simp)
    rename_i cfg hc
    exact ⟨prog, path, y, cfg, rfl, hl, (forward_iff y cfg).1 ⟨vars, hr, hc⟩, stop_of_ok h⟩

/-- **C81** (script on the gear): a file that describes `cfg` is run with `cfg`, and the script finishes only with a file
that describes some configuration. -/
theorem C81_gear (mc : Machine) (load : String → Except PyErr Yaml) (ω : Draws) (θ : Weights) (files : Files)
    (csv : String → Except PyErr CsvTable) (pb : Problem) :
    (∀ prog path y cfg, load path = .ok y → GearFile y cfg →
      scriptGear mc load [prog, path] ω θ files csv pb = Stop.of (mainGear mc pb cfg csv (ω.lhs _) θ files)) ∧
    ∀ argv R, scriptGear mc load argv ω θ files csv pb = .ok R →
      ∃ prog path y cfg, argv = [prog, path] ∧ load path = .ok y ∧ GearFile y cfg ∧
        mainGear mc pb cfg csv (ω.lhs _) θ files = .ok R := by
  constructor
  · intro prog path y cfg hl h
    obtain ⟨vars, h1, h2⟩ := (gear_iff y cfg).2 h
    unfold scriptGear
    simp only [startScript, hl, h1, Stop.of, h2]
  · intro argv R h
    unfold scriptGear at h
    split at h
    · exact absurd h (by simp)
    rename_i vars hs
    obtain ⟨prog, path, y, rfl, hl, hr⟩ := (startScript_ok_iff _ _ _ _).1 hs
    split at h
    · exact absurd h (by simp)
    rename_i cfg hc
    exact ⟨prog, path, y, cfg, rfl, hl, (gear_iff y cfg).1 ⟨vars, hr, hc⟩, stop_of_ok h⟩

/-- **C81** (script for the constant coefficient): a file that describes `cfg` is run with `cfg`, and the script finishes only with a file
that describes some configuration. -/
theorem C81_inverse (mc : Machine) (load : String → Except PyErr Yaml) (ω : Draws) (θ : Weights) (files : Files) (pb : InverseProblem) :
    (∀ prog path y cfg, load path = .ok y → InverseFile y cfg →
      scriptInverse mc load [prog, path] ω θ files pb = Stop.of (mainInverse mc pb cfg (ω.sample _) (ω.lhs _) ω.sensorLhs (ω.randint _) θ files)) ∧
    ∀ argv R, scriptInverse mc load argv ω θ files pb = .ok R →
      ∃ prog path y cfg, argv = [prog, path] ∧ load path = .ok y ∧ InverseFile y cfg ∧
        mainInverse mc pb cfg (ω.sample _) (ω.lhs _) ω.sensorLhs (ω.randint _) θ files = .ok R := by
  constructor
  · intro prog path y cfg hl h
    obtain ⟨vars, h1, h2⟩ := (inverse_iff y cfg).2 h
    unfold scriptInverse
    simp only [startScript, hl, h1, Stop.of, h2]
  · intro argv R h
    unfold scriptInverse at h
    split at h
    · exact absurd h (by simp)
    rename_i vars hs
    obtain ⟨prog, path, y, rfl, hl, hr⟩ := (startScript_ok_iff _ _ _ _).1 hs
    split at h
    · exact absurd h (by simp)
    rename_i cfg hc
    exact ⟨prog, path, y, cfg, rfl, hl, (inverse_iff y cfg).1 ⟨vars, hr, hc⟩, stop_of_ok h⟩

/-- **C81** (script for the coefficient on the USA): a file that describes `cfg` is run with `cfg`, and the script finishes only with a file
that describes some configuration. -/
theorem C81_usa (mc : Machine) (load : String → Except PyErr Yaml) (ω : Draws) (θ : Weights) (files : Files) (pb : DomainProblem) :
    (∀ prog path y cfg, load path = .ok y → InverseFile y cfg →
      scriptUsa mc load [prog, path] ω θ files pb = Stop.of (mainUsa mc pb cfg ω.shuffle (ω.sample _) (ω.lhs _) θ files)) ∧
    ∀ argv R, scriptUsa mc load argv ω θ files pb = .ok R →
      ∃ prog path y cfg, argv = [prog, path] ∧ load path = .ok y ∧ InverseFile y cfg ∧
        mainUsa mc pb cfg ω.shuffle (ω.sample _) (ω.lhs _) θ files = .ok R := by
  constructor
  · intro prog path y cfg hl h
    obtain ⟨vars, h1, h2⟩ := (inverse_iff y cfg).2 h
    unfold scriptUsa
    simp only [startScript, hl, h1, Stop.of, h2]
  · intro argv R h
    unfold scriptUsa at h
    split at h
    · exact absurd h (by simp)
    rename_i vars hs
    obtain ⟨prog, path, y, rfl, hl, hr⟩ := (startScript_ok_iff _ _ _ _).1 hs
    split at h
    · exact absurd h (by simp)
    rename_i cfg hc
    exact ⟨prog, path, y, cfg, rfl, hl, (inverse_iff y cfg).1 ⟨vars, hr, hc⟩, stop_of_ok h⟩

/-- **C81** (script for the coefficient on the circle): a file that describes `cfg` is run with `cfg`, and the script finishes only with a file
that describes some configuration. -/
theorem C81_circle (mc : Machine) (load : String → Except PyErr Yaml) (ω : Draws) (θ : Weights) (files : Files)
    (csv : String → List (ℝ × ℝ × ℝ)) (pb : DomainProblem) :
    (∀ prog path y cfg file, load path = .ok y → CircleFile y cfg file →
      scriptCircle mc load [prog, path] ω θ files csv pb = Stop.of (mainCircle mc pb cfg (csv file) ω.sensorLhs (ω.randint _) (ω.sample _) (ω.lhs _) θ files)) ∧
    ∀ argv R, scriptCircle mc load argv ω θ files csv pb = .ok R →
      ∃ prog path y cfg file, argv = [prog, path] ∧ load path = .ok y ∧ CircleFile y cfg file ∧
        mainCircle mc pb cfg (csv file) ω.sensorLhs (ω.randint _) (ω.sample _) (ω.lhs _) θ files = .ok R := by
  constructor
  · intro prog path y cfg file hl h
    obtain ⟨vars, h1, h2, h3⟩ := (circle_iff y cfg file).2 h
    unfold scriptCircle
    simp only [startScript, hl, h1, Stop.of, h2, h3]
  · intro argv R h
    unfold scriptCircle at h
    split at h
    · exact absurd h (by simp)
    rename_i vars hs
    obtain ⟨prog, path, y, rfl, hl, hr⟩ := (startScript_ok_iff _ _ _ _).1 hs
    split at h
    · rename_i cfg file hc hfile
      exact ⟨prog, path, y, cfg, file, rfl, hl, (circle_iff y cfg file).1 ⟨vars, hr, hc, hfile⟩, stop_of_ok h⟩
    · exact absurd h (by simp)

/-! ## Files that cannot be used -/

lemma get_error {y : Yaml} {k : String} {e : PyErr} (h : y.get k = .error e) : e = .keyError ∨ e = .typeError := by
  cases y with
  | dict d =>
    simp only [Yaml.get] at h
    split at h <;> simp at h
    exact Or.inl h.symm
  | _ =>
    simp only [Yaml.get, Except.error.injEq] at h
    exact Or.inr h.symm

lemma getPath_error {y : Yaml} {path : List String} {e : PyErr} (h : y.getPath path = .error e) :
    e = .keyError ∨ e = .typeError := by
  induction path generalizing y with
  | nil => simp [Yaml.getPath] at h
  | cons k path ih =>
    simp only [Yaml.getPath] at h
    split at h
    · rename_i e' he
      obtain rfl := Except.error.inj h
      exact get_error he
    · exact ih h

lemma readVars_error {y : Yaml} {l : List (String × List String)} {e : PyErr} (h : readVars y l = .error e) :
    ∃ b ∈ l, y.getPath b.2 = .error e := by
  induction l with
  | nil => simp [readVars] at h
  | cons b l ih =>
    obtain ⟨name, path⟩ := b
    simp only [readVars] at h
    split at h
    · rename_i e' he
      obtain rfl := Except.error.inj h
      exact ⟨(name, path), by simp, he⟩
    · split at h
      · rename_i e' he
        obtain rfl := Except.error.inj h
        obtain ⟨b, hb, h⟩ := ih he
        exact ⟨b, by simp [hb], h⟩
      · simp at h

lemma run_error {r : ConfigReads} {y : Yaml} {e : PyErr} (h : r.run y = .error e) :
    (∃ b ∈ r.before ++ r.after, y.getPath b.2 = .error e) ∨ e = .valueError := by
  unfold ConfigReads.run at h
  split at h
  · rename_i e' he
    obtain rfl := Except.error.inj h
    obtain ⟨b, hb, h⟩ := readVars_error he
    exact Or.inl ⟨b, by simp [hb], h⟩
  · split at h
    · split at h
      · split at h
        · rename_i e' he
          obtain rfl := Except.error.inj h
          obtain ⟨b, hb, h⟩ := readVars_error he
          exact Or.inl ⟨b, by simp [hb], h⟩
        · simp at h
      · exact Or.inr (Except.error.inj h).symm
    · exact Or.inr (Except.error.inj h).symm

/-- The beginning of a script stops if an entry is missing. -/
lemma start_missing (r : ConfigReads) (hr : r.Good) (entries : List (List String))
    (he : ∀ p ∈ entries, p ∈ (r.before ++ r.after).map Prod.snd) (load : String → Except PyErr Yaml)
    (prog path : String) (y : Yaml) (hl : load path = .ok y) (p : List String) (hp : p ∈ entries)
    (hm : ¬∃ v, At y p v) : StopsEarly (startScript r load [prog, path]) := by
  simp only [startScript, hl]
  rcases hrun : r.run y with e | vars
  · rcases run_error hrun with ⟨b, -, hb⟩ | rfl
    · rcases getPath_error hb with rfl | rfl
      · exact Or.inl rfl
      · exact Or.inr (Or.inl rfl)
    · exact Or.inr (Or.inr rfl)
  · obtain ⟨b, hb, rfl⟩ := List.mem_map.1 (he p hp)
    exact absurd (reads_mem ((run_ok_iff r hr y vars).1 hrun).1 b hb) hm

lemma getPath_missing {y : Yaml} {parent : List String} {key : String} {d : List (String × Yaml)}
    (h : At y parent (.dict d)) (hk : d.lookup key = none) : y.getPath (parent ++ [key]) = .error .keyError := by
  generalize hz : Yaml.dict d = z at h
  induction h with
  | here y =>
    subst hz
    simp [Yaml.getPath, Yaml.get, hk]
  | step hl _ ih =>
    simp only [List.cons_append, Yaml.getPath, Yaml.get, hl]
    exact ih hz

/-- If only one entry is missing, in a mapping that exists, the exception is a `KeyError`. -/
lemma start_keyError (r : ConfigReads) (hr : r.Good) (entries : List (List String))
    (he : ∀ p ∈ (r.before ++ r.after).map Prod.snd, p ∈ entries)
    (he' : ∀ p ∈ entries, p ∈ (r.before ++ r.after).map Prod.snd) (load : String → Except PyErr Yaml)
    (prog path : String) (y : Yaml) (hl : load path = .ok y) (parent : List String) (key : String)
    (hm : OnlyMissing y entries parent key)
    (hd : ∀ v, At y ["model", "dtype"] v → v = .str "float64" ∨ v = .str "float32") :
    startScript r load [prog, path] = .error (.raised .keyError) := by
  obtain ⟨h1, ⟨d, h2, h3⟩, h4⟩ := hm
  have hmiss := getPath_missing h2 h3
  have hbad : ¬∃ v, At y (parent ++ [key]) v := by
    rintro ⟨v, hv⟩
    rw [← getPath_ok_iff, hmiss] at hv
    exact absurd hv (by simp)
  have hall : ∀ b ∈ r.before ++ r.after, ∀ e, y.getPath b.2 = .error e → e = .keyError := by
    intro b hb e h
    by_cases hbp : b.2 = parent ++ [key]
    · rw [hbp, hmiss] at h
      exact (Except.error.inj h).symm
    · obtain ⟨v, hv⟩ := h4 b.2 (he _ (List.mem_map_of_mem hb)) hbp
      rw [← getPath_ok_iff, h] at hv
      exact absurd hv (by simp)
  simp only [startScript, hl]
  have hb : ∀ l, (∀ b ∈ l, b ∈ r.before ++ r.after) → ∀ e, readVars y l = .error e → e = .keyError := by
    intro l hsub e h
    obtain ⟨b, hb, h⟩ := readVars_error h
    exact hall b (hsub b hb) e h
  have hnb : (r.before.map Prod.fst).Nodup := by
    have := hr.nodup
    rw [List.map_append, List.nodup_append] at this
    exact this.1
  suffices h : r.run y = .error .keyError by rw [h]; rfl
  rcases hrun : r.run y with e | vars
  · unfold ConfigReads.run at hrun
    split at hrun
    · rename_i e' he
      rw [← hrun, hb _ (fun b hb => by simp [hb]) _ he]
    · rename_i vb hvb
      rw [readVars_ok_iff] at hvb
      obtain ⟨v, hv⟩ := reads_mem hvb _ hr.dtype
      have hlk := (lookup_reads hvb hnb hr.dtype v).2 hv
      rw [hlk] at hrun
      rcases hd v hv with rfl | rfl
      all_goals
        dsimp only at hrun
        rw [if_pos (by simp)] at hrun
        split at hrun
        · rename_i e' he
          rw [← hrun, hb _ (fun b hb => by simp [hb]) _ he]
        · exact absurd hrun (by simp)
  · obtain ⟨b, hb, hb'⟩ := List.mem_map.1 (he' _ h1)
    have := reads_mem ((run_ok_iff r hr y vars).1 hrun).1 b hb
    rw [hb'] at this
    exact absurd this hbad

/-- All scripts stop as their beginning does. -/
lemma scripts_stop (mc : Machine) (load : String → Except PyErr Yaml) (argv : List String) (ω : Draws) (θ : Weights)
    (files : Files) (pb : Problem) (layerDims : ForwardConfig → List ℕ) (csv : String → Except PyErr CsvTable)
    (ipb : InverseProblem) (dpb : DomainProblem) (sensors : String → List (ℝ × ℝ × ℝ)) (s : Stop) :
    (startScript readsForward load argv = .error s → scriptUniform mc load argv ω θ files pb = .error s ∧
      scriptExternal mc load argv ω θ files pb layerDims = .error s ∧
      scriptGear mc load argv ω θ files csv pb = .error s) ∧
    (startScript readsHard load argv = .error s → scriptHard mc load argv ω θ files pb = .error s) ∧
    (startScript readsInverse load argv = .error s → scriptInverse mc load argv ω θ files ipb = .error s ∧
      scriptUsa mc load argv ω θ files dpb = .error s) ∧
    (startScript readsCircle load argv = .error s → scriptCircle mc load argv ω θ files sensors dpb = .error s) := by
  refine ⟨fun h => ⟨?_, ?_, ?_⟩, fun h => ?_, fun h => ⟨?_, ?_⟩, fun h => ?_⟩
  · simp only [scriptUniform, h]
  · simp only [scriptExternal, h]
  · simp only [scriptGear, h]
  · simp only [scriptHard, h]
  · simp only [scriptInverse, h]
  · simp only [scriptUsa, h]
  · simp only [scriptCircle, h]

/-- **C81** (command line).  Without exactly one argument, every script exits with code 1; if the file cannot be
opened or parsed, every script ends with that exception. -/
theorem C81_command_line (mc : Machine) (load : String → Except PyErr Yaml) (argv : List String) (ω : Draws)
    (θ : Weights) (files : Files) (pb : Problem) (layerDims : ForwardConfig → List ℕ)
    (csv : String → Except PyErr CsvTable) (ipb : InverseProblem) (dpb : DomainProblem)
    (sensors : String → List (ℝ × ℝ × ℝ)) (s : Stop)
    (h : (argv.length ≠ 2 ∧ s = .exit 1) ∨ ∃ prog path e, argv = [prog, path] ∧ load path = .error e ∧ s = .raised e) :
    scriptUniform mc load argv ω θ files pb = .error s ∧
    scriptExternal mc load argv ω θ files pb layerDims = .error s ∧
    scriptGear mc load argv ω θ files csv pb = .error s ∧
    scriptHard mc load argv ω θ files pb = .error s ∧ scriptInverse mc load argv ω θ files ipb = .error s ∧
    scriptUsa mc load argv ω θ files dpb = .error s ∧ scriptCircle mc load argv ω θ files sensors dpb = .error s := by
  have hs : ∀ r, startScript r load argv = .error s := by
    intro r
    rcases h with ⟨h, rfl⟩ | ⟨prog, path, e, rfl, h, rfl⟩
    · match argv, h with
      | [], _ => rfl
      | [_], _ => rfl
      | [_, _], h => exact absurd rfl h
      | _ :: _ :: _ :: _, _ => rfl
    · simp only [startScript, h]
  obtain ⟨h1, h2, h3, h4⟩ := scripts_stop mc load argv ω θ files pb layerDims csv ipb dpb sensors s
  exact ⟨(h1 (hs _)).1, (h1 (hs _)).2.1, (h1 (hs _)).2.2, h2 (hs _), (h3 (hs _)).1, (h3 (hs _)).2, h4 (hs _)⟩

/-- **C81** (missing entries).  If an entry is missing that the script reads (whether or not the script uses it),
the script stops with an exception before it does anything else. -/
theorem C81_missing (mc : Machine) (load : String → Except PyErr Yaml) (ω : Draws)
    (θ : Weights) (files : Files) (pb : Problem) (layerDims : ForwardConfig → List ℕ)
    (csv : String → Except PyErr CsvTable) (ipb : InverseProblem) (dpb : DomainProblem)
    (sensors : String → List (ℝ × ℝ × ℝ)) (prog path : String) (y : Yaml) (hl : load path = .ok y) (p : List String)
    (hp : ¬∃ v, At y p v) :
    (p ∈ forwardEntries → StopsEarly (scriptUniform mc load [prog, path] ω θ files pb) ∧
      StopsEarly (scriptExternal mc load [prog, path] ω θ files pb layerDims) ∧
      StopsEarly (scriptGear mc load [prog, path] ω θ files csv pb)) ∧
    (p ∈ hardEntries → StopsEarly (scriptHard mc load [prog, path] ω θ files pb)) ∧
    (p ∈ inverseEntries → StopsEarly (scriptInverse mc load [prog, path] ω θ files ipb) ∧
      StopsEarly (scriptUsa mc load [prog, path] ω θ files dpb)) ∧
    (p ∈ circleEntries → StopsEarly (scriptCircle mc load [prog, path] ω θ files sensors dpb)) := by
  have hs := fun s => scripts_stop mc load [prog, path] ω θ files pb layerDims csv ipb dpb sensors s
  refine ⟨fun h => ?_, fun h => ?_, fun h => ?_, fun h => ?_⟩
  · rcases start_missing _ readsForward_good forwardEntries (by decide) load prog path y hl p h hp with h | h | h
    · exact ⟨Or.inl ((hs _).1 h).1, Or.inl ((hs _).1 h).2.1, Or.inl ((hs _).1 h).2.2⟩
    · exact ⟨Or.inr (Or.inl ((hs _).1 h).1), Or.inr (Or.inl ((hs _).1 h).2.1), Or.inr (Or.inl ((hs _).1 h).2.2)⟩
    · exact ⟨Or.inr (Or.inr ((hs _).1 h).1), Or.inr (Or.inr ((hs _).1 h).2.1), Or.inr (Or.inr ((hs _).1 h).2.2)⟩
  · rcases start_missing _ readsHard_good hardEntries (by decide) load prog path y hl p h hp with h | h | h
    · exact Or.inl ((hs _).2.1 h)
    · exact Or.inr (Or.inl ((hs _).2.1 h))
    · exact Or.inr (Or.inr ((hs _).2.1 h))
  · rcases start_missing _ readsInverse_good inverseEntries (by decide) load prog path y hl p h hp with h | h | h
    · exact ⟨Or.inl ((hs _).2.2.1 h).1, Or.inl ((hs _).2.2.1 h).2⟩
    · exact ⟨Or.inr (Or.inl ((hs _).2.2.1 h).1), Or.inr (Or.inl ((hs _).2.2.1 h).2)⟩
    · exact ⟨Or.inr (Or.inr ((hs _).2.2.1 h).1), Or.inr (Or.inr ((hs _).2.2.1 h).2)⟩
  · rcases start_missing _ readsCircle_good circleEntries (by decide) load prog path y hl p h hp with h | h | h
    · exact Or.inl ((hs _).2.2.2 h)
    · exact Or.inr (Or.inl ((hs _).2.2.2 h))
    · exact Or.inr (Or.inr ((hs _).2.2.2 h))

/-- **C81** (one missing entry).  If a single entry is missing and the data type (if it is there) is a supported
one, the exception is a `KeyError`. -/
theorem C81_key_error (mc : Machine) (load : String → Except PyErr Yaml) (ω : Draws)
    (θ : Weights) (files : Files) (pb : Problem) (layerDims : ForwardConfig → List ℕ)
    (csv : String → Except PyErr CsvTable) (ipb : InverseProblem) (dpb : DomainProblem)
    (sensors : String → List (ℝ × ℝ × ℝ)) (prog path : String) (y : Yaml) (hl : load path = .ok y)
    (parent : List String) (key : String)
    (hd : ∀ v, At y ["model", "dtype"] v → v = .str "float64" ∨ v = .str "float32") :
    (OnlyMissing y forwardEntries parent key →
      scriptUniform mc load [prog, path] ω θ files pb = .error (.raised .keyError) ∧
      scriptExternal mc load [prog, path] ω θ files pb layerDims = .error (.raised .keyError) ∧
      scriptGear mc load [prog, path] ω θ files csv pb = .error (.raised .keyError)) ∧
    (OnlyMissing y hardEntries parent key →
      scriptHard mc load [prog, path] ω θ files pb = .error (.raised .keyError)) ∧
    (OnlyMissing y inverseEntries parent key →
      scriptInverse mc load [prog, path] ω θ files ipb = .error (.raised .keyError) ∧
      scriptUsa mc load [prog, path] ω θ files dpb = .error (.raised .keyError)) ∧
    (OnlyMissing y circleEntries parent key →
      scriptCircle mc load [prog, path] ω θ files sensors dpb = .error (.raised .keyError)) := by
  obtain ⟨h1, h2, h3, h4⟩ := scripts_stop mc load [prog, path] ω θ files pb layerDims csv ipb dpb sensors
    (.raised .keyError)
  exact ⟨fun h => h1 (start_keyError _ readsForward_good _ (by decide) (by decide) load prog path y hl parent key h hd),
    fun h => h2 (start_keyError _ readsHard_good _ (by decide) (by decide) load prog path y hl parent key h hd),
    fun h => h3 (start_keyError _ readsInverse_good _ (by decide) (by decide) load prog path y hl parent key h hd),
    fun h => h4 (start_keyError _ readsCircle_good _ (by decide) (by decide) load prog path y hl parent key h hd)⟩

lemma start_dtype (r : ConfigReads) (hr : r.Good) (load : String → Except PyErr Yaml) (prog path : String) (y : Yaml)
    (hl : load path = .ok y) (he : ∀ b ∈ r.before ++ r.after, ∃ v, At y b.2 v)
    (hd : ¬At y ["model", "dtype"] (.str "float64") ∧ ¬At y ["model", "dtype"] (.str "float32")) :
    startScript r load [prog, path] = .error (.raised .valueError) := by
  simp only [startScript, hl]
  rcases hrun : r.run y with e | vars
  · rcases run_error hrun with ⟨b, hb, h⟩ | rfl
    · obtain ⟨v, hv⟩ := he b hb
      rw [← getPath_ok_iff, h] at hv
      exact absurd hv (by simp)
    · rfl
  · obtain ⟨dtype, h1, rfl | rfl⟩ := ((run_ok_iff r hr y vars).1 hrun).2
    · exact absurd h1 hd.1
    · exact absurd h1 hd.2

/-- **C81** (data type).  If all entries are there and the data type is neither `float64` nor `float32`, every
script ends with a `ValueError`. -/
theorem C81_dtype (mc : Machine) (load : String → Except PyErr Yaml) (ω : Draws)
    (θ : Weights) (files : Files) (pb : Problem) (layerDims : ForwardConfig → List ℕ)
    (csv : String → Except PyErr CsvTable) (ipb : InverseProblem) (dpb : DomainProblem)
    (sensors : String → List (ℝ × ℝ × ℝ)) (prog path : String) (y : Yaml) (hl : load path = .ok y)
    (hd : ¬At y ["model", "dtype"] (.str "float64") ∧ ¬At y ["model", "dtype"] (.str "float32")) :
    ((∀ p ∈ forwardEntries, ∃ v, At y p v) →
      scriptUniform mc load [prog, path] ω θ files pb = .error (.raised .valueError) ∧
      scriptExternal mc load [prog, path] ω θ files pb layerDims = .error (.raised .valueError) ∧
      scriptGear mc load [prog, path] ω θ files csv pb = .error (.raised .valueError)) ∧
    ((∀ p ∈ hardEntries, ∃ v, At y p v) →
      scriptHard mc load [prog, path] ω θ files pb = .error (.raised .valueError)) ∧
    ((∀ p ∈ inverseEntries, ∃ v, At y p v) →
      scriptInverse mc load [prog, path] ω θ files ipb = .error (.raised .valueError) ∧
      scriptUsa mc load [prog, path] ω θ files dpb = .error (.raised .valueError)) ∧
    ((∀ p ∈ circleEntries, ∃ v, At y p v) →
      scriptCircle mc load [prog, path] ω θ files sensors dpb = .error (.raised .valueError)) := by
  obtain ⟨h1, h2, h3, h4⟩ := scripts_stop mc load [prog, path] ω θ files pb layerDims csv ipb dpb sensors
    (.raised .valueError)
  have hsub : ∀ {r : ConfigReads} {entries : List (List String)},
      (∀ p ∈ (r.before ++ r.after).map Prod.snd, p ∈ entries) → (∀ p ∈ entries, ∃ v, At y p v) →
      ∀ b ∈ r.before ++ r.after, ∃ v, At y b.2 v :=
    fun hs h b hb => h _ (hs _ (List.mem_map_of_mem hb))
  exact ⟨fun h => h1 (start_dtype _ readsForward_good load prog path y hl (hsub (by decide) h) hd),
    fun h => h2 (start_dtype _ readsHard_good load prog path y hl (hsub (by decide) h) hd),
    fun h => h3 (start_dtype _ readsInverse_good load prog path y hl (hsub (by decide) h) hd),
    fun h => h4 (start_dtype _ readsCircle_good load prog path y hl (hsub (by decide) h) hd)⟩

/-- **C81** (the file determines the configuration).  A file describes at most one configuration. -/
theorem C81_unique (y : Yaml) :
    (∀ cfg cfg', HardFile y cfg → HardFile y cfg' → cfg = cfg') ∧
    (∀ cfg cfg', GearFile y cfg → GearFile y cfg' → cfg = cfg') ∧
    (∀ cfg cfg', InverseFile y cfg → InverseFile y cfg' → cfg = cfg') := by
  refine ⟨fun cfg cfg' h h' => ?_, fun cfg cfg' h h' => ?_, fun cfg cfg' h h' => ?_⟩
  · obtain ⟨v, h1, h2⟩ := (hard_iff y cfg).2 h
    obtain ⟨v', h1', h2'⟩ := (hard_iff y cfg').2 h'
    obtain rfl := Except.ok.inj (h1.symm.trans h1')
    exact Option.some.inj (h2.symm.trans h2')
  · obtain ⟨v, h1, h2⟩ := (gear_iff y cfg).2 h
    obtain ⟨v', h1', h2'⟩ := (gear_iff y cfg').2 h'
    obtain rfl := Except.ok.inj (h1.symm.trans h1')
    exact Option.some.inj (h2.symm.trans h2')
  · obtain ⟨v, h1, h2⟩ := (inverse_iff y cfg).2 h
    obtain ⟨v', h1', h2'⟩ := (inverse_iff y cfg').2 h'
    obtain rfl := Except.ok.inj (h1.symm.trans h1')
    exact Option.some.inj (h2.symm.trans h2')

/-- **C81** (order and further entries).  Two files with the same entries at all the places a script reads are the same
for the script, whatever else they contain and in whatever order. -/
theorem C81_other_entries (mc : Machine) (load load' : String → Except PyErr Yaml) (ω : Draws)
    (θ : Weights) (files : Files) (pb : Problem) (layerDims : ForwardConfig → List ℕ)
    (csv : String → Except PyErr CsvTable) (ipb : InverseProblem) (dpb : DomainProblem)
    (sensors : String → List (ℝ × ℝ × ℝ)) (prog prog' path path' : String) (y y' : Yaml) (hl : load path = .ok y)
    (hl' : load' path' = .ok y') :
    ((∀ p ∈ forwardEntries, ∃ v, At y p v ∧ At y' p v) →
      scriptUniform mc load [prog, path] ω θ files pb = scriptUniform mc load' [prog', path'] ω θ files pb ∧
      scriptExternal mc load [prog, path] ω θ files pb layerDims
        = scriptExternal mc load' [prog', path'] ω θ files pb layerDims ∧
      scriptGear mc load [prog, path] ω θ files csv pb = scriptGear mc load' [prog', path'] ω θ files csv pb) ∧
    ((∀ p ∈ hardEntries, ∃ v, At y p v ∧ At y' p v) →
      scriptHard mc load [prog, path] ω θ files pb = scriptHard mc load' [prog', path'] ω θ files pb) ∧
    ((∀ p ∈ inverseEntries, ∃ v, At y p v ∧ At y' p v) →
      scriptInverse mc load [prog, path] ω θ files ipb = scriptInverse mc load' [prog', path'] ω θ files ipb ∧
      scriptUsa mc load [prog, path] ω θ files dpb = scriptUsa mc load' [prog', path'] ω θ files dpb) ∧
    ((∀ p ∈ circleEntries, ∃ v, At y p v ∧ At y' p v) →
      scriptCircle mc load [prog, path] ω θ files sensors dpb
        = scriptCircle mc load' [prog', path'] ω θ files sensors dpb) := by
  have hv : ∀ l : List (String × List String), (∀ b ∈ l, y.getPath b.2 = y'.getPath b.2) →
      readVars y l = readVars y' l := by
    intro l
    induction l with
    | nil => intro _; rfl
    | cons b l ih =>
      intro h
      simp only [List.forall_mem_cons] at h
      simp only [readVars, h.1, ih h.2]
  have hs : ∀ (r : ConfigReads) (entries : List (List String)),
      (∀ p ∈ (r.before ++ r.after).map Prod.snd, p ∈ entries) → (∀ p ∈ entries, ∃ v, At y p v ∧ At y' p v) →
      startScript r load [prog, path] = startScript r load' [prog', path'] := by
    intro r entries hsub h
    have hb : ∀ b ∈ r.before ++ r.after, y.getPath b.2 = y'.getPath b.2 :=
      fun b hb => by
        obtain ⟨v, h1, h2⟩ := h _ (hsub _ (List.mem_map_of_mem hb))
        rw [(getPath_ok_iff _ _ _).2 h1, (getPath_ok_iff _ _ _).2 h2]
    simp only [startScript, hl, hl', ConfigReads.run, hv r.before fun b h => hb b (by simp [h]),
      hv r.after fun b h => hb b (by simp [h])]
  refine ⟨fun h => ?_, fun h => ?_, fun h => ?_, fun h => ?_⟩
  · have := hs readsForward forwardEntries (by decide) h
    simp only [scriptUniform, scriptExternal, scriptGear, this, and_self]
  · have := hs readsHard hardEntries (by decide) h
    simp only [scriptHard, this]
  · have := hs readsInverse inverseEntries (by decide) h
    simp only [scriptInverse, scriptUsa, this, and_self]
  · have := hs readsCircle circleEntries (by decide) h
    simp only [scriptCircle, this]

end FastVPINNs
