import Verif.Props.Driver
import Verif.Props.WriteVtk

/-! # C76: the driver scripts on external meshes -/

namespace FastVPINNs

open Spec

/-! ## Names of the files -/

/-- The name of the file with the prediction after epoch `e`. -/
def predictionName (e : ℕ) : String := "prediction_" ++ toString (e + 1) ++ ".vtk"

lemma predictionName_toList (e : ℕ) :
    (predictionName e).toList = "prediction_".toList ++ (toString (e + 1)).toList ++ ".vtk".toList := by
  simp [predictionName]

lemma predictionName_injective : Function.Injective predictionName := by
  intro a b h
  have h1 := congrArg String.toList h
  rw [predictionName_toList, predictionName_toList, List.append_left_inj, List.append_right_inj,
    String.toList_inj] at h1
  have h2 : Nat.repr (a + 1) = Nat.repr (b + 1) := h1
  have := Nat.repr_injective h2
  omega

lemma predictionName_base (e : ℕ) : predictionName e ≠ "external.vtk" := by
  intro h
  have h1 := congrArg (fun s => s.toList.head?) h
  simp only [predictionName_toList] at h1
  exact absurd h1 (by simp)

lemma predictionName_result (e : ℕ) : ∀ name ∈ resultNames, predictionName e ≠ name := by
  intro name hn h
  have h1 := congrArg (fun s => s.toList.getLast?) h
  simp only [predictionName_toList] at h1
  simp only [resultNames, List.mem_cons, List.not_mem_nil, or_false] at hn
  rw [List.getLast?_append] at h1
  rcases hn with rfl | rfl | rfl | rfl | rfl <;> exact absurd h1 (by simp)

/-! ## The file with the prediction -/

lemma writePrediction_ok (env : MeshFiles) (o : GeometryObject) (out : String) (pts : List (ℝ × ℝ))
    (u v : ℝ × ℝ → ℝ) (e : ℕ) (files : Files) (base : List String) (hext : o.meshGenerationMethod ≠ "internal")
    (hb : files (env.join o.outputFolder "external.vtk") = some base) :
    ∃ content, IsSolutionFile env.fmt base pts [("Sol", v), ("Exact", u), ("Error", fun p => |u p - v p|)] content ∧
      writePrediction env o out (pts.map v) (pts.map u) e files
        = .ok (Function.update files (env.join out (predictionName e)) (some content)) := by
  have hsol : solutionArray (pts.map v) (pts.map u) = .ok (fun k => ![(pts.map v).getD k 0, (pts.map u).getD k 0,
      |(pts.map u).getD k 0 - (pts.map v).getD k 0|]) := by
    unfold solutionArray
    rw [if_pos (by simp)]
  obtain ⟨pre, body, h1, h2, -, h4⟩ := (C11_write_vtk env.fmt files (env.join o.outputFolder "external.vtk")
    (env.join out (predictionName e)) (fun k : Fin (pts.map v).length => ![(pts.map v).getD k 0,
      (pts.map u).getD k 0, |(pts.map u).getD k 0 - (pts.map v).getD k 0|]) ["Sol", "Exact", "Error"] base hb).2 rfl
  refine ⟨pre ++ body, ⟨pre, body, rfl, h2, fun parse hp => ?_⟩, ?_⟩
  · obtain ⟨h5, h6⟩ := h4 parse (fun k i => hp _) _ rfl
    rw [← List.length_map (as := pts) v]
    have hcol : ∀ (i : Fin 3) (f : ℝ × ℝ → ℝ), (∀ k : Fin (pts.map v).length, (![(pts.map v).getD k 0,
        (pts.map u).getD k 0, |(pts.map u).getD k 0 - (pts.map v).getD k 0|] : Fin 3 → ℝ) i
          = f (pts.get (k.cast (by simp)))) →
        (List.ofFn fun k : Fin (pts.map v).length => (![(pts.map v).getD k 0,
        (pts.map u).getD k 0, |(pts.map u).getD k 0 - (pts.map v).getD k 0|] : Fin 3 → ℝ) i) = pts.map f := by
      intro i f hf
      refine List.ext_getElem (by simp) fun k hk hk' => ?_
      rw [List.getElem_ofFn, hf, List.getElem_map]
      rfl
    have hget : ∀ (f : ℝ × ℝ → ℝ) (k : Fin (pts.map v).length),
        (pts.map f).getD k 0 = f (pts.get (k.cast (by simp))) := by
      intro f k
      have hk : k.val < pts.length := by simpa using k.isLt
      rw [List.getD_eq_getElem?_getD, List.getElem?_map, List.getElem?_eq_getElem hk]
      rfl
    have e0 := hcol 0 v (fun k => hget v k)
    have e1 := hcol 1 u (fun k => hget u k)
    have e2 := hcol 2 (fun p => |u p - v p|) (fun k => by
      show |(pts.map u).getD k 0 - (pts.map v).getD k 0| = _
      rw [hget u k, hget v k])
    obtain ⟨n0, m0, k0⟩ := h6 0
    obtain ⟨n1, m1, k1⟩ := h6 1
    obtain ⟨n2, m2, k2⟩ := h6 2
    rw [e0] at k0
    rw [e1] at k1
    rw [e2] at k2
    obtain rfl : "Sol" = n0 := Option.some.inj m0
    obtain rfl : "Exact" = n1 := Option.some.inj m1
    obtain rfl : "Error" = n2 := Option.some.inj m2
    obtain ⟨a, b, c, habc⟩ := List.length_eq_three.1 h5
    rw [habc] at k0 k1 k2 ⊢
    obtain rfl := Option.some.inj k0
    obtain rfl := Option.some.inj k1
    obtain rfl := Option.some.inj k2
    rfl
  · unfold writePrediction
    rw [hsol]
    simp only [GeometryObject.writeVtk, if_neg hext]
    have h1' := h1
    unfold predictionName at h1' ⊢
    rw [h1']

/-- A script on an external mesh, from the model on. -/
lemma runExternal_record {α : Type} (mc : Machine) (cfg : ForwardConfig) (M : DriverModel α)
    (value : Weights → ℝ × ℝ → ℝ) (losses : α → ℝ × ℝ × ℝ) (pts : List (ℝ × ℝ))
    (hjoin : ∀ a b, mc.env.join cfg.outputPath a = mc.env.join cfg.outputPath b → a = b)
    (pb : Problem) (P : Prepared) (o' : GeometryObject) (hpred : ∀ θ, M.predict θ pts = .ok (pts.map (value θ)))
    (hfl : ∀ out, M.floats out = .ok (losses out))
    (hline : ∀ fmt out, M.lossLine fmt out = fmt (losses out).2.2)
    (hpts : P.geometry.getTestPoints mc.env P.files = (.ok (.points pts), o', P.files))
    (hext : o'.meshGenerationMethod ≠ "internal") (hfold : o'.outputFolder = cfg.outputPath) (base : List String)
    (hbase : P.files (mc.env.join cfg.outputPath "external.vtk") = some base) (θ : Weights)
    (R : RunResult) (h : runExternal mc cfg pb P M θ = .ok R) :
    ∃ (st : ℕ → TrainState) (outs : List α), st 0 = ⟨θ, AdamState.init⟩ ∧ outs.length = cfg.epochs ∧
      IsRun M.step st outs ∧
      IsRecord mc cfg pts (fun p => pb.exactSolution p.1 p.2) value losses st outs R ∧
      (∀ e ∈ reportEpochs cfg.updateConsoleOutput cfg.epochs, ∃ content,
        R.files (mc.env.join cfg.outputPath ("prediction_" ++ toString (e + 1) ++ ".vtk")) = some content ∧
        IsSolutionFile mc.env.fmt base pts [("Sol", value (st (e + 1)).weights),
          ("Exact", fun p => pb.exactSolution p.1 p.2),
          ("Error", fun p => |pb.exactSolution p.1 p.2 - value (st (e + 1)).weights p|)] content) ∧
      ∀ path, (∀ name ∈ resultNames, path ≠ mc.env.join cfg.outputPath name) →
        (∀ e ∈ reportEpochs cfg.updateConsoleOutput cfg.epochs,
          path ≠ mc.env.join cfg.outputPath ("prediction_" ++ toString (e + 1) ++ ".vtk")) →
        R.files path = P.files path := by
  unfold runExternal at h
  rw [hpts] at h
  dsimp only at h
  split at h
  · exact absurd h (by simp)
  rename_i s hs
  split at h
  · exact absurd h (by simp)
  rename_i rl hrl
  obtain ⟨hu, hlen, st, fs, h0, hN, hf0, hfN, hrun, hrep, hquiet⟩ := epochLoop_ok _ _ _ _ _ _ rfl rfl hs
  have hok := reportBlock_ok M value losses pts (fun p => pb.exactSolution p.1 p.2) hpred hfl
  -- one report
  have hone : ∀ e out t f r f', f (mc.env.join cfg.outputPath "external.vtk") = some base →
      reportBlockVtk mc.env o' cfg.outputPath M pts (pts.map fun p => pb.exactSolution p.1 p.2) e out t f
        = .ok (r, f') →
      ∃ content, IsSolutionFile mc.env.fmt base pts [("Sol", value t.weights),
          ("Exact", fun p => pb.exactSolution p.1 p.2),
          ("Error", fun p => |pb.exactSolution p.1 p.2 - value t.weights p|)] content ∧
        f' = Function.update f (mc.env.join cfg.outputPath (predictionName e)) (some content) ∧
        reportBlock M pts (pts.map fun p => pb.exactSolution p.1 p.2) e out t f = .ok (r, f) := by
    intro e out t f r f' hf hr
    simp only [reportBlockVtk, bind, Except.bind, pure, Except.pure] at hr
    split at hr
    · exact absurd hr (by simp)
    rename_i r1 hr1
    obtain ⟨r0, f0⟩ := r1
    obtain ⟨rfl, -, -, -, -, hy, -⟩ := hok _ _ _ _ _ _ hr1
    obtain ⟨content, hc1, hc2⟩ := writePrediction_ok mc.env o' cfg.outputPath pts
      (fun p => pb.exactSolution p.1 p.2) (value t.weights) e f0 base hext (by rw [hfold]; exact hf)
    simp only [hy, hc2, Except.ok.injEq, Prod.mk.injEq] at hr
    obtain ⟨rfl, rfl⟩ := hr
    exact ⟨content, hc1, rfl, hr1⟩
  have hneb : ∀ e, mc.env.join cfg.outputPath "external.vtk" ≠ mc.env.join cfg.outputPath (predictionName e) :=
    fun e hc => predictionName_base e (hjoin _ _ hc).symm
  -- the files during the loop
  have hfiles : ∀ n ≤ cfg.epochs, fs n (mc.env.join cfg.outputPath "external.vtk") = some base ∧
      (∀ e ∈ reportEpochs cfg.updateConsoleOutput cfg.epochs, e < n → ∃ content,
        fs n (mc.env.join cfg.outputPath (predictionName e)) = some content ∧
        IsSolutionFile mc.env.fmt base pts [("Sol", value (st (e + 1)).weights),
          ("Exact", fun p => pb.exactSolution p.1 p.2),
          ("Error", fun p => |pb.exactSolution p.1 p.2 - value (st (e + 1)).weights p|)] content) ∧
      ∀ path, (∀ e ∈ reportEpochs cfg.updateConsoleOutput cfg.epochs,
          path ≠ mc.env.join cfg.outputPath (predictionName e)) → fs n path = P.files path := by
    intro n
    induction n with
    | zero =>
      intro _
      rw [hf0]
      exact ⟨hbase, fun e _ he => absurd he (by omega), fun _ _ => rfl⟩
    | succ n ih =>
      intro hn
      obtain ⟨i1, i2, i3⟩ := ih (by omega)
      by_cases hm : n ∈ reportEpochs cfg.updateConsoleOutput cfg.epochs
      · obtain ⟨r, -, out, -, hr⟩ := forall₂_mem_left hrep hm
        obtain ⟨content, c1, c2, -⟩ := hone _ _ _ _ _ _ i1 hr
        rw [c2]
        refine ⟨?_, fun e he hen => ?_, fun path hp => ?_⟩
        · rw [Function.update_of_ne (hneb n)]
          exact i1
        · by_cases hne : e = n
          · subst hne
            exact ⟨content, by rw [Function.update_self], c1⟩
          · rw [Function.update_of_ne (fun hc => hne (predictionName_injective (hjoin _ _ hc)))]
            exact i2 e he (by omega)
        · rw [Function.update_of_ne (hp n hm)]
          exact i3 path hp
      · rw [hquiet n (by omega) hm]
        refine ⟨i1, fun e he hen => ?_, i3⟩
        rcases Nat.lt_succ_iff_lt_or_eq.1 hen with h1 | rfl
        · exact i2 e he h1
        · exact absurd he hm
  have hle : ∀ e ∈ reportEpochs cfg.updateConsoleOutput cfg.epochs, e < cfg.epochs := by
    intro e he
    simp only [reportEpochs, List.mem_filter, List.mem_range] at he
    exact he.1
  have hpos : 0 < cfg.epochs := by
    rcases Nat.eq_zero_or_pos cfg.epochs with h1 | h1
    · rw [h1] at hrep
      have h2 : reportEpochs cfg.updateConsoleOutput 0 = [] := rfl
      rw [h2, List.forall₂_nil_left_iff] at hrep
      rw [hrep] at hrl
      exact absurd hrl (by simp)
    · exact h1
  have hlast := reportEpochs_last cfg.updateConsoleOutput cfg.epochs hpos
  have hlastmem : cfg.epochs - 1 ∈ reportEpochs cfg.updateConsoleOutput cfg.epochs :=
    List.mem_of_getLast? hlast
  obtain ⟨g1, g2, g3⟩ := hfiles cfg.epochs le_rfl
  -- the last report
  have hy : rl.yPred = pts.map (value (st cfg.epochs).weights) := by
    rcases forall₂_getLast hrep with ⟨h1, -⟩ | ⟨a, b, h1, h2, out, -, h3⟩
    · rw [h1] at hlast
      exact absurd hlast (by simp)
    · obtain rfl : cfg.epochs - 1 = a := Option.some.inj (hlast.symm.trans h1)
      obtain rfl : rl = b := Option.some.inj (hrl.symm.trans h2)
      obtain ⟨-, -, -, hr⟩ := hone _ _ _ _ _ _ (hfiles _ (by omega)).1 h3
      rw [show cfg.epochs - 1 + 1 = cfg.epochs by omega] at hr
      exact (hok _ _ _ _ _ _ hr).2.2.2.2.2.1
  obtain ⟨content, c1, c2⟩ := writePrediction_ok mc.env o' cfg.outputPath pts
    (fun p => pb.exactSolution p.1 p.2) (value (st cfg.epochs).weights) (cfg.epochs - 1) s.files base hext
    (by rw [hfold, ← hfN]; exact g1)
  rw [hy, c2] at h
  dsimp only at h
  obtain ⟨hrec, hoth, -⟩ := finish_record mc cfg M value losses pts (fun p => pb.exactSolution p.1 p.2) hjoin
    hline st { s with files := Function.update s.files (mc.env.join cfg.outputPath
      (predictionName (cfg.epochs - 1))) (some content) } R hlen hN (by
      have hall : List.Forall₂ (fun e r => e ∈ reportEpochs cfg.updateConsoleOutput cfg.epochs ∧
          ∃ out, s.losses[e]? = some out ∧ reportBlockVtk mc.env o' cfg.outputPath M pts
            (pts.map fun p => pb.exactSolution p.1 p.2) e out (st (e + 1)) (fs e) = .ok (r, fs (e + 1)))
          (reportEpochs cfg.updateConsoleOutput cfg.epochs) s.reports :=
        forall₂_with_mem hrep
      exact hall.imp fun e r ⟨he, out, ho, hr⟩ => by
        obtain ⟨-, -, -, hr'⟩ := hone _ _ _ _ _ _ (hfiles e (hle e he).le).1 hr
        obtain ⟨-, -, h3, h4, h5, h6, h7⟩ := hok _ _ _ _ _ _ hr'
        exact ⟨h3, ⟨out, ho, h4⟩, h5, h6, h7⟩) h
  refine ⟨st, s.losses, h0, hlen, hrun, hrec, fun e he => ?_, fun path hp1 hp2 => ?_⟩
  · have hne : ∀ name ∈ resultNames, mc.env.join cfg.outputPath (predictionName e)
        ≠ mc.env.join cfg.outputPath name := fun name hn hc => predictionName_result e name hn (hjoin _ _ hc)
    show ∃ content, R.files (mc.env.join cfg.outputPath (predictionName e)) = some content ∧ _
    rw [hoth _ hne]
    by_cases hee : e = cfg.epochs - 1
    · subst hee
      refine ⟨content, by simp only [Function.update_self], ?_⟩
      rw [show cfg.epochs - 1 + 1 = cfg.epochs by omega]
      exact c1
    · obtain ⟨c, d1, d2⟩ := g2 e he (hle e he)
      refine ⟨c, ?_, d2⟩
      simp only
      rw [Function.update_of_ne (fun hc => hee (predictionName_injective (hjoin _ _ hc))), ← hfN]
      exact d1
  · rw [hoth path hp1]
    simp only
    rw [Function.update_of_ne (show path ≠ mc.env.join cfg.outputPath (predictionName (cfg.epochs - 1)) from
      hp2 _ hlastmem), ← hfN]
    exact g3 path hp2

/-! ## The objects built before the training -/

/-- The part before the training on an external mesh, inverted. -/
lemma prepareExternal_ok (mc : Machine) (cfg : ForwardConfig) (pb : Problem) (ld : List ℕ)
    (lhs : ℕ → Fin (2 ^ cfg.boundaryRefinementLevel + 1) → ℝ × ℝ) (files : Files) (P : Prepared)
    (hext : cfg.meshGenerationMethod = "external")
    (hvtk : ∀ m, mc.env.read files cfg.meshFileName = .ok m → VtkRoundTrip mc.env m)
    (h : prepareExternal mc cfg pb ld lhs files = .ok P) :
    ∃ (o' : GeometryObject) (m : MeshioMesh) (cells : List Quad) (bd : List (ℤ × List (List ℝ)))
      (mp : List (ℝ × ℝ)) (nq : ℕ) (S S' : Fespace2D (ℝ → ℝ → ℝ) ℝ (cfg.feOrder.toNat ^ 2) nq)
      (D : DataHandler2D (cfg.feOrder.toNat ^ 2) nq) (bdv : List (ℝ × ℝ) × List ℝ) (lr : LearningRate)
      (specs : List LayerSpec) (inDim : ℕ),
      cfg.dtype ∈ ["float64", "float32"] ∧ cfg.meshType = "quadrilateral" ∧
      mc.env.read files cfg.meshFileName = .ok m ∧
      readMesh (mc.env.read files) cfg.meshFileName cfg.boundaryRefinementLevel cfg.boundarySamplingMethod lhs
        = .ok (cells, bd) ∧
      Assembled mc cfg pb ld mp cells (bdPairs bd) S S' D bdv specs ∧ learningRateFn cfg.learningRate = .ok lr ∧
      pyIndex ld 0 = .ok inDim ∧
      P = ⟨_, nq, D, bdv, cells.length, inDim, specs, lr, o',
        writeFile files (mc.env.join cfg.outputPath "external.vtk") (mc.env.vtk m)⟩ ∧
      o'.meshGenerationMethod = "external" ∧ o'.outputFolder = cfg.outputPath ∧
      o'.getTestPoints mc.env P.files = (.ok (.points (planePoints m)), o', P.files) ∧
      ∀ c ∈ cells, ∀ k, c k ∈ planePoints m := by
  unfold prepareExternal at h
  split_ifs at h with hd
  split at h
  · exact absurd h (by simp)
  rename_i o ho
  have ho' := ho
  rw [hext] at ho'
  obtain ⟨-, hm, -, -, -, hf, -⟩ := newGeometry_ok ho'
  rcases readMesh_external mc.env o files cfg.meshFileName cfg.boundaryRefinementLevel cfg.boundarySamplingMethod
    lhs hm with ⟨m, cells, d, h1, h2, h3⟩ | ⟨e, he, -⟩
  swap
  · split at h
    · exact absurd h (by simp)
    · rename_i hg
      rw [hg] at he
      exact absurd he (by simp)
    · exact absurd h (by simp)
  obtain ⟨m₂, cells₂, d₂, q1, q2, q3, q4, q5⟩ := C66_external_points mc.env _ _ _ _ _ o ho' files [] []
    cfg.meshFileName cfg.boundaryRefinementLevel cfg.boundarySamplingMethod lhs _ _ h3
    (fun m hm => hvtk m hm) (.nil _)
  obtain rfl : m = m₂ := Except.ok.inj (h1.symm.trans q1)
  obtain ⟨rfl, rfl⟩ : cells = cells₂ ∧ d = d₂ := by
    have := Except.ok.inj (h2.symm.trans q2)
    exact ⟨congrArg Prod.fst this, congrArg Prod.snd this⟩
  rw [h3] at h
  dsimp only at h
  obtain ⟨mp, nq, S, S', D, bdv, lr, specs, inDim, a1, a2, a3, rfl⟩ := prepareModel_ok mc cfg pb ld learningRateFn
    { o with meshFileName := some cfg.meshFileName, mesh := some (.read m), bdDict := some d,
             cellPoints := some cells } _ _ _
    (newGeometry_meshType (o := o) ho : o.meshType = _) P h
  refine ⟨{ o with meshFileName := some cfg.meshFileName, mesh := some (.read m), bdDict := some d,
                   cellPoints := some cells }, m, cells, d, mp, nq, S, S', D, bdv, lr, specs, inDim, by simpa using hd, ?_, h1, h2, a1, a2, a3,
    by rw [hf], hm, hf, ?_, q5⟩
  · have := (newGeometry_ok ho).1
    unfold geometry2D at this
    split_ifs at this with h2 h3
    simpa using h3
  · simp only [runCalls, GeometryCall.exec] at q4
    unfold GeometryObject.getTestPoints at q4 ⊢
    dsimp only at q4 ⊢
    split at q4
    · exact absurd q4 (by simp)
    · dsimp only at q4
      rw [Except.ok.inj q4, if_neg (by rw [hm]; decide)]

lemma outDim_layerSpecs (dims : List ℕ) (a : String) (specs : List LayerSpec) (hs : layerSpecs dims a = .ok specs) :
    outDim specs = dims.getD (dims.length - 1) 0 := by
  match dims, hs with
  | [], hs => exact absurd hs (by simp [layerSpecs, mapE, pyIndex])
  | [n], hs =>
    obtain rfl := Except.ok.inj (hs.symm.trans (by rfl : layerSpecs [n] a = .ok [⟨n, none⟩]))
    rfl
  | n :: k :: l, hs =>
    rw [layerSpecs_eq _ a (by simp)] at hs
    obtain rfl := Except.ok.inj hs
    simp [outDim]

/-- A script on an external mesh finishes only if the network has two inputs and one output. -/
lemma runExternal_dims (mc : Machine) (cfg : ForwardConfig) (pb : Problem) (P : Prepared) (d : ℕ) (θ : Weights)
    (R : RunResult) (h : runExternal mc cfg pb P (P.dense mc cfg pb d) θ = .ok R) :
    0 < cfg.epochs ∧ cfg.updateConsoleOutput ≠ 0 ∧ P.inDim = 2 ∧ d = 1 ∧
      (∃ s r, (P.dense mc cfg pb d).step s = .ok r) ∧ ∑ e ∈ Finset.range cfg.epochs, mc.elapsed e ≠ 0 := by
  unfold runExternal at h
  split at h
  · exact absurd h (by simp)
  swap
  · exact absurd h (by simp)
  dsimp only at h
  split at h
  · exact absurd h (by simp)
  rename_i s hs
  split at h
  · exact absurd h (by simp)
  rename_i rl hrl
  split at h
  · exact absurd h (by simp)
  obtain ⟨hu, hlen, st, fs, h0, hN, hf0, hfN, hrun, hrep, hquiet⟩ := epochLoop_ok _ _ _ _ _ _ rfl rfl hs
  have hpos : 0 < cfg.epochs := by
    rcases Nat.eq_zero_or_pos cfg.epochs with h1 | h1
    · rw [h1] at hrep
      have h2 : reportEpochs cfg.updateConsoleOutput 0 = [] := rfl
      rw [h2, List.forall₂_nil_left_iff] at hrep
      rw [hrep] at hrl
      exact absurd hrl (by simp)
    · exact h1
  have hstep : ∃ r, (P.dense mc cfg pb d).step (st 0) = .ok r := ⟨_, hrun 0 (by omega)⟩
  refine ⟨hpos, hu hpos, ?_, ?_, ⟨_, hstep⟩, ?_⟩
  · obtain ⟨r, hr⟩ := hstep
    simp only [Prepared.dense] at hr
    by_contra hc
    rw [if_neg hc] at hr
    exact absurd hr (by simp)
  · rcases forall₂_getLast hrep with ⟨h1, -⟩ | ⟨a, b, -, -, out, -, h3⟩
    · have := reportEpochs_last cfg.updateConsoleOutput cfg.epochs hpos
      rw [h1] at this
      exact absurd this (by simp)
    · simp only [reportBlockVtk, reportBlock, bind, Except.bind, pure, Except.pure] at h3
      by_contra hd
      have hfl : ∀ out, (P.dense mc cfg pb d).floats out = .error .typeError := by
        intro out
        simp only [Prepared.dense, floatOf, dif_neg hd]
      simp only [hfl] at h3
      split at h3
      · exact absurd h3 (by simp)
      · rename_i hh
        split at hh
        · exact absurd hh (by simp)
        split at hh
        · exact absurd hh (by simp)
        split at hh
        · exact absurd hh (by simp)
        exact absurd hh (by simp)
  · intro hsum
    have hsum' : ((List.range cfg.epochs).map mc.elapsed).sum = ∑ e ∈ Finset.range cfg.epochs, mc.elapsed e := by
      simp [Finset.sum, Finset.range, Multiset.range]
    simp only [finishRun, hrl, hlen, timeColumn, epochsPerSecond, hsum', hsum, if_true, hpos.ne', if_false] at h
    exact absurd h (by simp)

/-- **C76** (external mesh).  Whenever one of the scripts on a mesh file finishes, the network has two inputs
and one output, it has been trained with the loss, tensors, boundary data and learning rate assembled from
the configuration for the cells and boundary points read from the mesh file, and everything left behind
belongs to this training, evaluated at the points of the mesh.  For every report there is a VTK file with the
header of the mesh file and the values of the network after the epoch, of the exact solution and of the error
at the points of the mesh; apart from these, the five text files and `external.vtk` no file has changed. -/
theorem C76_external (mc : Machine) (pb : Problem) (layerDims : ForwardConfig → List ℕ) (cfg : ForwardConfig)
    (lhs : ℕ → Fin (2 ^ cfg.boundaryRefinementLevel + 1) → ℝ × ℝ) (θ : Weights) (files : Files) (R : RunResult)
    (hatt : cfg.useAttention = true → mc.attention = attentionDot) (hext : cfg.meshGenerationMethod = "external")
    (hjoin : ∀ a b, mc.env.join cfg.outputPath a = mc.env.join cfg.outputPath b → a = b)
    (hvtk : ∀ m, mc.env.read files cfg.meshFileName = .ok m → VtkRoundTrip mc.env m)
    (h : mainExternal mc pb layerDims cfg lhs θ files = .ok R) :
    ∃ (m : MeshioMesh) (cells : List Quad) (bd : List (ℤ × List (List ℝ)))
      (mp : List (ℝ × ℝ)) (nq : ℕ) (S S' : Fespace2D (ℝ → ℝ → ℝ) ℝ (cfg.feOrder.toNat ^ 2) nq)
      (D : DataHandler2D (cfg.feOrder.toNat ^ 2) nq) (bdv : List (ℝ × ℝ) × List ℝ) (specs : List LayerSpec)
      (lr : LearningRate) (st : ℕ → TrainState) (outs : List (TrainOut 1)),
      (2 ≤ (layerDims cfg).length ∧ (layerDims cfg).getD 0 0 = 2 ∧
        (layerDims cfg).getD ((layerDims cfg).length - 1) 0 = 1) ∧
      mc.env.read files cfg.meshFileName = .ok m ∧
      readMesh (mc.env.read files) cfg.meshFileName cfg.boundaryRefinementLevel cfg.boundarySamplingMethod lhs
        = .ok (cells, bd) ∧
      Assembled mc cfg pb (layerDims cfg) mp cells (bdPairs bd) S S' D bdv specs ∧
      learningRateFn cfg.learningRate = .ok lr ∧
      st 0 = ⟨θ, AdamState.init⟩ ∧ outs.length = cfg.epochs ∧
      IsRun (trainStepWith (forwardDense (pb.loss D.nCells _ nq) (modelDataOf D bdv cells.length) mc.act
        mc.attention cfg.useAttention 2 specs 1 cfg.beta (some pb.bilinearParams)) (trainableVariables 2 specs []) lr)
        st outs ∧
      IsRecord mc cfg (planePoints m) (fun p => pb.exactSolution p.1 p.2)
        (batchValue cfg.useAttention (planePoints m) (mc.act cfg.activation) (layerDims cfg))
        (fun out => (out.lossPde, out.lossDirichlet 0, out.loss 0)) st outs R ∧
      (∀ e ∈ reportEpochs cfg.updateConsoleOutput cfg.epochs, ∃ content,
        R.files (mc.env.join cfg.outputPath ("prediction_" ++ toString (e + 1) ++ ".vtk")) = some content ∧
        IsSolutionFile mc.env.fmt (mc.env.vtk m) (planePoints m)
          [("Sol", batchValue cfg.useAttention (planePoints m) (mc.act cfg.activation) (layerDims cfg) (st (e + 1)).weights),
          ("Exact", fun p => pb.exactSolution p.1 p.2),
          ("Error", fun p => |pb.exactSolution p.1 p.2
            - batchValue cfg.useAttention (planePoints m) (mc.act cfg.activation) (layerDims cfg) (st (e + 1)).weights p|)] content) ∧
      R.files (mc.env.join cfg.outputPath "external.vtk") = some (mc.env.vtk m) ∧
      ∀ path, (∀ name ∈ "external.vtk" :: resultNames, path ≠ mc.env.join cfg.outputPath name) →
        (∀ e ∈ reportEpochs cfg.updateConsoleOutput cfg.epochs,
          path ≠ mc.env.join cfg.outputPath ("prediction_" ++ toString (e + 1) ++ ".vtk")) →
        R.files path = files path := by
  unfold mainExternal at h
  split at h
  · exact absurd h (by simp)
  rename_i P hP
  obtain ⟨-, -, hin, hout, -, -⟩ := runExternal_dims mc cfg pb P _ θ R h
  rw [hout] at h
  obtain ⟨o', m, cells, bd, mp, nq, S, S', D, bdv, lr, specs, inDim, -, -, h1, h2, h3, h4, h5, rfl, h7, h8, h9, -⟩ :=
    prepareExternal_ok mc cfg pb _ lhs files P hext hvtk hP
  dsimp only at hin hout h9
  subst hin
  rw [outDim_layerSpecs _ _ _ h3.layers] at hout
  rw [pyIndex_zero] at h5
  have hd0 : (layerDims cfg).getD 0 0 = 2 := by
    rw [List.head?_eq_getElem?] at h5
    rw [List.getD_eq_getElem?_getD, h5]
    rfl
  have hd : 2 ≤ (layerDims cfg).length := by
    match hld : layerDims cfg, h5 with
    | [n], h5 =>
      rw [hld] at hd0 hout
      simp only [List.length_cons, List.length_nil] at hout
      exact absurd (hd0.symm.trans hout) (by norm_num)
    | n :: k :: l, _ => simp
  obtain ⟨st, outs, k1, k2, k3, k4, k5, k6⟩ := runExternal_record mc cfg _
    (batchValue cfg.useAttention (planePoints m) (mc.act cfg.activation) (layerDims cfg))
    (fun out : TrainOut 1 => (out.lossPde, out.lossDirichlet 0, out.loss 0)) (planePoints m) hjoin pb _ o'
    (dense_predict _ mc cfg pb (layerDims cfg) hatt rfl hd h3.layers hd0 hout _)
    (dense_floats _ mc cfg pb) (dense_lossLine _ mc cfg pb) h9 (by rw [h7]; decide) h8 (mc.env.vtk m)
    (by simp [writeFile]) θ R h
  refine ⟨m, cells, bd, mp, nq, S, S', D, bdv, specs, lr, st, outs, ⟨hd, hd0, hout⟩, h1, h2, h3, h4, k1, k2,
    ?_, k4, k5, ?_, fun path hp1 hp2 => ?_⟩
  · intro k hk
    have := k3 k hk
    simp only [Prepared.dense, if_true] at this
    rw [show paramsAsTensors pb.bilinearParams = pb.bilinearParams by simp [paramsAsTensors]] at this
    exact this
  · rw [k6 _ (fun name hn hc => ?_) (fun e _ hc => predictionName_base e (hjoin _ _ hc).symm)]
    · simp [writeFile]
    · have := hjoin _ _ hc
      subst this
      exact absurd hn (by decide)
  · rw [k6 path (fun name hn => hp1 name (List.mem_cons_of_mem _ hn)) hp2]
    exact writeFile_other _ _ _ _ (hp1 _ (by simp))

/-! ## Completion -/

/-- How a script on an external mesh ends if the training steps and the errors can be computed. -/
lemma runExternal_outcome {α : Type} (mc : Machine) (cfg : ForwardConfig) (M : DriverModel α)
    (value : Weights → ℝ × ℝ → ℝ) (losses : α → ℝ × ℝ × ℝ) (pts : List (ℝ × ℝ)) (pb : Problem) (P : Prepared)
    (o' : GeometryObject) (hpred : ∀ θ, M.predict θ pts = .ok (pts.map (value θ)))
    (hfl : ∀ out, M.floats out = .ok (losses out))
    (hpts : P.geometry.getTestPoints mc.env P.files = (.ok (.points pts), o', P.files)) (hne : pts ≠ [])
    (hjoin : ∀ a b, mc.env.join cfg.outputPath a = mc.env.join cfg.outputPath b → a = b)
    (hext : o'.meshGenerationMethod ≠ "internal") (hfold : o'.outputFolder = cfg.outputPath) (base : List String)
    (hbase : P.files (mc.env.join cfg.outputPath "external.vtk") = some base)
    (hstep : ∀ s, ∃ r, M.step s = .ok r) (θ : Weights) :
    (cfg.epochs = 0 → runExternal mc cfg pb P M θ = .error .nameError) ∧
    (0 < cfg.epochs → cfg.updateConsoleOutput = 0 → runExternal mc cfg pb P M θ = .error .zeroDivisionError) ∧
    (0 < cfg.epochs → cfg.updateConsoleOutput ≠ 0 → ∑ e ∈ Finset.range cfg.epochs, mc.elapsed e ≠ 0 →
      ∃ R, runExternal mc cfg pb P M θ = .ok R) := by
  have hsum : ((List.range cfg.epochs).map mc.elapsed).sum = ∑ e ∈ Finset.range cfg.epochs, mc.elapsed e := by
    simp [Finset.sum, Finset.range, Multiset.range]
  have hneb : ∀ e, mc.env.join cfg.outputPath "external.vtk" ≠ mc.env.join cfg.outputPath (predictionName e) :=
    fun e hc => predictionName_base e (hjoin _ _ hc).symm
  have hrep1 : ∀ e l s f, f (mc.env.join cfg.outputPath "external.vtk") = some base → ∃ r f',
      reportBlockVtk mc.env o' cfg.outputPath M pts (pts.map fun p => pb.exactSolution p.1 p.2) e l s f = .ok (r, f') ∧
      f' (mc.env.join cfg.outputPath "external.vtk") = some base ∧ ∃ w, r.yPred = pts.map (value w) := by
    intro e l s f hf
    obtain ⟨r, hr⟩ := reportBlock_succeeds M value losses pts (fun p => pb.exactSolution p.1 p.2) hpred hfl hne e l s f
    obtain ⟨-, -, -, -, -, hy, -⟩ := reportBlock_ok M value losses pts (fun p => pb.exactSolution p.1 p.2) hpred hfl
      _ _ _ _ _ _ hr
    obtain ⟨content, -, hc⟩ := writePrediction_ok mc.env o' cfg.outputPath pts
      (fun p => pb.exactSolution p.1 p.2) (value s.weights) e f base hext (by rw [hfold]; exact hf)
    refine ⟨r, Function.update f (mc.env.join cfg.outputPath (predictionName e)) (some content), ?_, ?_, _, hy⟩
    · simp only [reportBlockVtk, bind, Except.bind, pure, Except.pure, hr, hy, hc]
    · rw [Function.update_of_ne (hneb e)]
      exact hf
  have hend : 0 < cfg.epochs → cfg.updateConsoleOutput ≠ 0 → ∃ s r, epochLoop M.step
      (reportBlockVtk mc.env o' cfg.outputPath M pts (pts.map fun p => pb.exactSolution p.1 p.2))
      cfg.updateConsoleOutput cfg.epochs (List.range cfg.epochs) ⟨⟨θ, AdamState.init⟩, [], [], P.files⟩ = .ok s ∧
      s.losses.length = cfg.epochs ∧ s.reports.getLast? = some r ∧
      s.files (mc.env.join cfg.outputPath "external.vtk") = some base ∧ ∃ w, r.yPred = pts.map (value w) := by
    intro h0 hu
    obtain ⟨s, hs, hI, hJ⟩ := epochLoop_invariant (N := cfg.epochs) M.step _ cfg.updateConsoleOutput hu hstep _ _
      hrep1 (List.range cfg.epochs) ⟨⟨θ, AdamState.init⟩, [], [], P.files⟩ hbase (by simp)
    obtain ⟨-, hl, st, fs, -, -, -, -, -, hrep, -⟩ := epochLoop_ok _ _ _ _ _ _ rfl rfl hs
    rcases forall₂_getLast hrep with ⟨h1, -⟩ | ⟨a, b, -, h2, -⟩
    · have := reportEpochs_last cfg.updateConsoleOutput cfg.epochs h0
      rw [h1] at this
      exact absurd this (by simp)
    · exact ⟨s, b, hs, hl, h2, hI, hJ b (List.mem_of_getLast? h2)⟩
  unfold runExternal
  rw [hpts]
  dsimp only
  refine ⟨fun h0 => ?_, fun h0 hu => ?_, fun h0 hu ht => ?_⟩
  · rw [h0]
    rfl
  · obtain ⟨n, hn⟩ := Nat.exists_eq_succ_of_ne_zero h0.ne'
    obtain ⟨⟨l, t⟩, hr⟩ := hstep ⟨θ, AdamState.init⟩
    have : epochLoop M.step (reportBlockVtk mc.env o' cfg.outputPath M pts
        (pts.map fun p => pb.exactSolution p.1 p.2)) cfg.updateConsoleOutput cfg.epochs (List.range cfg.epochs)
        ⟨⟨θ, AdamState.init⟩, [], [], P.files⟩ = .error .zeroDivisionError := by
      rw [hn, List.range_succ_eq_map]
      simp only [epochLoop, epochBody, hr, hu, reportDue, if_true]
    rw [this]
  · obtain ⟨s, r, h1, h2, h3, h4, w, h5⟩ := hend h0 hu
    obtain ⟨content, -, hc⟩ := writePrediction_ok mc.env o' cfg.outputPath pts
      (fun p => pb.exactSolution p.1 p.2) (value w) (cfg.epochs - 1) s.files base hext (by rw [hfold]; exact h4)
    rw [h1]
    dsimp only
    rw [h3]
    dsimp only
    rw [h5, hc]
    simp only [finishRun, h3, h2, timeColumn, epochsPerSecond, hsum, ht, if_false]
    exact ⟨_, rfl⟩

/-- When the part up to the model succeeds. -/
lemma prepareExternal_iff (mc : Machine) (cfg : ForwardConfig) (pb : Problem) (ld : List ℕ) (hld : ld ≠ [])
    (lhs : ℕ → Fin (2 ^ cfg.boundaryRefinementLevel + 1) → ℝ × ℝ) (files : Files)
    (hext : cfg.meshGenerationMethod = "external") :
    (∃ P, prepareExternal mc cfg pb ld lhs files = .ok P) ↔
      (cfg.dtype = "float64" ∨ cfg.dtype = "float32") ∧ cfg.meshType = "quadrilateral" ∧
      ∃ cells bd, readMesh (mc.env.read files) cfg.meshFileName cfg.boundaryRefinementLevel
        cfg.boundarySamplingMethod lhs = .ok (cells, bd) ∧
      (cells ≠ [] ∧ (2 ≤ cfg.feOrder ∧ cfg.feOrder < 1000) ∧ supportedFeType cfg.feType ∧
        (3 ≤ cfg.quadOrder ∧ cfg.quadOrder ≤ 9999) ∧
        (cfg.quadType = "gauss-legendre" ∨ cfg.quadType = "gauss-jacobi") ∧
        ∀ e ∈ bd, e.2 ≠ [] → ∃ g, pb.boundaryFunctionDict.lookup e.1 = some g) ∧
      (cfg.generateMeshPlot = true → bd.length < 16 ∧ ∀ e ∈ bd, e.2 ≠ []) ∧
      ∃ lr, learningRateFn cfg.learningRate = .ok lr := by
  unfold prepareExternal
  by_cases hd : cfg.dtype ∈ ["float64", "float32"]
  swap
  · rw [if_pos hd]
    simp only [List.mem_cons, List.not_mem_nil, or_false] at hd
    simp [hd]
  rw [if_neg (not_not.2 hd)]
  have hd' : cfg.dtype = "float64" ∨ cfg.dtype = "float32" := by simpa using hd
  by_cases hmt : cfg.meshType = "quadrilateral"
  swap
  · rw [show newGeometry cfg.meshType cfg.meshGenerationMethod cfg.nTestPointsX cfg.nTestPointsY cfg.outputPath
      false = .error (.valueError, "mesh_type") by simp [newGeometry, geometry2D, hext, hmt]]
    simp [hmt]
  obtain ⟨o, ho⟩ : ∃ o, newGeometry cfg.meshType cfg.meshGenerationMethod cfg.nTestPointsX cfg.nTestPointsY
      cfg.outputPath false = .ok o := by
    simp only [newGeometry, geometry2D, hext, hmt]
    exact ⟨_, rfl⟩
  have hm : o.meshGenerationMethod = "external" := by
    rw [(newGeometry_ok ho).2.1, hext]
  rw [ho]
  simp only [hd', hmt, true_and]
  rcases readMesh_external mc.env o files cfg.meshFileName cfg.boundaryRefinementLevel cfg.boundarySamplingMethod
    lhs hm with ⟨m, cells, d, h1, h2, h3⟩ | ⟨e, he, he', -⟩
  · rw [h3]
    dsimp only
    rw [prepareModel_iff mc cfg pb ld hld learningRateFn
      { o with meshFileName := some cfg.meshFileName, mesh := some (.read m), bdDict := some d,
               cellPoints := some cells } _ _ _ (newGeometry_meshType (o := o) ho : o.meshType = _)]
    have hb1 : ∀ p : ℤ → Bool → Prop, (∀ e ∈ bdPairs d, p e.1 e.2.isEmpty) ↔ ∀ e ∈ d, p e.1 e.2.isEmpty := by
      intro p
      simp only [bdPairs, List.forall_mem_map, List.isEmpty_map]
    have hb2 := hb1 fun t b => b = false → ∃ g, pb.boundaryFunctionDict.lookup t = some g
    have hb3 := hb1 fun _ b => b = false
    simp only [List.isEmpty_eq_false_iff] at hb2 hb3
    rw [hb2, hb3, show (bdPairs d).length = d.length by simp [bdPairs]]
    constructor
    · intro h
      exact ⟨cells, d, h2, h⟩
    · rintro ⟨cells', d', h2', h⟩
      obtain ⟨rfl, rfl⟩ := Prod.mk.inj (Except.ok.inj (h2.symm.trans h2'))
      exact h
  · constructor
    · rintro ⟨P, hP⟩
      split at hP
      · exact absurd hP (by simp)
      · rename_i hg
        rw [hg] at he
        exact absurd he (by simp)
      · exact absurd hP (by simp)
    · rintro ⟨cells, bd, h, -⟩
      rw [he'] at h
      exact absurd h (by simp)

/-- **C76** (completion, external mesh).  The scripts on a mesh file finish exactly if the mesh file can be
read, the configuration is valid for its cells and boundary points and for the network, there is at least one
epoch, and the reporting interval is not zero (and the clock has advanced).  In a valid configuration zero
epochs are a `NameError` and the reporting interval zero is a `ZeroDivisionError`. -/
theorem C76_external_completes (mc : Machine) (pb : Problem) (layerDims : ForwardConfig → List ℕ)
    (cfg : ForwardConfig) (kind : LossKind) (hk : kind.forward)
    (hloss : ∀ nc nt nq, pb.loss nc nt nq = lossOf kind nc nt nq)
    (lhs : ℕ → Fin (2 ^ cfg.boundaryRefinementLevel + 1) → ℝ × ℝ) (θ : Weights) (files : Files)
    (hatt : cfg.useAttention = true → mc.attention = attentionDot) (hext : cfg.meshGenerationMethod = "external")
    (hjoin : ∀ a b, mc.env.join cfg.outputPath a = mc.env.join cfg.outputPath b → a = b)
    (hvtk : ∀ m, mc.env.read files cfg.meshFileName = .ok m → VtkRoundTrip mc.env m) :
    ((∃ R, mainExternal mc pb layerDims cfg lhs θ files = .ok R) ↔
      (∃ cells bd, readMesh (mc.env.read files) cfg.meshFileName cfg.boundaryRefinementLevel
        cfg.boundarySamplingMethod lhs = .ok (cells, bd) ∧
        ValidExternal pb cfg kind ["initial_learning_rate", "use_lr_scheduler", "decay_steps", "decay_rate"]
          (layerDims cfg) cells bd) ∧
      0 < cfg.epochs ∧ cfg.updateConsoleOutput ≠ 0 ∧ ∑ e ∈ Finset.range cfg.epochs, mc.elapsed e ≠ 0) ∧
    (∀ cells bd, readMesh (mc.env.read files) cfg.meshFileName cfg.boundaryRefinementLevel
        cfg.boundarySamplingMethod lhs = .ok (cells, bd) →
      ValidExternal pb cfg kind ["initial_learning_rate", "use_lr_scheduler", "decay_steps", "decay_rate"]
        (layerDims cfg) cells bd →
      (cfg.epochs = 0 → mainExternal mc pb layerDims cfg lhs θ files = .error .nameError) ∧
      (0 < cfg.epochs → cfg.updateConsoleOutput = 0 →
        mainExternal mc pb layerDims cfg lhs θ files = .error .zeroDivisionError)) := by
  have hsteps : ∀ P, prepareExternal mc cfg pb (layerDims cfg) lhs files = .ok P → 2 ≤ (layerDims cfg).length →
      (layerDims cfg).getD 0 0 = 2 → (layerDims cfg).getD ((layerDims cfg).length - 1) 0 = 1 →
      ∀ s, (∃ r, (P.dense mc cfg pb 1).step s = .ok r) ↔
        ∀ k ∈ requiredParams kind, ∃ v, pb.bilinearParams.lookup k = some v := by
    intro P hP hd hd0 hd1 s
    obtain ⟨o', m, cells, bd, mp, nq, S, S', D, bdv, lr, specs, inDim, -, -, h1, h2, h3, h4, h5, rfl, h7, h8, h9, -⟩ :=
      prepareExternal_ok mc cfg pb _ lhs files P hext hvtk hP
    obtain rfl : inDim = 2 := by
      rw [pyIndex_zero, List.head?_eq_getElem?] at h5
      rw [List.getD_eq_getElem?_getD, h5] at hd0
      exact hd0
    obtain ⟨pt, hpt, -⟩ := C76_losses mc pb cfg kind hk hloss (layerDims cfg) hd hd0 hd1 mp cells
      (bdPairs bd) nq S S' D bdv _ h3 lr
    rw [← coefficients_exist kind hk pb.bilinearParams D.nCells nq]
    simp only [Prepared.dense, if_true]
    rw [show paramsAsTensors pb.bilinearParams = pb.bilinearParams by simp [paramsAsTensors]]
    exact dense_step_iff _ kind hk (hloss _ _ _) _ pt hpt _ _ _ _ _ _ _ _ s
  have hgood : ∀ cells bd, readMesh (mc.env.read files) cfg.meshFileName cfg.boundaryRefinementLevel
        cfg.boundarySamplingMethod lhs = .ok (cells, bd) →
      ValidExternal pb cfg kind ["initial_learning_rate", "use_lr_scheduler", "decay_steps", "decay_rate"]
        (layerDims cfg) cells bd →
      (cfg.epochs = 0 → mainExternal mc pb layerDims cfg lhs θ files = .error .nameError) ∧
      (0 < cfg.epochs → cfg.updateConsoleOutput = 0 →
        mainExternal mc pb layerDims cfg lhs θ files = .error .zeroDivisionError) ∧
      (0 < cfg.epochs → cfg.updateConsoleOutput ≠ 0 → ∑ e ∈ Finset.range cfg.epochs, mc.elapsed e ≠ 0 →
        ∃ R, mainExternal mc pb layerDims cfg lhs θ files = .ok R) := by
    intro cells bd hread hv
    have hld : layerDims cfg ≠ [] := by
      intro h
      have := hv.depth
      rw [h] at this
      simp at this
    obtain ⟨P, hP⟩ := (prepareExternal_iff mc cfg pb _ hld lhs files hext).2 ⟨hv.dtype, hv.meshType, cells, bd, hread,
      ⟨hv.cells, hv.feOrder, hv.feType, hv.quadOrder, hv.quadType, hv.boundary⟩, hv.plot,
      (C50_keys cfg.learningRate).2.2 hv.learningRate⟩
    have hst := hsteps P hP hv.depth hv.input hv.output
    obtain ⟨o', m, cells', bd', mp, nq, S, S', D, bdv, lr, specs, inDim, -, -, h1, h2, h3, h4, h5, rfl, h7, h8, h9,
      h10⟩ := prepareExternal_ok mc cfg pb _ lhs files P hext hvtk hP
    obtain ⟨rfl, rfl⟩ := Prod.mk.inj (Except.ok.inj (hread.symm.trans h2))
    obtain rfl : inDim = 2 := by
      have := hv.input
      rw [pyIndex_zero, List.head?_eq_getElem?] at h5
      rw [List.getD_eq_getElem?_getD, h5] at this
      exact this
    have hne : planePoints m ≠ [] := by
      obtain ⟨c, hc⟩ := List.exists_mem_of_ne_nil _ hv.cells
      exact List.ne_nil_of_mem (h10 c hc 0)
    have := runExternal_outcome mc cfg _ (batchValue cfg.useAttention (planePoints m) (mc.act cfg.activation) (layerDims cfg))
      (fun out : TrainOut 1 => (out.lossPde, out.lossDirichlet 0, out.loss 0)) (planePoints m) pb
      ⟨_, nq, D, bdv, cells.length, 2, specs, lr, o',
        writeFile files (mc.env.join cfg.outputPath "external.vtk") (mc.env.vtk m)⟩ o'
      (dense_predict _ mc cfg pb (layerDims cfg) hatt rfl hv.depth h3.layers hv.input hv.output _)
      (dense_floats _ mc cfg pb) h9 hne hjoin (by rw [h7]; decide) h8 (mc.env.vtk m) (by simp [writeFile])
      (fun s => (hst s).2 hv.parameters) θ
    unfold mainExternal
    rw [hP]
    dsimp only
    rw [outDim_layerSpecs _ _ _ h3.layers, hv.output]
    exact this
  refine ⟨⟨fun ⟨R, hR⟩ => ?_, fun ⟨⟨cells, bd, h1, h2⟩, h3, h4, h5⟩ => (hgood cells bd h1 h2).2.2 h3 h4 h5⟩,
    fun cells bd h1 h2 => ⟨(hgood cells bd h1 h2).1, (hgood cells bd h1 h2).2.1⟩⟩
  obtain ⟨m, cells, bd, mp, nq, S, S', D, bdv, specs, lr, st, outs, ⟨d1, d2, d3⟩, -, h2, -⟩ :=
    C76_external mc pb layerDims cfg lhs θ files R hatt hext hjoin hvtk hR
  unfold mainExternal at hR
  split at hR
  · exact absurd hR (by simp)
  rename_i P hP
  obtain ⟨e1, e2, -, hout, hs, e3⟩ := runExternal_dims mc cfg pb P _ θ R hR
  rw [hout] at hs
  obtain ⟨s, r, hs⟩ := hs
  have hld : layerDims cfg ≠ [] := by
    intro h
    rw [h] at d1
    simp at d1
  obtain ⟨p1, p2, cells', bd', hread, ⟨q1, q2, q3, q4, q5, q6⟩, p3, p4⟩ :=
    (prepareExternal_iff mc cfg pb _ hld lhs files hext).1 ⟨P, hP⟩
  exact ⟨⟨cells', bd', hread, p1, p2, q1, q2, q3, q4, q5, q6, p3, (C50_keys cfg.learningRate).2.1 p4,
    (hsteps P hP d1 d2 d3 s).1 ⟨r, hs⟩, d1, d2, d3⟩, e1, e2, e3⟩

end FastVPINNs
