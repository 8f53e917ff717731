import Verif.Model.BuildTest
import Verif.Spec.BuildTest
import Verif.Props.AccuracyTests

/-! # C118: the test of the installation

When it passes, and what that says. -/

namespace FastVPINNs
open Spec

/-- **C118** (when it passes).  With at least one epoch, the test passes - on every machine that can read the mesh it has
generated, for all draws and initial weights - exactly if the settings are valid: supported names and orders, at least one
cell and test point per direction, boundary functions for the four tags, and the keys of the learning rate and of the
coefficients.  No value of the right-hand side, the exact solution, the boundary functions, the coefficients, the
learning rate or the activation decides. -/
theorem C118_passes_iff (mc : Machine) (pb : Problem) (cfg : ForwardConfig) (kind : LossKind) (hk : kind.forward)
    (hloss : ∀ nc nt nq, pb.loss nc nt nq = lossOf kind nc nt nq)
    (hmsh : ∀ x y hx hy, ∃ m, mc.env.parseMsh (mc.env.gmsh x y hx hy) = .ok m)
    (hint : cfg.meshGenerationMethod = "internal") (hep : 0 < cfg.epochs)
    (sample : Fin 4 → Fin (cfg.nBoundaryPoints / 4) → ℝ) (θ : Weights) (files : Files) :
    buildTest mc pb cfg sample θ files = .ok () ↔ Buildable pb cfg kind := by
  have hprep := prepareUniform_iff mc cfg pb [2, 30, 30, 30, 1] (by decide) learningRateFn sample files hint hmsh
  have hkeys := (C50_keys cfg.learningRate).2
  have hrest : ∀ P, prepareUniform mc cfg pb [2, 30, 30, 30, 1] learningRateFn sample files = .ok P →
      (buildTest mc pb cfg sample θ files = .ok () ↔
        ∀ k ∈ requiredParams kind, ∃ v, pb.bilinearParams.lookup k = some v) := by
    intro P hP
    unfold buildTest
    rw [hP]
    dsimp only
    obtain ⟨o, o', files', cells, bd, mp, nq, S, S', D, bdv, lr, specs, inDim, pts, o'', -, h1, h2, h3, h4, h5, rfl,
      h7, h8⟩ := prepareUniform_ok mc cfg pb _ _ sample files P hint hP
    obtain rfl : 2 = inDim := Except.ok.inj h5
    obtain rfl : specs = [⟨30, some cfg.activation⟩, ⟨30, some cfg.activation⟩, ⟨30, some cfg.activation⟩, ⟨1, none⟩] :=
      Except.ok.inj (h3.layers.symm.trans (threeLayers_specs 30 cfg.activation))
    rw [h8]
    dsimp only
    obtain ⟨pt, hpt, -⟩ := C76_losses mc pb cfg kind hk hloss [2, 30, 30, 30, 1] (by decide) rfl rfl mp cells
      (bdPairs bd) nq S S' D bdv _ h3 lr
    have hstep : ∀ s, (∃ r, (Prepared.dense ⟨_, nq, D, bdv, cells.length, 2, [⟨30, some cfg.activation⟩,
        ⟨30, some cfg.activation⟩, ⟨30, some cfg.activation⟩, ⟨1, none⟩], lr, o', files'⟩ mc cfg pb 1).step s = .ok r) ↔
        ∀ k ∈ requiredParams kind, ∃ v, pb.bilinearParams.lookup k = some v := by
      intro s
      rw [← coefficients_exist kind hk pb.bilinearParams D.nCells nq]
      simp only [Prepared.dense, if_true]
      rw [show paramsAsTensors pb.bilinearParams = pb.bilinearParams by simp [paramsAsTensors]]
      exact dense_step_iff _ kind hk (hloss _ _ _) _ pt hpt _ _ _ _ _ _ _ _ s
    constructor
    · intro h
      rw [← hstep ⟨θ, AdamState.init⟩]
      obtain ⟨n, hn⟩ : ∃ n, cfg.epochs = n + 1 := ⟨cfg.epochs - 1, by omega⟩
      rw [hn] at h
      simp only [trainEpochs] at h
      generalize hr : (Prepared.dense _ mc cfg pb _).step ⟨θ, AdamState.init⟩ = r at h
      cases r with
      | error e => exact absurd h (by simp)
      | ok r => exact ⟨r, hr⟩
    · intro h
      obtain ⟨r, hr⟩ := trainEpochs_succeeds _ (fun s => (hstep s).2 h) cfg.epochs ⟨θ, AdamState.init⟩
      split
      · rename_i e he
        exact absurd (he.symm.trans hr) (by simp)
      · rfl
  constructor
  · intro h
    obtain ⟨P, hP⟩ : ∃ P, prepareUniform mc cfg pb [2, 30, 30, 30, 1] learningRateFn sample files = .ok P := by
      unfold buildTest at h
      split at h
      · exact absurd h (by simp)
      · exact ⟨_, ‹_›⟩
    obtain ⟨p1, p2, p3, p4, p5, p6, p7, p8, p9, p10, p11⟩ := hprep.1 ⟨P, hP⟩
    exact ⟨p1, p2, p3, p4, p5, p6, p7, p8, p9, p10, hkeys.1 p11, (hrest P hP).1 h⟩
  · intro hv
    obtain ⟨P, hP⟩ := hprep.2 ⟨hv.dtype, hv.meshType, hv.nCells, hv.testPoints, hv.feOrder, hv.feType, hv.quadOrder,
      hv.quadType, hv.boundary, hv.plot, hkeys.2 hv.learningRate⟩
    exact (hrest P hP).2 hv.parameters

/-- **C118** (the test as it is).  With its literals the test passes on every machine that can read the mesh it has
generated, for all draws of the boundary points, all initial weights and all contents of the file system. -/
theorem C118_shipped (mc : Machine) (hmsh : ∀ x y hx hy, ∃ m, mc.env.parseMsh (mc.env.gmsh x y hx hy) = .ok m)
    (sample : Fin 4 → Fin (500 / 4) → ℝ) (θ : Weights) (files : Files) :
    buildTest mc testCd2d buildSettings sample θ files = .ok () :=
  (C118_passes_iff mc testCd2d buildSettings .cd2d (by simp [LossKind.forward]) (fun _ _ _ => rfl) hmsh rfl
    (by simp [buildSettings, testSquare]) sample θ files).2
    ⟨.inr rfl, rfl, by simp [buildSettings, testSquare], by simp [buildSettings, testSquare],
      by simp [buildSettings], by simp [buildSettings, testSquare], by simp [buildSettings], .inr rfl,
      by simp [testCd2d, List.lookup], by simp [buildSettings, testSquare],
      by simp [buildSettings, testSquare, testLearningRate, List.lookup],
      by simp [requiredParams, testCd2d, List.lookup]⟩

/-- **C118** (what it cannot find).  If the test passes, it passes just as well for every right-hand side and every exact
solution, for every change of the values of the boundary functions and of the coefficients, and on every other machine -
with other activation functions, quadrature routines, draws and initial weights. -/
theorem C118_blind (mc mc' : Machine) (pb pb' : Problem) (cfg : ForwardConfig) (kind : LossKind) (hk : kind.forward)
    (hloss : ∀ nc nt nq, pb.loss nc nt nq = lossOf kind nc nt nq)
    (hloss' : ∀ nc nt nq, pb'.loss nc nt nq = lossOf kind nc nt nq)
    (hmsh : ∀ x y hx hy, ∃ m, mc.env.parseMsh (mc.env.gmsh x y hx hy) = .ok m)
    (hmsh' : ∀ x y hx hy, ∃ m, mc'.env.parseMsh (mc'.env.gmsh x y hx hy) = .ok m)
    (hbd : pb.boundaryFunctionDict.map Prod.fst = pb'.boundaryFunctionDict.map Prod.fst)
    (hpar : pb.bilinearParams.map Prod.fst = pb'.bilinearParams.map Prod.fst)
    (hint : cfg.meshGenerationMethod = "internal") (hep : 0 < cfg.epochs)
    (sample sample' : Fin 4 → Fin (cfg.nBoundaryPoints / 4) → ℝ) (θ θ' : Weights) (files files' : Files) :
    buildTest mc pb cfg sample θ files = .ok () ↔ buildTest mc' pb' cfg sample' θ' files' = .ok () := by
  have key : ∀ {κ β : Type} [BEq κ] [LawfulBEq κ] (l l' : List (κ × β)) (k : κ), l.map Prod.fst = l'.map Prod.fst →
      (∃ v, l.lookup k = some v) → ∃ v, l'.lookup k = some v := by
    intro κ β _ _ l l' k h
    have hs : ∀ (l l' : List (κ × β)), l.map Prod.fst = l'.map Prod.fst →
        (l.lookup k).isSome = (l'.lookup k).isSome := by
      intro l
      induction l with
      | nil =>
        intro l' h
        cases l' with
        | nil => rfl
        | cons => simp at h
      | cons a l ih =>
        intro l' h
        cases l' with
        | nil => simp at h
        | cons b l' =>
          simp only [List.map_cons, List.cons.injEq] at h
          obtain ⟨a1, a2⟩ := a
          obtain ⟨b1, b2⟩ := b
          obtain ⟨rfl, h⟩ := h
          simp only [List.lookup]
          cases k == a1
          · exact ih l' h
          · rfl
    rw [← Option.isSome_iff_exists, ← Option.isSome_iff_exists, hs l l' h]
    exact id
  rw [C118_passes_iff mc pb cfg kind hk hloss hmsh hint hep, C118_passes_iff mc' pb' cfg kind hk hloss' hmsh' hint hep]
  constructor <;> rintro ⟨p1, p2, p3, p4, p5, p6, p7, p8, p9, p10, p11, p12⟩
  · exact ⟨p1, p2, p3, p4, p5, p6, p7, p8, fun h t ht => key _ _ t hbd (p9 h t ht), p10, p11,
      fun k h => key _ _ k hpar (p12 k h)⟩
  · exact ⟨p1, p2, p3, p4, p5, p6, p7, p8, fun h t ht => key _ _ t hbd.symm (p9 h t ht), p10, p11,
      fun k h => key _ _ k hpar.symm (p12 k h)⟩

/-- The hypotheses are met: the test passes on the demonstration machine, also with right-hand side zero, boundary values
one and the activation `fun _ => 0` - a program that cannot solve the problem. -/
example (quad : QuadRoutines) (sample : Fin 4 → Fin (500 / 4) → ℝ) (θ : Weights) :
    buildTest (demoMachine quad) testCd2d buildSettings sample θ demoFiles = .ok () ∧
    buildTest { demoMachine quad with act := fun _ _ => 0 }
      { testCd2d with
        rhs := fun _ _ => 0
        boundaryFunctionDict := [(1000, fun _ _ => 1), (1001, fun _ _ => 1), (1002, fun _ _ => 1), (1003, fun _ _ => 1)] }
      buildSettings sample θ demoFiles = .ok () := by
  have h := C118_shipped (demoMachine quad) (fun _ _ _ _ => ⟨_, rfl⟩) sample θ demoFiles
  refine ⟨h, (C118_blind _ _ _ _ _ .cd2d (by simp [LossKind.forward]) ?_ ?_ ?_ ?_ ?_ ?_ ?_ ?_ _ _ _ _ _ _).1 h⟩
  · exact fun _ _ _ => rfl
  · exact fun _ _ _ => rfl
  · exact fun _ _ _ _ => ⟨_, rfl⟩
  · exact fun _ _ _ _ => ⟨_, rfl⟩
  · simp [testCd2d]
  · rfl
  · simp [buildSettings, testSquare]
  · simp [buildSettings, testSquare]

end FastVPINNs
