import Verif.Model.Examples
import Verif.Spec.Rectangle
import Verif.Props.ExactSolution
import Verif.Props.Geometry
import Mathlib.Analysis.SpecialFunctions.Trigonometric.Deriv
import Mathlib.Analysis.SpecialFunctions.Trigonometric.DerivHyp
import Mathlib.Analysis.SpecialFunctions.ExpDeriv
import Mathlib.Tactic.NormNum.OfScientific

/-! # C60, C61: the example problems -/

namespace FastVPINNs

open Spec

/-- `u` solves, in the whole plane, the equation which the loss `kind` stands for with these
parameters. -/
def Spec.Consistent (kind : LossKind) (params inverseParams : List (String × ℝ)) (u f : ℝ → ℝ → ℝ) : Prop :=
  ∃ (e : ℝ) (b : ℝ × ℝ) (r : ℝ),
    (∀ nc nq, Coefficients (nc := nc) (nq := nq) kind (some params) (some inverseParams) []
      (fun _ _ => e) b r) ∧
    SolvesOn Set.univ (fun _ => e) (fun z => u z.1 z.2) b r f

theorem dx_of {u ux : ℝ × ℝ → ℝ} (h : ∀ z, HasDerivAt (fun s => u (s, z.2)) (ux z) z.1) : dx u = ux :=
  funext fun z => (h z).deriv

theorem dy_of {u uy : ℝ × ℝ → ℝ} (h : ∀ z, HasDerivAt (fun s => u (z.1, s)) (uy z) z.2) : dy u = uy :=
  funext fun z => (h z).deriv

/-- The equation from formulas for the two components of the flux and their derivatives. -/
theorem solvesOn_of {a u ux uy fx fy : ℝ × ℝ → ℝ} {b : ℝ × ℝ} {r : ℝ} {f : ℝ → ℝ → ℝ}
    (h1 : ∀ z, HasDerivAt (fun s => u (s, z.2)) (ux z) z.1)
    (h2 : ∀ z, HasDerivAt (fun s => u (z.1, s)) (uy z) z.2)
    (h3 : ∀ z, HasDerivAt (fun s => a (s, z.2) * ux (s, z.2)) (fx z) z.1)
    (h4 : ∀ z, HasDerivAt (fun s => a (z.1, s) * uy (z.1, s)) (fy z) z.2)
    (h : ∀ z, -(fx z + fy z) + (b.1 * ux z + b.2 * uy z) + r * u z = f z.1 z.2) (K : Set (ℝ × ℝ)) :
    SolvesOn K a u b r f := by
  intro z _
  rw [dx_of h1, dy_of h2, dx_of (ux := fx) h3, dy_of (uy := fy) h4]
  exact h z

theorem lit_one : (1.0 : ℝ) = 1 := by norm_num

theorem lit_two : (2.0 : ℝ) = 2 := by norm_num

theorem lit_four : (4.0 : ℝ) = 4 := by norm_num

theorem lit_forty : (40.0 : ℝ) = 40 := by norm_num

theorem lit_zero : (0.0 : ℝ) = 0 := by norm_num

theorem lit_tenth : (0.1 : ℝ) = 1 / 10 := by norm_num

theorem lit_199 : (1.99 : ℝ) = 199 / 100 := by norm_num

theorem hasDerivAt_sin_mul (w x : ℝ) : HasDerivAt (fun s => Real.sin (w * s)) (w * Real.cos (w * x)) x :=
  (((hasDerivAt_id x).const_mul w).sin).congr_deriv (by simp [mul_comm])

theorem hasDerivAt_cos_mul (w x : ℝ) : HasDerivAt (fun s => Real.cos (w * s)) (-(w * Real.sin (w * x))) x :=
  (((hasDerivAt_id x).const_mul w).cos).congr_deriv (by simp [mul_comm])

theorem hasDerivAt_tanh (x : ℝ) : HasDerivAt Real.tanh (1 - Real.tanh x ^ 2) x := by
  have h : Real.tanh = fun x => Real.sinh x / Real.cosh x := funext Real.tanh_eq_sinh_div_cosh
  have hc := (Real.cosh_pos x).ne'
  rw [h]
  refine ((Real.hasDerivAt_sinh x).div (Real.hasDerivAt_cosh x) hc).congr_deriv ?_
  field_simp

/-- The function `-sin(ωx) sin(ωy)` solves `-Δu = -2ω² sin(ωx) sin(ωy)`. -/
theorem sinSin_solves (w : ℝ) (K : Set (ℝ × ℝ)) :
    SolvesOn K (fun _ => 1.0) (fun z => -1.0 * Real.sin (w * z.1) * Real.sin (w * z.2)) (0, 0) 0
      (fun x y => -2.0 * w ^ 2 * (Real.sin (w * x) * Real.sin (w * y))) := by
  refine solvesOn_of
    (ux := fun z => -1.0 * (w * Real.cos (w * z.1)) * Real.sin (w * z.2))
    (uy := fun z => -1.0 * Real.sin (w * z.1) * (w * Real.cos (w * z.2)))
    (fx := fun z => 1.0 * (-1.0 * (w * -(w * Real.sin (w * z.1))) * Real.sin (w * z.2)))
    (fy := fun z => 1.0 * (-1.0 * Real.sin (w * z.1) * (w * -(w * Real.sin (w * z.2)))))
    (fun z => ((hasDerivAt_sin_mul w z.1).const_mul _).mul_const (Real.sin (w * z.2)))
    (fun z => (hasDerivAt_sin_mul w z.2).const_mul (-1.0 * Real.sin (w * z.1)))
    (fun z => ((((hasDerivAt_cos_mul w z.1).const_mul w).const_mul _).mul_const
      (Real.sin (w * z.2))).const_mul _)
    (fun z => (((hasDerivAt_cos_mul w z.2).const_mul w).const_mul (-1.0 * Real.sin (w * z.1))).const_mul _)
    (fun z => ?_) K
  simp only [lit_one, lit_two]
  ring

/-! ## C60 -/

/-- C60: the Poisson problem of the uniform-mesh, hard-constraint and Optuna examples. -/
theorem C60_uniform_poisson :
    Consistent .poisson UniformPoisson.bilinearParamsDict [] UniformPoisson.exactSolution
      UniformPoisson.rhs :=
  ⟨1.0, (0, 0), 0, fun _ _ => ⟨1.0, ⟨_, rfl, rfl⟩, rfl, rfl, rfl⟩, sinSin_solves (4.0 * Real.pi) _⟩

/-- C60: the Poisson problem of the complex-mesh examples. -/
theorem C60_complex_poisson :
    Consistent .poisson ComplexPoisson.bilinearParamsDict [] ComplexPoisson.exactSolution
      ComplexPoisson.rhs :=
  ⟨1.0, (0, 0), 0, fun _ _ => ⟨1.0, ⟨_, rfl, rfl⟩, rfl, rfl, rfl⟩, sinSin_solves (2.0 * Real.pi) _⟩

/-- C60: the Helmholtz examples. -/
theorem C60_helmholtz :
    Consistent .helmholtz Helmholtz.bilinearParamsDict [] Helmholtz.exactSolution Helmholtz.rhs := by
  refine ⟨-1.0, (0, 0), 1.0 * 1.0, fun _ _ => ⟨1.0, 1.0, ⟨_, rfl, rfl⟩, ⟨_, rfl, rfl⟩, rfl, rfl, rfl⟩,
    solvesOn_of
      (ux := fun z => (1 * Real.sin (Real.pi * z.1) + (z.1 + z.2) * (Real.pi * Real.cos (Real.pi * z.1)))
        * Real.sin (Real.pi * z.2))
      (uy := fun z => (1 * Real.sin (Real.pi * z.1)) * Real.sin (Real.pi * z.2)
        + (z.1 + z.2) * Real.sin (Real.pi * z.1) * (Real.pi * Real.cos (Real.pi * z.2)))
      (fun z => (((hasDerivAt_id z.1).add_const z.2).fun_mul (hasDerivAt_sin_mul Real.pi z.1)).mul_const
        (Real.sin (Real.pi * z.2)))
      (fun z => ((((hasDerivAt_id z.2).const_add z.1).mul_const (Real.sin (Real.pi * z.1))).fun_mul
        (hasDerivAt_sin_mul Real.pi z.2)))
      (fun z => (((((hasDerivAt_sin_mul Real.pi z.1).const_mul _).fun_add
        (((hasDerivAt_id z.1).add_const z.2).fun_mul
          ((hasDerivAt_cos_mul Real.pi z.1).const_mul Real.pi))).mul_const
            (Real.sin (Real.pi * z.2))).const_mul _))
      (fun z => ((((hasDerivAt_sin_mul Real.pi z.2).const_mul (1 * Real.sin (Real.pi * z.1))).fun_add
        ((((hasDerivAt_id z.2).const_add z.1).mul_const (Real.sin (Real.pi * z.1))).fun_mul
          ((hasDerivAt_cos_mul Real.pi z.2).const_mul Real.pi))).const_mul _))
      (fun z => ?_) _⟩
  simp only [Helmholtz.exactSolution, Helmholtz.rhs, id]
  simp only [lit_one]
  ring

/-- C60: the convection-diffusion example. -/
theorem C60_convection_diffusion :
    Consistent .cd2d ConvectionDiffusion.bilinearParamsDict [] ConvectionDiffusion.exactSolution
      ConvectionDiffusion.rhs := by
  have hx : ∀ z : ℝ × ℝ, HasDerivAt (fun s => s ^ 2 + z.2 ^ 2) (2 * z.1) z.1 := fun z =>
    ((hasDerivAt_pow 2 z.1).add_const _).congr_deriv (by simp)
  have hy : ∀ z : ℝ × ℝ, HasDerivAt (fun s => z.1 ^ 2 + s ^ 2) (2 * z.2) z.2 := fun z =>
    ((hasDerivAt_pow 2 z.2).const_add _).congr_deriv (by simp)
  refine ⟨1.0, (1.0, 0.0), 0.0, fun _ _ => ⟨1.0, ⟨_, rfl, rfl⟩, rfl, ⟨_, rfl, rfl⟩, ⟨_, rfl, rfl⟩,
    ⟨_, rfl, rfl⟩⟩, solvesOn_of
      (ux := fun z => -Real.sin (z.1 ^ 2 + z.2 ^ 2) * (2 * z.1))
      (uy := fun z => -Real.sin (z.1 ^ 2 + z.2 ^ 2) * (2 * z.2))
      (fun z => (hx z).cos) (fun z => (hy z).cos)
      (fun z => (((hx z).sin.fun_neg.fun_mul ((hasDerivAt_id z.1).const_mul 2)).const_mul _))
      (fun z => (((hy z).sin.fun_neg.fun_mul ((hasDerivAt_id z.2).const_mul 2)).const_mul _))
      (fun z => ?_) _⟩
  simp only [ConvectionDiffusion.exactSolution, ConvectionDiffusion.rhs, id]
  simp only [lit_zero, lit_one, lit_two, lit_four]
  ring

/-- The second derivative of the exact solution of the constant-coefficient inverse problem. -/
noncomputable def constInverseD2 (e x : ℝ) : ℝ :=
  (40 * x * e * (Real.tanh x ^ 2 - 1) * Real.sin x - 40 * x * e * Real.cos x * Real.tanh x
      + 10 * e * (4 * x ^ 2 * e - 2) * Real.sin x * Real.tanh x
      + 20 * (Real.tanh x ^ 2 - 1) * Real.sin x * Real.tanh x
      - 20 * (Real.tanh x ^ 2 - 1) * Real.cos x - 10 * Real.sin x * Real.tanh x)
    * Real.exp (-1.0 * x ^ 2 * e)

theorem constInverse_solves' (e a : ℝ) (K : Set (ℝ × ℝ)) :
    SolvesOn K (fun _ => a) (fun z => Real.sin z.1 * Real.tanh z.1 * Real.exp (-1.0 * e * z.1 ^ 2) * 10)
      (0, 0) 0 (fun x _ => -a * constInverseD2 e x) := by
  have hE : ∀ x : ℝ, HasDerivAt (fun s => Real.exp (-1.0 * e * s ^ 2))
      (Real.exp (-1.0 * e * x ^ 2) * (-2 * e * x)) x := fun x =>
    ((hasDerivAt_pow 2 x).const_mul (-1.0 * e)).exp.congr_deriv (by simp only [lit_one]; push_cast; ring)
  have h1 : ∀ x : ℝ, HasDerivAt (fun s => Real.sin s * Real.tanh s * Real.exp (-1.0 * e * s ^ 2) * 10)
      (((Real.cos x * Real.tanh x + Real.sin x * (1 - Real.tanh x ^ 2)) * Real.exp (-1.0 * e * x ^ 2)
        + Real.sin x * Real.tanh x * (Real.exp (-1.0 * e * x ^ 2) * (-2 * e * x))) * 10) x := fun x =>
    (((Real.hasDerivAt_sin x).fun_mul (hasDerivAt_tanh x)).fun_mul (hE x)).mul_const _
  have ht2 : ∀ x : ℝ, HasDerivAt (fun s => 1 - Real.tanh s ^ 2)
      (-(2 * Real.tanh x * (1 - Real.tanh x ^ 2))) x := fun x =>
    (((hasDerivAt_tanh x).fun_pow 2).const_sub 1).congr_deriv (by simp)
  have h2 := fun x : ℝ => ((((((Real.hasDerivAt_cos x).fun_mul (hasDerivAt_tanh x)).fun_add
      ((Real.hasDerivAt_sin x).fun_mul (ht2 x))).fun_mul (hE x)).fun_add
    (((Real.hasDerivAt_sin x).fun_mul (hasDerivAt_tanh x)).fun_mul
      ((hE x).fun_mul ((hasDerivAt_id x).const_mul (-2 * e))))).mul_const 10).const_mul a
  refine solvesOn_of (uy := fun _ => 0) (fy := fun _ => a * 0)
      (fun z => h1 z.1) (fun z => hasDerivAt_const z.2 (Real.sin z.1 * Real.tanh z.1 * Real.exp (-1.0 * e * z.1 ^ 2) * 10))
      (fun z => h2 z.1) (fun z => (hasDerivAt_const z.2 (0 : ℝ)).const_mul a) (fun z => ?_) K
  simp only [constInverseD2, id, mul_zero, zero_mul, add_zero]
  rw [show (-1.0 * z.1 ^ 2 * e) = -1.0 * e * z.1 ^ 2 by rw [lit_one]; ring]
  simp only [lit_one]
  ring

theorem constInverse_solves (a : ℝ) (K : Set (ℝ × ℝ)) :
    SolvesOn K (fun _ => a) (fun z => ConstInverse.exactSolution z.1 z.2) (0, 0) 0
      (fun x _ => -a * constInverseD2 ConstInverse.EPS x) := constInverse_solves' _ a K

theorem constInverse_rhs (x y : ℝ) :
    ConstInverse.rhs x y = -ConstInverse.EPS * constInverseD2 ConstInverse.EPS x := by
  simp only [ConstInverse.rhs, constInverseD2]
  simp only [lit_two, lit_four, lit_forty]
  ring

/-- C60: the inverse problem with a constant coefficient: `exact_solution` solves the equation with the
coefficient of an inverse-parameter dictionary exactly if that is the actual one; so the initial guess
`2` does not, and the coefficient to be found is unique. -/
theorem C60_const_inverse :
    Consistent .poissonInverse ConstInverse.bilinearParamsDict ConstInverse.inverseParamsActualDict
      ConstInverse.exactSolution ConstInverse.rhs ∧
    (∀ (p : List (String × ℝ)) (a : ℝ), p.lookup "eps" = some a →
      (Consistent .poissonInverse ConstInverse.bilinearParamsDict p ConstInverse.exactSolution
        ConstInverse.rhs ↔ a = 0.3)) ∧
    ¬ Consistent .poissonInverse ConstInverse.bilinearParamsDict ConstInverse.inverseParamsDict
      ConstInverse.exactSolution ConstInverse.rhs := by
  have key : ∀ (p : List (String × ℝ)) (a : ℝ), p.lookup "eps" = some a →
      (Consistent .poissonInverse ConstInverse.bilinearParamsDict p ConstInverse.exactSolution
        ConstInverse.rhs ↔ a = 0.3) := by
    intro p a hp
    constructor
    · rintro ⟨e, b, r, hc, hs⟩
      obtain ⟨e', ⟨l, hl, hl'⟩, he, rfl, rfl⟩ := hc 1 1
      cases hl
      rw [hp] at hl'
      cases hl'
      have he : e = a := congrFun (congrFun he 0) 0
      subst he
      have h0 := hs (0, 0) trivial
      have h1 := constInverse_solves e Set.univ (0, 0) trivial
      rw [h0, constInverse_rhs] at h1
      simp [constInverseD2, ConstInverse.EPS] at h1
      linarith
    · rintro rfl
      refine ⟨0.3, (0, 0), 0, fun _ _ => ⟨0.3, ⟨_, rfl, hp⟩, rfl, rfl, rfl⟩, fun z hz => ?_⟩
      rw [constInverse_rhs]
      exact constInverse_solves 0.3 Set.univ z hz
  refine ⟨(key _ 0.3 rfl).2 rfl, key, fun h => ?_⟩
  have := (key _ 2 rfl).1 h
  norm_num at this

/-- C60: the inverse problem with a space-dependent coefficient, at the actual coefficient. -/
theorem C60_domain_inverse :
    ∃ (b : ℝ × ℝ) (r : ℝ),
      (∀ nc nq (pt : Fin nc → Fin nq → ℝ × ℝ),
        Coefficients .cd2dInverseDomain (some DomainInverseUSA.bilinearParamsDict) none
          [fun c q => DomainInverseUSA.actualEps (pt c q).1 (pt c q).2]
          (fun c q => DomainInverseUSA.actualEps (pt c q).1 (pt c q).2) b r) ∧
      SolvesOn Set.univ (fun z => DomainInverseUSA.actualEps z.1 z.2)
        (fun z => DomainInverseUSA.exactSolution z.1 z.2) b r DomainInverseUSA.rhs := by
  have hE : ∀ y : ℝ, HasDerivAt (fun s => Real.exp (-0.1 * s)) (Real.exp (-0.1 * y) * -0.1) y := fun y =>
    ((hasDerivAt_id y).const_mul (-0.1)).exp.congr_deriv (by simp)
  have hcx : ∀ x y : ℝ, HasDerivAt (fun s => Real.cos (s * y)) (-Real.sin (x * y) * y) x := fun x y =>
    ((hasDerivAt_id x).mul_const y).cos.congr_deriv (by simp)
  have hcy : ∀ x y : ℝ, HasDerivAt (fun s => Real.cos (x * s)) (-Real.sin (x * y) * x) y := fun x y =>
    ((hasDerivAt_id y).const_mul x).cos.congr_deriv (by simp)
  refine ⟨(0.0, 0), 0.0, fun nc nq pt => ⟨rfl, ⟨_, rfl, rfl⟩, ⟨_, rfl, rfl⟩, ⟨_, rfl, rfl⟩⟩, solvesOn_of
      (ux := fun z => Real.exp (-0.1 * z.2) * -Real.sin z.1)
      (uy := fun z => Real.exp (-0.1 * z.2) * -0.1 * Real.cos z.1)
      (fun z => (Real.hasDerivAt_cos z.1).const_mul (Real.exp (-0.1 * z.2))) (fun z => (hE z.2).mul_const (Real.cos z.1))
      (fun z => ((Real.hasDerivAt_sin z.1).fun_mul (hcx z.1 z.2)).fun_mul
        ((Real.hasDerivAt_sin z.1).fun_neg.const_mul (Real.exp (-0.1 * z.2))))
      (fun z => ((hcy z.1 z.2).const_mul (Real.sin z.1)).fun_mul
        (((hE z.2).mul_const (-0.1)).mul_const (Real.cos z.1)))
      (fun z => ?_) _⟩
  simp only [DomainInverseUSA.exactSolution, DomainInverseUSA.rhs]
  simp only [lit_zero, lit_tenth, lit_199]
  ring

/-- The Dirichlet data of a space are the values of `u` if the boundary functions are. -/
theorem dirichlet_matches {ext : QuadRoutines} {mp : List (ℝ × ℝ)} {cells : List Quad} {bd : BdDict}
    {s : FESettings} {dict : List (ℤ × (ℝ → ℝ → ℝ))} {f : ℝ → ℝ → ℝ} {plot : Bool} {nq : ℕ}
    {S : Fespace2D (ℝ → ℝ → ℝ) ℝ (s.feOrder.toNat ^ 2) nq}
    (h : fespace2D ext mp cells bd s dict f plot = .ok ⟨nq, S⟩) (u : ℝ → ℝ → ℝ)
    (hdict : ∀ tag pt, (tag, pt) ∈ taggedPoints bd → ∀ g, dict.lookup tag = some g →
      g pt.1 pt.2 = u pt.1 pt.2) :
    getDirichletInput S = .ok ((taggedPoints bd).map Prod.snd,
      (taggedPoints bd).map fun r => u r.2.1 r.2.2) := by
  obtain ⟨h1, -, -⟩ := C37_dirichlet_data ext mp cells bd s dict f plot
  have hall := (fespace_conditions ext mp _ bd s dict f h).2.2.2.2.2.2.2
  obtain ⟨px, py, hgen, hpx, hpy⟩ := h1 hall
  obtain ⟨-, -, -, -, -, e1, e2, -⟩ := fespace_ok h
  rw [getDirichletInput, e1, e2, hgen, hpx]
  refine congrArg (fun v => Except.ok (_, v)) ?_
  have key : ∀ {l : List (ℤ × (ℝ × ℝ))} {v : List ℝ},
      List.Forall₂ (fun (r : ℤ × (ℝ × ℝ)) v => ∃ g, dict.lookup r.1 = some g ∧ v = g r.2.1 r.2.2) l v →
      (∀ r ∈ l, r ∈ taggedPoints bd) → v = l.map fun r => u r.2.1 r.2.2 := by
    intro l v hf
    induction hf with
    | nil => simp
    | cons hr _ ih =>
      intro hm
      obtain ⟨g, hg, rfl⟩ := hr
      rw [List.map_cons, ih fun r hr' => hm r (List.mem_cons_of_mem _ hr'),
        hdict _ _ (hm _ List.mem_cons_self) g hg]
  exact key hpy fun r hr => hr

section Boundary

variable {ext : QuadRoutines} {mp : List (ℝ × ℝ)} {cells : List Quad} {s : FESettings}
  {f : ℝ → ℝ → ℝ} {plot : Bool} {nq : ℕ} {S : Fespace2D (ℝ → ℝ → ℝ) ℝ (s.feOrder.toNat ^ 2) nq}

/-- C60: on the unit square the boundary data of the Poisson example are the values of
`exact_solution` at the generated boundary points. -/
theorem C60_uniform_boundary (g : Geometry2D) (nx ny nb : ℕ) (smp : Fin 4 → Fin (nb / 4) → ℝ)
    (hs : ∀ a k, 0 ≤ smp a k ∧ smp a k ≤ 1)
    (h : fespace2D ext mp cells (generateQuadMeshInternal g (0, 1) (0, 1) nx ny nb smp).bdDict s
      UniformPoisson.boundaryFunctionDict f plot = .ok ⟨nq, S⟩) :
    ∃ px py, getDirichletInput S = .ok (px, py) ∧ px.length = 4 * (nb / 4) ∧
      py = px.map fun z => UniformPoisson.exactSolution z.1 z.2 := by
  obtain ⟨bo, ri, up, le, hbd, hlen, hb, hr, ht, hl, -, -⟩ :=
    C04_internal_boundary g (0, 1) (0, 1) zero_le_one zero_le_one nx ny nb smp hs
  have hu0 : ∀ x : ℝ, UniformPoisson.exactSolution x 0 = 0 ∧ UniformPoisson.exactSolution 0 x = 0 :=
    fun x => by simp [UniformPoisson.exactSolution]
  have hsin : Real.sin (4.0 * Real.pi * 1) = 0 := by
    have := Real.sin_nat_mul_pi 4
    norm_num at this ⊢
    exact this
  have hu1 : ∀ x : ℝ, UniformPoisson.exactSolution x 1 = 0 ∧ UniformPoisson.exactSolution 1 x = 0 :=
    fun x => by
      constructor <;> simp only [UniformPoisson.exactSolution, hsin, mul_zero, zero_mul]
  refine ⟨_, _, dirichlet_matches h UniformPoisson.exactSolution ?_, ?_, ?_⟩
  · rw [hbd]
    intro tag pt hpt g' hg'
    simp only [taggedPoints, List.flatMap_cons, List.flatMap_nil, List.append_nil, List.mem_append,
      List.mem_map, Prod.mk.injEq] at hpt
    rcases hpt with ⟨p, hp, rfl, rfl⟩ | ⟨p, hp, rfl, rfl⟩ | ⟨p, hp, rfl, rfl⟩ | ⟨p, hp, rfl, rfl⟩
    · cases hg'
      rw [(hb _ hp).1, (hu0 _).1]; norm_num [UniformPoisson.bottomBoundary]
    · cases hg'
      rw [(hr _ hp).1, (hu1 _).2]; norm_num [UniformPoisson.rightBoundary]
    · cases hg'
      rw [(ht _ hp).1, (hu1 _).1]; norm_num [UniformPoisson.topBoundary]
    · cases hg'
      rw [(hl _ hp).1, (hu0 _).2]; norm_num [UniformPoisson.leftBoundary]
  · rw [hbd]
    have h4 := fun l hl' => hlen l hl'
    simp only [List.mem_cons, List.not_mem_nil, or_false, forall_eq_or_imp, forall_eq] at h4
    obtain ⟨e1, e2, e3, e4⟩ := h4
    simp only [taggedPoints, List.flatMap_cons, List.flatMap_nil, List.append_nil, List.map_append,
      List.length_append, List.length_map, e1, e2, e3, e4]
    omega
  · rw [List.map_map]; rfl

/-- C60: the other examples use the formula of `exact_solution` itself as boundary function, so whatever
the mesh, the boundary data are values of `exact_solution`; the dictionaries of the uniform-mesh
examples have a function for each of the tags of the generated boundary points. -/
theorem C60_boundary (bd : BdDict) (dict : List (ℤ × (ℝ → ℝ → ℝ))) (u : ℝ → ℝ → ℝ)
    (hex : (dict, u) ∈ [(ComplexPoisson.boundaryFunctionDict, ComplexPoisson.exactSolution),
      (Helmholtz.boundaryFunctionDict, Helmholtz.exactSolution),
      (Helmholtz.complexBoundaryFunctionDict, Helmholtz.exactSolution),
      (ConvectionDiffusion.boundaryFunctionDict, ConvectionDiffusion.exactSolution),
      (ConstInverse.boundaryFunctionDict, ConstInverse.exactSolution),
      (DomainInverseUSA.boundaryFunctionDict, DomainInverseUSA.exactSolution)])
    (h : fespace2D ext mp cells bd s dict f plot = .ok ⟨nq, S⟩) :
    ∃ px py, getDirichletInput S = .ok (px, py) ∧ px = (taggedPoints bd).map Prod.snd ∧
      py = px.map fun z => u z.1 z.2 := by
  refine ⟨_, _, dirichlet_matches h u ?_, rfl, by rw [List.map_map]; rfl⟩
  intro tag pt _ g hg
  have key : ∀ l : List (ℤ × (ℝ → ℝ → ℝ)), l.lookup tag = some g → ∃ e ∈ l, e.2 = g := by
    intro l
    induction l with
    | nil => intro h; cases h
    | cons e l ih =>
      obtain ⟨k, v⟩ := e
      intro h
      rw [List.lookup_cons] at h
      split at h
      · exact ⟨_, List.mem_cons_self, Option.some.inj h⟩
      · obtain ⟨e, he, hv⟩ := ih h
        exact ⟨e, List.mem_cons_of_mem _ he, hv⟩
  obtain ⟨e, he, rfl⟩ := key dict hg
  simp only [List.mem_cons, Prod.mk.injEq, List.not_mem_nil, or_false] at hex
  rcases hex with ⟨rfl, rfl⟩ | ⟨rfl, rfl⟩ | ⟨rfl, rfl⟩ | ⟨rfl, rfl⟩ | ⟨rfl, rfl⟩ | ⟨rfl, rfl⟩ <;>
    simp only [ComplexPoisson.boundaryFunctionDict, Helmholtz.boundaryFunctionDict,
      Helmholtz.complexBoundaryFunctionDict, ConvectionDiffusion.boundaryFunctionDict,
      ConstInverse.boundaryFunctionDict, DomainInverseUSA.boundaryFunctionDict, List.mem_cons,
      List.not_mem_nil, or_false] at he
  · subst he; rfl
  · rcases he with rfl | rfl | rfl | rfl <;> rfl
  · subst he; rfl
  · subst he; rfl
  · rcases he with rfl | rfl | rfl | rfl <;> rfl
  · subst he; rfl

/-- The settings of `uniform_mesh/poisson_2d/input.yaml` (one boundary point per side) meet the
hypotheses of the previous two theorems. -/
example (g : Geometry2D) : ∃ ext nq,
    ∃ S : Fespace2D (ℝ → ℝ → ℝ) ℝ (((6 : ℤ).toNat) ^ 2) nq,
    fespace2D ext [] (generateQuadMeshInternal g (0, 1) (0, 1) 4 4 4 fun _ _ => 1 / 2).cells
      (generateQuadMeshInternal g (0, 1) (0, 1) 4 4 4 fun _ _ => 1 / 2).bdDict
      ⟨"quadrilateral", 6, "legendre", 10, "gauss-jacobi", "bilinear"⟩
      UniformPoisson.boundaryFunctionDict UniformPoisson.rhs false = .ok ⟨nq, S⟩ ∧
    ∃ px py, getDirichletInput S = .ok (px, py) ∧ px.length = 4 ∧
      py = px.map fun z => UniformPoisson.exactSolution z.1 z.2 := by
  obtain ⟨ext, -, -⟩ := quadRoutines_exist
  obtain ⟨nq, S, h⟩ := (C63_constructor ext []
    (generateQuadMeshInternal g (0, 1) (0, 1) 4 4 4 fun _ _ => 1 / 2).cells
      (generateQuadMeshInternal g (0, 1) (0, 1) 4 4 4 fun _ _ => 1 / 2).bdDict
      ⟨"quadrilateral", 6, "legendre", 10, "gauss-jacobi", "bilinear"⟩
      UniformPoisson.boundaryFunctionDict UniformPoisson.rhs).2 ⟨rfl, by
        refine List.ne_nil_of_length_pos ?_
        rw [(C02_internal_cells g (0, 1) (0, 1) (by norm_num) (by norm_num) 4 4 4 _).1]
        norm_num, by decide, by simp [supportedFeType], by decide, Or.inr rfl, Or.inl rfl, by
        intro e he _
        simp only [generateQuadMeshInternal, internalBoundary, List.mem_cons, List.not_mem_nil,
          or_false] at he
        rcases he with rfl | rfl | rfl | rfl <;> exact ⟨_, rfl⟩⟩
  exact ⟨ext, nq, S, h, C60_uniform_boundary g 4 4 4 _ (fun _ _ => by norm_num) h⟩

end Boundary

/-! ## C61 -/

theorem mul_add_div_of_lt {a b c : ℕ} (h : c < b) : (a * b + c) / b = a := by
  rw [Nat.mul_comm, Nat.mul_add_div (by omega), Nat.div_eq_of_lt h, add_zero]

theorem mul_add_mod_of_lt {a b c : ℕ} (h : c < b) : (a * b + c) % b = c := by
  rw [Nat.mul_add_mod_of_lt h]

theorem reshapeMatrix_ok {nx ny : ℕ} {v : List ℝ} (h : v.length = nx * ny) :
    reshapeMatrix nx ny v = .ok fun i j => v.getD (i.val * ny + j.val) 0 := if_pos h

/-- C61: the drivers' reshape of the test points never fails, entry by entry the third matrix is the
exact solution at the point given by the other two, and the first two matrices form a coordinate grid
(`X` constant along columns, `Y` along rows) exactly if the grid is square. -/
theorem C61_contour_grid (mt : String) (tx ty : ℕ) (opt : Bool) (g : Geometry2D)
    (hg : geometry2D mt "internal" tx ty opt = .ok g) (x y : ℝ × ℝ) (nx ny nb : ℕ)
    (s : Fin 4 → Fin (nb / 4) → ℝ) (vtk : Except PyErr (List (ℝ × ℝ × ℝ))) (u : ℝ → ℝ → ℝ) :
    ∃ pts X Y Z, getTestPoints (generateQuadMeshInternal g x y nx ny nb s).geometry vtk = .ok pts ∧
      contourMatrices tx ty u pts = .ok (X, Y, Z) ∧
      (∀ i j, Z i j = u (X i j) (Y i j)) ∧
      (tx = ty → ∀ i j, X i j = gridLine x.1 x.2 (tx - 1) j.val ∧ Y i j = gridLine y.1 y.2 (ty - 1) i.val) ∧
      (2 ≤ tx → 2 ≤ ty → x.1 < x.2 → y.1 < y.2 →
        ((∀ i i' j, X i j = X i' j) ∧ (∀ i j j', Y i j = Y i j') ↔ tx = ty) ∧
        ¬ ((∀ i j j', X i j = X i j') ∧ (∀ i i' j, Y i j = Y i' j))) := by
  obtain ⟨pts, hpts, hlen, hk, -, -⟩ := C05_test_points mt tx ty opt g hg x y nx ny nb s vtk
  have hget : ∀ (i : Fin tx) (j : Fin ty), pts[i.val * ty + j.val]?
      = some (gridLine x.1 x.2 (tx - 1) ((i.val * ty + j.val) % tx),
        gridLine y.1 y.2 (ty - 1) ((i.val * ty + j.val) / tx)) := by
    intro i j
    have hlt : i.val * ty + j.val < tx * ty := by
      calc i.val * ty + j.val < i.val * ty + ty := by omega
        _ = (i.val + 1) * ty := by ring
        _ ≤ tx * ty := Nat.mul_le_mul_right _ i.isLt
    have h := hk ((i.val * ty + j.val) % tx) (Nat.mod_lt _ (by have := i.isLt; omega)) ((i.val * ty + j.val) / tx)
      (Nat.div_lt_of_lt_mul hlt)
    rwa [Nat.div_add_mod] at h
  have hX : ∀ (F : ℝ × ℝ → ℝ) (i : Fin tx) (j : Fin ty), (pts.map F).getD (i.val * ty + j.val) 0
      = F (gridLine x.1 x.2 (tx - 1) ((i.val * ty + j.val) % tx),
        gridLine y.1 y.2 (ty - 1) ((i.val * ty + j.val) / tx)) := by
    intro F i j
    rw [List.getD, List.getElem?_map, hget]
    rfl
  refine ⟨pts, fun i j => gridLine x.1 x.2 (tx - 1) ((i.val * ty + j.val) % tx),
    fun i j => gridLine y.1 y.2 (ty - 1) ((i.val * ty + j.val) / tx),
    fun i j => u (gridLine x.1 x.2 (tx - 1) ((i.val * ty + j.val) % tx))
      (gridLine y.1 y.2 (ty - 1) ((i.val * ty + j.val) / tx)), hpts, ?_, fun _ _ => rfl, ?_, ?_⟩
  · simp only [contourMatrices]
    rw [reshapeMatrix_ok (by simp [hlen]), reshapeMatrix_ok (by simp [hlen]),
      reshapeMatrix_ok (by simp [hlen])]
    simp only [hX]
    rfl
  · rintro rfl i j
    constructor
    · simp only [mul_add_mod_of_lt j.isLt]
    · simp only [mul_add_div_of_lt j.isLt]
  · intro htx hty hxl hyl
    have hinj : ∀ {a b : ℝ} (_ : a < b) {n : ℕ} (_ : 1 ≤ n) {i j : ℕ},
        gridLine a b n i = gridLine a b n j → i = j := by
      intro a b hab n hn i j h
      simp only [gridLine] at h
      have hn' : (n : ℝ) ≠ 0 := by positivity
      have h := mul_left_cancel₀ (sub_ne_zero.2 hab.ne') (add_left_cancel h)
      rw [div_left_inj' hn'] at h
      exact_mod_cast h
    refine ⟨⟨?_, ?_⟩, ?_⟩
    · rintro ⟨h1, h2⟩
      have e1 := hinj hxl (by omega) (h1 ⟨1, by omega⟩ ⟨0, by omega⟩ ⟨0, by omega⟩)
      have e2 := hinj hyl (by omega) (h2 ⟨0, by omega⟩ ⟨ty - 1, by omega⟩ ⟨0, by omega⟩)
      simp only [one_mul, zero_mul, add_zero, zero_add, Nat.zero_mod, Nat.zero_div] at e1 e2
      have hle : ty ≤ tx := by
        by_contra hc
        have : 1 ≤ (ty - 1) / tx := (Nat.one_le_div_iff (by omega)).2 (by omega)
        omega
      rcases Nat.lt_or_ge ty tx with hlt | hge
      · rw [Nat.mod_eq_of_lt hlt] at e1; omega
      · omega
    · rintro rfl
      constructor
      · intro i i' j
        simp only [mul_add_mod_of_lt j.isLt]
      · intro i j j'
        simp only [mul_add_div_of_lt j.isLt, mul_add_div_of_lt j'.isLt]
    · rintro ⟨h1, -⟩
      have e1 := hinj hxl (by omega) (h1 ⟨0, by omega⟩ ⟨1, by omega⟩ ⟨0, by omega⟩)
      simp only [zero_mul, add_zero, zero_add, Nat.zero_mod] at e1
      rw [Nat.mod_eq_of_lt (by omega)] at e1
      omega

/-- With 100×100 points, as in the shipped configurations, the matrices form a grid; with 100×50 points
they do not. -/
example : (∃ g, geometry2D "quadrilateral" "internal" 100 50 false = .ok g) ∧
    ∀ g, geometry2D "quadrilateral" "internal" 100 50 false = .ok g → ∀ s u, ∃ pts X Y Z,
      getTestPoints (generateQuadMeshInternal g (0, 1) (0, 1) 4 4 400 s).geometry (.ok []) = .ok pts ∧
      contourMatrices 100 50 u pts = .ok (X, Y, Z) ∧
      ¬ ((∀ i i' j, X i j = X i' j) ∧ (∀ i j j', Y i j = Y i j')) := by
  refine ⟨⟨_, rfl⟩, fun g hg s u => ?_⟩
  obtain ⟨pts, X, Y, Z, h1, h2, -, -, h3⟩ := C61_contour_grid "quadrilateral" 100 50 false g hg (0, 1) (0, 1)
    4 4 400 s (.ok []) u
  refine ⟨pts, X, Y, Z, h1, h2, fun h => ?_⟩
  have := (h3 (by norm_num) (by norm_num) (by norm_num) (by norm_num)).1.1 h
  omega

end FastVPINNs
