import Verif.Props.BoundaryMean
import Verif.Props.IdentifyExplicit

/-! # C120: the drawn boundary points are dense enough for the error bounds

The bounds C90, C95, C96 and C97 assume that the error at each point of the boundary is close to the error at one of the
boundary points of the training (`BoundarySampled`).  On the rectangle this holds for every draw. -/

namespace FastVPINNs

open Spec

/-- The boundary points of the internal mesh with their tags. -/
lemma mem_tagged {x y : ℝ × ℝ} {nb : ℕ} {smp : Fin 4 → Fin (nb / 4) → ℝ} {r : ℤ × ℝ × ℝ} :
    r ∈ taggedPoints (internalBoundary x y nb smp) ↔
      ∃ (a : Fin 4) (k : Fin (nb / 4)), r = ((1000 + (a : ℕ) : ℤ), sidePoint x y a (smp a k)) := by
  have ht : ∀ (s : Fin (nb / 4) → ℝ) (a b : ℝ) (k : Fin (nb / 4)), tempBdFunc s a b k = a + s k * (b - a) :=
    fun s a b k => by unfold tempBdFunc; ring
  constructor
  · intro h
    simp only [taggedPoints, internalBoundary, List.flatMap_cons, List.flatMap_nil, List.append_nil, List.mem_append,
      List.map_ofFn, List.mem_ofFn, Function.comp, ht] at h
    rcases h with ⟨k, rfl⟩ | ⟨k, rfl⟩ | ⟨k, rfl⟩ | ⟨k, rfl⟩
    exacts [⟨0, k, rfl⟩, ⟨1, k, rfl⟩, ⟨2, k, rfl⟩, ⟨3, k, rfl⟩]
  · rintro ⟨a, k, rfl⟩
    simp only [taggedPoints, internalBoundary, List.flatMap_cons, List.flatMap_nil, List.append_nil, List.mem_append,
      List.map_ofFn, List.mem_ofFn, Function.comp, ht]
    fin_cases a
    exacts [Or.inl ⟨k, rfl⟩, Or.inr (Or.inl ⟨k, rfl⟩), Or.inr (Or.inr (Or.inl ⟨k, rfl⟩)),
      Or.inr (Or.inr (Or.inr ⟨k, rfl⟩))]

/-- The boundary of the rectangle consists of the four sides. -/
lemma frontier_sides {x y : ℝ × ℝ} (hx : x.1 < x.2) (hy : y.1 < y.2) {z : ℝ × ℝ} (hz : z ∈ frontier (domain x y)) :
    ∃ a, ∃ t ∈ Set.Icc (0 : ℝ) 1, z = sidePoint x y a t := by
  have par : ∀ {a b c : ℝ}, a < b → c ∈ Set.Icc a b → ∃ t ∈ Set.Icc (0 : ℝ) 1, c = a + t * (b - a) := by
    intro a b c hab hc
    have h : 0 < b - a := by linarith
    refine ⟨(c - a) / (b - a), ⟨div_nonneg (by linarith [hc.1]) h.le, (div_le_one h).2 (by linarith [hc.2])⟩, ?_⟩
    rw [div_mul_cancel₀ _ h.ne']
    ring
  unfold domain at hz
  rw [frontier_prod_eq, closure_Icc, closure_Icc, frontier_Icc hx.le, frontier_Icc hy.le] at hz
  obtain ⟨z1, z2⟩ := z
  rcases hz with ⟨h1, h2⟩ | ⟨h1, h2⟩
  · obtain ⟨t, ht, e⟩ := par hx h1
    simp only [Set.mem_insert_iff, Set.mem_singleton_iff] at h2 e
    rcases h2 with h2 | h2
    · exact ⟨0, t, ht, by rw [e, h2]; rfl⟩
    · exact ⟨2, t, ht, by rw [e, h2]; rfl⟩
  · obtain ⟨t, ht, e⟩ := par hy h2
    simp only [Set.mem_insert_iff, Set.mem_singleton_iff] at h1 e
    rcases h1 with h1 | h1
    · exact ⟨3, t, ht, by rw [e, h1]; rfl⟩
    · exact ⟨1, t, ht, by rw [e, h1]; rfl⟩

/-- **C120.**  On a rectangle with `nb ≥ 4` boundary points, for every outcome of the Latin hypercube sampling: if the
boundary functions are the values of `v` on the sides, the boundary data hold values of `v`, and the error at each point
of the boundary of the mesh is within `ω` of the error at one of the drawn points, where `ω` bounds the oscillation of the
error over the `nb / 4`-th part of a side. -/
theorem C120_sampled {x y : ℝ × ℝ} (hx : x.1 < x.2) (hy : y.1 < y.2) {nb : ℕ} (hnb : 4 ≤ nb)
    {smp : Fin 4 → Fin (nb / 4) → ℝ} (hs : ∀ a, IsStratified (smp a)) {dict : List (ℤ × (ℝ → ℝ → ℝ))}
    {g : Fin 4 → ℝ → ℝ → ℝ} (hg : ∀ a : Fin 4, dict.lookup (1000 + (a : ℕ) : ℤ) = some (g a))
    {bdv : List (ℝ × ℝ) × List ℝ} (hb : IsBoundaryData x y nb smp dict bdv) (u v : ℝ × ℝ → ℝ)
    (hv : ∀ a, ∀ t ∈ Set.Icc (0 : ℝ) 1, g a (sidePoint x y a t).1 (sidePoint x y a t).2 = v (sidePoint x y a t)) (ω : ℝ)
    (hosc : ∀ a, ∀ t ∈ Set.Icc (0 : ℝ) 1, ∀ t' ∈ Set.Icc (0 : ℝ) 1, |t - t'| ≤ 1 / (nb / 4 : ℕ) →
      |(u (sidePoint x y a t) - v (sidePoint x y a t)) - (u (sidePoint x y a t') - v (sidePoint x y a t'))| ≤ ω)
    (G : Geometry2D) (nx ny : ℕ) (hnx : 0 < nx) (hny : 0 < ny) :
    meshSet (generateQuadMeshInternal G x y nx ny nb smp).cells = domain x y ∧
    BoundarySampled (meshSet (generateQuadMeshInternal G x y nx ny nb smp).cells) bdv u v ω := by
  have hmesh : meshSet (generateQuadMeshInternal G x y nx ny nb smp).cells = domain x y := by
    ext z
    rw [(C03_tiling G x y hx hy nx ny nb hnx hny smp).1 z]
    rfl
  refine ⟨hmesh, ?_⟩
  rw [hmesh]
  obtain ⟨ext, G', nx', ny', s, f, plot, nq, S, S', D, h1, h2, h3⟩ := hb
  rw [dataHandler_dirichlet h2, dirichlet_values h1, Except.ok.injEq] at h3
  subst h3
  have hn : 0 < nb / 4 := by omega
  have h01 : ∀ a k, smp a k ∈ Set.Icc (0 : ℝ) 1 := by
    intro a k
    obtain ⟨π, hπ⟩ := hs a
    obtain ⟨l1, l2⟩ := hπ k
    have hn' : (0 : ℝ) < ((nb / 4 : ℕ) : ℝ) := by exact_mod_cast hn
    refine ⟨le_trans (by positivity) l1, l2.le.trans ?_⟩
    rw [div_le_one hn']
    exact_mod_cast (π k).isLt
  constructor
  · intro i
    have hi : i.val < (taggedPoints (internalBoundary x y nb smp)).length := by
      have := i.isLt
      simpa [generateQuadMeshInternal] using this
    obtain ⟨a, k, hr⟩ := mem_tagged.1 (List.getElem_mem hi)
    have e1 : ((taggedPoints (generateQuadMeshInternal G' x y nx' ny' nb smp).bdDict).map Prod.snd).get i
        = sidePoint x y a (smp a k) := by
      rw [List.get_eq_getElem, List.getElem_map]
      exact congrArg Prod.snd hr
    have e2 : ((taggedPoints (internalBoundary x y nb smp)).map
        fun r => ((dict.lookup r.1).getD fun _ _ => 0) r.2.1 r.2.2).getD i.val 0
        = g a (sidePoint x y a (smp a k)).1 (sidePoint x y a (smp a k)).2 := by
      rw [List.getD, List.getElem?_map, List.getElem?_eq_getElem hi, hr]
      simp only [Option.map_some, hg a, Option.getD_some]
    refine (e2.trans (hv a _ (h01 a k))).trans ?_
    exact congrArg v e1.symm
  · intro z hz
    obtain ⟨a, t, ht, rfl⟩ := frontier_sides hx hy hz
    obtain ⟨k, hk, hnear⟩ := stratified_near hn (hs a) ht
    have hm : sidePoint x y a (smp a k) ∈ (taggedPoints (internalBoundary x y nb smp)).map Prod.snd :=
      List.mem_map.2 ⟨_, mem_tagged.2 ⟨a, k, rfl⟩, rfl⟩
    obtain ⟨i, hi⟩ := List.get_of_mem hm
    refine ⟨i, ?_⟩
    have h4 := hosc a t ht _ hk hnear
    rw [← hi] at h4
    exact h4

/-- Two points of a side. -/
lemma sidePoint_dist {x y : ℝ × ℝ} (hx : x.1 < x.2) (hy : y.1 < y.2) (a : Fin 4) (t t' : ℝ) :
    dist (sidePoint x y a t) (sidePoint x y a t') ≤ |t - t'| * max (x.2 - x.1) (y.2 - y.1) := by
  have h1 : ∀ c l : ℝ, 0 < l → l ≤ max (x.2 - x.1) (y.2 - y.1) → dist (c + t * l) (c + t' * l)
      ≤ |t - t'| * max (x.2 - x.1) (y.2 - y.1) := by
    intro c l hl hle
    rw [Real.dist_eq, show c + t * l - (c + t' * l) = (t - t') * l by ring, abs_mul, abs_of_pos hl]
    gcongr
  have hX := h1 x.1 (x.2 - x.1) (sub_pos.2 hx) (le_max_left _ _)
  have hY := h1 y.1 (y.2 - y.1) (sub_pos.2 hy) (le_max_right _ _)
  have h0 : 0 ≤ |t - t'| * max (x.2 - x.1) (y.2 - y.1) := dist_nonneg.trans hX
  rw [Prod.dist_eq]
  fin_cases a <;> simp only [sidePoint] <;> refine max_le ?_ ?_ <;> first | exact hX | exact hY | simpa using h0

/-- The sides belong to the boundary of the rectangle. -/
lemma sidePoint_mem {x y : ℝ × ℝ} (hx : x.1 < x.2) (hy : y.1 < y.2) (a : Fin 4) {t : ℝ} (ht : t ∈ Set.Icc (0 : ℝ) 1) :
    sidePoint x y a t ∈ frontier (domain x y) := by
  have hX : x.1 + t * (x.2 - x.1) ∈ Set.Icc x.1 x.2 := ⟨by nlinarith [ht.1], by nlinarith [ht.2]⟩
  have hY : y.1 + t * (y.2 - y.1) ∈ Set.Icc y.1 y.2 := ⟨by nlinarith [ht.1], by nlinarith [ht.2]⟩
  unfold domain
  rw [frontier_prod_eq, closure_Icc, closure_Icc, frontier_Icc hx.le, frontier_Icc hy.le]
  fin_cases a
  · exact Or.inl ⟨hX, Or.inl rfl⟩
  · exact Or.inr ⟨Or.inr rfl, hY⟩
  · exact Or.inl ⟨hX, Or.inr rfl⟩
  · exact Or.inr ⟨Or.inl rfl, hY⟩

/-- **C120** (error bound for every draw).  On the mesh of `nx × ny` rectangles of a rectangle of the size `W × H` with
`nb ≥ 4` boundary points, let the boundary functions be the values of the classical solution `v`, let the error `u - v`
be Lipschitz continuous on the boundary with constant `K` and the defect of `u` with constant `Λ`.  Then, whatever the
draw, the error is everywhere at most `K max(W, H) / (nb / 4) + √(4 (nb / 4) L_b)
+ A ((N √L + 8 δ) nx ny / (W H) + Λ max (W / nx) (H / ny))`, where `L_b` and `L` are the boundary loss and the PDE loss that
`DenseModel` reports. -/
theorem C120_error {V : Type} (G : Geometry2D) {x y : ℝ × ℝ} (hx : x.1 < x.2) (hy : y.1 < y.2) (nx ny : ℕ) {nb : ℕ}
    (hnx : 0 < nx) (hny : 0 < ny) (hnb : 4 ≤ nb) {smp : Fin 4 → Fin (nb / 4) → ℝ} (hs : ∀ a, IsStratified (smp a))
    {dict : List (ℤ × (ℝ → ℝ → ℝ))} {g : Fin 4 → ℝ → ℝ → ℝ}
    (hg : ∀ a : Fin 4, dict.lookup (1000 + (a : ℕ) : ℤ) = some (g a)) {bdv : List (ℝ × ℝ) × List ℝ}
    (hb : IsBoundaryData x y nb smp dict bdv) {s : FESettings}
    {ψ : ℕ → ℕ → ℝ × ℝ → ℝ} {f ρ : ℝ → ℝ → ℝ} {nq : ℕ} {S : Fespace2D (ℝ → ℝ → ℝ) V (s.feOrder.toNat ^ 2) nq}
    {D : DataHandler2D (s.feOrder.toNat ^ 2) nq} (hty : s.feType ≠ "jacobi_plain")
    (hV : VariationalSetup (generateQuadMeshInternal G x y nx ny nb smp).cells s.feType s.feOrder.toNat ψ f)
    (hR : Discretised (generateQuadMeshInternal G x y nx ny nb smp).cells f s S D) (kind : LossKind) (hk : kind.forward)
    (p : ParamDict) (e : ℝ) (b : ℝ × ℝ) (r : ℝ) (hco : ConstantCoefficients kind p e b r) (u v : ℝ × ℝ → ℝ)
    (he : ErrorSetting (domain x y) e b r f ρ u v)
    (hv : ∀ a, ∀ t ∈ Set.Icc (0 : ℝ) 1, g a (sidePoint x y a t).1 (sidePoint x y a t).2 = v (sidePoint x y a t))
    (K : ℝ) (hK0 : 0 ≤ K)
    (hK : ∀ z ∈ frontier (domain x y), ∀ w ∈ frontier (domain x y), |(u z - v z) - (u w - v w)| ≤ K * dist z w)
    (A : ℝ) (hA : StabilityFactor (domain x y) e b r A) (Λ δ : ℝ) (hΛ0 : 0 ≤ Λ) (hδ0 : 0 ≤ δ)
    (hΛ : ∀ z ∈ domain x y, ∀ w ∈ domain x y, |ρ z.1 z.2 - ρ w.1 w.2| ≤ Λ * dist z w)
    (hδ : IntegrandsNear (ruleDegree s.quadType s.quadOrder) (generateQuadMeshInternal G x y nx ny nb smp).cells
      s.feOrder.toNat ψ (fun _ => e) u b r f (fun _ _ => δ)) (net : Network 1) (hnet : RowWise net (fun _ => u))
    (beta : ℝ) :
    ∃ out, trainStepDense (lossOf kind _ _ _) (modelDataOf D bdv S.nCells) net beta p = .ok out ∧
      ∀ z ∈ domain x y, |u z - v z| ≤ K * max (x.2 - x.1) (y.2 - y.1) / (nb / 4 : ℕ)
        + √(4 * (nb / 4 : ℕ) * out.lossDirichlet 0)
        + A * ((s.feOrder.toNat * √out.lossPde + 8 * δ) * (nx * ny) / ((x.2 - x.1) * (y.2 - y.1))
          + Λ * max ((x.2 - x.1) / nx) ((y.2 - y.1) / ny)) := by
  obtain ⟨out, _, h1, -, h3⟩ := C97_internal G x y hx hy nx ny nb hnx hny smp _ rfl hty hV hR bdv kind hk p e b r hco u v he
    A hA Λ δ hΛ0 hδ0 hΛ hδ net hnet beta
  refine ⟨out, h1, fun z hz => (h3 _ ?_ (fun w hw => ?_) z hz).1⟩
  · have := (sub_pos.2 hx).le.trans (le_max_left (x.2 - x.1) (y.2 - y.1))
    positivity
  · obtain ⟨a, t, ht, rfl⟩ := frontier_sides hx hy hw
    have h := (C119_certificate hnb hs hg hb u (K * max (x.2 - x.1) (y.2 - y.1) / (nb / 4 : ℕ))
      (fun a t ht t' ht' htt => by
        rw [hv a t ht, hv a t' ht']
        refine (hK _ (sidePoint_mem hx hy a ht) _ (sidePoint_mem hx hy a ht')).trans ?_
        rw [mul_div_assoc]
        refine mul_le_mul_of_nonneg_left ((sidePoint_dist hx hy a t t').trans ?_) hK0
        rw [div_eq_mul_one_div, mul_comm (max _ _)]
        exact mul_le_mul_of_nonneg_right htt ((sub_pos.2 hx).le.trans (le_max_left _ _))) D S.nCells
      (lossOf kind _ _ _) beta p a t ht).1 net hnet out h1
    rw [hv a t ht] at h
    linarith

/-- **C120** (a stopping rule for every draw).  Let `nb` be at least so large that `4 K max(W, H) ≤ τ (nb / 4)`, the cells so
small that `4 A Λ max (W / nx) (H / ny) ≤ τ` and the quadrature so accurate that `64 A δ nx ny ≤ τ W H`.  Then training may
stop as soon as the reported losses satisfy `64 (nb / 4) L_b ≤ τ²` and `(8 A N nx ny)² L ≤ (τ W H)²`: whatever the draw, the
error is then at most `τ` everywhere. -/
theorem C120_tolerance {V : Type} (G : Geometry2D) {x y : ℝ × ℝ} (hx : x.1 < x.2) (hy : y.1 < y.2) (nx ny : ℕ) {nb : ℕ}
    (hnx : 0 < nx) (hny : 0 < ny) (hnb : 4 ≤ nb) {smp : Fin 4 → Fin (nb / 4) → ℝ} (hs : ∀ a, IsStratified (smp a))
    {dict : List (ℤ × (ℝ → ℝ → ℝ))} {g : Fin 4 → ℝ → ℝ → ℝ}
    (hg : ∀ a : Fin 4, dict.lookup (1000 + (a : ℕ) : ℤ) = some (g a)) {bdv : List (ℝ × ℝ) × List ℝ}
    (hb : IsBoundaryData x y nb smp dict bdv) {s : FESettings}
    {ψ : ℕ → ℕ → ℝ × ℝ → ℝ} {f ρ : ℝ → ℝ → ℝ} {nq : ℕ} {S : Fespace2D (ℝ → ℝ → ℝ) V (s.feOrder.toNat ^ 2) nq}
    {D : DataHandler2D (s.feOrder.toNat ^ 2) nq} (hty : s.feType ≠ "jacobi_plain")
    (hV : VariationalSetup (generateQuadMeshInternal G x y nx ny nb smp).cells s.feType s.feOrder.toNat ψ f)
    (hR : Discretised (generateQuadMeshInternal G x y nx ny nb smp).cells f s S D) (kind : LossKind) (hk : kind.forward)
    (p : ParamDict) (e : ℝ) (b : ℝ × ℝ) (r : ℝ) (hco : ConstantCoefficients kind p e b r) (u v : ℝ × ℝ → ℝ)
    (he : ErrorSetting (domain x y) e b r f ρ u v)
    (hv : ∀ a, ∀ t ∈ Set.Icc (0 : ℝ) 1, g a (sidePoint x y a t).1 (sidePoint x y a t).2 = v (sidePoint x y a t))
    (K : ℝ) (hK0 : 0 ≤ K)
    (hK : ∀ z ∈ frontier (domain x y), ∀ w ∈ frontier (domain x y), |(u z - v z) - (u w - v w)| ≤ K * dist z w)
    (A : ℝ) (hA : StabilityFactor (domain x y) e b r A) (Λ δ : ℝ) (hΛ0 : 0 ≤ Λ) (hδ0 : 0 ≤ δ)
    (hΛ : ∀ z ∈ domain x y, ∀ w ∈ domain x y, |ρ z.1 z.2 - ρ w.1 w.2| ≤ Λ * dist z w)
    (hδ : IntegrandsNear (ruleDegree s.quadType s.quadOrder) (generateQuadMeshInternal G x y nx ny nb smp).cells
      s.feOrder.toNat ψ (fun _ => e) u b r f (fun _ _ => δ)) (net : Network 1) (hnet : RowWise net (fun _ => u))
    (beta : ℝ)
    (τ : ℝ) (hτ : 0 ≤ τ) (hpoints : 4 * (K * max (x.2 - x.1) (y.2 - y.1)) ≤ τ * (nb / 4 : ℕ))
    (hsize : 4 * (A * (Λ * max ((x.2 - x.1) / nx) ((y.2 - y.1) / ny))) ≤ τ)
    (hrule : 64 * (A * δ * (nx * ny)) ≤ τ * ((x.2 - x.1) * (y.2 - y.1))) :
    ∃ out, trainStepDense (lossOf kind _ _ _) (modelDataOf D bdv S.nCells) net beta p = .ok out ∧
      (64 * (nb / 4 : ℕ) * out.lossDirichlet 0 ≤ τ ^ 2 →
        (8 * A * s.feOrder.toNat * (nx * ny)) ^ 2 * out.lossPde ≤ (τ * ((x.2 - x.1) * (y.2 - y.1))) ^ 2 →
        ∀ z ∈ domain x y, |u z - v z| ≤ τ) := by
  obtain ⟨out, h1, h2⟩ := C120_error G hx hy nx ny hnx hny hnb hs hg hb hty hV hR kind hk p e b r hco u v he hv K hK0 hK
    A hA Λ δ hΛ0 hδ0 hΛ hδ net hnet beta
  refine ⟨out, h1, fun hB hL z hz => (h2 z hz).trans ?_⟩
  have hn : (0 : ℝ) < (nb / 4 : ℕ) := by exact_mod_cast Nat.div_pos hnb (by norm_num)
  have hWH : 0 < (x.2 - x.1) * (y.2 - y.1) := mul_pos (sub_pos.2 hx) (sub_pos.2 hy)
  have t1 : K * max (x.2 - x.1) (y.2 - y.1) / (nb / 4 : ℕ) ≤ τ / 4 := by
    rw [div_le_iff₀ hn]
    linarith
  have t2 : √(4 * (nb / 4 : ℕ) * out.lossDirichlet 0) ≤ τ / 4 :=
    Real.sqrt_le_iff.2 ⟨by linarith, by linarith [show (τ / 4) ^ 2 = τ ^ 2 / 16 by ring]⟩
  have t3 : 8 * A * s.feOrder.toNat * (nx * ny) * √out.lossPde ≤ τ * ((x.2 - x.1) * (y.2 - y.1)) := by
    refine abs_le_of_sq_le_sq' ?_ (by positivity) |>.2
    rcases le_total 0 out.lossPde with h | h
    · rwa [mul_pow, Real.sq_sqrt h]
    · rw [Real.sqrt_eq_zero_of_nonpos h]
      simpa using sq_nonneg _
  have t4 : A * ((s.feOrder.toNat * √out.lossPde + 8 * δ) * (nx * ny) / ((x.2 - x.1) * (y.2 - y.1))) ≤ τ / 4 := by
    rw [← mul_div_assoc, div_le_iff₀ hWH]
    linarith
  rw [mul_add]
  linarith

/-- **C120** (Lipschitz continuous errors).  If the error is Lipschitz continuous on the boundary with constant `K`, every
draw samples it up to `K max(W, H) / (nb / 4)`. -/
theorem C120_lipschitz {x y : ℝ × ℝ} (hx : x.1 < x.2) (hy : y.1 < y.2) {nb : ℕ} (hnb : 4 ≤ nb)
    {smp : Fin 4 → Fin (nb / 4) → ℝ} (hs : ∀ a, IsStratified (smp a)) {dict : List (ℤ × (ℝ → ℝ → ℝ))}
    {g : Fin 4 → ℝ → ℝ → ℝ} (hg : ∀ a : Fin 4, dict.lookup (1000 + (a : ℕ) : ℤ) = some (g a))
    {bdv : List (ℝ × ℝ) × List ℝ} (hb : IsBoundaryData x y nb smp dict bdv) (u v : ℝ × ℝ → ℝ)
    (hv : ∀ a, ∀ t ∈ Set.Icc (0 : ℝ) 1, g a (sidePoint x y a t).1 (sidePoint x y a t).2 = v (sidePoint x y a t))
    (K : ℝ) (hK0 : 0 ≤ K)
    (hK : ∀ z ∈ frontier (domain x y), ∀ w ∈ frontier (domain x y), |(u z - v z) - (u w - v w)| ≤ K * dist z w)
    (G : Geometry2D) (nx ny : ℕ) (hnx : 0 < nx) (hny : 0 < ny) :
    BoundarySampled (meshSet (generateQuadMeshInternal G x y nx ny nb smp).cells) bdv u v
      (K * max (x.2 - x.1) (y.2 - y.1) / (nb / 4 : ℕ)) :=
  (C120_sampled hx hy hnb hs hg hb u v hv _ (fun a t ht t' ht' htt => by
    refine (hK _ (sidePoint_mem hx hy a ht) _ (sidePoint_mem hx hy a ht')).trans ?_
    rw [mul_div_assoc]
    refine mul_le_mul_of_nonneg_left ((sidePoint_dist hx hy a t t').trans ?_) hK0
    rw [div_eq_mul_one_div, mul_comm (max _ _)]
    exact mul_le_mul_of_nonneg_right htt ((sub_pos.2 hx).le.trans (le_max_left _ _))) G nx ny hnx hny).2

/-- **C120** (the unknown parameter, for every draw).  In the inverse Poisson problem on the rectangle with exact boundary
values: if the forcing function has one sign and is at least `q` in absolute value, and a sensor has distance at least `r`
from the boundary, then for every draw the three losses that `DenseModel_Inverse` reports bound the error of the parameter
`e` as in `C97_identified`, with the sampling error `K max(W, H) / (nb / 4)`. -/
theorem C120_identified {V : Type} (G : Geometry2D) {x y : ℝ × ℝ} (hx : x.1 < x.2) (hy : y.1 < y.2) (nx ny : ℕ) {nb : ℕ}
    (hnx : 0 < nx) (hny : 0 < ny) (hnb : 4 ≤ nb) {smp : Fin 4 → Fin (nb / 4) → ℝ} (hs : ∀ a, IsStratified (smp a))
    {dict : List (ℤ × (ℝ → ℝ → ℝ))} {g : Fin 4 → ℝ → ℝ → ℝ}
    (hg : ∀ a : Fin 4, dict.lookup (1000 + (a : ℕ) : ℤ) = some (g a)) {bdv : List (ℝ × ℝ) × List ℝ}
    (hb : IsBoundaryData x y nb smp dict bdv) {s : FESettings}
    {ψ : ℕ → ℕ → ℝ × ℝ → ℝ} {f ρ : ℝ → ℝ → ℝ} {nq : ℕ} {S : Fespace2D (ℝ → ℝ → ℝ) V (s.feOrder.toNat ^ 2) nq}
    {D : DataHandler2D (s.feOrder.toNat ^ 2) nq} (hty : s.feType ≠ "jacobi_plain")
    (hV : VariationalSetup (generateQuadMeshInternal G x y nx ny nb smp).cells s.feType s.feOrder.toNat ψ f)
    (hR : Discretised (generateQuadMeshInternal G x y nx ny nb smp).cells f s S D)
    {nS : ℕ} (sp : Fin nS → ℝ × ℝ) (sv : Fin nS → ℝ) (p ip : ParamDict) (e e₀ : ℝ) (he : HasParam ip "eps" e)
    (u v : ℝ × ℝ → ℝ) (h : InverseSetting (domain x y) e e₀ f ρ u v)
    (hv : ∀ a, ∀ t ∈ Set.Icc (0 : ℝ) 1, g a (sidePoint x y a t).1 (sidePoint x y a t).2 = v (sidePoint x y a t))
    (K : ℝ) (hK0 : 0 ≤ K)
    (hK : ∀ z ∈ frontier (domain x y), ∀ w ∈ frontier (domain x y), |(u z - v z) - (u w - v w)| ≤ K * dist z w)
    (A : ℝ) (hA : StabilityFactor (domain x y) e (0, 0) 0 A) (Λ δ η : ℝ) (hΛ0 : 0 ≤ Λ) (hδ0 : 0 ≤ δ)
    (hΛ : ∀ z ∈ domain x y, ∀ w ∈ domain x y, |ρ z.1 z.2 - ρ w.1 w.2| ≤ Λ * dist z w)
    (hδ : IntegrandsNear (ruleDegree s.quadType s.quadOrder) (generateQuadMeshInternal G x y nx ny nb smp).cells
      s.feOrder.toNat ψ (fun _ => e) u (0, 0) 0 f (fun _ _ => δ)) (hη : ∀ i, |sv i - v (sp i)| ≤ η) (net : Network 1)
    (hnet : RowWise net (fun _ => u)) (beta : ℝ) :
    ∃ out, trainStepInverse (lossPoissonInverse _ _ _) (modelDataOf D bdv S.nCells) sp sv ip net beta p = .ok out ∧
      ∀ (i : Fin nS) (q r : ℝ), 0 < q → 0 < r →
        ((∀ z ∈ interior (domain x y), q ≤ f z.1 z.2) ∨ ∀ z ∈ interior (domain x y), f z.1 z.2 ≤ -q) →
        sp i ∈ domain x y → (∀ z ∈ frontier (domain x y), r ^ 2 ≤ sqDist z (sp i)) →
        |e - e₀| ≤ 4 * e * e₀ / (q * r ^ 2) * (√(nS * out.sensorLoss 0) + η
          + (K * max (x.2 - x.1) (y.2 - y.1) / (nb / 4 : ℕ) + √((4 * (nb / 4) : ℕ) * out.lossDirichlet 0))
          + A * ((s.feOrder.toNat * √out.lossPde + 8 * δ) / ((x.2 - x.1) / nx * ((y.2 - y.1) / ny))
            + Λ * max ((x.2 - x.1) / nx) ((y.2 - y.1) / ny))) := by
  have hmesh : meshSet (generateQuadMeshInternal G x y nx ny nb smp).cells = domain x y := by
    ext z
    rw [(C03_tiling G x y hx hy nx ny nb hnx hny smp).1 z]
    rfl
  have hbd := C120_lipschitz hx hy hnb hs hg hb u v hv K hK0 hK G nx ny hnx hny
  have hgrid := internal_grid G hx hy nx ny nb smp
  have hW := sub_pos.2 hx
  have hH := sub_pos.2 hy
  rw [← hmesh] at h hA hΛ ⊢
  obtain ⟨out, h1, -, h2⟩ := C97_identified hty hV hR bdv sp sv p ip e e₀ he u v h A hA δ
    ((x.2 - x.1) / nx * ((y.2 - y.1) / ny)) (Λ * max ((x.2 - x.1) / nx) ((y.2 - y.1) / ny)) _ η hδ0 (by positivity)
    (by have := hW.le.trans (le_max_left (x.2 - x.1) (y.2 - y.1)); positivity) hδ
    (fun c hc => by
      obtain ⟨i, -, j, -, rfl⟩ := hgrid c hc
      exact (gridCell_area x y nx ny i j).ge)
    (oscillation_of_lipschitz hΛ0 (fun c hc z hz w hw =>
      hΛ z (cellSet_subset_meshSet hc hz) w (cellSet_subset_meshSet hc hw)) fun c hc k l => by
        obtain ⟨i, -, j, -, rfl⟩ := hgrid c hc
        exact gridCell_dist hx hy nx ny i j k l) hbd hη net hnet beta
  rw [(boundary_rows_eq hg hb u).1] at h2
  exact ⟨out, h1, h2⟩

/-- **C120** (coefficient fields, for every draw).  The error bound for `DenseModel_Inverse_Domain` and the solution `v` for
the coefficient `a` that has been found. -/
theorem C120_field {V : Type} (G : Geometry2D) {x y : ℝ × ℝ} (hx : x.1 < x.2) (hy : y.1 < y.2) (nx ny : ℕ) {nb : ℕ}
    (hnx : 0 < nx) (hny : 0 < ny) (hnb : 4 ≤ nb) {smp : Fin 4 → Fin (nb / 4) → ℝ} (hs : ∀ a, IsStratified (smp a))
    {dict : List (ℤ × (ℝ → ℝ → ℝ))} {g : Fin 4 → ℝ → ℝ → ℝ}
    (hg : ∀ a : Fin 4, dict.lookup (1000 + (a : ℕ) : ℤ) = some (g a)) {bdv : List (ℝ × ℝ) × List ℝ}
    (hb : IsBoundaryData x y nb smp dict bdv) {s : FESettings}
    {ψ : ℕ → ℕ → ℝ × ℝ → ℝ} {f ρ : ℝ → ℝ → ℝ} {nq : ℕ} {S : Fespace2D (ℝ → ℝ → ℝ) V (s.feOrder.toNat ^ 2) nq}
    {D : DataHandler2D (s.feOrder.toNat ^ 2) nq} (hty : s.feType ≠ "jacobi_plain")
    (hV : VariationalSetup (generateQuadMeshInternal G x y nx ny nb smp).cells s.feType s.feOrder.toNat ψ f)
    (hR : Discretised (generateQuadMeshInternal G x y nx ny nb smp).cells f s S D)
    {nS : ℕ} (sp : Fin nS → ℝ × ℝ) (sv : Fin nS → ℝ) (p : ParamDict) (b : ℝ × ℝ) (r : ℝ) (hbx : HasParam p "b_x" b.1)
    (hby : HasParam p "b_y" b.2) (hbr : HasParam p "c" r) (a u v : ℝ × ℝ → ℝ) (h : FieldSetting (domain x y) a b r f ρ u v)
    (hv : ∀ a, ∀ t ∈ Set.Icc (0 : ℝ) 1, g a (sidePoint x y a t).1 (sidePoint x y a t).2 = v (sidePoint x y a t))
    (K : ℝ) (hK0 : 0 ≤ K)
    (hK : ∀ z ∈ frontier (domain x y), ∀ w ∈ frontier (domain x y), |(u z - v z) - (u w - v w)| ≤ K * dist z w)
    (A : ℝ) (hA : StabilityFactorField (domain x y) a b r A) (Λ δ : ℝ) (hΛ0 : 0 ≤ Λ) (hδ0 : 0 ≤ δ)
    (hΛ : ∀ z ∈ domain x y, ∀ w ∈ domain x y, |ρ z.1 z.2 - ρ w.1 w.2| ≤ Λ * dist z w)
    (hδ : IntegrandsNear (ruleDegree s.quadType s.quadOrder) (generateQuadMeshInternal G x y nx ny nb smp).cells
      s.feOrder.toNat ψ a u b r f (fun _ _ => δ)) (net : Network 2) (hnet : RowWise net ![u, a]) (beta : ℝ) :
    ∃ out, trainStepInverseDomain (lossCd2dInverseDomain _ _ _) (modelDataOf D bdv S.nCells) sp sv net beta p = .ok out ∧
      ∀ z ∈ domain x y, |u z - v z| ≤ K * max (x.2 - x.1) (y.2 - y.1) / (nb / 4 : ℕ)
        + √((4 * (nb / 4) : ℕ) * out.lossDirichlet 0)
        + A * ((s.feOrder.toNat * √out.lossPde + 8 * δ) / ((x.2 - x.1) / nx * ((y.2 - y.1) / ny))
          + Λ * max ((x.2 - x.1) / nx) ((y.2 - y.1) / ny)) := by
  have hmesh : meshSet (generateQuadMeshInternal G x y nx ny nb smp).cells = domain x y := by
    ext z
    rw [(C03_tiling G x y hx hy nx ny nb hnx hny smp).1 z]
    rfl
  have hbd := C120_lipschitz hx hy hnb hs hg hb u v hv K hK0 hK G nx ny hnx hny
  have hgrid := internal_grid G hx hy nx ny nb smp
  have hW := sub_pos.2 hx
  have hH := sub_pos.2 hy
  rw [← hmesh] at h hA hΛ ⊢
  obtain ⟨out, h1, -, h2⟩ := C97_field hty hV hR bdv sp sv p b r hbx hby hbr a u v h A hA δ
    ((x.2 - x.1) / nx * ((y.2 - y.1) / ny)) (Λ * max ((x.2 - x.1) / nx) ((y.2 - y.1) / ny)) hδ0 (by positivity) hδ
    (fun c hc => by
      obtain ⟨i, -, j, -, rfl⟩ := hgrid c hc
      exact (gridCell_area x y nx ny i j).ge)
    (oscillation_of_lipschitz hΛ0 (fun c hc z hz w hw =>
      hΛ z (cellSet_subset_meshSet hc hz) w (cellSet_subset_meshSet hc hw)) fun c hc k l => by
        obtain ⟨i, -, j, -, rfl⟩ := hgrid c hc
        exact gridCell_dist hx hy nx ny i j k l) net hnet beta
  have h3 := h2 _ (by have := hW.le.trans (le_max_left (x.2 - x.1) (y.2 - y.1)); positivity) hbd
  rw [(boundary_rows_eq hg hb u).1] at h3
  exact ⟨out, h1, h3⟩

/-- C120 on the internal mesh of `2 × 3` cells of the unit square with eight boundary points, for the network `x²` and the
solution `2 x²` of Poisson's equation: here `K = 2`, `A = 1 / 2`, `Λ = δ = 0` and `N = 5`. -/
example (beta : ℝ) (G : Geometry2D) (smp : Fin 4 → Fin (8 / 4) → ℝ) (hs : ∀ a, IsStratified (smp a)) :
    ∃ bdv, IsBoundaryData (0, 1) (0, 1) 8 smp
      ((List.finRange 4).map fun a : Fin 4 => ((1000 + (a : ℕ) : ℤ), fun X _ => -(-4) / 2 * X ^ 2)) bdv ∧
    ∃ nq, ∃ S : Fespace2D (ℝ → ℝ → ℝ) ℝ (defectSettings.feOrder.toNat ^ 2) nq, ∃ D, ∃ out : TrainOut 1,
      Discretised (generateQuadMeshInternal G (0, 1) (0, 1) 2 3 8 smp).cells (fun _ _ => -4) defectSettings S D ∧
      trainStepDense (lossOf .poisson _ _ _) (modelDataOf D bdv S.nCells) squareNet beta
        (some [("eps", 1)]) = .ok out ∧
      ∀ z ∈ domain (0, 1) (0, 1), |z.1 ^ 2 - -(-4) / 2 * z.1 ^ 2| ≤ 1 + √(8 * out.lossDirichlet 0) + 15 * √out.lossPde := by
  have hx : ((0, 1) : ℝ × ℝ).1 < ((0, 1) : ℝ × ℝ).2 := by norm_num
  have hgrid := internal_grid G hx hx 2 3 8 smp
  have hcells : ∀ c ∈ (generateQuadMeshInternal G (0, 1) (0, 1) 2 3 8 smp).cells, ConvexCCW c := fun c hc => by
    obtain ⟨i, -, j, -, rfl⟩ := hgrid c hc
    exact convexCCW_gridCell hx hx i j (by norm_num) (by norm_num)
  obtain ⟨ext, -, -⟩ := quadRoutines_exist
  have hd : ∀ a : Fin 4, ((List.finRange 4).map fun a : Fin 4 =>
      ((1000 + (a : ℕ) : ℤ), fun X (_ : ℝ) => -(-4 : ℝ) / 2 * X ^ 2)).lookup (1000 + (a : ℕ) : ℤ)
      = some fun X _ => -(-4) / 2 * X ^ 2 := by
    intro a
    fin_cases a <;> rfl
  obtain ⟨bdv, hb⟩ := boundaryData_exists (0, 1) (0, 1) hx hx 8 smp _ (fun _ X _ => -(-4) / 2 * X ^ 2) hd ext
  obtain ⟨nq, S, D, hS⟩ := internal_space (fun _ _ => -4) G smp
  obtain ⟨ψ, hψ⟩ := testFunctions_exist _ hcells defectSettings.feType defectSettings.feOrder.toNat
  have hA : StabilityFactor (domain (0, 1) (0, 1)) 1 (0, 0) 0 (1 / 2) :=
    Or.inl ⟨1, ⟨0, fun z hz => ⟨hz.1.1, by simpa using hz.1.2⟩⟩, Or.inl (by norm_num)⟩
  have hsub : ∀ z ∈ frontier (domain (0, 1) (0, 1)), z.1 ∈ Set.Icc (0 : ℝ) 1 := fun z hz =>
    ((isClosed_Icc.prod isClosed_Icc : IsClosed (domain (0, 1) (0, 1))).frontier_subset hz).1
  obtain ⟨out, h1, h2⟩ := C120_error G hx hx 2 3 (by norm_num) (by norm_num) (by norm_num) hs hd hb (s := defectSettings)
    (by decide) ⟨hcells, hψ, fun _ _ => continuousOn_const⟩ hS .poisson (Or.inl rfl)
    (some [("eps", 1)]) 1 (0, 0) 0 ⟨1, ⟨_, rfl, rfl⟩, rfl, rfl, rfl⟩ _ _ (square_setting (-4) _) (fun _ _ _ => rfl) 2
    (by norm_num) (fun z hz w hw => by
      obtain ⟨a1, a2⟩ := hsub z hz
      obtain ⟨b1, b2⟩ := hsub w hw
      have hdist : |z.1 - w.1| ≤ dist z w := le_max_left (dist z.1 w.1) (dist z.2 w.2)
      rw [show z.1 ^ 2 - -(-4) / 2 * z.1 ^ 2 - (w.1 ^ 2 - -(-4) / 2 * w.1 ^ 2) = -((z.1 + w.1) * (z.1 - w.1)) by ring,
        abs_neg, abs_mul, abs_of_nonneg (by linarith : 0 ≤ z.1 + w.1)]
      exact mul_le_mul (by linarith) hdist (abs_nonneg _) (by norm_num))
    (1 / 2) hA 0 0 le_rfl le_rfl (fun z _ w _ => by
      rw [square_defect, square_defect]
      simp) (square_integrands (-4) hcells hψ) squareNet (fun _ _ _ _ => rfl) beta
  have hN : (defectSettings.feOrder.toNat : ℝ) = 5 := by simp [defectSettings]
  refine ⟨bdv, hb, nq, S, D, out, hS, h1, fun z hz => (h2 z hz).trans (le_of_eq ?_)⟩
  rw [hN]
  norm_num
  ring

/-- The stopping rule on the same mesh, for the same network and solution and the tolerance 4. -/
example (beta : ℝ) (G : Geometry2D) (smp : Fin 4 → Fin (8 / 4) → ℝ) (hs : ∀ a, IsStratified (smp a)) :
    ∃ bdv, IsBoundaryData (0, 1) (0, 1) 8 smp
      ((List.finRange 4).map fun a : Fin 4 => ((1000 + (a : ℕ) : ℤ), fun X _ => -(-4) / 2 * X ^ 2)) bdv ∧
    ∃ nq, ∃ S : Fespace2D (ℝ → ℝ → ℝ) ℝ (defectSettings.feOrder.toNat ^ 2) nq, ∃ D, ∃ out : TrainOut 1,
      Discretised (generateQuadMeshInternal G (0, 1) (0, 1) 2 3 8 smp).cells (fun _ _ => -4) defectSettings S D ∧
      trainStepDense (lossOf .poisson _ _ _) (modelDataOf D bdv S.nCells) squareNet beta
        (some [("eps", 1)]) = .ok out ∧
      (8 * out.lossDirichlet 0 ≤ 1 → 900 * out.lossPde ≤ 1 →
        ∀ z ∈ domain (0, 1) (0, 1), |z.1 ^ 2 - -(-4) / 2 * z.1 ^ 2| ≤ 4) := by
  have hx : ((0, 1) : ℝ × ℝ).1 < ((0, 1) : ℝ × ℝ).2 := by norm_num
  have hgrid := internal_grid G hx hx 2 3 8 smp
  have hcells : ∀ c ∈ (generateQuadMeshInternal G (0, 1) (0, 1) 2 3 8 smp).cells, ConvexCCW c := fun c hc => by
    obtain ⟨i, -, j, -, rfl⟩ := hgrid c hc
    exact convexCCW_gridCell hx hx i j (by norm_num) (by norm_num)
  obtain ⟨ext, -, -⟩ := quadRoutines_exist
  have hd : ∀ a : Fin 4, ((List.finRange 4).map fun a : Fin 4 =>
      ((1000 + (a : ℕ) : ℤ), fun X (_ : ℝ) => -(-4 : ℝ) / 2 * X ^ 2)).lookup (1000 + (a : ℕ) : ℤ)
      = some fun X _ => -(-4) / 2 * X ^ 2 := by
    intro a
    fin_cases a <;> rfl
  obtain ⟨bdv, hb⟩ := boundaryData_exists (0, 1) (0, 1) hx hx 8 smp _ (fun _ X _ => -(-4) / 2 * X ^ 2) hd ext
  obtain ⟨nq, S, D, hS⟩ := internal_space (fun _ _ => -4) G smp
  obtain ⟨ψ, hψ⟩ := testFunctions_exist _ hcells defectSettings.feType defectSettings.feOrder.toNat
  have hA : StabilityFactor (domain (0, 1) (0, 1)) 1 (0, 0) 0 (1 / 2) :=
    Or.inl ⟨1, ⟨0, fun z hz => ⟨hz.1.1, by simpa using hz.1.2⟩⟩, Or.inl (by norm_num)⟩
  have hsub : ∀ z ∈ frontier (domain (0, 1) (0, 1)), z.1 ∈ Set.Icc (0 : ℝ) 1 := fun z hz =>
    ((isClosed_Icc.prod isClosed_Icc : IsClosed (domain (0, 1) (0, 1))).frontier_subset hz).1
  obtain ⟨out, h1, h2⟩ := C120_tolerance G hx hx 2 3 (by norm_num) (by norm_num) (by norm_num) hs hd hb (s := defectSettings)
    (by decide) ⟨hcells, hψ, fun _ _ => continuousOn_const⟩ hS .poisson (Or.inl rfl)
    (some [("eps", 1)]) 1 (0, 0) 0 ⟨1, ⟨_, rfl, rfl⟩, rfl, rfl, rfl⟩ _ _ (square_setting (-4) _) (fun _ _ _ => rfl) 2
    (by norm_num) (fun z hz w hw => by
      obtain ⟨a1, a2⟩ := hsub z hz
      obtain ⟨b1, b2⟩ := hsub w hw
      have hdist : |z.1 - w.1| ≤ dist z w := le_max_left (dist z.1 w.1) (dist z.2 w.2)
      rw [show z.1 ^ 2 - -(-4) / 2 * z.1 ^ 2 - (w.1 ^ 2 - -(-4) / 2 * w.1 ^ 2) = -((z.1 + w.1) * (z.1 - w.1)) by ring,
        abs_neg, abs_mul, abs_of_nonneg (by linarith : 0 ≤ z.1 + w.1)]
      exact mul_le_mul (by linarith) hdist (abs_nonneg _) (by norm_num))
    (1 / 2) hA 0 0 le_rfl le_rfl (fun z _ w _ => by
      rw [square_defect, square_defect]
      simp) (square_integrands (-4) hcells hψ) squareNet (fun _ _ _ _ => rfl) beta 4
    (by norm_num) (by norm_num) (by norm_num) (by norm_num)
  have hN : (defectSettings.feOrder.toNat : ℝ) = 5 := by simp [defectSettings]
  refine ⟨bdv, hb, nq, S, D, out, hS, h1, fun hB hL => h2 ?_ ?_⟩
  · norm_num
    linarith
  · rw [hN]
    norm_num
    linarith

/-- C120 for the unknown parameter: the same mesh and network, forcing function 4, true parameter 1, current parameter
`e`, and a sensor in the middle. -/
example (e beta : ℝ) (he : 0 < e) (G : Geometry2D) (smp : Fin 4 → Fin (8 / 4) → ℝ) (hs : ∀ a, IsStratified (smp a)) :
    ∃ bdv, IsBoundaryData (0, 1) (0, 1) 8 smp
      ((List.finRange 4).map fun a : Fin 4 => ((1000 + (a : ℕ) : ℤ), fun X _ => -4 / 2 * X ^ 2)) bdv ∧
    ∃ nq, ∃ S : Fespace2D (ℝ → ℝ → ℝ) ℝ (defectSettings.feOrder.toNat ^ 2) nq, ∃ D, ∃ out : TrainOutInverse 1,
      Discretised (generateQuadMeshInternal G (0, 1) (0, 1) 2 3 8 smp).cells (fun _ _ => 4) defectSettings S D ∧
      trainStepInverse (lossPoissonInverse _ _ _) (modelDataOf D bdv S.nCells) (fun _ : Fin 1 => (1 / 2, 1 / 2))
        (fun _ => -1 / 2) (some [("eps", e)]) squareNet beta none = .ok out ∧
      |e - 1| ≤ 4 * e * (√(out.sensorLoss 0) + (3 + √(8 * out.lossDirichlet 0)) + 15 / e * √out.lossPde) := by
  have hx : ((0, 1) : ℝ × ℝ).1 < ((0, 1) : ℝ × ℝ).2 := by norm_num
  have hgrid := internal_grid G hx hx 2 3 8 smp
  have hcells : ∀ c ∈ (generateQuadMeshInternal G (0, 1) (0, 1) 2 3 8 smp).cells, ConvexCCW c := fun c hc => by
    obtain ⟨i, -, j, -, rfl⟩ := hgrid c hc
    exact convexCCW_gridCell hx hx i j (by norm_num) (by norm_num)
  obtain ⟨ext, -, -⟩ := quadRoutines_exist
  have hd : ∀ a : Fin 4, ((List.finRange 4).map fun a : Fin 4 =>
      ((1000 + (a : ℕ) : ℤ), fun X (_ : ℝ) => -(4 : ℝ) / 2 * X ^ 2)).lookup (1000 + (a : ℕ) : ℤ)
      = some fun X _ => -4 / 2 * X ^ 2 := by
    intro a
    fin_cases a <;> rfl
  obtain ⟨bdv, hb⟩ := boundaryData_exists (0, 1) (0, 1) hx hx 8 smp _ (fun _ X _ => -4 / 2 * X ^ 2) hd ext
  obtain ⟨nq, S, D, hS⟩ := internal_space (fun _ _ => 4) G smp
  obtain ⟨ψ, hψ⟩ := testFunctions_exist _ hcells defectSettings.feType defectSettings.feOrder.toNat
  have ha : IsPolynomial (fun i j => i + j ≤ 0) fun _ : ℝ × ℝ => e := const_polynomial 0 e
  have hf : IsPolynomial (fun i j => i + j ≤ 0 + 2) fun _ : ℝ × ℝ => (4 : ℝ) := const_polynomial _ 4
  have hA : StabilityFactor (domain (0, 1) (0, 1)) e (0, 0) 0 (1 ^ 2 / (2 * e)) :=
    Or.inl ⟨1, ⟨0, fun z hz => ⟨hz.1.1, by simpa using hz.1.2⟩⟩, Or.inl rfl⟩
  have hsub : ∀ z ∈ frontier (domain (0, 1) (0, 1)), z.1 ∈ Set.Icc (0 : ℝ) 1 := fun z hz =>
    ((isClosed_Icc.prod isClosed_Icc : IsClosed (domain (0, 1) (0, 1))).frontier_subset hz).1
  obtain ⟨h4, h5⟩ := And.intro (square_setting 4 (domain (0, 1) (0, 1))).solution
    (square_setting 4 (domain (0, 1) (0, 1))).diffV
  obtain ⟨out, h1, h2⟩ := C120_identified G hx hx 2 3 (by norm_num) (by norm_num) (by norm_num) hs hd hb
    (s := defectSettings) (by decide) ⟨hcells, hψ, fun _ _ => continuousOn_const⟩ hS (fun _ : Fin 1 => (1 / 2, 1 / 2))
    (fun _ => -1 / 2) none (some [("eps", e)]) e 1 ⟨_, rfl, rfl⟩ (fun z => z.1 ^ 2) (fun z => (-4 / 2) * z.1 ^ 2)
    ⟨he, one_pos, polynomial_defect (f := fun _ _ => 4) ha square_polynomial hf (0, 0) 0 _, h4,
      fun z _ => square_polynomial.differentiable z, h5⟩ (fun _ _ _ => rfl) 6
    (by norm_num) (fun z hz w hw => by
      obtain ⟨a1, a2⟩ := hsub z hz
      obtain ⟨b1, b2⟩ := hsub w hw
      have hdist : |z.1 - w.1| ≤ dist z w := le_max_left (dist z.1 w.1) (dist z.2 w.2)
      rw [show z.1 ^ 2 - -4 / 2 * z.1 ^ 2 - (w.1 ^ 2 - -4 / 2 * w.1 ^ 2) = 3 * (z.1 + w.1) * (z.1 - w.1) by ring,
        abs_mul, abs_of_nonneg (by linarith : 0 ≤ 3 * (z.1 + w.1))]
      exact mul_le_mul (by linarith) hdist (abs_nonneg _) (by norm_num))
    _ hA 0 0 0 le_rfl le_rfl (fun z _ w _ => by
      rw [square_defect_scaled, square_defect_scaled]
      simp) (integrandsNear_polynomial (f := fun _ _ => 4) ha square_polynomial hf (0, 0) 0 hcells hψ (by decide))
    (fun _ => by norm_num) squareNet (fun _ _ _ _ => rfl) beta
  refine ⟨bdv, hb, nq, S, D, out, hS, h1, (h2 0 4 (1 / 2) (by norm_num) (by norm_num) (Or.inl fun _ _ => le_rfl)
    ⟨by norm_num, by norm_num⟩ fun z hz => ?_).trans (le_of_eq ?_)⟩
  · obtain ⟨a, t, ht, rfl⟩ := frontier_sides hx hx hz
    fin_cases a <;> simp only [sqDist, sidePoint] <;> nlinarith [sq_nonneg (t - 1 / 2)]
  · have hN : (defectSettings.feOrder.toNat : ℝ) = 5 := by simp [defectSettings]
    rw [hN]
    simp only [Nat.reduceDiv, Nat.reduceMul, Nat.cast_ofNat, Nat.cast_one, one_mul, sub_zero, max_self, mul_one, mul_zero,
      add_zero, zero_mul, one_pow]
    generalize √(8 * out.lossDirichlet 0) = l
    field_simp
    ring

/-- C120 for a coefficient field: the outputs `x²` and `4 + x`, forcing function `-1`, for which `x` is the solution. -/
example (beta w : ℝ) (G : Geometry2D) (smp : Fin 4 → Fin (8 / 4) → ℝ) (hs : ∀ a, IsStratified (smp a)) :
    ∃ bdv, IsBoundaryData (0, 1) (0, 1) 8 smp
      ((List.finRange 4).map fun a : Fin 4 => ((1000 + (a : ℕ) : ℤ), fun X _ => X)) bdv ∧
    ∃ nq, ∃ S : Fespace2D (ℝ → ℝ → ℝ) ℝ (defectSettings.feOrder.toNat ^ 2) nq, ∃ D, ∃ out : TrainOutInverse 1,
      Discretised (generateQuadMeshInternal G (0, 1) (0, 1) 2 3 8 smp).cells (fun _ _ => -1) defectSettings S D ∧
      trainStepInverseDomain (lossCd2dInverseDomain _ _ _) (modelDataOf D bdv S.nCells)
        (fun _ : Fin 1 => ((1 / 2, 1 / 2) : ℝ × ℝ)) (fun _ => w) fieldNet beta
        (some [("b_x", 0), ("b_y", 0), ("c", 0)]) = .ok out ∧
      ∀ z ∈ domain (0, 1) (0, 1), |z.1 ^ 2 - z.1| ≤ 1 / 2
        + √(8 * out.lossDirichlet 0) + (Real.exp 3 - 1) / 3 * (30 * √out.lossPde + 2) := by
  have hx : ((0, 1) : ℝ × ℝ).1 < ((0, 1) : ℝ × ℝ).2 := by norm_num
  have hgrid := internal_grid G hx hx 2 3 8 smp
  have hcells : ∀ c ∈ (generateQuadMeshInternal G (0, 1) (0, 1) 2 3 8 smp).cells, ConvexCCW c := fun c hc => by
    obtain ⟨i, -, j, -, rfl⟩ := hgrid c hc
    exact convexCCW_gridCell hx hx i j (by norm_num) (by norm_num)
  obtain ⟨ext, -, -⟩ := quadRoutines_exist
  have hd : ∀ a : Fin 4, ((List.finRange 4).map fun a : Fin 4 =>
      ((1000 + (a : ℕ) : ℤ), fun (X _ : ℝ) => X)).lookup (1000 + (a : ℕ) : ℤ) = some fun X _ => X := by
    intro a
    fin_cases a <;> rfl
  obtain ⟨bdv, hb⟩ := boundaryData_exists (0, 1) (0, 1) hx hx 8 smp _ (fun _ X _ => X) hd ext
  obtain ⟨nq, S, D, hS⟩ := internal_space (fun _ _ => -1) G smp
  obtain ⟨ψ, hψ⟩ := testFunctions_exist _ hcells defectSettings.feType defectSettings.feOrder.toNat
  have hf : IsPolynomial (fun i j => i + j ≤ 1 + 2) fun _ : ℝ × ℝ => (-1 : ℝ) := const_polynomial _ _
  have hsq : domain (0, 1) (0, 1) ⊆ meshSet demoCells := by
    intro z hz
    refine ⟨squareCell 1, by simp [demoCells], ?_⟩
    have he : squareCell 1 = rectangle 0 1 0 1 := by
      funext i
      fin_cases i <;> simp [squareCell, rectangle]
    rw [he]
    exact (hull_rectangle (a := 0) (b := 1) (c := 0) (d := 1) zero_le_one zero_le_one).ge hz
  have hfs := field_setting
  have hset : FieldSetting (domain (0, 1) (0, 1)) (fun z => 4 + z.1) (0, 0) 0 (fun _ _ => -1)
      (strongDefect (fun z => 4 + z.1) (fun z => z.1 ^ 2) (0, 0) 0 fun _ _ => -1) (fun z => z.1 ^ 2) fun z => z.1 :=
    ⟨fun z hz => hfs.positive z (interior_mono hsq hz), fun z hz => hfs.diffA z (interior_mono hsq hz), le_rfl,
      hfs.defect.mono hsq, hfs.solution.mono hsq, fun z hz => hfs.diffU z (interior_mono hsq hz),
      fun z hz => hfs.diffV z (interior_mono hsq hz)⟩
  have hA : StabilityFactorField (domain (0, 1) (0, 1)) (fun z => 4 + z.1) (0, 0) 0 ((Real.exp 3 - 1) / 3) :=
    Or.inl ⟨3, 1, 4, 1, ⟨0, fun z hz => ⟨hz.1.1, by linarith [hz.1.2]⟩⟩, one_pos, fun z hz =>
      ⟨by linarith [(interior_subset hz : z ∈ domain (0, 1) (0, 1)).1.1], by simp [dx]⟩, by norm_num, by norm_num⟩
  have hsub : ∀ z ∈ frontier (domain (0, 1) (0, 1)), z.1 ∈ Set.Icc (0 : ℝ) 1 := fun z hz =>
    ((isClosed_Icc.prod isClosed_Icc : IsClosed (domain (0, 1) (0, 1))).frontier_subset hz).1
  have e1 : ∀ x y, strongDefect (fun z => 4 + z.1) (fun z : ℝ × ℝ => z.1 ^ 2) (0, 0) 0 (fun _ _ => -1) x y
      = -7 - 4 * x := by
    intro x y
    have d1 : dx (fun z : ℝ × ℝ => z.1 ^ 2) = fun z => 2 * z.1 := by
      funext z
      simp [dx]
    have d2 : dy (fun z : ℝ × ℝ => z.1 ^ 2) = fun _ => 0 := by
      funext z
      simp [dy]
    have d3 : dx (fun z : ℝ × ℝ => (4 + z.1) * (2 * z.1)) (x, y) = 8 + 4 * x := by
      have h := (((hasDerivAt_id x).const_add 4).mul ((hasDerivAt_id x).const_mul 2)).deriv
      simp only [dx]
      refine (h.trans ?_)
      simp
      ring
    simp only [strongDefect, d1, d2, d3]
    simp [dy]
    ring
  obtain ⟨out, h1, h2⟩ := C120_field G hx hx 2 3 (by norm_num) (by norm_num) (by norm_num) hs hd hb
    (s := defectSettings) (by decide) ⟨hcells, hψ, fun _ _ => continuousOn_const⟩ hS
    (fun _ : Fin 1 => ((1 / 2, 1 / 2) : ℝ × ℝ)) (fun _ => w) (some [("b_x", 0), ("b_y", 0), ("c", 0)]) (0, 0) 0
    ⟨_, rfl, rfl⟩ ⟨_, rfl, rfl⟩ ⟨_, rfl, rfl⟩ _ _ _ hset (fun _ _ _ => rfl) 1 zero_le_one (fun z hz w hw => by
      obtain ⟨a1, a2⟩ := hsub z hz
      obtain ⟨b1, b2⟩ := hsub w hw
      have hdist : |z.1 - w.1| ≤ dist z w := le_max_left (dist z.1 w.1) (dist z.2 w.2)
      rw [show z.1 ^ 2 - z.1 - (w.1 ^ 2 - w.1) = (z.1 + w.1 - 1) * (z.1 - w.1) by ring, abs_mul]
      exact mul_le_mul (abs_le.2 ⟨by linarith, by linarith⟩) hdist (abs_nonneg _) zero_le_one)
    _ hA 4 0 (by norm_num) le_rfl (fun z _ w _ => by
      have hdist : |z.1 - w.1| ≤ dist z w := le_max_left (dist z.1 w.1) (dist z.2 w.2)
      rw [e1, e1, show -7 - 4 * z.1 - (-7 - 4 * w.1) = -(4 * (z.1 - w.1)) by ring, abs_neg, abs_mul,
        abs_of_pos (by norm_num : (0 : ℝ) < 4)]
      exact mul_le_mul_of_nonneg_left hdist (by norm_num))
    (integrandsNear_polynomial (f := fun _ _ => -1) field_polynomial square_polynomial hf (0, 0) 0 hcells hψ (by decide))
    fieldNet (fun _ _ _ _ => by rename_i j; fin_cases j <;> rfl) beta
  refine ⟨bdv, hb, nq, S, D, out, hS, h1, fun z hz => (h2 z hz).trans (le_of_eq ?_)⟩
  have hN : (defectSettings.feOrder.toNat : ℝ) = 5 := by simp [defectSettings]
  have hm : max ((1 : ℝ) / 2) (1 / 3) = 1 / 2 := by norm_num
  rw [hN]
  simp only [Nat.reduceDiv, Nat.reduceMul, Nat.cast_ofNat, one_mul, sub_zero, max_self, mul_zero, add_zero, hm]
  generalize √(8 * out.lossDirichlet 0) = l
  field_simp
  ring

end FastVPINNs
