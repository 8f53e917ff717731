import Verif.Model.Tape
import Verif.Lemmas.Special
import Mathlib.Analysis.Calculus.Deriv.Pow
import Mathlib.Analysis.Calculus.Deriv.Add
import Mathlib.Analysis.Calculus.Deriv.Mul
import Mathlib.Analysis.Calculus.Deriv.Comp

/-! # The reverse pass computes derivatives -/

namespace FastVPINNs

open Filter Topology

namespace Node
variable {ι : Type}

/-- Near the numbers to which they are applied, the operations have the registered derivatives, also those registered
for the derivatives, `m` times. -/
def Regular (m : ℕ) (ρ : ι → ℝ) : Node ι → Prop
  | source _ => True
  | const _ => True
  | add a b => a.Regular m ρ ∧ b.Regular m ρ
  | sub a b => a.Regular m ρ ∧ b.Regular m ρ
  | mul a b => a.Regular m ρ ∧ b.Regular m ρ
  | sq a => a.Regular m ρ
  | sum _ f => ∀ i, (f i).Regular m ρ
  | mean _ f => ∀ i, (f i).Regular m ρ
  | unary f k a => a.Regular m ρ ∧ ∀ i < m, ∀ᶠ z in 𝓝 (a.value ρ), HasDerivAt (f (k + i)) (f (k + i + 1) z) z

lemma Regular.mono {m m' : ℕ} (hm : m' ≤ m) {ρ : ι → ℝ} : ∀ {e : Node ι}, e.Regular m ρ → e.Regular m' ρ
  | source _, _ => trivial
  | const _, _ => trivial
  | add _ _, h => ⟨h.1.mono hm, h.2.mono hm⟩
  | sub _ _, h => ⟨h.1.mono hm, h.2.mono hm⟩
  | mul _ _, h => ⟨h.1.mono hm, h.2.mono hm⟩
  | sq a, h => Regular.mono (e := a) hm h
  | sum _ f, h => fun i => Regular.mono (e := f i) hm (h i)
  | mean _ f, h => fun i => Regular.mono (e := f i) hm (h i)
  | unary _ _ _, h => ⟨h.1.mono hm, fun i hi => h.2 i (hi.trans_le hm)⟩

variable [DecidableEq ι]

lemma value_back (ρ : ι → ℝ) (j : ι) : ∀ (e ct : Node ι), (e.back ct j).value ρ
    = ct.value ρ * (e.back (const 1) j).value ρ
  | source i, ct => by by_cases h : i = j <;> simp [back, value, h]
  | const _, ct => by simp [back, value]
  | add a b, ct => by
    simp only [back, value]
    rw [value_back ρ j a ct, value_back ρ j b ct]; ring
  | sub a b, ct => by
    simp only [back, value]
    rw [value_back ρ j a ct, value_back ρ j b (mul (const (-1)) ct), value_back ρ j b (mul (const (-1)) (const 1))]
    simp only [value]; ring
  | mul a b, ct => by
    simp only [back, value]
    rw [value_back ρ j a (mul ct b), value_back ρ j b (mul ct a), value_back ρ j a (mul (const 1) b),
      value_back ρ j b (mul (const 1) a)]
    simp only [value]; ring
  | sq a, ct => by
    simp only [back]
    rw [value_back ρ j a (mul ct _), value_back ρ j a (mul (const 1) _)]
    simp only [value]; ring
  | sum n f, ct => by
    simp only [back, value]
    rw [Finset.mul_sum]
    exact Finset.sum_congr rfl fun i _ => value_back ρ j (f i) ct
  | mean n f, ct => by
    simp only [back, value]
    rw [Finset.mul_sum]
    refine Finset.sum_congr rfl fun i _ => ?_
    rw [value_back ρ j (f i) (mul ct _), value_back ρ j (f i) (mul (const 1) _)]
    simp only [value]; ring
  | unary f k a, ct => by
    simp only [back]
    rw [value_back ρ j a (mul ct _), value_back ρ j a (mul (const 1) _)]
    simp only [value]; ring

/-- The reverse pass started with 1 gives the partial derivative. -/
theorem hasDerivAt_back (ρ : ι → ℝ) (j : ι) : ∀ (e : Node ι), e.Regular 1 ρ →
    HasDerivAt (fun t => e.value (Function.update ρ j t)) ((e.back (const 1) j).value ρ) (ρ j)
  | source i, _ => by
    by_cases h : i = j
    · subst h
      simpa [back, value] using hasDerivAt_id' (ρ i)
    · simpa [back, value, h] using hasDerivAt_const (ρ j) (ρ i)
  | const x, _ => by simpa [back, value] using hasDerivAt_const (ρ j) x
  | add a b, h => (hasDerivAt_back ρ j a h.1).add (hasDerivAt_back ρ j b h.2)
  | sub a b, h => by
    refine ((hasDerivAt_back ρ j a h.1).sub (hasDerivAt_back ρ j b h.2)).congr_deriv ?_
    simp only [back, value]
    rw [value_back ρ j b (mul (const (-1)) (const 1))]
    simp only [value]; ring
  | mul a b, h => by
    refine ((hasDerivAt_back ρ j a h.1).mul (hasDerivAt_back ρ j b h.2)).congr_deriv ?_
    simp only [back, value, Function.update_eq_self]
    rw [value_back ρ j a (mul (const 1) b), value_back ρ j b (mul (const 1) a)]
    simp only [value]; ring
  | sq a, h => by
    refine ((hasDerivAt_back ρ j a h).pow 2).congr_deriv ?_
    simp only [back, Function.update_eq_self]
    rw [value_back ρ j a (mul (const 1) _)]
    simp only [value]; norm_num
  | sum n f, h => by
    simpa [back, value] using HasDerivAt.fun_sum fun i (_ : i ∈ Finset.univ) => hasDerivAt_back ρ j (f i) (h i)
  | mean n f, h => by
    refine ((HasDerivAt.fun_sum fun i (_ : i ∈ Finset.univ) => hasDerivAt_back ρ j (f i) (h i)).div_const
      (n : ℝ)).congr_deriv ?_
    simp only [back, value]
    rw [div_eq_mul_inv, Finset.sum_mul]
    refine Finset.sum_congr rfl fun i _ => ?_
    rw [value_back ρ j (f i) (mul (const 1) _)]
    simp only [value]; ring
  | unary f k a, h => by
    have h1 := (h.2 0 one_pos).self_of_nhds
    have h2 := hasDerivAt_back ρ j a h.1
    have h3 : HasDerivAt (f k) (f (k + 1) (a.value ρ)) (a.value (Function.update ρ j (ρ j))) := by
      rw [Function.update_eq_self]; exact h1
    refine (h3.comp (ρ j) h2).congr_deriv ?_
    simp only [back]
    rw [value_back ρ j a (mul (const 1) _)]
    simp only [value]; ring

lemma regular_back {m : ℕ} {ρ : ι → ℝ} (j : ι) : ∀ {e ct : Node ι}, e.Regular (m + 1) ρ → ct.Regular m ρ →
    (e.back ct j).Regular m ρ
  | source i, ct, _, hc => by
    by_cases h : i = j <;> simp [back, h, hc, Regular]
  | const _, _, _, _ => trivial
  | add a b, ct, h, hc => ⟨regular_back j h.1 hc, regular_back j h.2 hc⟩
  | sub a b, ct, h, hc => ⟨regular_back j h.1 hc, regular_back (e := b) j h.2 ⟨trivial, hc⟩⟩
  | mul a b, ct, h, hc => ⟨regular_back (e := a) j h.1 ⟨hc, h.2.mono (by omega)⟩,
      regular_back (e := b) j h.2 ⟨hc, h.1.mono (by omega)⟩⟩
  | sq a, ct, h, hc => regular_back (e := a) j h ⟨hc, trivial, Regular.mono (e := a) (by omega) h⟩
  | sum _ f, ct, h, hc => fun i => regular_back (e := f i) j (h i) hc
  | mean _ f, ct, h, hc => fun i => regular_back (e := f i) j (h i) ⟨hc, trivial⟩
  | unary f k a, ct, h, hc => regular_back (e := a) j h.1 ⟨hc, h.1.mono (by omega), fun i hi => by
      have := h.2 (i + 1) (by omega)
      rwa [show k + (i + 1) = k + 1 + i by omega] at this⟩

lemma regular_nhds {m : ℕ} (hm : 1 ≤ m) {ρ : ι → ℝ} (j : ι) : ∀ {e : Node ι}, e.Regular m ρ →
    ∀ᶠ t in 𝓝 (ρ j), e.Regular m (Function.update ρ j t)
  | source _, _ => .of_forall fun _ => trivial
  | const _, _ => .of_forall fun _ => trivial
  | add _ _, h => (regular_nhds hm j h.1).and (regular_nhds hm j h.2)
  | sub _ _, h => (regular_nhds hm j h.1).and (regular_nhds hm j h.2)
  | mul _ _, h => (regular_nhds hm j h.1).and (regular_nhds hm j h.2)
  | sq a, h => regular_nhds (e := a) hm j h
  | sum _ f, h => eventually_all.2 fun i => regular_nhds (e := f i) hm j (h i)
  | mean _ f, h => eventually_all.2 fun i => regular_nhds (e := f i) hm j (h i)
  | unary f k a, h => by
    have hc : Tendsto (fun t => a.value (Function.update ρ j t)) (𝓝 (ρ j)) (𝓝 (a.value ρ)) := by
      have := (hasDerivAt_back ρ j a (h.1.mono hm)).continuousAt
      unfold ContinuousAt at this
      dsimp only at this
      rwa [Function.update_eq_self] at this
    refine (regular_nhds hm j h.1).and ?_
    have : ∀ i : Fin m, ∀ᶠ t in 𝓝 (ρ j), ∀ᶠ z in 𝓝 (a.value (Function.update ρ j t)),
        HasDerivAt (f (k + i)) (f (k + i + 1) z) z := fun i =>
      hc.eventually (eventually_eventually_nhds.2 (h.2 i i.2))
    filter_upwards [eventually_all.2 this] with t ht i hi
    exact ht ⟨i, hi⟩

/-! ## Expressions over recorded numbers -/

omit [DecidableEq ι] in
lemma value_ofExpr (ρ : ι → ℝ) : ∀ e : ExprOf (Node ι), (ofExpr e).value ρ = (e.map (value ρ)).eval
  | .val _ _ => rfl
  | .add a b => by simp [ofExpr, value, ExprOf.map, ExprOf.eval, value_ofExpr ρ a, value_ofExpr ρ b]
  | .sub a b => by simp [ofExpr, value, ExprOf.map, ExprOf.eval, value_ofExpr ρ a, value_ofExpr ρ b]
  | .mul a b => by simp [ofExpr, value, ExprOf.map, ExprOf.eval, value_ofExpr ρ a, value_ofExpr ρ b]
  | .sq a => by simp [ofExpr, value, ExprOf.map, ExprOf.eval, value_ofExpr ρ a]
  | .abs a => by simp [ofExpr, value, ExprOf.map, ExprOf.eval, value_ofExpr ρ a, absOps]
  | .sum n f => by
    simp only [ofExpr, value, ExprOf.map, ExprOf.eval]
    exact Finset.sum_congr rfl fun i _ => value_ofExpr ρ (f i)
  | .mean n f => by
    simp only [ofExpr, value, ExprOf.map, ExprOf.eval]
    rw [Finset.sum_congr rfl fun i _ => value_ofExpr ρ (f i)]

end Node

end FastVPINNs
