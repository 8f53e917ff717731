import Verif.Model.RoundedErrors

/-! # Infinities, NaN and overflow

The computations of `Model/Rounded.lean` and `Model/RoundedErrors.lean` with the special values of IEEE arithmetic.
Finite numbers are smaller than the overflow threshold `Ω`; a result whose size comes near it
may become infinite.  The two zeros are one number (the
denominators of the code are sums of squares or absolute values and numbers of entries, whose zero is `+0`).
Underflow is not modelled. -/

namespace FastVPINNs

/-- A floating-point number. -/
inductive XNum
  | fin (x : ℝ)
  | inf (negative : Bool)
  | nan

instance : Leaf XNum := ⟨.fin⟩

namespace XNum

/-- The value of a finite number. -/
def toReal : XNum → ℝ
  | fin x => x
  | _ => 0

/-- A finite number. -/
def IsFin (a : XNum) : Prop := ∃ x, a = fin x

/-- The possible results of an operation whose exact result is `x`: a number below the threshold with a relative
error of at most `u`, or overflow if the rounded result can reach the threshold. -/
def Fl (u Ω x : ℝ) (r : XNum) : Prop :=
  (∃ δ, |δ| ≤ u ∧ |x * (1 + δ)| < Ω ∧ r = fin (x * (1 + δ))) ∨ Ω ≤ |x| * (1 + u) ∧ r = inf (decide (x < 0))

/-- `-a`. -/
def neg : XNum → XNum
  | fin x => fin (-x)
  | inf s => inf !s
  | nan => nan

/-- `np.abs(a)`. -/
def abs : XNum → XNum
  | fin x => fin |x|
  | inf _ => inf false
  | nan => nan

/-- `a + b`. -/
def Add (u Ω : ℝ) : XNum → XNum → XNum → Prop
  | fin x, fin y, r => Fl u Ω (x + y) r
  | nan, _, r => r = nan
  | _, nan, r => r = nan
  | inf s, inf t, r => r = if s = t then inf s else nan
  | inf s, fin _, r => r = inf s
  | fin _, inf s, r => r = inf s

/-- `a - b`. -/
def Sub (u Ω : ℝ) (a b r : XNum) : Prop := Add u Ω a b.neg r

/-- `a * b`. -/
noncomputable def Mul (u Ω : ℝ) : XNum → XNum → XNum → Prop
  | fin x, fin y, r => Fl u Ω (x * y) r
  | nan, _, r => r = nan
  | _, nan, r => r = nan
  | inf s, inf t, r => r = inf (s != t)
  | inf s, fin y, r => r = if y = 0 then nan else inf (s != decide (y < 0))
  | fin x, inf s, r => r = if x = 0 then nan else inf (s != decide (x < 0))

/-- `a / b`. -/
noncomputable def Div (u Ω : ℝ) : XNum → XNum → XNum → Prop
  | fin x, fin y, r =>
    if y = 0 then r = if x = 0 then nan else inf (decide (x < 0)) else Fl u Ω (x / y) r
  | nan, _, r => r = nan
  | _, nan, r => r = nan
  | inf _, inf _, r => r = nan
  | inf s, fin y, r => r = inf (s != decide (y < 0))
  | fin _, inf _, r => r = fin 0

/-- `np.sqrt(a)`. -/
noncomputable def Sqrt (u Ω : ℝ) : XNum → XNum → Prop
  | fin x, r => if x < 0 then r = nan else Fl u Ω (Real.sqrt x) r
  | inf s, r => r = if s then nan else inf s
  | nan, r => r = nan

/-- `np.maximum(a, b)`, which returns NaN if there is one. -/
noncomputable def max : XNum → XNum → XNum
  | fin x, fin y => fin (Max.max x y)
  | nan, _ => nan
  | _, nan => nan
  | inf false, _ => inf false
  | _, inf false => inf false
  | inf true, b => b
  | a, inf true => a

/-- A possible result of adding up the numbers of a list, in any order and grouping. -/
inductive Sum (u Ω : ℝ) : List XNum → XNum → Prop
  | nil : Sum u Ω [] (fin 0)
  | one (x : XNum) : Sum u Ω [x] x
  | add {l m : List XNum} {x y r : XNum} (hl : l ≠ []) (hm : m ≠ []) (hx : Sum u Ω l x) (hy : Sum u Ω m y)
      (hr : Add u Ω x y r) : Sum u Ω (l ++ m) r
  | perm {l m : List XNum} {x : XNum} (h : l.Perm m) (hx : Sum u Ω l x) : Sum u Ω m x

/-- The mean from the sum of `n` terms: a division, or a product with the rounded reciprocal; NaN without terms. -/
def Mean (u Ω : ℝ) (n : ℕ) : XNum → XNum → Prop
  | fin s, r =>
    if n = 0 then r = nan
    else (∃ δ ε, |δ| ≤ u ∧ |ε| ≤ u ∧ |s / n * (1 + δ) * (1 + ε)| < Ω ∧ r = fin (s / n * (1 + δ) * (1 + ε))) ∨
      Ω ≤ |s / n| * (1 + u) ^ 2 ∧ r = inf (decide (s < 0))
  | inf s, r => r = inf s
  | nan, r => r = nan

/-- A number that is read; `j` roundings have happened since it was exact. -/
def Read (u Ω : ℝ) (j : ℕ) : XNum → XNum → Prop
  | fin x, r => (∃ y, |y - x| ≤ ((1 + u) ^ j - 1) * |x| ∧ |y| < Ω ∧ r = fin y) ∨
      Ω ≤ |x| * (1 + u) ^ j ∧ r = inf (decide (x < 0))
  | inf s, r => r = inf s
  | nan, r => r = nan

end XNum

/-- The possible values of an expression. -/
def ExprOf.XRun (u Ω : ℝ) : ExprOf XNum → XNum → Prop
  | val j x, r => XNum.Read u Ω j x r
  | add a b, r => ∃ x y, a.XRun u Ω x ∧ b.XRun u Ω y ∧ XNum.Add u Ω x y r
  | sub a b, r => ∃ x y, a.XRun u Ω x ∧ b.XRun u Ω y ∧ XNum.Sub u Ω x y r
  | mul a b, r => ∃ x y, a.XRun u Ω x ∧ b.XRun u Ω y ∧ XNum.Mul u Ω x y r
  | sq a, r => ∃ x, a.XRun u Ω x ∧ XNum.Mul u Ω x x r
  | abs a, r => ∃ x, a.XRun u Ω x ∧ r = x.abs
  | sum n f, r => ∃ x : Fin n → XNum, (∀ i, (f i).XRun u Ω (x i)) ∧ XNum.Sum u Ω (List.ofFn x) r
  | mean n f, r => ∃ (x : Fin n → XNum) (s : XNum), (∀ i, (f i).XRun u Ω (x i)) ∧
      XNum.Sum u Ω (List.ofFn x) s ∧ XNum.Mean u Ω n s r

/-! ## `train_step` -/

/-- What a training step computes with: the tensors of the data handler, and the values and derivatives that the
network returned. -/
structure StepInput (nc nt nq nBd dout : ℕ) where
  V : Fin nc → Fin nt → Fin nq → XNum
  GX : Fin nc → Fin nt → Fin nq → XNum
  GY : Fin nc → Fin nt → Fin nq → XNum
  F : Fin nt → Fin nc → XNum
  u : Fin nc → Fin nq → XNum
  ux : Fin nc → Fin nq → XNum
  uy : Fin nc → Fin nq → XNum
  coeffs : List (Fin nc → Fin nq → XNum)
  bdPredicted : Fin nBd → Fin dout → XNum
  bdActual : Fin nBd → XNum

/-- The losses that a training step returns. -/
structure StepOutput (dout : ℕ) where
  lossPde : XNum
  lossDirichlet : Fin dout → XNum
  loss : Fin dout → XNum

section
variable {nc nt nq nBd dout : ℕ} (u Ω : ℝ) (j : ℕ) (kind : Spec.LossKind) (I : StepInput nc nt nq nBd dout)
  (bilinear inverseParams : ParamDict)

/-- The losses of the cells. -/
def StepInput.residuals : Except PyErr (Fin nc → ExprOf XNum) :=
  lossE j I.V I.GX I.GY I.u I.ux I.uy I.F kind bilinear inverseParams I.coeffs

/-- The possible results of `DenseModel.train_step` (`model/model.py:259-307`). -/
def SpecialDense (beta : ℝ) (out : StepOutput dout) : Prop :=
  ∃ residuals, I.residuals j kind bilinear none = .ok residuals ∧
    (totalPdeE residuals).XRun u Ω out.lossPde ∧
    (∀ i, (meanSquareErrorE j I.bdPredicted I.bdActual i).XRun u Ω (out.lossDirichlet i)) ∧
    ∀ i, (ExprOf.add (.val 0 out.lossPde) (.mul (.val j (.fin beta)) (.val 0 (out.lossDirichlet i)))).XRun u Ω
      (out.loss i)

/-- The possible values of the loss of `DenseModel_Hard.train_step` (`model/model_hard.py:280-330`). -/
def SpecialHard (loss : XNum) : Prop :=
  ∃ residuals, I.residuals j kind bilinear none = .ok residuals ∧ (totalPdeE residuals).XRun u Ω loss

/-- The possible results of `DenseModel_Inverse.train_step` (`model/model_inverse.py:275-338`) and of
`DenseModel_Inverse_Domain.train_step` (`model/model_inverse_domain.py:265-342`), which differ in the loss
function and in where the predictions come from. -/
def SpecialInverse {nS : ℕ} (sensorPredicted : Fin nS → Fin dout → XNum) (sensorValues : Fin nS → XNum)
    (beta : ℝ) (out : StepOutput dout) (sensorLoss : Fin dout → XNum) : Prop :=
  ∃ residuals, I.residuals j kind bilinear inverseParams = .ok residuals ∧
    (totalPdeE residuals).XRun u Ω out.lossPde ∧
    (∀ i, (meanSquareErrorE j I.bdPredicted I.bdActual i).XRun u Ω (out.lossDirichlet i)) ∧
    (∀ i, (meanSquareErrorE j sensorPredicted sensorValues i).XRun u Ω (sensorLoss i)) ∧
    ∀ i, (ExprOf.add (.add (.val 0 out.lossPde) (.mul (.val j (.fin beta)) (.val 0 (out.lossDirichlet i))))
      (.mul (.val 0 (.fin 10)) (.val 0 (sensorLoss i)))).XRun u Ω (out.loss i)

end

/-! ## The error metrics -/

section
variable (u Ω : ℝ)

/-- A possible result of `np.mean`. -/
def SpecialMean (es : List (ExprOf XNum)) (r : XNum) : Prop :=
  ∃ xs s, List.Forall₂ (fun e x => e.XRun u Ω x) es xs ∧ XNum.Sum u Ω xs s ∧ XNum.Div u Ω s (.fin es.length) r

/-- A possible result of `np.max` (an error for an empty array). -/
def SpecialMax (es : List (ExprOf XNum)) (r : XNum) : Prop :=
  ∃ x xs, List.Forall₂ (fun e x => e.XRun u Ω x) es (x :: xs) ∧ r = xs.foldl XNum.max x

variable (exact approx : List XNum)

/-- `utils/compute_utils.py:18-42`, on flattened arrays. -/
def SpecialL2 (r : XNum) : Prop :=
  ∃ d m, npSubE exact approx = .ok d ∧ SpecialMean u Ω (d.map .sq) m ∧ XNum.Sqrt u Ω m r

/-- `utils/compute_utils.py:45-68`. -/
def SpecialL1 (r : XNum) : Prop := ∃ d, npSubE exact approx = .ok d ∧ SpecialMean u Ω (d.map .abs) r

/-- `utils/compute_utils.py:71-95`. -/
def SpecialLinf (r : XNum) : Prop := ∃ d, npSubE exact approx = .ok d ∧ SpecialMax u Ω (d.map .abs) r

/-- `utils/compute_utils.py:98-124`. -/
def SpecialL2Relative (r : XNum) : Prop :=
  ∃ l2 m n, SpecialL2 u Ω exact approx l2 ∧ SpecialMean u Ω ((readAll exact).map .sq) m ∧
    XNum.Sqrt u Ω m n ∧ XNum.Div u Ω l2 n r

/-- `utils/compute_utils.py:127-153`. -/
def SpecialLinfRelative (r : XNum) : Prop :=
  ∃ linf n, SpecialLinf u Ω exact approx linf ∧ SpecialMax u Ω ((readAll exact).map .abs) n ∧
    XNum.Div u Ω linf n r

/-- `utils/compute_utils.py:156-182`. -/
def SpecialL1Relative (r : XNum) : Prop :=
  ∃ l1 n, SpecialL1 u Ω exact approx l1 ∧ SpecialMean u Ω ((readAll exact).map .abs) n ∧ XNum.Div u Ω l1 n r

/-- `utils/compute_utils.py:185-224` (`compute_errors_combined`). -/
def SpecialErrors : XNum × XNum × XNum × XNum × XNum × XNum → Prop
  | (l2, linf, l2r, linfr, l1, l1r) =>
    SpecialL2 u Ω exact approx l2 ∧ SpecialLinf u Ω exact approx linf ∧ SpecialL2Relative u Ω exact approx l2r ∧
    SpecialLinfRelative u Ω exact approx linfr ∧ SpecialL1 u Ω exact approx l1 ∧
    SpecialL1Relative u Ω exact approx l1r

end

end FastVPINNs
