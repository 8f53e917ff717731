import Verif.Model.Models
import Mathlib.Analysis.SpecialFunctions.Exp

/-! # The attention layer

`layers.Attention()` applied to `[x, x]`: created in `model/model.py:174-175`, `model_hard.py:195-196`,
`model_inverse.py:186-187`, `model_inverse_domain.py:180-181` if `use_attention` is set, applied in
`model/model.py:199-200`, `model_hard.py:219-220`, `model_inverse.py:209-210`,
`model_inverse_domain.py:202-203`.  It is keras' dot-product attention without scaling and without dropout; query,
key and value are the batch, whose rows take the place of the time steps. -/

namespace FastVPINNs

/-- An entry of `tf.matmul(query, key, transpose_b=True)`. -/
def dotRows (x y : List ℝ) : ℝ := (List.zipWith (· * ·) x y).sum

/-- `tf.nn.softmax` of a row of scores. -/
noncomputable def softmax (scores : List ℝ) : List ℝ :=
  scores.map fun s => Real.exp s / (scores.map Real.exp).sum

/-- keras' `Attention()([x, x])`: `tf.matmul(tf.nn.softmax(tf.matmul(x, x, transpose_b=True)), x)`. -/
noncomputable def attentionDot (x : Batch) : Except PyErr Batch :=
  .ok (x.map fun q =>
    (List.range q.length).map fun j =>
      (List.zipWith (fun w v => w * v.getD j 0) (softmax (x.map (dotRows q))) x).sum)

end FastVPINNs
