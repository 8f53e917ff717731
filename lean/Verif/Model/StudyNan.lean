import Verif.Model.Study
import Verif.Model.Special

/-! # A hyper-parameter study whose trials may give NaN or infinite values

`Model/Study.lean` in floating-point numbers.  A training that diverges gives predictions that are NaN or infinite, and the
objective is computed from them.  Optuna (trusted): a NaN is not accepted as a value, the trial is stored as failed and the
study goes on; infinite values are stored and compared like numbers. -/

namespace FastVPINNs

/-- `objective.py:139-145`: the value of a trial, from the exact solution at the test points and the predictions of the
trained network, which is any list that `predicted` allows.  An exception before this is `fails`. -/
def SpecialTrial (u Ω : ℝ) (exact : List XNum) (predicted : ℕ → SearchPoint → List XNum → Prop)
    (fails : ℕ → SearchPoint → PyErr → Prop) (t : ℕ) (p : SearchPoint) : Except PyErr XNum → Prop
  | .ok v => ∃ y l2 linf linfr l1 l1r, predicted t p y ∧ SpecialErrors u Ω exact y (l2, linf, v, linfr, l1, l1r)
  | .error e => fails t p e

/-- What Optuna stores for the value a trial returns: NaN makes the trial a failed one. -/
def told : XNum → Option XNum
  | .nan => none
  | v => some v

/-- The order of stored values (`study.best_trial` with `direction="minimize"`, `optuna_tuner.py:48-53`). -/
def XNum.Le : XNum → XNum → Prop
  | .nan, _ => False
  | _, .nan => False
  | .inf true, _ => True
  | _, .inf false => True
  | .fin x, .fin y => x ≤ y
  | .fin _, .inf true => False
  | .inf false, .fin _ => False
  | .inf false, .inf true => False

/-- A trial in the storage; the value of a failed trial is `none`. -/
structure XStoredTrial where
  number : ℕ
  params : SearchPoint
  value : Option XNum

/-- `TunerState` with these trials. -/
structure XTunerState where
  running : List (ℕ × SearchPoint)
  stored : List XStoredTrial
  next : ℕ

/-- One event of `study.optimize` (`TunerStep` with stored values of this kind). -/
inductive XTunerStep (workers last : ℕ) (value : ℕ → SearchPoint → Except PyErr XNum → Prop) :
    XTunerState → XTunerState → Prop
  | start {s : XTunerState} (p : SearchPoint) : s.running.length < workers → s.next < last → p.InSpace →
      XTunerStep workers last value s ⟨(s.next, p) :: s.running, s.stored, s.next + 1⟩
  | finish {s : XTunerState} (l l' : List (ℕ × SearchPoint)) (t : ℕ) (p : SearchPoint) (v : XNum) :
      s.running = l ++ (t, p) :: l' → value t p (.ok v) →
      XTunerStep workers last value s ⟨l ++ l', s.stored ++ [⟨t, p, told v⟩], s.next⟩

/-- The states `study.optimize(n_trials=nTrials)` can get into (`optuna_tuner.py:48-56`). -/
inductive XTunerReachable (workers nTrials : ℕ) (value : ℕ → SearchPoint → Except PyErr XNum → Prop)
    (earlier : List XStoredTrial) : XTunerState → Prop
  | init : XTunerReachable workers nTrials value earlier ⟨[], earlier, earlier.length⟩
  | step {s s' : XTunerState} : XTunerReachable workers nTrials value earlier s →
      XTunerStep workers (earlier.length + nTrials) value s s' → XTunerReachable workers nTrials value earlier s'

/-- `optuna_tuner.py:47-65` (`run`): what it may return (as `TunerReturns`). -/
inductive XTunerReturns (gpus cpus : ℕ) (jobs nTrials : ℤ) (value : ℕ → SearchPoint → Except PyErr XNum → Prop)
    (earlier : List XStoredTrial) : Except PyErr SearchPoint → Prop
  | pool {e : PyErr} : tunerWorkers gpus cpus jobs = .error e →
      XTunerReturns gpus cpus jobs nTrials value earlier (.error e)
  | trial {w : ℕ} {s : XTunerState} {t : ℕ} {p : SearchPoint} {e : PyErr} :
      tunerWorkers gpus cpus jobs = .ok w → XTunerReachable w nTrials.toNat value earlier s → (t, p) ∈ s.running →
      value t p (.error e) → XTunerReturns gpus cpus jobs nTrials value earlier (.error e)
  | noTrial {w : ℕ} {s : XTunerState} : tunerWorkers gpus cpus jobs = .ok w →
      XTunerReachable w nTrials.toNat value earlier s → s.running = [] →
      s.next = earlier.length + nTrials.toNat → (∀ t ∈ s.stored, t.value = none) →
      XTunerReturns gpus cpus jobs nTrials value earlier (.error .valueError)
  | best {w : ℕ} {s : XTunerState} {t : XStoredTrial} {v : XNum} : tunerWorkers gpus cpus jobs = .ok w →
      XTunerReachable w nTrials.toNat value earlier s → s.running = [] →
      s.next = earlier.length + nTrials.toNat → t ∈ s.stored → t.value = some v →
      (∀ t' ∈ s.stored, ∀ v', t'.value = some v' → v.Le v') →
      XTunerReturns gpus cpus jobs nTrials value earlier (.ok t.params)

end FastVPINNs
