import Verif.Model.Tracing

/-! # A training step that is executed as Python text -/

namespace FastVPINNs.Spec
open FastVPINNs

variable {A S α : Type}

/-- One execution of the text: the result and the variables afterwards (an exception leaves them alone). -/
def textCall (text : StepText A S α) (a : A) (args : StepArgs) (s : S) : Except PyErr α × S :=
  match text a args.beta.value args.params s with
  | .error e => (.error e, s)
  | .ok (out, s') => (.ok out, s')

/-- The program without compilation: every step executes the text with the attributes of that moment. -/
def textRun (text : StepText A S α) : List (Compiled.Op A) → A → S → List (Except PyErr α) × S
  | [], _, s => ([], s)
  | .step args :: rest, a, s =>
    ((textCall text a args s).1 :: (textRun text rest a (textCall text a args s).2).1,
      (textRun text rest a (textCall text a args s).2).2)
  | .assign b :: rest, _, s => textRun text rest b s

end FastVPINNs.Spec
