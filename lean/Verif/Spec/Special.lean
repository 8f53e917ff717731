import Verif.Model.Special

/-! # Specification: what a loss function looks at -/

namespace FastVPINNs.Spec

/-- The losses that use the values of the network, not only its derivatives. -/
def LossKind.usesValues : LossKind → Prop
  | .poisson => False
  | .poissonInverse => False
  | _ => True

section
variable {nc nt nq nBd dout : ℕ} (kind : LossKind) (I : StepInput nc nt nq nBd dout)

/-- All numbers that the loss function looks at have the property `P`. -/
structure InputsAll (P : XNum → Prop) : Prop where
  gx : ∀ c t q, P (I.GX c t q)
  gy : ∀ c t q, P (I.GY c t q)
  force : ∀ t c, P (I.F t c)
  ux : ∀ c q, P (I.ux c q)
  uy : ∀ c q, P (I.uy c q)
  val : kind.usesValues → ∀ c t q, P (I.V c t q)
  u : kind.usesValues → ∀ c q, P (I.u c q)
  coeff : kind = .cd2dInverseDomain → ∃ k ∈ I.coeffs.head?, ∀ c q, P (k c q)

/-- One of the numbers that the loss function looks at (all of which exist when there is a test function) is `a`. -/
def SomeInput (a : XNum) : Prop :=
  (∃ c t q, I.GX c t q = a ∨ I.GY c t q = a) ∨ (∃ t c, I.F t c = a) ∨ (∃ c q, I.ux c q = a ∨ I.uy c q = a) ∨
  (kind.usesValues ∧ ((∃ c t q, I.V c t q = a) ∨ ∃ c q, I.u c q = a)) ∨
  (kind = .cd2dInverseDomain ∧ ∃ k ∈ I.coeffs.head?, ∃ c q, k c q = a)

end

end FastVPINNs.Spec
