import Verif.Model.Docker

/-! # Specification: versions in texts, and the report of the Docker image -/

namespace FastVPINNs.Spec

/-- A number: at least one of the characters `0` to `9`, and nothing else. -/
def Digits (l : List Char) : Prop := l ≠ [] ∧ ∀ c ∈ l, '0' ≤ c ∧ c ≤ '9'

/-- A text that does not go on with a digit. -/
def NoDigitFirst (l : List Char) : Prop := ∀ c r, l = c :: r → ¬ ('0' ≤ c ∧ c ≤ '9')

/-- After `pre`, the text goes on with `version = "g"`. -/
def VersionAt (text pre g : List Char) : Prop :=
  ∃ post, text = pre ++ "version = \"".toList ++ g ++ '"' :: post ∧ g ≠ [] ∧ '"' ∉ g

/-- After `pre`, the text goes on with `release a.b`. -/
def ReleaseAt (text pre : List Char) (v : List Char × List Char) : Prop :=
  ∃ post, text = pre ++ "release ".toList ++ v.1 ++ '.' :: v.2 ++ post ∧ Digits v.1 ∧ Digits v.2 ∧ NoDigitFirst post

/-- After `pre`, the text goes on with the three definitions of the cuDNN version. -/
def CudnnAt (text pre : List Char) (v : List Char × List Char × List Char) : Prop :=
  ∃ post, text = pre ++ "#define CUDNN_MAJOR ".toList ++ v.1 ++ "\n#define CUDNN_MINOR ".toList ++ v.2.1
      ++ "\n#define CUDNN_PATCHLEVEL ".toList ++ v.2.2 ++ post ∧
    Digits v.1 ∧ Digits v.2.1 ∧ Digits v.2.2 ∧ NoDigitFirst post

/-- `v` is found at the first place where something is found. -/
def First {α : Type} (at_ : List Char → List Char → α → Prop) (text : List Char) (v : α) : Prop :=
  ∃ pre, at_ text pre v ∧ ∀ pre' v', at_ text pre' v' → pre.length ≤ pre'.length

/-- Nothing is found. -/
def Nowhere {α : Type} (at_ : List Char → List Char → α → Prop) (text : List Char) : Prop :=
  ∀ pre v, ¬ at_ text pre v

/-- `t` is `s`, filled up with blanks to ten characters. -/
def Filled (s t : List Char) : Prop := ∃ k, t = s ++ List.replicate k ' ' ∧ t.length = max 10 s.length

end FastVPINNs.Spec
