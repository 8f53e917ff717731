import Mathlib.Data.Real.Basic
import Mathlib.Data.List.Infix

/-! # Specification: a minimal reader of legacy VTK point data

A file is the list of its lines (each with its newline). -/

namespace FastVPINNs.Spec

/-- A line announcing point data. -/
def AnnouncesPointData (line : String) : Prop := "POINT_DATA".toList <:+: line.toList

/-- `pre` is the part of `file` up to and including the first point-data line. -/
def IsHeader (file pre : List String) : Prop :=
  ∃ init l post, file = init ++ l :: post ∧ pre = init ++ [l] ∧ AnnouncesPointData l ∧
    ∀ l' ∈ init, ¬ AnnouncesPointData l'

/-- Read the fields of a file whose header has been removed: each field is a `SCALARS name float`
line, a `LOOKUP_TABLE` line, `n` values one per line, and an empty line. -/
def readFields (parse : String → ℝ) (n : ℕ) : ℕ → List String → List (List Char × List ℝ)
  | 0, _ => []
  | _ + 1, [] => []
  | fuel + 1, h :: rest =>
    ((h.toList.drop "SCALARS ".length).take (h.length - "SCALARS ".length - " float\n".length),
      ((rest.drop 1).take n).map parse) :: readFields parse n fuel (rest.drop (n + 2))

end FastVPINNs.Spec
