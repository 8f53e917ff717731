import Mathlib.Data.List.Perm.Basic

/-! # Dictionaries as lists -/

namespace FastVPINNs

/-- The order of a dictionary does not matter. -/
lemma lookup_perm {α : Type} {l m : List (String × α)} (h : l.Perm m) (hn : (l.map Prod.fst).Nodup) (k : String) :
    l.lookup k = m.lookup k := by
  induction h with
  | nil => rfl
  | cons x _ ih =>
    obtain ⟨a, b⟩ := x
    rw [List.map_cons, List.nodup_cons] at hn
    rw [List.lookup_cons, List.lookup_cons, ih hn.2]
  | swap x y l =>
    obtain ⟨a, b⟩ := x
    obtain ⟨c, d⟩ := y
    have hac : c ≠ a := by
      simp only [List.map_cons, List.nodup_cons, List.mem_cons, not_or] at hn
      exact hn.1.1
    simp only [List.lookup_cons]
    cases h1 : k == c <;> cases h2 : k == a <;> try rfl
    exact absurd ((eq_of_beq h1).symm.trans (eq_of_beq h2)) hac
  | trans h1 h2 ih1 ih2 => rw [ih1 hn, ih2 ((h1.map Prod.fst).nodup_iff.1 hn)]

end FastVPINNs
