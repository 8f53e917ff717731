import Verif.Model.Geometry
import Verif.Spec.Vtk

/-! # C11: `write_vtk` -/

namespace FastVPINNs

open Spec

lemma hasPointData_iff (l : String) : hasPointData l = true ↔ AnnouncesPointData l := by
  unfold hasPointData AnnouncesPointData
  exact decide_eq_true_iff

lemma vtkPrefix_isHeader (file : List String) (h : ∃ l ∈ file, AnnouncesPointData l) :
    IsHeader file (vtkPrefix file) := by
  induction file with
  | nil => simp at h
  | cons a file ih =>
    by_cases ha : AnnouncesPointData a
    · refine ⟨[], a, file, rfl, ?_, ha, by simp⟩
      simp [vtkPrefix, (hasPointData_iff a).2 ha]
    · have h' : ∃ l ∈ file, AnnouncesPointData l := by
        obtain ⟨l, hl, hp⟩ := h
        rcases List.mem_cons.1 hl with rfl | hl
        · exact absurd hp ha
        · exact ⟨l, hl, hp⟩
      obtain ⟨init, l, post, h1, h2, h3, h4⟩ := ih h'
      refine ⟨a :: init, l, post, by rw [h1]; rfl, ?_, h3, ?_⟩
      · have : hasPointData a = false := by
          rw [Bool.eq_false_iff]; exact fun hh => ha ((hasPointData_iff a).1 hh)
        simp [vtkPrefix, this, h2]
      · intro l' hl'
        rcases List.mem_cons.1 hl' with rfl | hl'
        · exact ha
        · exact h4 l' hl'

lemma vtkPrefix_of_none (file : List String) (h : ∀ l ∈ file, ¬ AnnouncesPointData l) :
    vtkPrefix file = file := by
  induction file with
  | nil => rfl
  | cons a file ih =>
    have : hasPointData a = false := by
      rw [Bool.eq_false_iff]; exact fun hh => h a (by simp) ((hasPointData_iff a).1 hh)
    simp only [vtkPrefix, this, Bool.false_eq_true, if_false]
    rw [ih fun l hl => h l (by simp [hl])]

lemma readFields_blocks (fmt : ℝ → String) (parse : String → ℝ) (n : ℕ)
    (cols : List (String × List ℝ)) (hn : ∀ c ∈ cols, c.2.length = n)
    (hp : ∀ c ∈ cols, ∀ v ∈ c.2, parse (fmt v) = v) (fuel : ℕ) (hf : cols.length ≤ fuel) :
    readFields parse n fuel (cols.flatMap fun c => vtkBlock fmt c.1 c.2)
      = cols.map fun c => (c.1.toList, c.2) := by
  induction cols generalizing fuel with
  | nil => cases fuel <;> rfl
  | cons c cols ih =>
    obtain ⟨fuel, rfl⟩ : ∃ k, fuel = k + 1 := ⟨fuel - 1, by simp at hf; omega⟩
    have hc : c.2.length = n := hn c (by simp)
    have hlen : (c.2.map fmt).length = n := by rw [List.length_map, hc]
    simp only [List.flatMap_cons, vtkBlock, List.cons_append, List.nil_append, List.append_assoc,
      readFields, List.map_cons, List.cons.injEq, Prod.mk.injEq]
    refine ⟨⟨?_, ?_⟩, ?_⟩
    · have h1 : ("SCALARS " ++ c.1 ++ " float\n").toList
          = "SCALARS ".toList ++ (c.1.toList ++ " float\n".toList) := by
        simp [String.toList_append]
      have h2 : ("SCALARS " ++ c.1 ++ " float\n").length - "SCALARS ".length - " float\n".length
          = c.1.toList.length := by
        simp only [String.length_append, String.length_toList]
        omega
      rw [h1, h2, ← String.length_toList (s := "SCALARS "), List.drop_left, List.take_left]
    · rw [List.drop_one, List.tail_cons, ← hlen, List.take_left, List.map_map]
      conv_rhs => rw [← List.map_id c.2]
      exact List.map_congr_left fun v hv => hp c (by simp) v hv
    · have : ("LOOKUP_TABLE default\n" :: (c.2.map fmt ++ ("\n" ::
          cols.flatMap fun c => vtkBlock fmt c.1 c.2))).drop (n + 2)
          = cols.flatMap fun c => vtkBlock fmt c.1 c.2 := by
        rw [show n + 2 = (n + 1) + 1 by ring, List.drop_succ_cons, ← List.drop_drop, ← hlen,
          List.drop_left]
        rfl
      refine (congrArg (readFields parse n fuel) this).trans ?_
      exact ih (fun c hc => hn c (by simp [hc])) (fun c hc => hp c (by simp [hc])) fuel
        (by simp at hf; omega)

/-- **C11.**  If the number of columns is not the number of names, `ValueError` is raised and no file
changes.  Otherwise only the output file changes; it becomes the base file up to and including its
first `POINT_DATA` line (all of it if there is none), followed by fields from which the names and the
columns are read back, in order, provided the number format is invertible on the values. -/
theorem C11_write_vtk (fmt : ℝ → String) (files : String → Option (List String)) (base out : String)
    {n m : ℕ} (solution : Fin n → Fin m → ℝ) (names : List String) (data : List String)
    (hb : files base = some data) :
    (m ≠ names.length → writeVtk fmt files base out solution names = (.error .valueError, files)) ∧
    (m = names.length →
      ∃ pre body, writeVtk fmt files base out solution names
          = (.ok (), Function.update files out (some (pre ++ body))) ∧
        ((∃ l ∈ data, AnnouncesPointData l) → IsHeader data pre) ∧
        ((∀ l ∈ data, ¬ AnnouncesPointData l) → pre = data) ∧
        ∀ parse : String → ℝ, (∀ k i, parse (fmt (solution k i)) = solution k i) →
          ∀ fields, fields = readFields parse n body.length body →
            fields.length = m ∧
            ∀ i : Fin m, ∃ name, names[i.val]? = some name ∧
              fields[i.val]? = some (name.toList, List.ofFn fun k => solution k i)) := by
  refine ⟨fun h => by simp [writeVtk, hb, h], fun h => ?_⟩
  let cols : List (String × List ℝ) := (List.finRange m).map fun i =>
    (names.get ⟨i.val, by omega⟩, List.ofFn fun k => solution k i)
  refine ⟨vtkPrefix data, cols.flatMap fun c => vtkBlock fmt c.1 c.2, ?_, vtkPrefix_isHeader data,
    vtkPrefix_of_none data, ?_⟩
  · unfold writeVtk
    simp only [hb]
    rw [dif_neg (by simp [h])]
    congr 1
    funext f
    simp only [Function.update_apply, cols, List.flatMap_map]
  · intro parse hp fields hfields
    have hlen : cols.length ≤ (cols.flatMap fun c => vtkBlock fmt c.1 c.2).length := by
      rw [List.length_flatMap]
      conv_lhs => rw [← mul_one cols.length]
      have : (cols.map fun _ => 1).sum ≤
          (cols.map fun c => (vtkBlock fmt c.1 c.2).length).sum :=
        List.sum_le_sum fun c _ => by simp [vtkBlock]
      simpa using this
    rw [readFields_blocks fmt parse n cols (by simp [cols]) (by
      intro c hc v hv
      simp only [cols, List.mem_map] at hc
      obtain ⟨i, -, rfl⟩ := hc
      simp only [List.mem_ofFn] at hv
      obtain ⟨k, rfl⟩ := hv
      exact hp k i) _ hlen] at hfields
    subst hfields
    refine ⟨by simp [cols], fun i => ⟨names.get ⟨i.val, by omega⟩, ?_, ?_⟩⟩
    · simp
    · simp [cols]

/-- A table with two columns and an invertible format. -/
example : ∃ (fmt : ℝ → String) (parse : String → ℝ) (sol : Fin 2 → Fin 2 → ℝ),
    (∀ k i, parse (fmt (sol k i)) = sol k i) ∧ sol 0 0 ≠ sol 1 1 ∧
    (∃ l ∈ ["# vtk\n", "POINT_DATA 2\n", "junk\n"], AnnouncesPointData l) ∧
    (2 : ℕ) = ["u", "v"].length := by
  refine ⟨fun v => if v = 0 then "0" else "1", fun s => if s = "0" then 0 else 1,
    fun k i => if k = 0 then 0 else 1, ?_, by simp, ⟨"POINT_DATA 2\n", by simp, ?_⟩, rfl⟩
  · intro k i
    by_cases h : k = 0 <;> simp [h]
  · rw [← hasPointData_iff]; decide

end FastVPINNs
