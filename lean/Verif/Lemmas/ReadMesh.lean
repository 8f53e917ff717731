import Verif.Lemmas.Geometry
import Verif.Spec.Mesh
import Mathlib.Data.List.Dedup
import Mathlib.Data.List.Lookmap

/-! # Auxiliary lemmas about `read_mesh` -/

namespace FastVPINNs

open Spec

section mapE
variable {α β ε : Type*} {f : α → Except ε β}

lemma mapE_ok_iff {l : List α} {bs : List β} :
    mapE f l = .ok bs ↔ List.Forall₂ (fun a b => f a = .ok b) l bs := by
  induction l generalizing bs with
  | nil => simp [mapE, eq_comm]
  | cons a l ih =>
    rw [mapE]
    cases hfa : f a with
    | error e => cases bs <;> simp [hfa]
    | ok b =>
      cases hl : mapE f l with
      | error e =>
        cases bs with
        | nil => simp
        | cons b' bs' =>
          simp only [List.forall₂_cons, hfa, reduceCtorEq, false_iff, not_and]
          intro _ h
          rw [← ih, hl] at h
          cases h
      | ok bs'' =>
        cases bs with
        | nil => simp
        | cons b' bs' =>
          simp only [Except.ok.injEq, List.cons.injEq, List.forall₂_cons, hfa]
          rw [← ih, hl]
          simp

lemma mapE_exists {l : List α} (h : ∀ a ∈ l, ∃ b, f a = .ok b) : ∃ bs, mapE f l = .ok bs := by
  induction l with
  | nil => exact ⟨[], rfl⟩
  | cons a l ih =>
    obtain ⟨b, hb⟩ := h a (by simp)
    obtain ⟨bs, hbs⟩ := ih fun a ha => h a (by simp [ha])
    exact ⟨b :: bs, by simp [mapE, hb, hbs]⟩

lemma mapE_length {l : List α} {bs : List β} (h : mapE f l = .ok bs) : bs.length = l.length :=
  (mapE_ok_iff.1 h).length_eq.symm

lemma mapE_getElem? {l : List α} {bs : List β} (h : mapE f l = .ok bs) (k : ℕ) :
    (∀ a, l[k]? = some a → ∃ b, bs[k]? = some b ∧ f a = .ok b) ∧
    (∀ b, bs[k]? = some b → ∃ a, l[k]? = some a ∧ f a = .ok b) := by
  have h := mapE_ok_iff.1 h
  induction h generalizing k with
  | nil => simp
  | @cons a b l bs hab _ ih =>
    have ih := ih
    cases k with
    | zero => simp [hab]
    | succ k =>
      simp only [List.getElem?_cons_succ]
      exact ih (mapE_ok_iff.2 ‹_›) k

end mapE

lemma cellsDict_ok {m : MeshioMesh} {t : String} {l : List (List ℕ)} :
    m.cellsDict t = .ok l ↔ (∃ b ∈ m.blocks, b.1 = t) ∧ l = cellsOfType m t := by
  unfold MeshioMesh.cellsDict cellsOfType
  split_ifs with h
  · simp only [List.any_eq_true, beq_iff_eq] at h
    simp only [Except.ok.injEq, h, true_and, beq_eq_decide]
    exact eq_comm
  · simp only [List.any_eq_true, beq_iff_eq, not_exists, not_and] at h
    simp only [false_iff, not_and]
    rintro ⟨b, hb, hbt⟩
    exact absurd hbt (h b hb)

lemma point_ok {m : MeshioMesh} {k : ℕ} {p : Fin (2 + m.extra) → ℝ} :
    m.point k = .ok p ↔ m.points[k]? = some p := by
  unfold MeshioMesh.point
  cases m.points[k]? <;> simp

lemma mapE_point_two {m : MeshioMesh} {l : List ℕ} {p q : Fin (2 + m.extra) → ℝ} :
    mapE m.point l = .ok [p, q] ↔
      ∃ a b, l = [a, b] ∧ m.points[a]? = some p ∧ m.points[b]? = some q := by
  rw [mapE_ok_iff]
  constructor
  · intro h
    obtain ⟨a, l1, h1, h2, rfl⟩ := List.forall₂_cons_right_iff.1 h
    obtain ⟨b, l2, h3, h4, rfl⟩ := List.forall₂_cons_right_iff.1 h2
    rw [List.forall₂_nil_right_iff] at h4
    subst h4
    exact ⟨a, b, rfl, point_ok.1 h1, point_ok.1 h3⟩
  · rintro ⟨a, b, rfl, h1, h2⟩
    simp [point_ok, h1, h2]

/-- The edges found by `readEdges` are the edges of the mesh. -/
lemma readEdges_spec {m : MeshioMesh} {edges} (h : readEdges m = .ok edges) :
    edges.length = (cellsOfType m "line").length ∧
    ∀ k p q, edges[k]? = some (p, q) ↔ IsEdge m k p q := by
  unfold readEdges at h
  split at h
  · cases h
  rename_i lines hl
  obtain ⟨-, rfl⟩ := cellsDict_ok.1 hl
  refine ⟨mapE_length h, fun k p q => ?_⟩
  obtain ⟨h1, h2⟩ := mapE_getElem? h k
  have body : ∀ l : List ℕ, ∀ e, (match mapE m.point l with
      | .error e => Except.error e
      | .ok [a, b] => .ok (a, b)
      | .ok _ => .error PyErr.valueError) = .ok e ↔ mapE m.point l = .ok [e.1, e.2] := by
    intro l e
    split
    · rename_i h3; simp [h3]
    · rename_i a b h3
      rw [h3]
      simp [Prod.ext_iff]
    · rename_i h3 h4
      rw [h4]
      simp only [reduceCtorEq, false_iff, Except.ok.injEq]
      rintro rfl
      exact h3 _ _ rfl
  constructor
  · intro hk
    obtain ⟨l, hl1, hl2⟩ := h2 _ hk
    have hl2 := (body _ _).1 hl2
    obtain ⟨a, b, rfl, ha, hb⟩ := mapE_point_two.1 hl2
    exact ⟨a, b, hl1, ha, hb⟩
  · rintro ⟨a, b, hl1, ha, hb⟩
    obtain ⟨e, he, hle⟩ := h1 _ hl1
    have hle := (body _ _).1 hle
    obtain ⟨a', b', hab, ha', hb'⟩ := mapE_point_two.1 hle
    simp only [List.cons.injEq, and_true] at hab
    obtain ⟨rfl, rfl⟩ := hab
    rw [ha] at ha'; rw [hb] at hb'
    rw [he]
    simp [Option.some.inj ha', Option.some.inj hb']

/-- The cells found by `readCells` are the sorted quadrilaterals of the mesh. -/
lemma readCells_spec {m : MeshioMesh} {cells} (h : readCells m = .ok cells) :
    cells.length = (cellsOfType m "quad").length ∧
    ∀ k c, cells[k]? = some c → ∃ v, IsQuad m k v ∧ c = sortCell v := by
  unfold readCells at h
  split at h
  · cases h
  rename_i quads hq
  obtain ⟨-, rfl⟩ := cellsDict_ok.1 hq
  refine ⟨mapE_length h, fun k c hk => ?_⟩
  obtain ⟨q, hq1, hq2⟩ := (mapE_getElem? h k).2 _ hk
  split at hq2
  · cases hq2
  · rename_i pa pb pc pd h3
    rw [mapE_ok_iff] at h3
    obtain ⟨a, l1, ha, h4, rfl⟩ := List.forall₂_cons_right_iff.1 h3
    obtain ⟨b, l2, hb, h5, rfl⟩ := List.forall₂_cons_right_iff.1 h4
    obtain ⟨c', l3, hc, h6, rfl⟩ := List.forall₂_cons_right_iff.1 h5
    obtain ⟨d, l4, hd, h7, rfl⟩ := List.forall₂_cons_right_iff.1 h6
    rw [List.forall₂_nil_right_iff] at h7
    subst h7
    refine ⟨_, ⟨![a, b, c', d], by simpa using hq1, ?_⟩, (Except.ok.inj hq2).symm⟩
    intro j
    fin_cases j
    · exact ⟨pa, point_ok.1 ha, rfl⟩
    · exact ⟨pb, point_ok.1 hb, rfl⟩
    · exact ⟨pc, point_ok.1 hc, rfl⟩
    · exact ⟨pd, point_ok.1 hd, rfl⟩
  · cases hq2

/-! ### The dictionary -/

section dict
variable {α : Type*}

lemma lookup_map_append (d : List (ℤ × List α)) (tag t : ℤ) (rows : List α) :
    (d.map fun e => if e.1 = tag then (e.1, e.2 ++ rows) else e).lookup t
      = (d.lookup t).map fun l => if t = tag then l ++ rows else l := by
  induction d with
  | nil => simp
  | cons e d ih =>
    obtain ⟨k, l⟩ := e
    by_cases hk : k = tag
    · subst hk
      by_cases ht : t = k
      · subst ht; simp
      · simp only [List.map_cons, if_true, List.lookup_cons, beq_eq_decide, ht, decide_false]
        rw [ih]; simp [ht]
    · by_cases ht : t = k
      · subst ht; simp [hk]
      · simp only [List.map_cons, hk, if_false, List.lookup_cons, beq_eq_decide, ht, decide_false]
        rw [ih]

lemma lookup_none_iff (d : List (ℤ × List α)) (t : ℤ) :
    d.lookup t = none ↔ t ∉ d.map Prod.fst := by
  induction d with
  | nil => simp
  | cons e d ih =>
    obtain ⟨k, l⟩ := e
    by_cases ht : t = k
    · subst ht; simp
    · simp only [List.lookup_cons, beq_eq_decide, ht, decide_false, ih, List.map_cons,
        List.mem_cons, false_or]

lemma lookup_dictAppend (d : List (ℤ × List α)) (tag t : ℤ) (rows : List α) :
    (dictAppend d tag rows).lookup t
      = if t = tag then some ((d.lookup tag).getD [] ++ rows) else d.lookup t := by
  unfold dictAppend
  split_ifs with h1 h2 h2
  · subst h2
    rw [lookup_map_append]
    simp only [List.any_eq_true, beq_iff_eq] at h1
    have : d.lookup t ≠ none := by
      rw [Ne, lookup_none_iff, not_not]
      obtain ⟨e, he, hte⟩ := h1
      exact List.mem_map.2 ⟨e, he, hte⟩
    obtain ⟨l, hl⟩ := Option.ne_none_iff_exists'.1 this
    simp [hl]
  · rw [lookup_map_append]; simp [h2]
  · subst h2
    have : d.lookup t = none := by
      rw [lookup_none_iff]
      simp only [List.any_eq_true, beq_iff_eq, not_exists, not_and] at h1
      simp only [List.mem_map, not_exists, not_and]
      exact h1
    rw [List.lookup_append, this]
    simp
  · rw [List.lookup_append]
    simp [List.lookup_cons, beq_eq_decide, h2]

lemma keys_dictAppend (d : List (ℤ × List α)) (tag : ℤ) (rows : List α) :
    (dictAppend d tag rows).map Prod.fst
      = if tag ∈ d.map Prod.fst then d.map Prod.fst else d.map Prod.fst ++ [tag] := by
  unfold dictAppend
  have e : (d.any fun e => e.1 == tag) = true ↔ tag ∈ d.map Prod.fst := by
    simp only [List.any_eq_true, beq_iff_eq, List.mem_map]
  by_cases h : tag ∈ d.map Prod.fst
  · rw [if_pos (e.2 h), if_pos h, List.map_map]
    congr 1
    funext x
    simp only [Function.comp]
    split_ifs <;> rfl
  · rw [if_neg (fun hh => h (e.1 hh)), if_neg h]
    simp

end dict

lemma firstOccurrences_concat (l : List ℤ) (t : ℤ) : firstOccurrences (l ++ [t])
    = if t ∈ firstOccurrences l then firstOccurrences l else firstOccurrences l ++ [t] := by
  simp only [firstOccurrences, List.reverse_append, List.reverse_cons, List.reverse_nil,
    List.nil_append, List.singleton_append, List.mem_reverse, List.mem_dedup]
  by_cases h : t ∈ l
  · rw [if_pos h, List.dedup_cons_of_mem (by simpa using h)]
  · rw [if_neg h, List.dedup_cons_of_notMem (by simpa using h), List.reverse_cons]

/-- What the loop over the boundary edges does. -/
lemma boundaryLoop_spec {extra : ℕ} {method : String} {level : ℕ}
    {lhs : ℕ → Fin (2 ^ level + 1) → ℝ × ℝ} {tags : List ℤ}
    (es : List ((Fin (2 + extra) → ℝ) × (Fin (2 + extra) → ℝ))) (i : ℕ)
    (d d' : List (ℤ × List (List ℝ)))
    (h : boundaryLoop method level lhs tags es i d = .ok d')
    (hd : d.map Prod.fst = firstOccurrences (tags.take i)) (hi : i ≤ tags.length) :
    i + es.length ≤ tags.length ∧
    d'.map Prod.fst = firstOccurrences (tags.take (i + es.length)) ∧
    ∀ t r, r ∈ (d'.lookup t).getD [] ↔ r ∈ (d.lookup t).getD [] ∨
      ∃ k e rows, es[k]? = some e ∧ tags[i + k]? = some t ∧
        sampleEdge method level (lhs (i + k)) e.1 e.2 = .ok rows ∧ r ∈ rows := by
  induction es generalizing i d with
  | nil =>
    simp only [boundaryLoop, Except.ok.injEq] at h
    subst h
    simp [hd, hi]
  | cons e es ih =>
    rw [boundaryLoop] at h
    split at h
    · cases h
    rename_i rows hrows
    split at h
    · cases h
    rename_i tag htag
    obtain ⟨hilt, hti⟩ := List.getElem?_eq_some_iff.1 htag
    have hkeys : (dictAppend d tag rows).map Prod.fst = firstOccurrences (tags.take (i + 1)) := by
      rw [keys_dictAppend, hd, ← List.take_concat_get' tags i hilt, firstOccurrences_concat, hti]
    obtain ⟨h1, h2, h3⟩ := ih (i + 1) _ h hkeys (by omega)
    refine ⟨by simp; omega, by rw [h2]; congr 2; simp; omega, fun t r => ?_⟩
    rw [h3, lookup_dictAppend]
    constructor
    · rintro (h4 | ⟨k, e', rows', hk, ht, hs, hr⟩)
      · by_cases ht : t = tag
        · subst ht
          simp only [if_true, Option.getD_some, List.mem_append] at h4
          rcases h4 with h4 | h4
          · exact Or.inl h4
          · exact Or.inr ⟨0, e, rows, by simp, by simpa using htag, by simpa using hrows, h4⟩
        · simp only [ht, if_false] at h4
          exact Or.inl h4
      · exact Or.inr ⟨k + 1, e', rows', by simpa using hk, by rw [← ht]; congr 1; omega,
          by rw [← hs]; congr 2; omega, hr⟩
    · rintro (h4 | ⟨k, e', rows', hk, ht, hs, hr⟩)
      · left
        by_cases ht : t = tag
        · subst ht; simp [h4]
        · simpa [ht] using h4
      · cases k with
        | zero =>
          left
          simp only [List.getElem?_cons_zero, Option.some.injEq] at hk
          subst hk
          simp only [add_zero] at ht hs
          rw [hrows] at hs
          rw [htag] at ht
          obtain rfl := Option.some.inj ht
          obtain rfl := Except.ok.inj hs
          simp [hr]
        | succ k =>
          right
          exact ⟨k, e', rows', by simpa using hk, by rw [← ht]; congr 1; omega,
            by rw [← hs]; congr 2; omega, hr⟩

lemma mem_npUnique (rows : List (List ℝ)) (r : List ℝ) : r ∈ npUnique rows ↔ r ∈ rows := by
  simp [npUnique]

lemma npUnique_sorted (rows : List (List ℝ)) : (npUnique rows).Pairwise (· < ·) :=
  Finset.sortedLT_sort _ |>.pairwise

lemma lookup_map_snd {α β : Type*} (d : List (ℤ × α)) (f : α → β) (t : ℤ) :
    (d.map fun e => (e.1, f e.2)).lookup t = (d.lookup t).map f := by
  induction d with
  | nil => simp
  | cons e d ih =>
    obtain ⟨k, l⟩ := e
    by_cases ht : t = k
    · subst ht; simp
    · simp only [List.map_cons, List.lookup_cons, beq_eq_decide, ht, decide_false, ih]

/-- Everything a successful `read_mesh` went through. -/
lemma readMesh_ok {read : String → Except PyErr MeshioMesh} {file : String} {level : ℕ}
    {method : String} {lhs : ℕ → Fin (2 ^ level + 1) → ℝ × ℝ} {cells : List Quad}
    {d : List (ℤ × List (List ℝ))} (h : readMesh read file level method lhs = .ok (cells, d)) :
    pathSuffix file.toList = ".mesh".toList ∧ ∃ m edges tags rest d0, read file = .ok m ∧
      readCells m = .ok cells ∧ readEdges m = .ok edges ∧ m.refs = tags :: rest ∧
      boundaryLoop method level lhs tags edges 0 [] = .ok d0 ∧
      d = d0.map fun e => (e.1, npUnique e.2) := by
  unfold readMesh at h
  split_ifs at h with h1
  push Not at h1
  refine ⟨h1, ?_⟩
  split at h
  · cases h
  rename_i m hm
  split at h
  · cases h
  rename_i cells' hcells
  split at h
  · cases h
  rename_i edges hedges
  split_ifs at h
  split at h
  · cases h
  rename_i tags rest hrefs
  split at h
  · cases h
  rename_i d0 hd0
  simp only [Except.ok.injEq, Prod.mk.injEq] at h
  obtain ⟨rfl, rfl⟩ := h
  exact ⟨m, edges, tags, rest, d0, hm, hcells, hedges, hrefs, hd0, rfl⟩

end FastVPINNs
