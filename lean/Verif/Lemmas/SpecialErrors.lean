import Verif.Lemmas.Special
import Verif.Lemmas.RoundedErrors

/-! # Lemmas on infinities and NaN in the error metrics -/

namespace FastVPINNs

namespace XNum

section
variable {u Ω : ℝ} {a b r : XNum}

lemma Div.fin {y : ℝ} (h : Div u Ω a b (fin y)) :
    a.IsFin ∧ ((b.IsFin ∧ RoundedDiv u a.toReal b.toReal y) ∨ y = 0 ∧ ∃ s, b = inf s) := by
  cases a <;> cases b <;> simp only [Div] at h
  case fin.fin =>
    split at h
    · split at h <;> cases h
    · rename_i hb
      exact ⟨⟨_, rfl⟩, .inl ⟨⟨_, rfl⟩, hb, Fl.fin h⟩⟩
  case fin.inf =>
    cases h
    exact ⟨⟨_, rfl⟩, .inr ⟨rfl, _, rfl⟩⟩
  all_goals cases h

lemma Sqrt.fin {y : ℝ} (h : Sqrt u Ω a (fin y)) : a.IsFin ∧ RoundedSqrt u a.toReal y := by
  cases a <;> simp only [Sqrt] at h
  case fin =>
    split at h
    · cases h
    · exact ⟨⟨_, rfl⟩, Fl.fin h⟩
  case inf => split at h <;> cases h
  all_goals cases h

lemma max_nan_right (a : XNum) : a.max nan = nan := by cases a <;> rfl

lemma foldl_max_nan (l : List XNum) : l.foldl max nan = nan := by
  induction l with
  | nil => rfl
  | cons b l ih => exact ih

lemma foldl_max_mem_nan : ∀ (l : List XNum) (a : XNum), nan ∈ l → l.foldl max a = nan
  | b :: l, a, h => by
    rcases List.mem_cons.1 h with rfl | h
    · rw [List.foldl_cons, max_nan_right, foldl_max_nan]
    · exact foldl_max_mem_nan l _ h

/-- Not negative. -/
def NN : XNum → Prop
  | fin x => 0 ≤ x
  | inf s => s = false
  | nan => False

/-- Positive. -/
def Pos : XNum → Prop
  | fin x => 0 < x
  | inf s => s = false
  | nan => False

/-- A non-zero number. -/
def NZ : XNum → Prop
  | fin x => x ≠ 0
  | inf _ => True
  | nan => False

lemma Pos.nn (h : a.Pos) : a.NN := by
  cases a with
  | fin x => exact (show 0 < x from h).le
  | _ => exact h

lemma max_fin {x : ℝ} (hb : b.NN) (h : a.max b = fin x) (ha' : a.NN) :
    a.IsFin ∧ b.IsFin ∧ x = Max.max a.toReal b.toReal := by
  cases a with
  | fin y =>
    cases b with
    | fin z => cases h; exact ⟨⟨_, rfl⟩, ⟨_, rfl⟩, rfl⟩
    | inf s => cases hb; cases h
    | nan => cases h
  | inf s => cases ha'; cases b <;> cases h
  | nan => cases h

lemma max_nn (ha : a.NN) (hb : b.NN) : (a.max b).NN := by
  cases a with
  | fin y =>
    cases b with
    | fin z => exact le_max_of_le_left ha
    | inf s => cases hb; rfl
    | nan => cases hb
  | inf s =>
    cases ha
    cases b with
    | fin z => rfl
    | inf s => rfl
    | nan => cases hb
  | nan => cases ha

lemma max_pos (ha : a.NN) (hb : b.NN) (h : a.Pos ∨ b.Pos) : (a.max b).Pos := by
  cases a with
  | fin y =>
    cases b with
    | fin z =>
      rcases h with h | h
      · exact lt_max_of_lt_left h
      · exact lt_max_of_lt_right h
    | inf s => cases hb; rfl
    | nan => cases hb
  | inf s =>
    cases ha
    cases b with
    | fin z => rfl
    | inf s => rfl
    | nan => cases hb
  | nan => cases ha

lemma foldl_max_fin : ∀ (l : List XNum) (a : XNum), a.NN → (∀ x ∈ l, x.NN) → (l.foldl max a).IsFin →
    a.IsFin ∧ (∀ x ∈ l, x.IsFin) ∧ (l.foldl max a).toReal = (l.map toReal).foldl Max.max a.toReal
  | [], a, _, _, h => ⟨h, by simp, rfl⟩
  | b :: l, a, ha, hl, h => by
    have hb := hl b (by simp)
    obtain ⟨h1, h2, h3⟩ := foldl_max_fin l (a.max b) (max_nn ha hb) (fun x hx => hl x (by simp [hx])) h
    obtain ⟨x, hx⟩ := h1
    obtain ⟨f1, f2, e⟩ := max_fin hb hx ha
    refine ⟨f1, fun y hy => ?_, ?_⟩
    · rcases List.mem_cons.1 hy with rfl | hy
      · exact f2
      · exact h2 y hy
    · rw [List.foldl_cons, h3, hx, List.map_cons, List.foldl_cons, ← e]
      rfl

lemma foldl_max_pos : ∀ (l : List XNum) (a : XNum), a.NN → (∀ x ∈ l, x.NN) → (a.Pos ∨ ∃ x ∈ l, x.Pos) →
    (l.foldl max a).Pos
  | [], a, _, _, h => by
    rcases h with h | ⟨x, hx, -⟩
    · exact h
    · cases hx
  | b :: l, a, ha, hl, h => by
    have hb := hl b (by simp)
    refine foldl_max_pos l _ (max_nn ha hb) (fun x hx => hl x (by simp [hx])) ?_
    rcases h with h | ⟨x, hx, hp⟩
    · exact .inl (max_pos ha hb (.inl h))
    · rcases List.mem_cons.1 hx with rfl | hx
      · exact .inl (max_pos ha hb (.inr hp))
      · exact .inr ⟨x, hx, hp⟩

lemma foldl_max_zero : ∀ (l : List XNum), (∀ x ∈ l, x = fin 0) → l.foldl max (fin 0) = fin 0
  | [], _ => rfl
  | b :: l, hl => by
    rw [List.foldl_cons, hl b (by simp)]
    have : max (fin 0) (fin 0) = fin 0 := by simp [max]
    rw [this]
    exact foldl_max_zero l fun x hx => hl x (by simp [hx])

lemma abs_nn : a ≠ nan → a.abs.NN := by
  cases a with
  | fin x => exact fun _ => abs_nonneg x
  | inf s => exact fun _ => rfl
  | nan => exact fun h => (h rfl).elim

lemma abs_pos (h : a.NZ) : a.abs.Pos := by
  cases a with
  | fin x => exact _root_.abs_pos.2 h
  | inf s => rfl
  | nan => cases h

section
variable (h1 : u < 1)
include h1

lemma one_add_pos {δ : ℝ} (hδ : |δ| ≤ u) : 0 < 1 + δ := by linarith [neg_abs_le δ]

lemma Fl.pos {x : ℝ} (h : Fl u Ω x r) (hx : 0 < x) : r.Pos := by
  rcases h with ⟨δ, hδ, -, rfl⟩ | ⟨-, rfl⟩
  · exact mul_pos hx (one_add_pos h1 hδ)
  · simpa [Pos] using hx.le

lemma Fl.nz {x : ℝ} (h : Fl u Ω x r) (hx : x ≠ 0) : r.NZ := by
  rcases h with ⟨δ, hδ, -, rfl⟩ | ⟨-, rfl⟩
  · exact mul_ne_zero hx (one_add_pos h1 hδ).ne'
  · trivial

lemma Fl.nn {x : ℝ} (h : Fl u Ω x r) (hx : 0 ≤ x) : r.NN := by
  rcases h with ⟨δ, hδ, -, rfl⟩ | ⟨-, rfl⟩
  · exact mul_nonneg hx (one_add_pos h1 hδ).le
  · simpa [NN] using hx

lemma Add.nn (ha : a.NN) (hb : b.NN) (h : Add u Ω a b r) : r.NN := by
  cases a with
  | fin x =>
    cases b with
    | fin y => exact Fl.nn h1 h (add_nonneg ha hb)
    | inf s => cases hb; cases h; rfl
    | nan => cases hb
  | inf s =>
    cases ha
    cases b with
    | fin y => cases h; rfl
    | inf s => cases hb; cases h; rfl
    | nan => cases hb
  | nan => cases ha

lemma Add.pos (ha : a.NN) (hb : b.NN) (hp : a.Pos ∨ b.Pos) (h : Add u Ω a b r) : r.Pos := by
  cases a with
  | fin x =>
    cases b with
    | fin y =>
      refine Fl.pos h1 h ?_
      rcases hp with hp | hp
      · exact add_pos_of_pos_of_nonneg hp hb
      · exact add_pos_of_nonneg_of_pos ha hp
    | inf s => cases hb; cases h; rfl
    | nan => cases hb
  | inf s =>
    cases ha
    cases b with
    | fin y => cases h; rfl
    | inf s => cases hb; cases h; rfl
    | nan => cases hb
  | nan => cases ha

lemma Sum.pos {l : List XNum} (h : Sum u Ω l r) : (∀ x ∈ l, x.NN) → r.NN ∧ ((∃ x ∈ l, x.Pos) → r.Pos) := by
  induction h with
  | nil => exact fun _ => ⟨le_rfl, fun ⟨x, hx, _⟩ => by cases hx⟩
  | one x => exact fun h => ⟨h x (by simp), fun ⟨y, hy, hp⟩ => by rwa [← List.mem_singleton.1 hy]⟩
  | add hl hm _ _ hr ihx ihy =>
    intro h
    obtain ⟨n1, p1⟩ := ihx fun x hx => h x (List.mem_append_left _ hx)
    obtain ⟨n2, p2⟩ := ihy fun x hx => h x (List.mem_append_right _ hx)
    refine ⟨Add.nn h1 n1 n2 hr, fun ⟨z, hz, hp⟩ => Add.pos h1 n1 n2 ?_ hr⟩
    rcases List.mem_append.1 hz with hz | hz
    · exact .inl (p1 ⟨z, hz, hp⟩)
    · exact .inr (p2 ⟨z, hz, hp⟩)
  | perm hp _ ih =>
    intro h
    obtain ⟨n1, p1⟩ := ih fun x hx => h x (hp.mem_iff.1 hx)
    exact ⟨n1, fun ⟨z, hz, hq⟩ => p1 ⟨z, hp.mem_iff.2 hz, hq⟩⟩

lemma Mul.self_pos (ha : a.NZ) (h : Mul u Ω a a r) : r.Pos := by
  cases a with
  | fin x => exact Fl.pos h1 h (mul_self_pos.2 ha)
  | inf s => rw [show r = inf (s != s) from h]; simp [Pos]
  | nan => cases ha

lemma Div.nat_pos (ha : a.Pos) {n : ℕ} (hn : n ≠ 0) (h : Div u Ω a (XNum.fin n) r) : r.Pos := by
  have hn' : (0 : ℝ) < n := Nat.cast_pos.2 (Nat.pos_of_ne_zero hn)
  cases a with
  | fin x =>
    simp only [Div, hn'.ne', if_false] at h
    exact Fl.pos h1 h (div_pos ha hn')
  | inf s => cases ha; rw [show r = inf _ from h]; simp [Pos]
  | nan => cases ha

lemma Sqrt.pos (ha : a.Pos) (h : Sqrt u Ω a r) : r.Pos := by
  cases a with
  | fin x =>
    have hx : 0 < x := ha
    simp only [Sqrt, not_lt.2 hx.le, if_false] at h
    exact Fl.pos h1 h (Real.sqrt_pos.2 hx)
  | inf s => cases ha; cases h; rfl
  | nan => cases ha

end

/-- A positive number over zero is infinite. -/
lemma Div.pos_zero (ha : a.Pos) (h : Div u Ω a (XNum.fin 0) r) : r = inf false := by
  cases a with
  | fin x =>
    have hx : 0 < x := ha
    simp only [Div, if_true, hx.ne', if_false] at h
    rw [h]
    simpa using hx.le
  | inf s => cases ha; rw [show r = inf _ from h]; simp
  | nan => cases ha

lemma Div.zero_zero (h : Div u Ω (XNum.fin 0) (XNum.fin 0) r) : r = nan := by
  simpa [Div] using h

section
variable (hΩ : 0 < Ω)
include hΩ

lemma Fl.zero (h : Fl u Ω 0 r) : r = XNum.fin 0 := by
  rcases h with ⟨δ, -, -, rfl⟩ | ⟨h, -⟩
  · simp
  · simp at h
    linarith

lemma Sum.zero {l : List XNum} (h : Sum u Ω l r) : (∀ x ∈ l, x = XNum.fin 0) → r = XNum.fin 0 := by
  induction h with
  | nil => exact fun _ => rfl
  | one x => exact fun h => h x (by simp)
  | add hl hm _ _ hr ihx ihy =>
    intro h
    rw [ihx fun x hx => h x (List.mem_append_left _ hx), ihy fun x hx => h x (List.mem_append_right _ hx)] at hr
    exact Fl.zero hΩ (by simpa [Add] using hr)
  | perm hp _ ih => exact fun h => ih fun x hx => h x (hp.mem_iff.1 hx)

lemma Read.zero (h : Read u Ω 0 (XNum.fin 0) r) : r = XNum.fin 0 := by
  rcases h with ⟨y, hy, -, rfl⟩ | ⟨h, -⟩
  · simp at hy
    rw [hy]
  · simp at h
    linarith

lemma Div.zero_nat {n : ℕ} (hn : n ≠ 0) (h : Div u Ω (XNum.fin 0) (XNum.fin n) r) : r = XNum.fin 0 := by
  have hn' : (n : ℝ) ≠ 0 := Nat.cast_ne_zero.2 hn
  simp only [Div, hn', if_false, zero_div] at h
  exact Fl.zero hΩ h

lemma Sqrt.zero (h : Sqrt u Ω (XNum.fin 0) r) : r = XNum.fin 0 := by
  simp only [Sqrt, lt_irrefl, if_false, Real.sqrt_zero] at h
  exact Fl.zero hΩ h

end

lemma Sum.singleton {l : List XNum} (h : Sum u Ω l r) : ∀ x, l = [x] → r = x := by
  induction h with
  | nil => exact fun x h => by cases h
  | one y => exact fun x h => by cases h; rfl
  | add hl hm _ _ _ _ _ =>
    intro x h
    have h1 := List.length_pos_iff.2 hl
    have h2 := List.length_pos_iff.2 hm
    have := congrArg List.length h
    simp only [List.length_append, List.length_singleton] at this
    omega
  | perm hp _ ih =>
    rintro x rfl
    exact ih x (List.perm_singleton.1 hp)

lemma Read.exact {x : ℝ} (hx : |x| < Ω) (h : Read u Ω 0 (XNum.fin x) r) : r = XNum.fin x := by
  rcases h with ⟨z, hz, -, rfl⟩ | ⟨h, -⟩
  · have : |z - x| ≤ 0 := by simpa using hz
    rw [sub_eq_zero.1 (abs_nonpos_iff.1 this)]
  · simp only [pow_zero, mul_one] at h
    linarith

lemma Sqrt.nan (h : Sqrt u Ω nan r) : r = nan := h

end

end XNum

open ExprOf

section
variable {u Ω : ℝ} {es d : List (ExprOf XNum)} {r : XNum} {exact approx : List XNum}

lemma forall₂_exists {α β : Type} {R : α → β → Prop} {l : List α} {m : List β} (h : List.Forall₂ R l m) {a : α}
    (ha : a ∈ l) : ∃ b ∈ m, R a b := by
  induction h with
  | nil => cases ha
  | cons hr _ ih =>
    rcases List.mem_cons.1 ha with rfl | ha
    · exact ⟨_, by simp, hr⟩
    · obtain ⟨b, hb, h⟩ := ih ha
      exact ⟨b, by simp [hb], h⟩

lemma forall₂_exists' {α β : Type} {R : α → β → Prop} {l : List α} {m : List β} (h : List.Forall₂ R l m) {b : β}
    (hb : b ∈ m) : ∃ a ∈ l, R a b :=
  forall₂_exists h.flip hb

lemma SpecialMean.nan (h : SpecialMean u Ω es r) (hn : es = [] ∨ ∃ e ∈ es, e.HasNan) : r = .nan := by
  obtain ⟨xs, s, hx, hs, hd⟩ := h
  rcases hn with rfl | ⟨e, he, hn⟩
  · cases hx
    rw [hs.empty rfl] at hd
    exact XNum.Div.zero_zero (by simpa using hd)
  · obtain ⟨x, hx', hr⟩ := forall₂_exists hx he
    rw [hs.nan (XRun.nan e hr hn ▸ hx')] at hd
    exact hd.nan_left

lemma SpecialMax.nan (h : SpecialMax u Ω es r) (hn : ∃ e ∈ es, e.HasNan) : r = .nan := by
  obtain ⟨x, xs, hx, rfl⟩ := h
  obtain ⟨e, he, hn⟩ := hn
  obtain ⟨y, hy, hr⟩ := forall₂_exists hx he
  rw [XRun.nan e hr hn] at hy
  rcases List.mem_cons.1 hy with rfl | hy
  · exact XNum.foldl_max_nan xs
  · exact XNum.foldl_max_mem_nan xs x hy

lemma npSubE_nan (h : npSubE exact approx = .ok d) (hn : .nan ∈ exact ∨ .nan ∈ approx) :
    d = [] ∨ ∃ e ∈ d, e.HasNan := by
  unfold npSubE at h
  split_ifs at h with h1 h2 h3
  · cases h
    right
    rcases hn with hn | hn
    · obtain ⟨i, hi, e⟩ := List.mem_iff_getElem.1 hn
      exact ⟨_, List.mem_iff_getElem.2 ⟨i, by simpa [← h1] using hi, List.getElem_zipWith⟩, .inl e⟩
    · obtain ⟨i, hi, e⟩ := List.mem_iff_getElem.1 hn
      exact ⟨_, List.mem_iff_getElem.2 ⟨i, by simpa [h1] using hi, List.getElem_zipWith⟩, .inr e⟩
  · cases h
    obtain ⟨x, rfl⟩ := List.length_eq_one_iff.1 h2
    rcases hn with hn | hn
    · cases approx with
      | nil => exact .inl rfl
      | cons y l => exact .inr ⟨_, List.mem_cons_self, .inl (List.mem_singleton.1 hn).symm⟩
    · exact .inr ⟨_, List.mem_map_of_mem hn, .inr rfl⟩
  · cases h
    obtain ⟨x, rfl⟩ := List.length_eq_one_iff.1 h3
    rcases hn with hn | hn
    · exact .inr ⟨_, List.mem_map_of_mem hn, .inl rfl⟩
    · cases exact with
      | nil => exact .inl rfl
      | cons y l => exact .inr ⟨_, List.mem_cons_self, .inr (List.mem_singleton.1 hn).symm⟩

lemma forall₂_fin {xs : List XNum} (h : List.Forall₂ (fun e x => e.XRun u Ω x) es xs) (hf : ∀ x ∈ xs, x.IsFin) :
    (∀ e ∈ es, e.AllFin) ∧ RunAll u (es.map (ExprOf.map XNum.toReal)) (xs.map XNum.toReal) := by
  induction h with
  | nil => exact ⟨by simp, .nil⟩
  | cons hr _ ih =>
    obtain ⟨i1, i2⟩ := ih fun x hx => hf x (by simp [hx])
    obtain ⟨j1, j2⟩ := XRun.fin _ hr (hf _ (by simp))
    refine ⟨fun e he => ?_, .cons j2 i2⟩
    rcases List.mem_cons.1 he with rfl | he
    · exact j1
    · exact i1 e he

lemma SpecialMean.fin (h : SpecialMean u Ω es r) (hf : r.IsFin) :
    (∀ e ∈ es, e.AllFin) ∧ RoundedMean u (es.map (ExprOf.map XNum.toReal)) r.toReal := by
  have hne : es ≠ [] := by
    intro he
    rw [h.nan (.inl he)] at hf
    obtain ⟨x, hx⟩ := hf
    cases hx
  obtain ⟨xs, s, hx, hs, hd⟩ := h
  obtain ⟨y, rfl⟩ := hf
  obtain ⟨f1, ⟨-, -, δ, hδ, e⟩ | ⟨-, s, hs⟩⟩ := XNum.Div.fin hd
  · obtain ⟨f2, f3⟩ := hs.fin f1
    obtain ⟨f4, f5⟩ := forall₂_fin hx f2
    refine ⟨f4, by simpa using hne, _, _, δ, f5, f3, hδ, ?_⟩
    rw [List.length_map]
    exact e
  · cases hs

lemma abs_run_nn {e : ExprOf XNum} (h : (ExprOf.abs e).XRun u Ω r) (hr : r ≠ .nan) : r.NN := by
  obtain ⟨x, -, rfl⟩ := h
  refine XNum.abs_nn ?_
  rintro rfl
  exact hr rfl

lemma SpecialMax.fin (h : SpecialMax u Ω (es.map .abs) r) (hf : r.IsFin) :
    (∀ e ∈ es, e.AllFin) ∧ RoundedMax u ((es.map .abs).map (ExprOf.map XNum.toReal)) r.toReal := by
  obtain ⟨x, xs, hx, rfl⟩ := h
  have hnan : ∀ y ∈ x :: xs, y ≠ .nan := by
    rintro y hy rfl
    obtain ⟨z, hz⟩ := hf
    rcases List.mem_cons.1 hy with rfl | hy
    · rw [XNum.foldl_max_nan] at hz
      cases hz
    · rw [XNum.foldl_max_mem_nan xs x hy] at hz
      cases hz
  have hnn : ∀ y ∈ x :: xs, y.NN := fun y hy => by
    obtain ⟨e, he, hr⟩ := forall₂_exists' hx hy
    obtain ⟨e', -, rfl⟩ := List.mem_map.1 he
    exact abs_run_nn hr (hnan y hy)
  obtain ⟨f1, f2, f3⟩ := XNum.foldl_max_fin xs x (hnn x (by simp)) (fun y hy => hnn y (by simp [hy])) hf
  obtain ⟨g1, g2⟩ := forall₂_fin hx fun y hy => by
    rcases List.mem_cons.1 hy with rfl | hy
    · exact f1
    · exact f2 y hy
  exact ⟨fun e he => g1 (.abs e) (List.mem_map_of_mem he), _, g2, by rw [f3]; rfl⟩

lemma npSubE_fin {a b : List ℝ} (h : npSubE (a.map XNum.fin) (b.map XNum.fin) = .ok d) :
    npSubE a b = .ok (d.map (ExprOf.map XNum.toReal)) := by
  unfold npSubE at h ⊢
  simp only [List.length_map] at h
  split_ifs at h ⊢ with h1 h2 h3
  · cases h
    rw [List.zipWith_map, List.map_zipWith]
    rfl
  · cases h
    obtain ⟨x, rfl⟩ := List.length_eq_one_iff.1 h2
    rw [List.map_map, List.map_map]
    rfl
  · cases h
    obtain ⟨x, rfl⟩ := List.length_eq_one_iff.1 h3
    rw [List.map_map, List.map_map]
    rfl

end

end FastVPINNs
