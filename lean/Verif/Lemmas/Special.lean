import Verif.Model.Special
import Verif.Lemmas.RoundedRuns

/-! # Lemmas on infinities and NaN -/

namespace FastVPINNs

namespace XNum

lemma IsFin.eq {a : XNum} (h : a.IsFin) : a = fin a.toReal := by
  obtain ⟨x, rfl⟩ := h
  rfl

@[simp] lemma isFin_fin (x : ℝ) : (fin x).IsFin := ⟨x, rfl⟩

section
variable {u Ω : ℝ} {a b r : XNum}

lemma Fl.ne_nan {x : ℝ} (h : Fl u Ω x r) : r ≠ nan := by
  rcases h with ⟨δ, -, -, rfl⟩ | ⟨-, rfl⟩ <;> simp

lemma Fl.fin {x y : ℝ} (h : Fl u Ω x (fin y)) : ∃ δ, |δ| ≤ u ∧ y = x * (1 + δ) := by
  rcases h with ⟨δ, hδ, -, h⟩ | ⟨-, h⟩
  · cases h
    exact ⟨δ, hδ, rfl⟩
  · cases h

lemma Fl.exists (hu : 0 ≤ u) (x : ℝ) : ∃ r, Fl u Ω x r := by
  by_cases h : |x| < Ω
  · exact ⟨_, .inl ⟨0, by simpa using hu, by simpa using h, rfl⟩⟩
  · refine ⟨_, .inr ⟨?_, rfl⟩⟩
    have := abs_nonneg x
    nlinarith

lemma Fl.small {x : ℝ} (h : Fl u Ω x r) (hx : |x| * (1 + u) < Ω) : r.IsFin := by
  rcases h with ⟨δ, -, -, rfl⟩ | ⟨h, -⟩
  · simp
  · linarith

lemma neg_isFin : a.neg.IsFin ↔ a.IsFin := by
  cases a <;> simp [neg, IsFin]

lemma toReal_neg : a.neg.toReal = -a.toReal := by
  cases a <;> simp [neg, toReal]

lemma Add.fin {y : ℝ} (h : Add u Ω a b (fin y)) :
    a.IsFin ∧ b.IsFin ∧ ∃ δ, |δ| ≤ u ∧ y = (a.toReal + b.toReal) * (1 + δ) := by
  cases a <;> cases b <;> simp only [Add] at h
  · exact ⟨⟨_, rfl⟩, ⟨_, rfl⟩, Fl.fin h⟩
  all_goals (try cases h)
  split at h <;> cases h

lemma Sub.fin {y : ℝ} (h : Sub u Ω a b (fin y)) :
    a.IsFin ∧ b.IsFin ∧ ∃ δ, |δ| ≤ u ∧ y = (a.toReal - b.toReal) * (1 + δ) := by
  obtain ⟨h1, h2, δ, h3, h4⟩ := Add.fin h
  rw [toReal_neg, ← sub_eq_add_neg] at h4
  exact ⟨h1, neg_isFin.1 h2, δ, h3, h4⟩

lemma Mul.fin {y : ℝ} (h : Mul u Ω a b (fin y)) :
    a.IsFin ∧ b.IsFin ∧ ∃ δ, |δ| ≤ u ∧ y = a.toReal * b.toReal * (1 + δ) := by
  cases a <;> cases b <;> simp only [Mul] at h
  · exact ⟨⟨_, rfl⟩, ⟨_, rfl⟩, Fl.fin h⟩
  all_goals (first | cases h | (split at h <;> cases h))

lemma abs_fin {y : ℝ} (h : fin y = a.abs) : a.IsFin ∧ y = |a.toReal| := by
  cases a <;> simp only [abs] at h <;> cases h
  exact ⟨⟨_, rfl⟩, rfl⟩

lemma Sum.fin {l : List XNum} (h : Sum u Ω l r) : r.IsFin →
    (∀ x ∈ l, x.IsFin) ∧ SumRun u (l.map toReal) r.toReal := by
  induction h with
  | nil => exact fun _ => ⟨by simp, .nil⟩
  | one x => exact fun h => ⟨by simpa using h, .one _⟩
  | @add l m x y r hl hm _ _ hr hx hy =>
    rintro ⟨z, rfl⟩
    obtain ⟨h1, h2, δ, hδ, rfl⟩ := Add.fin hr
    obtain ⟨h3, h4⟩ := hx h1
    obtain ⟨h5, h6⟩ := hy h2
    refine ⟨fun w hw => ?_, ?_⟩
    · rcases List.mem_append.1 hw with hw | hw
      · exact h3 w hw
      · exact h5 w hw
    · rw [List.map_append]
      exact .add (by simpa using hl) (by simpa using hm) h4 h6 hδ
  | perm h _ hx =>
    intro hr
    obtain ⟨h1, h2⟩ := hx hr
    exact ⟨fun w hw => h1 w (h.mem_iff.2 hw), .perm (h.map _) h2⟩

lemma Mean.fin {n : ℕ} {y : ℝ} (h : Mean u Ω n a (fin y)) :
    0 < n ∧ a.IsFin ∧ ∃ δ ε, |δ| ≤ u ∧ |ε| ≤ u ∧ y = a.toReal / n * (1 + δ) * (1 + ε) := by
  cases a <;> simp only [Mean] at h
  · split at h
    · cases h
    · rename_i hn
      refine ⟨Nat.pos_of_ne_zero hn, ⟨_, rfl⟩, ?_⟩
      rcases h with ⟨δ, ε, h1, h2, -, h⟩ | ⟨-, h⟩
      · cases h
        exact ⟨δ, ε, h1, h2, rfl⟩
      · cases h
  all_goals cases h

lemma Read.fin {j : ℕ} {y : ℝ} (h : Read u Ω j a (fin y)) :
    a.IsFin ∧ |y - a.toReal| ≤ ((1 + u) ^ j - 1) * |a.toReal| := by
  cases a <;> simp only [Read] at h
  · refine ⟨⟨_, rfl⟩, ?_⟩
    rcases h with ⟨z, h1, -, h⟩ | ⟨-, h⟩
    · cases h
      exact h1
    · cases h
  all_goals cases h

/-! ### NaN -/

lemma Add.nan_left (h : Add u Ω nan b r) : r = nan := by cases b <;> exact h

lemma Add.nan_right (h : Add u Ω a nan r) : r = nan := by cases a <;> exact h

lemma Mul.nan_left (h : Mul u Ω nan b r) : r = nan := by cases b <;> exact h

lemma Mul.nan_right (h : Mul u Ω a nan r) : r = nan := by cases a <;> exact h

lemma Div.nan_left (h : Div u Ω nan b r) : r = nan := by cases b <;> exact h

lemma Div.nan_right (h : Div u Ω a nan r) : r = nan := by cases a <;> exact h

lemma Sum.nan {l : List XNum} (h : Sum u Ω l r) : nan ∈ l → r = nan := by
  induction h with
  | nil => simp
  | one x =>
    intro h
    simpa [eq_comm] using h
  | add _ _ _ _ hr hx hy =>
    intro h
    rcases List.mem_append.1 h with h | h
    · rw [hx h] at hr
      exact hr.nan_left
    · rw [hy h] at hr
      exact hr.nan_right
  | perm h _ hx => exact fun h' => hx (h.mem_iff.2 h')

lemma Sum.empty {l : List XNum} (h : Sum u Ω l r) : l = [] → r = XNum.fin 0 := by
  induction h with
  | nil => exact fun _ => rfl
  | one x => exact fun h => absurd h (by simp)
  | add hl _ _ _ _ _ _ => exact fun h => absurd (List.append_eq_nil_iff.1 h).1 hl
  | perm h _ hx =>
    rintro rfl
    exact hx (List.perm_nil.1 h)

/-! ### Every operation has a result -/

lemma Add.exists (hu : 0 ≤ u) (a b : XNum) : ∃ r, Add u Ω a b r := by
  cases a <;> cases b <;> first | exact ⟨_, rfl⟩ | exact Fl.exists hu _

lemma Mul.exists (hu : 0 ≤ u) (a b : XNum) : ∃ r, Mul u Ω a b r := by
  cases a <;> cases b <;> first | exact ⟨_, rfl⟩ | exact Fl.exists hu _

lemma Sum.exists (hu : 0 ≤ u) : ∀ l : List XNum, ∃ r, Sum u Ω l r
  | [] => ⟨_, .nil⟩
  | [x] => ⟨_, .one x⟩
  | x :: y :: l => by
    obtain ⟨s, hs⟩ := Sum.exists hu (y :: l)
    obtain ⟨r, hr⟩ := Add.exists (Ω := Ω) hu x s
    exact ⟨r, Sum.add (l := [x]) (by simp) (by simp) (.one x) hs hr⟩

lemma Mean.exists (hu : 0 ≤ u) (n : ℕ) (a : XNum) : ∃ r, Mean u Ω n a r := by
  cases a with
  | fin s =>
    simp only [Mean]
    split
    · exact ⟨_, rfl⟩
    · by_cases h : |s / n| < Ω
      · exact ⟨_, .inl ⟨0, 0, by simpa using hu, by simpa using hu, by simpa using h, rfl⟩⟩
      · refine ⟨_, .inr ⟨?_, rfl⟩⟩
        have := one_le_pow_u hu 2
        have := abs_nonneg (s / n)
        nlinarith
  | inf s => exact ⟨_, rfl⟩
  | nan => exact ⟨_, rfl⟩

lemma Read.exists (hu : 0 ≤ u) (j : ℕ) (a : XNum) : ∃ r, Read u Ω j a r := by
  cases a with
  | fin x =>
    have := one_le_pow_u hu j
    by_cases h : |x| < Ω
    · refine ⟨_, .inl ⟨x, ?_, h, rfl⟩⟩
      simp only [sub_self, abs_zero]
      exact mul_nonneg (by linarith) (abs_nonneg _)
    · refine ⟨_, .inr ⟨?_, rfl⟩⟩
      have := abs_nonneg x
      nlinarith
  | inf s => exact ⟨_, rfl⟩
  | nan => exact ⟨_, rfl⟩

/-! ### Without overflow -/

lemma Add.small (ha : a.IsFin) (hb : b.IsFin) (h : Add u Ω a b r)
    (hx : |a.toReal + b.toReal| * (1 + u) < Ω) : r.IsFin := by
  obtain ⟨x, rfl⟩ := ha
  obtain ⟨y, rfl⟩ := hb
  exact Fl.small h hx

lemma Mul.small (ha : a.IsFin) (hb : b.IsFin) (h : Mul u Ω a b r)
    (hx : |a.toReal * b.toReal| * (1 + u) < Ω) : r.IsFin := by
  obtain ⟨x, rfl⟩ := ha
  obtain ⟨y, rfl⟩ := hb
  exact Fl.small h hx

lemma Sum.small (hu : 0 ≤ u) {l : List XNum} (h : Sum u Ω l r) : (∀ x ∈ l, x.IsFin) →
    (1 + u) ^ l.length * ((l.map toReal).map (|·|)).sum < Ω → r.IsFin := by
  have nn : ∀ l : List XNum, 0 ≤ ((l.map toReal).map (|·|)).sum := fun l =>
    List.sum_nonneg fun x hx => by
      obtain ⟨y, -, rfl⟩ := List.mem_map.1 hx
      exact abs_nonneg y
  induction h with
  | nil => exact fun _ _ => ⟨_, rfl⟩
  | one x => exact fun h _ => h x (by simp)
  | @add l m x y r hl hm hsx hsy hr hx hy =>
    intro hfin hΩ
    rw [List.length_append, List.map_append, List.map_append, List.sum_append] at hΩ
    have n1 := nn l
    have n2 := nn m
    have p1 : (1 + u) ^ l.length ≤ (1 + u) ^ (l.length + m.length) := pow_le_pow_right₀ (by linarith) (by omega)
    have p2 : (1 + u) ^ m.length ≤ (1 + u) ^ (l.length + m.length) := pow_le_pow_right₀ (by linarith) (by omega)
    have p3 := one_le_pow_u hu (l.length + m.length)
    have q1 := one_le_pow_u hu l.length
    have q2 := one_le_pow_u hu m.length
    have f1 := hx (fun w hw => hfin w (List.mem_append_left _ hw)) (lt_of_le_of_lt (by
      calc _ ≤ (1 + u) ^ (l.length + m.length) * ((l.map toReal).map (|·|)).sum :=
            mul_le_mul_of_nonneg_right p1 n1
        _ ≤ _ := mul_le_mul_of_nonneg_left (by linarith) (by linarith)) hΩ)
    have f2 := hy (fun w hw => hfin w (List.mem_append_right _ hw)) (lt_of_le_of_lt (by
      calc _ ≤ (1 + u) ^ (l.length + m.length) * ((m.map toReal).map (|·|)).sum :=
            mul_le_mul_of_nonneg_right p2 n2
        _ ≤ _ := mul_le_mul_of_nonneg_left (by linarith) (by linarith)) hΩ)
    refine hr.small f1 f2 (lt_of_le_of_lt ?_ hΩ)
    have a1 := ((hsx.fin f1).2.near hu).abs_le
    have a2 := ((hsy.fin f2).2.near hu).abs_le
    rw [List.length_map] at a1 a2
    have l1 : 1 ≤ l.length := List.length_pos_iff.2 hl
    have l2 : 1 ≤ m.length := List.length_pos_iff.2 hm
    have b1 : (1 + u) ^ (l.length - 1) ≤ (1 + u) ^ (l.length + m.length - 1) :=
      pow_le_pow_right₀ (by linarith) (by omega)
    have b2 : (1 + u) ^ (m.length - 1) ≤ (1 + u) ^ (l.length + m.length - 1) :=
      pow_le_pow_right₀ (by linarith) (by omega)
    have e : (1 + u) ^ (l.length + m.length) = (1 + u) ^ (l.length + m.length - 1) * (1 + u) := by
      rw [← pow_succ]
      congr 1
      omega
    calc |x.toReal + y.toReal| * (1 + u) ≤ (|x.toReal| + |y.toReal|) * (1 + u) :=
          mul_le_mul_of_nonneg_right (abs_add_le _ _) (by linarith)
      _ ≤ ((1 + u) ^ (l.length + m.length - 1) * ((l.map toReal).map (|·|)).sum
            + (1 + u) ^ (l.length + m.length - 1) * ((m.map toReal).map (|·|)).sum) * (1 + u) :=
          mul_le_mul_of_nonneg_right (add_le_add (a1.trans (mul_le_mul_of_nonneg_right b1 n1))
            (a2.trans (mul_le_mul_of_nonneg_right b2 n2))) (by linarith)
      _ = _ := by rw [e]; ring
  | @perm l m x h hs hx =>
    intro hfin hΩ
    refine hx (fun w hw => hfin w (h.mem_iff.1 hw)) ?_
    rw [h.length_eq, ((h.map toReal).map (|·|)).sum_eq]
    exact hΩ

end

end XNum

namespace ExprOf

/-- The same expression over other numbers. -/
def map {α β : Type} (g : α → β) : ExprOf α → ExprOf β
  | val j x => val j (g x)
  | add a b => add (a.map g) (b.map g)
  | sub a b => sub (a.map g) (b.map g)
  | mul a b => mul (a.map g) (b.map g)
  | sq a => sq (a.map g)
  | abs a => abs (a.map g)
  | sum n f => sum n fun i => (f i).map g
  | mean n f => mean n fun i => (f i).map g

/-- All numbers that are read are finite, and no mean is taken of nothing. -/
def AllFin : ExprOf XNum → Prop
  | val _ x => x.IsFin
  | add a b => a.AllFin ∧ b.AllFin
  | sub a b => a.AllFin ∧ b.AllFin
  | mul a b => a.AllFin ∧ b.AllFin
  | sq a => a.AllFin
  | abs a => a.AllFin
  | sum _ f => ∀ i, (f i).AllFin
  | mean n f => 0 < n ∧ ∀ i, (f i).AllFin

/-- NaN is read, or a mean is taken of nothing. -/
def HasNan : ExprOf XNum → Prop
  | val _ x => x = .nan
  | add a b => a.HasNan ∨ b.HasNan
  | sub a b => a.HasNan ∨ b.HasNan
  | mul a b => a.HasNan ∨ b.HasNan
  | sq a => a.HasNan
  | abs a => a.HasNan
  | sum _ f => ∃ i, (f i).HasNan
  | mean n f => n = 0 ∨ ∃ i, (f i).HasNan

/-- A finite result shows that everything before it was finite, and is a result of the arithmetic without special
values. -/
theorem XRun.fin {u Ω : ℝ} : ∀ (e : ExprOf XNum) {r : XNum}, e.XRun u Ω r → r.IsFin →
    e.AllFin ∧ (e.map XNum.toReal).Run u r.toReal
  | val j x, r, h, ⟨y, hr⟩ => by
    subst hr
    exact XNum.Read.fin h
  | add a b, r, ⟨x, y, hx, hy, h⟩, ⟨z, hr⟩ => by
    subst hr
    obtain ⟨fx, fy, δ, hδ, e⟩ := XNum.Add.fin h
    obtain ⟨a1, a2⟩ := XRun.fin a hx fx
    obtain ⟨b1, b2⟩ := XRun.fin b hy fy
    exact ⟨⟨a1, b1⟩, _, _, δ, a2, b2, hδ, e⟩
  | sub a b, r, ⟨x, y, hx, hy, h⟩, ⟨z, hr⟩ => by
    subst hr
    obtain ⟨fx, fy, δ, hδ, e⟩ := XNum.Sub.fin h
    obtain ⟨a1, a2⟩ := XRun.fin a hx fx
    obtain ⟨b1, b2⟩ := XRun.fin b hy fy
    exact ⟨⟨a1, b1⟩, _, _, δ, a2, b2, hδ, e⟩
  | mul a b, r, ⟨x, y, hx, hy, h⟩, ⟨z, hr⟩ => by
    subst hr
    obtain ⟨fx, fy, δ, hδ, e⟩ := XNum.Mul.fin h
    obtain ⟨a1, a2⟩ := XRun.fin a hx fx
    obtain ⟨b1, b2⟩ := XRun.fin b hy fy
    exact ⟨⟨a1, b1⟩, _, _, δ, a2, b2, hδ, e⟩
  | sq a, r, ⟨x, hx, h⟩, ⟨z, hr⟩ => by
    subst hr
    obtain ⟨fx, -, δ, hδ, e⟩ := XNum.Mul.fin h
    obtain ⟨a1, a2⟩ := XRun.fin a hx fx
    exact ⟨a1, _, δ, a2, hδ, by rw [pow_two]; exact e⟩
  | abs a, r, ⟨x, hx, h⟩, ⟨z, hr⟩ => by
    subst hr
    obtain ⟨fx, e⟩ := XNum.abs_fin h
    obtain ⟨a1, a2⟩ := XRun.fin a hx fx
    exact ⟨a1, _, a2, e⟩
  | sum n f, r, ⟨x, hx, h⟩, hr => by
    obtain ⟨h1, h2⟩ := h.fin hr
    have h3 : ∀ i, (x i).IsFin := fun i => h1 _ ((List.mem_ofFn' _ _).2 ⟨i, rfl⟩)
    rw [List.map_ofFn] at h2
    exact ⟨fun i => (XRun.fin (f i) (hx i) (h3 i)).1, _, fun i => (XRun.fin (f i) (hx i) (h3 i)).2, h2⟩
  | mean n f, r, ⟨x, s, hx, h, hm⟩, ⟨z, hr⟩ => by
    subst hr
    obtain ⟨hn, hs, δ, ε, hδ, hε, e⟩ := XNum.Mean.fin hm
    obtain ⟨h1, h2⟩ := h.fin hs
    have h3 : ∀ i, (x i).IsFin := fun i => h1 _ ((List.mem_ofFn' _ _).2 ⟨i, rfl⟩)
    rw [List.map_ofFn] at h2
    exact ⟨⟨hn, fun i => (XRun.fin (f i) (hx i) (h3 i)).1⟩, _, _, δ, ε,
      fun i => (XRun.fin (f i) (hx i) (h3 i)).2, h2, hδ, hε, e⟩

/-- NaN spreads to the result. -/
theorem XRun.nan {u Ω : ℝ} : ∀ (e : ExprOf XNum) {r : XNum}, e.XRun u Ω r → e.HasNan → r = .nan
  | val j x, r, h, hn => by
    have hn : x = .nan := hn
    subst hn
    exact h
  | add a b, r, ⟨x, y, hx, hy, h⟩, hn => by
    rcases hn with hn | hn
    · rw [XRun.nan a hx hn] at h
      exact h.nan_left
    · rw [XRun.nan b hy hn] at h
      exact h.nan_right
  | sub a b, r, ⟨x, y, hx, hy, h⟩, hn => by
    rcases hn with hn | hn
    · rw [XRun.nan a hx hn] at h
      exact XNum.Add.nan_left h
    · rw [XRun.nan b hy hn] at h
      exact XNum.Add.nan_right h
  | mul a b, r, ⟨x, y, hx, hy, h⟩, hn => by
    rcases hn with hn | hn
    · rw [XRun.nan a hx hn] at h
      exact h.nan_left
    · rw [XRun.nan b hy hn] at h
      exact h.nan_right
  | sq a, r, ⟨x, hx, h⟩, hn => by
    rw [XRun.nan a hx hn] at h
    exact h.nan_left
  | abs a, r, ⟨x, hx, h⟩, hn => by
    rw [XRun.nan a hx hn] at h
    exact h
  | sum n f, r, ⟨x, hx, h⟩, ⟨i, hn⟩ =>
    h.nan ((List.mem_ofFn' _ _).2 ⟨i, XRun.nan (f i) (hx i) hn⟩)
  | mean n f, r, ⟨x, s, hx, h, hm⟩, hn => by
    rcases hn with rfl | ⟨i, hn⟩
    · rw [h.empty (by simp)] at hm
      simpa [XNum.Mean] using hm
    · rw [h.nan ((List.mem_ofFn' _ _).2 ⟨i, XRun.nan (f i) (hx i) hn⟩)] at hm
      exact hm

/-- Every expression has a result. -/
theorem XRun.exists {u Ω : ℝ} (hu : 0 ≤ u) : ∀ e : ExprOf XNum, ∃ r, e.XRun u Ω r
  | val j x => XNum.Read.exists hu j x
  | add a b => by
    obtain ⟨x, hx⟩ := XRun.exists hu a
    obtain ⟨y, hy⟩ := XRun.exists hu b
    obtain ⟨r, hr⟩ := XNum.Add.exists (Ω := Ω) hu x y
    exact ⟨r, x, y, hx, hy, hr⟩
  | sub a b => by
    obtain ⟨x, hx⟩ := XRun.exists hu a
    obtain ⟨y, hy⟩ := XRun.exists hu b
    obtain ⟨r, hr⟩ := XNum.Add.exists (Ω := Ω) hu x y.neg
    exact ⟨r, x, y, hx, hy, hr⟩
  | mul a b => by
    obtain ⟨x, hx⟩ := XRun.exists hu a
    obtain ⟨y, hy⟩ := XRun.exists hu b
    obtain ⟨r, hr⟩ := XNum.Mul.exists (Ω := Ω) hu x y
    exact ⟨r, x, y, hx, hy, hr⟩
  | sq a => by
    obtain ⟨x, hx⟩ := XRun.exists hu a
    obtain ⟨r, hr⟩ := XNum.Mul.exists (Ω := Ω) hu x x
    exact ⟨r, x, hx, hr⟩
  | abs a => by
    obtain ⟨x, hx⟩ := XRun.exists hu a
    exact ⟨_, x, hx, rfl⟩
  | sum n f => by
    choose x hx using fun i => XRun.exists hu (f i)
    obtain ⟨r, hr⟩ := XNum.Sum.exists (Ω := Ω) hu (List.ofFn x)
    exact ⟨r, x, hx, hr⟩
  | mean n f => by
    choose x hx using fun i => XRun.exists hu (f i)
    obtain ⟨s, hs⟩ := XNum.Sum.exists (Ω := Ω) hu (List.ofFn x)
    obtain ⟨r, hr⟩ := XNum.Mean.exists (Ω := Ω) hu n s
    exact ⟨r, x, s, hx, hs, hr⟩

/-- Every computed value is bounded. -/
lemma XRun.le {u Ω : ℝ} (hu : 0 ≤ u) (e : ExprOf XNum) {r : XNum} (h : e.XRun u Ω r) (hr : r.IsFin) :
    |r.toReal| ≤ (1 + u) ^ (e.map XNum.toReal).depth * (e.map XNum.toReal).mag :=
  (near hu _ (XRun.fin e h hr).2).abs_le

/-- With a large enough overflow threshold, finite numbers have a finite result. -/
theorem XRun.small {u : ℝ} (hu : 0 ≤ u) : ∀ e : ExprOf XNum, e.AllFin →
    ∃ Ω₀, ∀ Ω, Ω₀ < Ω → ∀ r, e.XRun u Ω r → r.IsFin
  | val j x, ⟨y, hy⟩ => by
    subst hy
    refine ⟨|y| * (1 + u) ^ j, fun Ω hΩ r h => ?_⟩
    rcases h with ⟨z, -, -, rfl⟩ | ⟨h, -⟩
    · simp
    · linarith
  | add a b, ⟨ha, hb⟩ => by
    obtain ⟨A, hA⟩ := XRun.small hu a ha
    obtain ⟨B, hB⟩ := XRun.small hu b hb
    refine ⟨max (max A B) (((1 + u) ^ (a.map XNum.toReal).depth * (a.map XNum.toReal).mag
      + (1 + u) ^ (b.map XNum.toReal).depth * (b.map XNum.toReal).mag) * (1 + u)), ?_⟩
    rintro Ω hΩ r ⟨x, y, hx, hy, h⟩
    simp only [max_lt_iff] at hΩ
    have fx := hA Ω hΩ.1.1 x hx
    have fy := hB Ω hΩ.1.2 y hy
    exact h.small fx fy (lt_of_le_of_lt (mul_le_mul_of_nonneg_right ((abs_add_le _ _).trans
      (add_le_add (XRun.le hu a hx fx) (XRun.le hu b hy fy))) (by linarith)) hΩ.2)
  | sub a b, ⟨ha, hb⟩ => by
    obtain ⟨A, hA⟩ := XRun.small hu a ha
    obtain ⟨B, hB⟩ := XRun.small hu b hb
    refine ⟨max (max A B) (((1 + u) ^ (a.map XNum.toReal).depth * (a.map XNum.toReal).mag
      + (1 + u) ^ (b.map XNum.toReal).depth * (b.map XNum.toReal).mag) * (1 + u)), ?_⟩
    rintro Ω hΩ r ⟨x, y, hx, hy, h⟩
    simp only [max_lt_iff] at hΩ
    have fx := hA Ω hΩ.1.1 x hx
    have fy := hB Ω hΩ.1.2 y hy
    refine XNum.Add.small fx (XNum.neg_isFin.2 fy) h (lt_of_le_of_lt (mul_le_mul_of_nonneg_right
      ((abs_add_le _ _).trans (add_le_add (XRun.le hu a hx fx) ?_)) (by linarith)) hΩ.2)
    rw [XNum.toReal_neg, abs_neg]
    exact XRun.le hu b hy fy
  | mul a b, ⟨ha, hb⟩ => by
    obtain ⟨A, hA⟩ := XRun.small hu a ha
    obtain ⟨B, hB⟩ := XRun.small hu b hb
    refine ⟨max (max A B) (((1 + u) ^ (a.map XNum.toReal).depth * (a.map XNum.toReal).mag)
      * ((1 + u) ^ (b.map XNum.toReal).depth * (b.map XNum.toReal).mag) * (1 + u)), ?_⟩
    rintro Ω hΩ r ⟨x, y, hx, hy, h⟩
    simp only [max_lt_iff] at hΩ
    have fx := hA Ω hΩ.1.1 x hx
    have fy := hB Ω hΩ.1.2 y hy
    refine h.small fx fy (lt_of_le_of_lt (mul_le_mul_of_nonneg_right ?_ (by linarith)) hΩ.2)
    rw [abs_mul]
    exact mul_le_mul (XRun.le hu a hx fx) (XRun.le hu b hy fy) (abs_nonneg _)
      ((abs_nonneg _).trans (XRun.le hu a hx fx))
  | sq a, ha => by
    obtain ⟨A, hA⟩ := XRun.small hu a ha
    refine ⟨max A (((1 + u) ^ (a.map XNum.toReal).depth * (a.map XNum.toReal).mag)
      * ((1 + u) ^ (a.map XNum.toReal).depth * (a.map XNum.toReal).mag) * (1 + u)), ?_⟩
    rintro Ω hΩ r ⟨x, hx, h⟩
    simp only [max_lt_iff] at hΩ
    have fx := hA Ω hΩ.1 x hx
    refine h.small fx fx (lt_of_le_of_lt (mul_le_mul_of_nonneg_right ?_ (by linarith)) hΩ.2)
    rw [abs_mul]
    exact mul_le_mul (XRun.le hu a hx fx) (XRun.le hu a hx fx) (abs_nonneg _)
      ((abs_nonneg _).trans (XRun.le hu a hx fx))
  | abs a, ha => by
    obtain ⟨A, hA⟩ := XRun.small hu a ha
    refine ⟨A, ?_⟩
    rintro Ω hΩ r ⟨x, hx, h⟩
    obtain ⟨z, rfl⟩ := hA Ω hΩ x hx
    exact ⟨_, h⟩
  | sum n f, hf => by
    choose A hA using fun i => XRun.small hu (f i) (hf i)
    let B := fun i => (1 + u) ^ ((f i).map XNum.toReal).depth * ((f i).map XNum.toReal).mag
    refine ⟨max (∑ i, |A i|) ((1 + u) ^ n * ∑ i, B i), ?_⟩
    rintro Ω hΩ r ⟨x, hx, h⟩
    simp only [max_lt_iff] at hΩ
    have fx : ∀ i, (x i).IsFin := fun i => hA i Ω (lt_of_le_of_lt ((le_abs_self _).trans
      (Finset.single_le_sum (f := fun i => |A i|) (fun i _ => abs_nonneg (A i)) (Finset.mem_univ i))) hΩ.1) _ (hx i)
    refine h.small hu (fun w hw => ?_) (lt_of_le_of_lt ?_ hΩ.2)
    · obtain ⟨i, rfl⟩ := (List.mem_ofFn' _ _).1 hw
      exact fx i
    · rw [List.length_ofFn, List.map_ofFn, List.map_ofFn, List.sum_ofFn]
      have := one_le_pow_u hu n
      exact mul_le_mul_of_nonneg_left (Finset.sum_le_sum fun i _ => XRun.le hu (f i) (hx i) (fx i)) (by linarith)
  | mean n f, ⟨hn, hf⟩ => by
    choose A hA using fun i => XRun.small hu (f i) (hf i)
    let B := fun i => (1 + u) ^ ((f i).map XNum.toReal).depth * ((f i).map XNum.toReal).mag
    refine ⟨max (max (∑ i, |A i|) ((1 + u) ^ n * ∑ i, B i)) ((1 + u) ^ n * (∑ i, B i) * (1 + u) ^ 2), ?_⟩
    rintro Ω hΩ r ⟨x, s, hx, h, hm⟩
    simp only [max_lt_iff] at hΩ
    have fx : ∀ i, (x i).IsFin := fun i => hA i Ω (lt_of_le_of_lt ((le_abs_self _).trans
      (Finset.single_le_sum (f := fun i => |A i|) (fun i _ => abs_nonneg (A i)) (Finset.mem_univ i))) hΩ.1.1) _ (hx i)
    have p := one_le_pow_u hu n
    have hB : ∑ i, |(x i).toReal| ≤ ∑ i, B i := Finset.sum_le_sum fun i _ => XRun.le hu (f i) (hx i) (fx i)
    have fs : s.IsFin := by
      refine h.small hu (fun w hw => ?_) (lt_of_le_of_lt ?_ hΩ.1.2)
      · obtain ⟨i, rfl⟩ := (List.mem_ofFn' _ _).1 hw
        exact fx i
      · rw [List.length_ofFn, List.map_ofFn, List.map_ofFn, List.sum_ofFn]
        exact mul_le_mul_of_nonneg_left hB (by linarith)
    have hs := ((h.fin fs).2.near hu).abs_le
    rw [List.length_map, List.length_ofFn, List.map_ofFn, List.map_ofFn, List.sum_ofFn] at hs
    obtain ⟨z, rfl⟩ := fs
    simp only [XNum.Mean, if_neg hn.ne'] at hm
    rcases hm with ⟨δ, ε, -, -, -, rfl⟩ | ⟨hm, -⟩
    · simp
    · exfalso
      have h1 : |z / n| ≤ |z| := by
        rw [abs_div, Nat.abs_cast]
        exact div_le_self (abs_nonneg _) (by exact_mod_cast hn)
      have h2 : |z| ≤ (1 + u) ^ n * ∑ i, B i := hs.trans (mul_le_mul
        (pow_le_pow_right₀ (by linarith) (by omega)) hB (Finset.sum_nonneg fun i _ => abs_nonneg _) (by linarith))
      have h3 : |z / n| * (1 + u) ^ 2 ≤ (1 + u) ^ n * (∑ i, B i) * (1 + u) ^ 2 :=
        mul_le_mul_of_nonneg_right (h1.trans h2) (by positivity)
      linarith [hΩ.2]

end ExprOf

end FastVPINNs
