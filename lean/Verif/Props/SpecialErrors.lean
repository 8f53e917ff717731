import Verif.Lemmas.SpecialErrors
import Verif.Props.Special
import Verif.Props.RoundedErrors

/-! # C93: infinities, NaN and overflow in the reported errors -/

namespace FastVPINNs

open Spec ExprOf

section
variable {ε Ω : ℝ} {exact approx : List XNum} {l2 linf l2r linfr l1 l1r r : XNum}

lemma hasNan_map {f : ExprOf XNum → ExprOf XNum} (hf : ∀ e, e.HasNan → (f e).HasNan) {d : List (ExprOf XNum)}
    (h : d = [] ∨ ∃ e ∈ d, e.HasNan) : d.map f = [] ∨ ∃ e ∈ d.map f, e.HasNan := by
  rcases h with rfl | ⟨e, he, hn⟩
  · exact .inl rfl
  · exact .inr ⟨_, List.mem_map_of_mem he, hf e hn⟩

/-- **C93** (NaN in the errors).  One NaN in the exact or in the predicted solution makes all six errors NaN. -/
theorem C93_errors_nan (h : SpecialErrors ε Ω exact approx (l2, linf, l2r, linfr, l1, l1r))
    (hn : .nan ∈ exact ∨ .nan ∈ approx) :
    l2 = .nan ∧ linf = .nan ∧ l2r = .nan ∧ linfr = .nan ∧ l1 = .nan ∧ l1r = .nan := by
  have e2 : ∀ {r}, SpecialL2 ε Ω exact approx r → r = .nan := by
    rintro r ⟨d, m, hd, hm, hr⟩
    rw [hm.nan (hasNan_map (f := .sq) (fun e he => he) (npSubE_nan hd hn))] at hr
    exact hr
  have e1 : ∀ {r}, SpecialL1 ε Ω exact approx r → r = .nan := by
    rintro r ⟨d, hd, hm⟩
    exact hm.nan (hasNan_map (f := .abs) (fun e he => he) (npSubE_nan hd hn))
  have e3 : ∀ {r}, SpecialLinf ε Ω exact approx r → r = .nan := by
    rintro r ⟨d, hd, hm⟩
    refine hm.nan ?_
    rcases hasNan_map (f := .abs) (fun e he => he) (npSubE_nan hd hn) with h | h
    · obtain ⟨x, xs, hx, -⟩ := hm
      rw [h] at hx
      cases hx
    · exact h
  obtain ⟨h1, h2, ⟨x, m, n, h3, -, -, h3'⟩, ⟨y, n', h4, -, h4'⟩, h5, z, n'', h6, -, h6'⟩ := h
  rw [e2 h3] at h3'
  rw [e3 h4] at h4'
  rw [e1 h6] at h6'
  exact ⟨e2 h1, e3 h2, h3'.nan_left, h4'.nan_left, e1 h5, h6'.nan_left⟩

/-! ### An exact solution that is zero everywhere -/

section
variable (hΩ : 0 < Ω)
include hΩ

lemma read_zero_sq {r : XNum} (h : (ExprOf.sq (.val 0 (.fin 0))).XRun ε Ω r) : r = .fin 0 := by
  obtain ⟨x, hx, hr⟩ := h
  rw [XNum.Read.zero hΩ hx] at hr
  exact XNum.Fl.zero hΩ (by simpa [XNum.Mul] using hr)

lemma read_zero_abs {r : XNum} (h : (ExprOf.abs (.val 0 (.fin 0))).XRun ε Ω r) : r = .fin 0 := by
  obtain ⟨x, hx, rfl⟩ := h
  rw [XNum.Read.zero hΩ hx]
  simp [XNum.abs]

lemma mean_zero {es : List (ExprOf XNum)} (hne : es ≠ []) (hz : ∀ e ∈ es, ∀ r, e.XRun ε Ω r → r = .fin 0) {r : XNum}
    (h : SpecialMean ε Ω es r) : r = .fin 0 := by
  obtain ⟨xs, s, hx, hs, hd⟩ := h
  rw [hs.zero hΩ fun y hy => ?_] at hd
  · exact hd.zero_nat hΩ (by simpa using hne)
  · obtain ⟨e, he, hr⟩ := forall₂_exists' hx hy
    exact hz e he y hr

omit hΩ in
lemma max_zero {es : List (ExprOf XNum)} (hz : ∀ e ∈ es, ∀ r, e.XRun ε Ω r → r = .fin 0) {r : XNum}
    (h : SpecialMax ε Ω es r) : r = .fin 0 := by
  obtain ⟨x, xs, hx, rfl⟩ := h
  have : ∀ y ∈ x :: xs, y = .fin 0 := fun y hy => by
    obtain ⟨e, he, hr⟩ := forall₂_exists' hx hy
    exact hz e he y hr
  rw [this x (by simp)]
  exact XNum.foldl_max_zero xs fun y hy => this y (by simp [hy])

lemma sub_zero_run {y : ℝ} {r : XNum} (h : (ExprOf.sub (.val 0 (.fin 0)) (.val 0 (.fin y))).XRun ε Ω r) :
    (y = 0 → r = .fin 0) ∧ (ε < 1 → y ≠ 0 → r.NZ) := by
  obtain ⟨a, b, ha, hb, hr⟩ := h
  rw [XNum.Read.zero hΩ ha] at hr
  constructor
  · rintro rfl
    rw [XNum.Read.zero hΩ hb] at hr
    exact XNum.Fl.zero hΩ (by simpa [XNum.Sub, XNum.neg, XNum.Add] using hr)
  · intro h1 hy
    rcases hb with ⟨z, hz, -, rfl⟩ | ⟨-, rfl⟩
    · have hz' : z = y := by
        have : |z - y| ≤ 0 := by simpa using hz
        exact sub_eq_zero.1 (abs_nonpos_iff.1 this)
      subst hz'
      exact XNum.Fl.nz h1 (x := -z) (by simpa [XNum.Sub, XNum.neg, XNum.Add] using hr) (by simpa using hy)
    · simp only [XNum.Sub, XNum.neg, XNum.Add] at hr
      rw [hr]
      trivial

end

section
variable (h1 : ε < 1)
include h1

lemma mean_pos {es : List (ExprOf XNum)} (hn : ∀ e ∈ es, ∀ r, e.XRun ε Ω r → r.NN)
    (hp : ∃ e ∈ es, ∀ r, e.XRun ε Ω r → r.Pos) {r : XNum} (h : SpecialMean ε Ω es r) : r.Pos := by
  obtain ⟨xs, s, hx, hs, hd⟩ := h
  obtain ⟨e, he, hp⟩ := hp
  obtain ⟨y, hy, hr⟩ := forall₂_exists hx he
  refine XNum.Div.nat_pos h1 ((XNum.Sum.pos h1 hs fun y hy => ?_).2 ⟨y, hy, hp y hr⟩)
    (List.length_pos_iff.2 (List.ne_nil_of_mem he)).ne' hd
  obtain ⟨e, he, hr⟩ := forall₂_exists' hx hy
  exact hn e he y hr

omit h1 in
lemma max_pos' {es : List (ExprOf XNum)} (hn : ∀ e ∈ es, ∀ r, e.XRun ε Ω r → r.NN)
    (hp : ∃ e ∈ es, ∀ r, e.XRun ε Ω r → r.Pos) {r : XNum} (h : SpecialMax ε Ω es r) : r.Pos := by
  obtain ⟨x, xs, hx, rfl⟩ := h
  have hnn : ∀ y ∈ x :: xs, y.NN := fun y hy => by
    obtain ⟨e, he, hr⟩ := forall₂_exists' hx hy
    exact hn e he y hr
  obtain ⟨e, he, hp⟩ := hp
  obtain ⟨y, hy, hr⟩ := forall₂_exists hx he
  refine XNum.foldl_max_pos xs x (hnn x (by simp)) (fun z hz => hnn z (by simp [hz])) ?_
  rcases List.mem_cons.1 hy with rfl | hy
  · exact .inl (hp _ hr)
  · exact .inr ⟨y, hy, hp y hr⟩

end

lemma npSubE_zero {n : ℕ} {v : List ℝ} (hv : v.length = n) :
    npSubE (List.replicate n (XNum.fin 0)) (v.map XNum.fin)
      = .ok (v.map fun y => ExprOf.sub (.val 0 (.fin 0)) (.val 0 (.fin y))) := by
  rw [npSubE, if_pos (by simp [hv])]
  subst hv
  congr 1
  induction v with
  | nil => rfl
  | cons y l ih =>
    rw [List.length_cons, List.replicate_succ, List.map_cons, List.zipWith_cons_cons, List.map_cons, ih]

/-- **C93** (zero solution).  If the exact solution is zero at all points, the relative errors are NaN for a perfect
prediction and infinite for any other. -/
theorem C93_zero_solution (h1 : ε < 1) (hΩ : 0 < Ω) {n : ℕ} (hn : 0 < n) (v : List ℝ) (hv : v.length = n)
    (h : SpecialErrors ε Ω (List.replicate n (.fin 0)) (v.map .fin) (l2, linf, l2r, linfr, l1, l1r)) :
    ((∀ y ∈ v, y = 0) → (l2 = .fin 0 ∧ linf = .fin 0 ∧ l1 = .fin 0) ∧ l2r = .nan ∧ linfr = .nan ∧ l1r = .nan) ∧
    ((∃ y ∈ v, y ≠ 0) → l2r = .inf false ∧ linfr = .inf false ∧ l1r = .inf false) := by
  have hvne : v ≠ [] := List.length_pos_iff.1 (hv ▸ hn)
  have hd := npSubE_zero hv
  have hzne : ∀ f : ExprOf XNum → ExprOf XNum, (readAll (List.replicate n (XNum.fin 0))).map f ≠ [] := fun f => by
    simp [readAll, hn.ne']
  have mem_read : ∀ {f : ExprOf XNum → ExprOf XNum} {e}, e ∈ (readAll (List.replicate n (XNum.fin 0))).map f →
      e = f (.val 0 (.fin 0)) := by
    intro f e he
    obtain ⟨e', he', rfl⟩ := List.mem_map.1 he
    obtain ⟨e'', he'', rfl⟩ := List.mem_map.1 he'
    rw [List.eq_of_mem_replicate he'']
  have n2 : ∀ {m s : XNum}, SpecialMean ε Ω ((readAll (List.replicate n (XNum.fin 0))).map .sq) m →
      XNum.Sqrt ε Ω m s → s = .fin 0 := by
    intro m s hm hs
    rw [mean_zero hΩ (hzne _) (fun e he r hr => by rw [mem_read he] at hr; exact read_zero_sq hΩ hr) hm] at hs
    exact hs.zero hΩ
  have n1 : ∀ {m : XNum}, SpecialMean ε Ω ((readAll (List.replicate n (XNum.fin 0))).map .abs) m → m = .fin 0 :=
    fun hm => mean_zero hΩ (hzne _) (fun e he r hr => by rw [mem_read he] at hr; exact read_zero_abs hΩ hr) hm
  have n3 : ∀ {m : XNum}, SpecialMax ε Ω ((readAll (List.replicate n (XNum.fin 0))).map .abs) m → m = .fin 0 :=
    fun hm => max_zero (fun e he r hr => by rw [mem_read he] at hr; exact read_zero_abs hΩ hr) hm
  obtain ⟨h1', h2', ⟨x, m, s, h3, hm, hs, h3'⟩, ⟨y, n', h4, hn', h4'⟩, h5', z, n'', h6, hn'', h6'⟩ := h
  rw [n2 hm hs] at h3'
  rw [n3 hn'] at h4'
  rw [n1 hn''] at h6'
  constructor
  · intro hz
    have run0 : ∀ y ∈ v, ∀ r, (ExprOf.sub (.val 0 (.fin 0)) (.val 0 (.fin y))).XRun ε Ω r → r = .fin 0 :=
      fun y hy r hr => (sub_zero_run hΩ hr).1 (hz y hy)
    have zabs : ∀ e ∈ (v.map fun y => ExprOf.sub (.val 0 (.fin 0)) (.val 0 (.fin y))).map ExprOf.abs,
        ∀ r, e.XRun ε Ω r → r = .fin 0 := by
      intro e he r hr
      simp only [List.map_map, List.mem_map, Function.comp_apply] at he
      obtain ⟨y, hy, rfl⟩ := he
      obtain ⟨w, hw, rfl⟩ := hr
      rw [run0 y hy w hw]
      simp [XNum.abs]
    have zsq : ∀ e ∈ (v.map fun y => ExprOf.sub (.val 0 (.fin 0)) (.val 0 (.fin y))).map ExprOf.sq,
        ∀ r, e.XRun ε Ω r → r = .fin 0 := by
      intro e he r hr
      simp only [List.map_map, List.mem_map, Function.comp_apply] at he
      obtain ⟨y, hy, rfl⟩ := he
      obtain ⟨w, hw, hr⟩ := hr
      rw [run0 y hy w hw] at hr
      exact XNum.Fl.zero hΩ (by simpa [XNum.Mul] using hr)
    have z1 : ∀ {r}, SpecialL1 ε Ω (List.replicate n (.fin 0)) (v.map .fin) r → r = .fin 0 := by
      rintro r ⟨d, hd', hr⟩
      rw [hd, Except.ok.injEq] at hd'
      subst hd'
      exact mean_zero hΩ (by simpa using hvne) zabs hr
    have z3 : ∀ {r}, SpecialLinf ε Ω (List.replicate n (.fin 0)) (v.map .fin) r → r = .fin 0 := by
      rintro r ⟨d, hd', hr⟩
      rw [hd, Except.ok.injEq] at hd'
      subst hd'
      exact max_zero zabs hr
    have z2 : ∀ {r}, SpecialL2 ε Ω (List.replicate n (.fin 0)) (v.map .fin) r → r = .fin 0 := by
      rintro r ⟨d, m, hd', hm, hr⟩
      rw [hd, Except.ok.injEq] at hd'
      subst hd'
      rw [mean_zero hΩ (by simpa using hvne) zsq hm] at hr
      exact hr.zero hΩ
    rw [z2 h3] at h3'
    rw [z3 h4] at h4'
    rw [z1 h6] at h6'
    exact ⟨⟨z2 h1', z3 h2', z1 h5'⟩, h3'.zero_zero, h4'.zero_zero, h6'.zero_zero⟩
  · rintro ⟨y₀, hy₀, hne⟩
    have runNN : ∀ y : ℝ, ∀ r, (ExprOf.sub (.val 0 (.fin 0)) (.val 0 (.fin y))).XRun ε Ω r → r = .fin 0 ∨ r.NZ :=
      fun y r hr => by
        by_cases h : y = 0
        · exact .inl ((sub_zero_run hΩ hr).1 h)
        · exact .inr ((sub_zero_run hΩ hr).2 h1 h)
    have nabs : ∀ e ∈ (v.map fun y => ExprOf.sub (.val 0 (.fin 0)) (.val 0 (.fin y))).map ExprOf.abs,
        ∀ r, e.XRun ε Ω r → r.NN := by
      intro e he r hr
      simp only [List.map_map, List.mem_map, Function.comp_apply] at he
      obtain ⟨y, hy, rfl⟩ := he
      obtain ⟨w, hw, rfl⟩ := hr
      rcases runNN y w hw with rfl | h
      · exact abs_nonneg _
      · exact (XNum.abs_pos h).nn
    have pabs : ∃ e ∈ (v.map fun y => ExprOf.sub (.val 0 (.fin 0)) (.val 0 (.fin y))).map ExprOf.abs,
        ∀ r, e.XRun ε Ω r → r.Pos := by
      refine ⟨_, List.mem_map_of_mem (List.mem_map_of_mem hy₀), ?_⟩
      rintro r ⟨w, hw, rfl⟩
      exact XNum.abs_pos ((sub_zero_run hΩ hw).2 h1 hne)
    have nsq : ∀ e ∈ (v.map fun y => ExprOf.sub (.val 0 (.fin 0)) (.val 0 (.fin y))).map ExprOf.sq,
        ∀ r, e.XRun ε Ω r → r.NN := by
      intro e he r hr
      simp only [List.map_map, List.mem_map, Function.comp_apply] at he
      obtain ⟨y, hy, rfl⟩ := he
      obtain ⟨w, hw, hr⟩ := hr
      rcases runNN y w hw with rfl | h
      · have e : r = .fin 0 := XNum.Fl.zero hΩ (by simpa [XNum.Mul] using hr)
        rw [e]
        exact le_rfl
      · exact (XNum.Mul.self_pos h1 h hr).nn
    have psq : ∃ e ∈ (v.map fun y => ExprOf.sub (.val 0 (.fin 0)) (.val 0 (.fin y))).map ExprOf.sq,
        ∀ r, e.XRun ε Ω r → r.Pos := by
      refine ⟨_, List.mem_map_of_mem (List.mem_map_of_mem hy₀), ?_⟩
      rintro r ⟨w, hw, hr⟩
      exact XNum.Mul.self_pos h1 ((sub_zero_run hΩ hw).2 h1 hne) hr
    have p1 : z.Pos := by
      obtain ⟨d, hd', hr⟩ := h6
      rw [hd, Except.ok.injEq] at hd'
      subst hd'
      exact mean_pos h1 nabs pabs hr
    have p3 : y.Pos := by
      obtain ⟨d, hd', hr⟩ := h4
      rw [hd, Except.ok.injEq] at hd'
      subst hd'
      exact max_pos' nabs pabs hr
    have p2 : x.Pos := by
      obtain ⟨d, m, hd', hm, hr⟩ := h3
      rw [hd, Except.ok.injEq] at hd'
      subst hd'
      exact hr.pos h1 (mean_pos h1 nsq psq hm)
    exact ⟨h3'.pos_zero p2, h4'.pos_zero p3, h6'.pos_zero p1⟩

/-! ### Finite results -/

variable {a b : NDArray}

lemma map_map_toReal (f : ExprOf XNum → ExprOf XNum) (g : Expr → Expr)
    (h : ∀ e, (f e).map XNum.toReal = g (e.map XNum.toReal)) (d : List (ExprOf XNum)) :
    (d.map f).map (ExprOf.map XNum.toReal) = (d.map (ExprOf.map XNum.toReal)).map g := by
  rw [List.map_map, List.map_map]
  exact List.map_congr_left fun e _ => h e

lemma readAll_toReal (l : List ℝ) : (readAll (l.map XNum.fin)).map (ExprOf.map XNum.toReal) = readAll l := by
  rw [readAll, readAll, List.map_map, List.map_map]
  rfl

lemma specialL2_fin (h : SpecialL2 ε Ω (a.data.map .fin) (b.data.map .fin) r) (hf : r.IsFin) :
    RoundedL2 ε a b r.toReal := by
  obtain ⟨d, m, hd, hm, hr⟩ := h
  obtain ⟨y, rfl⟩ := hf
  obtain ⟨f1, f2⟩ := hr.fin
  refine ⟨_, _, npSubE_fin hd, ?_, f2⟩
  rw [← map_map_toReal .sq .sq fun _ => rfl]
  exact (hm.fin f1).2

lemma specialL1_fin (h : SpecialL1 ε Ω (a.data.map .fin) (b.data.map .fin) r) (hf : r.IsFin) :
    RoundedL1 ε a b r.toReal := by
  obtain ⟨d, hd, hm⟩ := h
  refine ⟨_, npSubE_fin hd, ?_⟩
  rw [← map_map_toReal .abs .abs fun _ => rfl]
  exact (hm.fin hf).2

lemma specialLinf_fin (h : SpecialLinf ε Ω (a.data.map .fin) (b.data.map .fin) r) (hf : r.IsFin) :
    RoundedLinf ε a b r.toReal := by
  obtain ⟨d, hd, hm⟩ := h
  refine ⟨_, npSubE_fin hd, ?_⟩
  rw [← map_map_toReal .abs .abs fun _ => rfl]
  exact (hm.fin hf).2

lemma specialL2Relative_fin (h : SpecialL2Relative ε Ω (a.data.map .fin) (b.data.map .fin) r) (hf : r.IsFin) :
    RoundedL2Relative ε a b r.toReal ∨ r = .fin 0 := by
  obtain ⟨l, m, n, hl, hm, hs, hr⟩ := h
  obtain ⟨y, rfl⟩ := hf
  obtain ⟨f1, ⟨⟨z, rfl⟩, f3⟩ | ⟨rfl, -⟩⟩ := XNum.Div.fin hr
  · left
    obtain ⟨g1, g2⟩ := hs.fin
    refine ⟨_, _, _, specialL2_fin hl f1, ?_, g2, f3⟩
    have := (hm.fin g1).2
    rw [map_map_toReal .sq .sq (fun _ => rfl), readAll_toReal] at this
    exact this
  · exact .inr rfl

lemma specialL1Relative_fin (h : SpecialL1Relative ε Ω (a.data.map .fin) (b.data.map .fin) r) (hf : r.IsFin) :
    RoundedL1Relative ε a b r.toReal ∨ r = .fin 0 := by
  obtain ⟨l, n, hl, hm, hr⟩ := h
  obtain ⟨y, rfl⟩ := hf
  obtain ⟨f1, ⟨f2, f3⟩ | ⟨rfl, -⟩⟩ := XNum.Div.fin hr
  · left
    refine ⟨_, _, specialL1_fin hl f1, ?_, f3⟩
    have := (hm.fin f2).2
    rw [map_map_toReal .abs .abs (fun _ => rfl), readAll_toReal] at this
    exact this
  · exact .inr rfl

/-- The largest absolute value of representable numbers is finite. -/
lemma specialMax_read (hΩ : ∀ x ∈ a.data, |x| < Ω)
    (h : SpecialMax ε Ω ((readAll (a.data.map XNum.fin)).map .abs) r) : r.IsFin := by
  obtain ⟨x, xs, hx, rfl⟩ := h
  have : ∀ y ∈ x :: xs, ∃ z, y = .fin z := fun y hy => by
    obtain ⟨e, he, hr⟩ := forall₂_exists' hx hy
    obtain ⟨e', he', rfl⟩ := List.mem_map.1 he
    obtain ⟨e'', he'', rfl⟩ := List.mem_map.1 he'
    obtain ⟨w, hw, rfl⟩ := List.mem_map.1 he''
    obtain ⟨v, hv, rfl⟩ := hr
    rcases hv with ⟨t, -, -, rfl⟩ | ⟨ht, -⟩
    · exact ⟨_, rfl⟩
    · have := hΩ w hw
      simp only [pow_zero, mul_one] at ht
      linarith
  obtain ⟨z, rfl⟩ := this x (by simp)
  have hxs : ∀ y ∈ xs, ∃ z, y = .fin z := fun y hy => this y (by simp [hy])
  clear this hx
  induction xs generalizing z with
  | nil => exact ⟨_, rfl⟩
  | cons y l ih =>
    obtain ⟨w, rfl⟩ := hxs y (by simp)
    exact ih (Max.max z w) fun y hy => hxs y (by simp [hy])

lemma specialLinfRelative_fin (hΩ : ∀ x ∈ a.data, |x| < Ω)
    (h : SpecialLinfRelative ε Ω (a.data.map .fin) (b.data.map .fin) r) (hf : r.IsFin) :
    RoundedLinfRelative ε a b r.toReal := by
  obtain ⟨l, n, hl, hm, hr⟩ := h
  obtain ⟨y, rfl⟩ := hf
  have fn := specialMax_read hΩ hm
  obtain ⟨f1, ⟨f2, f3⟩ | ⟨rfl, s, rfl⟩⟩ := XNum.Div.fin hr
  · refine ⟨_, _, specialLinf_fin hl f1, ?_, f3⟩
    have := (hm.fin f2).2
    rw [map_map_toReal .abs .abs (fun _ => rfl), readAll_toReal] at this
    exact this
  · obtain ⟨z, hz⟩ := fn
    cases hz

/-- **C93** (errors).  For solutions whose values are representable numbers, each of the six errors that comes out
finite has the accuracy of C86, with one exception: a relative L2 or L1 error may be reported as zero (namely if the
norm of the exact solution overflows). -/
theorem C93_errors_accurate (h0 : 0 ≤ ε) (h1 : ε < 1) (N : ℕ) (ha : a.data.length ≤ N) (hb : b.data.length ≤ N)
    (hΩ : ∀ x ∈ a.data, |x| < Ω) {x2 xinf x2r xinfr x1 x1r : ℝ}
    (h : computeErrorsCombined a b = .ok (x2, xinf, x2r, xinfr, x1, x1r))
    (h' : SpecialErrors ε Ω (a.data.map .fin) (b.data.map .fin) (l2, linf, l2r, linfr, l1, l1r)) :
    (l2.IsFin → Accurate ε (N + 4) l2.toReal x2) ∧
    (linf.IsFin → Accurate ε 1 linf.toReal xinf) ∧
    (l2r.IsFin → Accurate ε (2 * N + 7) l2r.toReal x2r ∨ l2r = .fin 0) ∧
    (linfr.IsFin → Accurate ε 2 linfr.toReal xinfr) ∧
    (l1.IsFin → Accurate ε (N + 1) l1.toReal x1) ∧
    (l1r.IsFin → Accurate ε (2 * N + 2) l1r.toReal x1r ∨ l1r = .fin 0) := by
  obtain ⟨e1, e2, e3, e4, e5, e6⟩ := combined_ok h
  obtain ⟨d1, d2, d3, d4, d5, d6⟩ := h'
  have hN : max a.flatten.data.length b.flatten.data.length ≤ N := max_le ha hb
  refine ⟨fun hf => ?_, fun hf => ?_, fun hf => ?_, fun hf => ?_, fun hf => ?_, fun hf => ?_⟩
  · obtain ⟨p, q⟩ := roundedL2_accurate h0 h1 e1 (specialL2_fin d1 hf)
    exact p.mono h0 h1 q (by omega)
  · exact (roundedLinf_accurate h1 e2 (specialLinf_fin d2 hf)).1
  · refine (specialL2Relative_fin d3 hf).imp_left fun d => ?_
    obtain ⟨p, q⟩ := roundedL2Relative_accurate h0 h1 e3 d
    exact p.mono h0 h1 q (by omega)
  · exact (roundedLinfRelative_accurate h0 h1 e4 (specialLinfRelative_fin hΩ d4 hf)).1
  · obtain ⟨p, q⟩ := roundedL1_accurate h0 h1 e5 (specialL1_fin d5 hf)
    exact p.mono h0 h1 q (by omega)
  · refine (specialL1Relative_fin d6 hf).imp_left fun d => ?_
    obtain ⟨p, q⟩ := roundedL1Relative_accurate h0 h1 e6 d
    exact p.mono h0 h1 q (by omega)

/-- **C93** (overflow).  With solutions of the size of the square root of the largest number a relative L2 error of
25 per cent is reported as zero: only the norm of the exact solution overflows. -/
theorem C93_relative_overflow (h0 : 0 ≤ ε) (h1 : ε ≤ 1 / 8) (hΩ : 4 < Ω) (s s' : List ℕ) :
    ∃ x y : ℝ, 0 < y ∧ y < x ∧ x < Ω ∧ computeL2ErrorRelative ⟨s, [x]⟩ ⟨s', [y]⟩ = .ok (1 / 4) ∧
      (∃ r, SpecialL2Relative ε Ω [.fin x] [.fin y] r) ∧
      ∀ r, SpecialL2Relative ε Ω [.fin x] [.fin y] r → r = .fin 0 := by
  obtain ⟨S, hS, rfl⟩ : ∃ S, 2 < S ∧ Ω = S * S := by
    refine ⟨Real.sqrt Ω, ?_, (Real.mul_self_sqrt (by linarith)).symm⟩
    rw [Real.lt_sqrt (by norm_num)]
    linarith
  have hb : ∀ {δ : ℝ}, |δ| ≤ ε → 7 / 8 ≤ 1 + δ ∧ 1 + δ ≤ 9 / 8 := fun {δ} hδ => by
    have := abs_le.1 hδ
    constructor <;> linarith
  have hx : |2 * S| < S * S := by
    rw [abs_of_pos (by linarith)]
    nlinarith
  have hy : |3 / 2 * S| < S * S := by
    rw [abs_of_pos (by linarith)]
    nlinarith
  have hd : npSubE [XNum.fin (2 * S)] [XNum.fin (3 / 2 * S)]
      = .ok [ExprOf.sub (.val 0 (.fin (2 * S))) (.val 0 (.fin (3 / 2 * S)))] := rfl
  -- the numerator
  have num : ∀ {r}, SpecialL2 ε (S * S) [.fin (2 * S)] [.fin (3 / 2 * S)] r → ∃ z, r = .fin z := by
    rintro r ⟨d, m, hd', ⟨xs, t, hxs, ht, hm⟩, hr⟩
    rw [hd, Except.ok.injEq] at hd'
    subst hd'
    obtain ⟨a, l, ⟨w, ⟨p, q, hp, hq, hw⟩, ha⟩, hl, rfl⟩ := List.forall₂_cons_left_iff.1 hxs
    cases hl
    rw [ht.singleton _ rfl] at hm
    rw [XNum.Read.exact hx hp, XNum.Read.exact hy hq] at hw
    have hw' : XNum.Fl ε (S * S) (S / 2) w := by
      have e : S / 2 = 2 * S + -(3 / 2 * S) := by ring
      rw [e]
      exact hw
    have fw : w.IsFin := hw'.small (by rw [abs_of_pos (by linarith)]; nlinarith)
    obtain ⟨w, rfl⟩ := fw
    obtain ⟨δ, hδ, rfl⟩ := hw'.fin
    obtain ⟨b1, b2⟩ := hb hδ
    have ha' : XNum.Fl ε (S * S) (S / 2 * (1 + δ) * (S / 2 * (1 + δ))) a := ha
    have hsq : S / 2 * (1 + δ) * (S / 2 * (1 + δ)) ≤ 81 / 256 * (S * S) := by
      have : (1 + δ) * (1 + δ) ≤ 81 / 64 := by nlinarith
      nlinarith [mul_le_mul_of_nonneg_left this (mul_self_nonneg S)]
    have hsq0 : 0 ≤ S / 2 * (1 + δ) * (S / 2 * (1 + δ)) := mul_self_nonneg _
    have hSS : 4 < S * S := by nlinarith
    have fa : a.IsFin := ha'.small (by rw [abs_of_nonneg hsq0]; nlinarith)
    obtain ⟨a, rfl⟩ := fa
    obtain ⟨δ', hδ', ea⟩ := ha'.fin
    obtain ⟨b3, b4⟩ := hb hδ'
    have ha0 : 0 ≤ a := ea ▸ mul_nonneg hsq0 (by linarith)
    have ha1 : a ≤ 729 / 2048 * (S * S) := by
      rw [ea]
      nlinarith
    have hm' : XNum.Fl ε (S * S) a m := by simpa [XNum.Div] using hm
    have fm : m.IsFin := hm'.small (by rw [abs_of_nonneg ha0]; nlinarith)
    obtain ⟨m, rfl⟩ := fm
    obtain ⟨δ'', hδ'', em⟩ := hm'.fin
    obtain ⟨b5, b6⟩ := hb hδ''
    have hm0 : 0 ≤ m := em ▸ mul_nonneg ha0 (by linarith)
    have hm1 : m ≤ 6561 / 16384 * (S * S) := by
      rw [em]
      nlinarith
    simp only [XNum.Sqrt, not_lt.2 hm0, if_false] at hr
    have hsm : Real.sqrt m ≤ S := Real.sqrt_le_iff.2 ⟨by linarith, by nlinarith⟩
    refine hr.small ?_
    rw [abs_of_nonneg (Real.sqrt_nonneg _)]
    nlinarith [Real.sqrt_nonneg m]
  -- the denominator
  have den : ∀ {m n}, SpecialMean ε (S * S) ((readAll [XNum.fin (2 * S)]).map .sq) m → XNum.Sqrt ε (S * S) m n →
      n = .inf false := by
    rintro m n ⟨xs, t, hxs, ht, hm⟩ hn
    obtain ⟨a, l, ⟨w, hw, ha⟩, hl, rfl⟩ := List.forall₂_cons_left_iff.1 hxs
    cases hl
    rw [ht.singleton _ rfl] at hm
    rw [XNum.Read.exact hx hw] at ha
    have ea : a = .inf false := by
      rcases (ha : XNum.Fl ε (S * S) (2 * S * (2 * S)) a) with ⟨δ, hδ, hlt, -⟩ | ⟨-, rfl⟩
      · obtain ⟨b1, b2⟩ := hb hδ
        have := (abs_lt.1 hlt).2
        nlinarith
      · have : ¬(2 * S * (2 * S) < 0) := not_lt.2 (mul_self_nonneg _)
        simp [this]
    rw [ea] at hm
    have em : m = .inf false := by
      rw [show m = .inf _ from hm]
      simp [readAll]
    rw [em] at hn
    exact hn
  refine ⟨2 * S, 3 / 2 * S, by linarith, by linarith, (le_abs_self _).trans_lt hx, ?_, ?_, ?_⟩
  · have e : (2 * S - 3 / 2 * S) = S / 2 := by ring
    have q1 : Real.sqrt ((S / 2) ^ 2) = S / 2 := Real.sqrt_sq (by linarith)
    have q2 : Real.sqrt ((2 * S) ^ 2) = 2 * S := Real.sqrt_sq (by linarith)
    have hS0 : S ≠ 0 := by linarith
    simp only [computeL2ErrorRelative, computeL2Error, NDArray.flatten, npSub, npMean, List.length_cons, List.length_nil,
      if_true, List.zipWith_cons_cons, List.zipWith_nil_left, List.map_cons, List.map_nil, List.sum_cons, List.sum_nil,
      Nat.cast_one, zero_add, add_zero, div_one, e, q1, q2]
    congr 1
    field_simp
    norm_num
  · obtain ⟨w, hw⟩ := XRun.exists (Ω := S * S) h0
      (ExprOf.sq (.sub (.val 0 (.fin (2 * S))) (.val 0 (.fin (3 / 2 * S)))))
    obtain ⟨v, hv⟩ := XRun.exists (Ω := S * S) h0 (ExprOf.sq (.val 0 (.fin (2 * S))))
    have div_ex : ∀ a : XNum, ∃ r, XNum.Div ε (S * S) a (.fin ((1 : ℕ) : ℝ)) r := fun a => by
      cases a with
      | fin x =>
        obtain ⟨r, hr⟩ := XNum.Fl.exists (Ω := S * S) h0 x
        exact ⟨r, by simpa [XNum.Div] using hr⟩
      | inf s => exact ⟨_, rfl⟩
      | nan => exact ⟨_, rfl⟩
    have sqrt_ex : ∀ a : XNum, ∃ r, XNum.Sqrt ε (S * S) a r := fun a => by
      cases a with
      | fin x =>
        by_cases hx : x < 0
        · exact ⟨.nan, by simp [XNum.Sqrt, hx]⟩
        · obtain ⟨r, hr⟩ := XNum.Fl.exists (Ω := S * S) h0 (Real.sqrt x)
          exact ⟨r, by simpa [XNum.Sqrt, hx] using hr⟩
      | inf s => exact ⟨_, rfl⟩
      | nan => exact ⟨_, rfl⟩
    obtain ⟨m, hm⟩ := div_ex w
    obtain ⟨l, hl⟩ := sqrt_ex m
    obtain ⟨m', hm'⟩ := div_ex v
    obtain ⟨n, hn⟩ := sqrt_ex m'
    have L : SpecialL2 ε (S * S) [.fin (2 * S)] [.fin (3 / 2 * S)] l :=
      ⟨_, m, hd, ⟨[w], w, .cons hw .nil, .one w, hm⟩, hl⟩
    have N : SpecialMean ε (S * S) ((readAll [XNum.fin (2 * S)]).map .sq) m' :=
      ⟨[v], v, .cons hv .nil, .one v, hm'⟩
    obtain ⟨z, rfl⟩ := num L
    have en := den N hn
    subst en
    exact ⟨.fin 0, _, m', _, L, N, hn, rfl⟩
  · rintro r ⟨l, m, n, hl, hm, hn, hr⟩
    obtain ⟨z, rfl⟩ := num hl
    rw [den hm hn] at hr
    exact hr

/-! ### Without overflow -/

lemma mean_run {es : List (ExprOf XNum)} (h0 : 0 ≤ ε) (hne : es ≠ []) (h : SpecialMean ε Ω es r) :
    (ExprOf.mean es.length fun i => es.get i).XRun ε Ω r := by
  obtain ⟨xs, s, hx, hs, hd⟩ := h
  have hlen : es.length = xs.length := hx.length_eq
  have hn : (0 : ℝ) < es.length := Nat.cast_pos.2 (List.length_pos_iff.2 hne)
  refine ⟨fun i => xs.get (i.cast hlen), s, fun i => ?_, ?_, ?_⟩
  · exact (List.forall₂_iff_get.1 hx).2 i i.2 (hlen ▸ i.2)
  · have : List.ofFn (fun i : Fin es.length => xs.get (i.cast hlen)) = xs := by
      refine List.ext_get (by simp [hlen]) fun k h1 h2 => ?_
      simp
    rw [this]
    exact hs
  · cases s with
    | fin x =>
      simp only [XNum.Mean, List.length_eq_zero_iff, hne, if_false]
      simp only [XNum.Div, hn.ne', if_false] at hd
      rcases hd with ⟨δ, hδ, hlt, rfl⟩ | ⟨hΩ, rfl⟩
      · exact .inl ⟨δ, 0, hδ, by simpa using h0, by simpa using hlt, by simp⟩
      · refine .inr ⟨?_, ?_⟩
        · refine hΩ.trans (mul_le_mul_of_nonneg_left ?_ (abs_nonneg _))
          nlinarith
        · simp only [div_neg_iff, hn, hn.not_gt, and_true, and_false, false_or]
    | inf s =>
      rw [show r = .inf _ from hd]
      simp [XNum.Mean, hn.not_gt]
    | nan => exact hd

lemma mean_small (h0 : 0 ≤ ε) {es : List (ExprOf XNum)} (hne : es ≠ []) (he : ∀ e ∈ es, e.AllFin) :
    ∃ A, ∀ Ω, A < Ω → ∀ r, SpecialMean ε Ω es r → r.IsFin ∧ |r.toReal| ≤ A := by
  obtain ⟨A, hA⟩ := run_small h0 (ExprOf.mean es.length fun i => es.get i)
    ⟨List.length_pos_iff.2 hne, fun i => he _ (List.get_mem _ _)⟩
  exact ⟨A, fun Ω hΩ r hr => hA Ω hΩ r (mean_run h0 hne hr)⟩

lemma max_small (h0 : 0 ≤ ε) : ∀ {es : List (ExprOf XNum)}, (∀ e ∈ es, e.AllFin) →
    ∃ A, ∀ Ω, A < Ω → ∀ xs, List.Forall₂ (fun e x => e.XRun ε Ω x) es xs → ∀ x ∈ xs, x.IsFin
  | [], _ => ⟨0, fun Ω _ xs hxs => by cases hxs; simp⟩
  | e :: es, he => by
    obtain ⟨A, hA⟩ := XRun.small h0 e (he e (by simp))
    obtain ⟨B, hB⟩ := max_small h0 (es := es) fun e' he' => he e' (by simp [he'])
    refine ⟨max A B, fun Ω hΩ xs hxs => ?_⟩
    obtain ⟨hΩA, hΩB⟩ := max_lt_iff.1 hΩ
    obtain ⟨x, l, hx, hl, rfl⟩ := List.forall₂_cons_left_iff.1 hxs
    intro y hy
    rcases List.mem_cons.1 hy with rfl | hy
    · exact hA Ω hΩA _ hx
    · exact hB Ω hΩB l hl y hy

lemma foldl_fin : ∀ (xs : List XNum) (x : XNum), x.IsFin → (∀ y ∈ xs, y.IsFin) → (xs.foldl XNum.max x).IsFin
  | [], x, hx, _ => hx
  | y :: xs, x, hx, h => by
    obtain ⟨p, rfl⟩ := hx
    obtain ⟨q, rfl⟩ := h y (by simp)
    exact foldl_fin xs _ ⟨Max.max p q, rfl⟩ fun z hz => h z (by simp [hz])

lemma specialMax_small (h0 : 0 ≤ ε) {es : List (ExprOf XNum)} (he : ∀ e ∈ es, e.AllFin) :
    ∃ A, ∀ Ω, A < Ω → ∀ r, SpecialMax ε Ω es r → r.IsFin := by
  obtain ⟨A, hA⟩ := max_small h0 he
  refine ⟨A, fun Ω hΩ r => ?_⟩
  rintro ⟨x, xs, hx, rfl⟩
  have := hA Ω hΩ _ hx
  exact foldl_fin xs x (this x (by simp)) fun y hy => this y (by simp [hy])

lemma allFin_map {f : ExprOf XNum → ExprOf XNum} (hf : ∀ e, e.AllFin → (f e).AllFin) {d : List (ExprOf XNum)}
    (h : ∀ e ∈ d, e.AllFin) : ∀ e ∈ d.map f, e.AllFin := by
  intro e he
  obtain ⟨e', he', rfl⟩ := List.mem_map.1 he
  exact hf e' (h e' he')

lemma npSubE_allFin {v w : List ℝ} {d : List (ExprOf XNum)}
    (h : npSubE (v.map XNum.fin) (w.map XNum.fin) = .ok d) : ∀ e ∈ d, e.AllFin := by
  unfold npSubE at h
  have key : ∀ l : List ℝ, ((l.map XNum.fin).getD 0 (Leaf.ofReal 0)).IsFin := fun l => by
    cases l with
    | nil => exact ⟨0, rfl⟩
    | cons x l => exact ⟨x, rfl⟩
  have mem : ∀ (l : List ℝ) (z : XNum), z ∈ l.map XNum.fin → z.IsFin := fun l z hz => by
    obtain ⟨x, -, rfl⟩ := List.mem_map.1 hz
    exact ⟨x, rfl⟩
  split_ifs at h <;> cases h <;> intro e he
  · obtain ⟨i, hi, rfl⟩ := List.mem_iff_getElem.1 he
    rw [List.getElem_zipWith]
    exact ⟨mem v _ (List.getElem_mem _), mem w _ (List.getElem_mem _)⟩
  · obtain ⟨y, hy, rfl⟩ := List.mem_map.1 he
    exact ⟨key v, mem w y hy⟩
  · obtain ⟨y, hy, rfl⟩ := List.mem_map.1 he
    exact ⟨mem v y hy, key w⟩

lemma readAll_allFin (v : List ℝ) : ∀ e ∈ readAll (v.map XNum.fin), e.AllFin := by
  intro e he
  obtain ⟨y, hy, rfl⟩ := List.mem_map.1 he
  obtain ⟨x, -, rfl⟩ := List.mem_map.1 hy
  exact ⟨x, rfl⟩

lemma sqrt_small {A : ℝ} {m n : XNum} (h : XNum.Sqrt ε Ω m n) (hm : m.IsFin) (hm0 : 0 ≤ m.toReal)
    (hA : |m.toReal| ≤ A) (h0 : 0 ≤ ε) (hΩ : (1 + A) * (1 + ε) < Ω) : n.IsFin := by
  obtain ⟨x, rfl⟩ := hm
  have hm0 : 0 ≤ x := hm0
  have hA : |x| ≤ A := hA
  simp only [XNum.Sqrt, not_lt.2 hm0, if_false] at h
  have : Real.sqrt x ≤ 1 + A := by
    rw [abs_of_nonneg hm0] at hA
    refine Real.sqrt_le_iff.2 ⟨by linarith, by nlinarith⟩
  refine h.small ?_
  rw [abs_of_nonneg (Real.sqrt_nonneg _)]
  nlinarith

lemma div_small (h0 : 0 ≤ ε) (h1 : ε < 1) {X Y : ℝ} (hX : 0 ≤ X) (hY : 0 < Y) (k l : ℕ) :
    ∃ A, ∀ Ω, A < Ω → ∀ p q r, Accurate ε k p X → Accurate ε l q Y → XNum.Div ε Ω (.fin p) (.fin q) r →
      r.IsFin ∧ RoundedDiv ε p q r.toReal := by
  have hpow : 0 < (1 - ε) ^ (k + l) := pow_pos (by linarith) _
  refine ⟨X / Y / (1 - ε) ^ (k + l) * (1 + ε), fun Ω hΩ p q r hp hq hr => ?_⟩
  have hq0 := hq.pos h1 hY
  have hacc := hp.over h1 hX hq hY
  have hle : p / q ≤ X / Y / (1 - ε) ^ (k + l) := (le_div_iff₀ hpow).2 hacc.2
  have hpq : 0 ≤ p / q := hacc.nonneg h1 (div_nonneg hX hY.le)
  simp only [XNum.Div, hq0.ne', if_false] at hr
  have hf : r.IsFin := hr.small (by rw [abs_of_nonneg hpq]; nlinarith)
  refine ⟨hf, hq0.ne', ?_⟩
  obtain ⟨y, rfl⟩ := hf
  exact hr.fin

/-- **C93** (errors without overflow).  If there is a result, the exact solution is not zero everywhere and the
largest representable number is large enough, then the six errors are results of the arithmetic of C86. -/
theorem C93_errors_finite (h0 : 0 ≤ ε) (h1 : ε < 1) (a b : NDArray) (hx : ∃ x ∈ a.data, x ≠ 0)
    {x2 xinf x2r xinfr x1 x1r : ℝ} (h : computeErrorsCombined a b = .ok (x2, xinf, x2r, xinfr, x1, x1r)) :
    ∃ Ω₀, ∀ Ω, Ω₀ < Ω → ∀ l2 linf l2r linfr l1 l1r,
      SpecialErrors ε Ω (a.data.map .fin) (b.data.map .fin) (l2, linf, l2r, linfr, l1, l1r) →
      (l2.IsFin ∧ linf.IsFin ∧ l2r.IsFin ∧ linfr.IsFin ∧ l1.IsFin ∧ l1r.IsFin) ∧
      RoundedErrors ε a b (l2.toReal, linf.toReal, l2r.toReal, linfr.toReal, l1.toReal, l1r.toReal) := by
  cases hd : npSubE (a.data.map XNum.fin) (b.data.map XNum.fin) with
  | error e =>
    refine ⟨0, fun Ω _ l2 linf l2r linfr l1 l1r h' => ?_⟩
    obtain ⟨⟨d, m, hd', -⟩, -⟩ := h'
    rw [hd] at hd'
    cases hd'
  | ok d =>
    obtain ⟨e1, e2, e3, e4, e5, e6⟩ := combined_ok h
    have hdR := npSubE_fin hd
    obtain ⟨hnp, hdiff⟩ := npSubE_ok hdR
    have hdne : d ≠ [] := by
      rintro rfl
      have : computeLinfError a.flatten b.flatten = .error .valueError := by
        have hnp' : npSub a.flatten.flatten.data b.flatten.flatten.data = .ok [] := hnp
        rw [computeLinfError, hnp']
        rfl
      rw [this] at e2
      cases e2
    have hane : a.data ≠ [] := by
      obtain ⟨x, hx, -⟩ := hx
      exact List.ne_nil_of_mem hx
    have hrne : readAll (a.data.map XNum.fin) ≠ [] := by simpa [readAll] using hane
    have mne : ∀ {f : ExprOf XNum → ExprOf XNum} {l : List (ExprOf XNum)}, l ≠ [] → l.map f ≠ [] :=
      fun h h' => h (List.map_eq_nil_iff.1 h')
    have fd := npSubE_allFin hd
    have fr := readAll_allFin a.data
    obtain ⟨A1, hA1⟩ := mean_small h0 (mne (f := .abs) hdne) (allFin_map (f := .abs) (fun _ h => h) fd)
    obtain ⟨A2, hA2⟩ := mean_small h0 (mne (f := .sq) hdne) (allFin_map (f := .sq) (fun _ h => h) fd)
    obtain ⟨B1, hB1⟩ := mean_small h0 (mne (f := .abs) hrne) (allFin_map (f := .abs) (fun _ h => h) fr)
    obtain ⟨B2, hB2⟩ := mean_small h0 (mne (f := .sq) hrne) (allFin_map (f := .sq) (fun _ h => h) fr)
    obtain ⟨A3, hA3⟩ := specialMax_small h0 (allFin_map (f := .abs) (fun _ h => h) fd)
    obtain ⟨B3, hB3⟩ := specialMax_small h0 (allFin_map (f := .abs) (fun _ h => h) fr)
    -- the sizes of the norms
    have hE2 := hdiff.sq h1
    have hR2 := read_sq h0 h1 a.data
    have hR1 := read_abs h0 h1 a.data
    have n2 := hR2.mean_nonneg
    have n1 := hR1.mean_nonneg
    obtain ⟨x, hxa, hx0⟩ := hx
    have hlen : (0 : ℝ) < a.data.length := Nat.cast_pos.2 (List.length_pos_iff.2 hane)
    have p2 : 0 < Real.sqrt (npMean (((readAll a.data).map ExprOf.sq).map ExprOf.eval)) := by
      rw [readAll_sq, npMean]
      refine Real.sqrt_pos.2 (div_pos (sum_pos_of_mem (x := x ^ 2) (fun z hz => ?_)
        (List.mem_map.2 ⟨x, hxa, rfl⟩) (by positivity)) (by simpa using hlen))
      obtain ⟨w, -, rfl⟩ := List.mem_map.1 hz
      exact sq_nonneg w
    have p1 : 0 < npMean (((readAll a.data).map ExprOf.abs).map ExprOf.eval) := by
      rw [readAll_abs, npMean]
      refine div_pos (sum_pos_of_mem (x := |x|) (fun z hz => ?_) (List.mem_map.2 ⟨x, hxa, rfl⟩) (abs_pos.2 hx0))
        (by simpa using hlen)
      obtain ⟨w, -, rfl⟩ := List.mem_map.1 hz
      exact abs_nonneg w
    obtain ⟨m, hm⟩ : ∃ m, npMax (a.data.map (|·|)) = .ok m := by
      obtain ⟨c, l, hcl⟩ := List.exists_cons_of_ne_nil hane
      exact ⟨_, by rw [hcl]; rfl⟩
    have p3 : 0 < m := by
      obtain ⟨c, l, hcl⟩ := List.exists_cons_of_ne_nil hane
      rw [hcl, List.map_cons, npMax, Except.ok.injEq] at hm
      obtain ⟨g1, g2, -⟩ := foldl_max |c| (l.map (|·|))
      rw [hm] at g1 g2
      rw [hcl] at hxa
      refine (abs_pos.2 hx0).trans_le ?_
      rcases List.mem_cons.1 hxa with rfl | hx
      · exact g1
      · exact g2 _ (List.mem_map.2 ⟨x, hx, rfl⟩)
    have q2 : 0 ≤ x2 := by
      have hnp' : npSub a.flatten.flatten.data b.flatten.flatten.data = _ := hnp
      have e1' := e1
      rw [computeL2Error, hnp'] at e1'
      simp only [Except.ok.injEq] at e1'
      exact e1' ▸ Real.sqrt_nonneg _
    have q1 : 0 ≤ x1 := by
      have hnp' : npSub a.flatten.flatten.data b.flatten.flatten.data = _ := hnp
      have e5' := e5
      rw [computeL1Error, hnp'] at e5'
      simp only [Except.ok.injEq] at e5'
      rw [← e5', npMean]
      refine div_nonneg (List.sum_nonneg fun z hz => ?_) (Nat.cast_nonneg _)
      obtain ⟨w, -, rfl⟩ := List.mem_map.1 hz
      exact abs_nonneg w
    have q3 : 0 ≤ xinf := by
      have hnp' : npSub a.flatten.flatten.data b.flatten.flatten.data = _ := hnp
      have e2' := e2
      rw [computeLinfError, hnp'] at e2'
      simp only at e2'
      refine npMax_nonneg (fun z hz => ?_) e2'
      obtain ⟨w, -, rfl⟩ := List.mem_map.1 hz
      exact abs_nonneg w
    obtain ⟨D2, hD2⟩ := div_small h0 h1 q2 p2 (max a.data.length b.data.length + 4)
      (1 + ((readAll a.data).map ExprOf.sq).length + 1)
    obtain ⟨D1, hD1⟩ := div_small h0 h1 q1 p1 (max a.data.length b.data.length + 1)
      (0 + ((readAll a.data).map ExprOf.abs).length)
    obtain ⟨D3, hD3⟩ := div_small h0 h1 q3 p3 1 0
    refine ⟨max (max (max A1 A2) (max B1 B2)) (max (max A3 B3) (max (max D1 (max D2 D3))
      (max ((1 + A2) * (1 + ε)) ((1 + B2) * (1 + ε))))), fun Ω hΩ l2 linf l2r linfr l1 l1r h' => ?_⟩
    simp only [max_lt_iff] at hΩ
    obtain ⟨⟨⟨ΩA1, ΩA2⟩, ΩB1, ΩB2⟩, ⟨ΩA3, ΩB3⟩, ⟨ΩD1, ΩD2, ΩD3⟩, ΩS2, ΩT2⟩ := hΩ
    -- absolute errors
    have F2 : ∀ {r}, SpecialL2 ε Ω (a.data.map .fin) (b.data.map .fin) r → r.IsFin := by
      rintro r ⟨d', m, hd', hm, hr⟩
      rw [hd, Except.ok.injEq] at hd'
      subst hd'
      obtain ⟨fm, bm⟩ := hA2 Ω ΩA2 m hm
      have hmR := (hm.fin fm).2
      rw [map_map_toReal .sq .sq (fun _ => rfl)] at hmR
      exact sqrt_small hr fm ((hE2.mean h0 h1 hmR).nonneg h1 hE2.mean_nonneg) bm h0 ΩS2
    have F1 : ∀ {r}, SpecialL1 ε Ω (a.data.map .fin) (b.data.map .fin) r → r.IsFin := by
      rintro r ⟨d', hd', hm⟩
      rw [hd, Except.ok.injEq] at hd'
      subst hd'
      exact (hA1 Ω ΩA1 r hm).1
    have F3 : ∀ {r}, SpecialLinf ε Ω (a.data.map .fin) (b.data.map .fin) r → r.IsFin := by
      rintro r ⟨d', hd', hm⟩
      rw [hd, Except.ok.injEq] at hd'
      subst hd'
      exact hA3 Ω ΩA3 r hm
    obtain ⟨d1, d2, ⟨y2, m2, s2, d3, hm2, hs2, d3'⟩, ⟨y3, s3, d4, hm3, d4'⟩, d5, y1, s1, d6, hm1, d6'⟩ := h'
    have r2 := specialL2_fin (a := a) (b := b) d3 (F2 d3)
    have r1 := specialL1_fin (a := a) (b := b) d6 (F1 d6)
    have r3 := specialLinf_fin (a := a) (b := b) d4 (F3 d4)
    have fy2 := F2 d3
    have fy1 := F1 d6
    have fy3 := F3 d4
    -- norms
    obtain ⟨fm2, bm2⟩ := hB2 Ω ΩB2 m2 hm2
    have hm2R := (hm2.fin fm2).2
    rw [map_map_toReal .sq .sq (fun _ => rfl), readAll_toReal] at hm2R
    have am2 := hR2.mean h0 h1 hm2R
    have fs2 := sqrt_small hs2 fm2 (am2.nonneg h1 n2) bm2 h0 ΩT2
    obtain ⟨t2, rfl⟩ := fs2
    have hs2R : RoundedSqrt ε m2.toReal t2 := hs2.fin.2
    have as2 : Accurate ε (1 + ((readAll a.data).map ExprOf.sq).length + 1) t2
        (Real.sqrt (npMean (((readAll a.data).map ExprOf.sq).map ExprOf.eval))) := by
      obtain ⟨δ, hδ, rfl⟩ := hs2R
      exact (am2.sqrt h0 h1 n2).round h1 (Real.sqrt_nonneg _) hδ
    obtain ⟨fs1, -⟩ := hB1 Ω ΩB1 s1 hm1
    have hm1R := (hm1.fin fs1).2
    rw [map_map_toReal .abs .abs (fun _ => rfl), readAll_toReal] at hm1R
    have as1 := hR1.mean h0 h1 hm1R
    have fs3 := hB3 Ω ΩB3 s3 hm3
    have hm3R := (hm3.fin fs3).2
    rw [map_map_toReal .abs .abs (fun _ => rfl), readAll_toReal] at hm3R
    have as3 : Accurate ε 0 s3.toReal m := by
      obtain ⟨xs, hxs, hmax⟩ := hm3R
      have hall := hR1.forall₂ hxs
      rw [readAll_abs] at hall
      exact accurate_max h1 hall hmax hm
    obtain ⟨t1, rfl⟩ := fs1
    obtain ⟨t3, rfl⟩ := fs3
    obtain ⟨z1, rfl⟩ := fy1
    obtain ⟨z2, rfl⟩ := fy2
    obtain ⟨z3, rfl⟩ := fy3
    have az2 := (roundedL2_accurate h0 h1 e1 r2).1
    have az1 := (roundedL1_accurate h0 h1 e5 r1).1
    have az3 := (roundedLinf_accurate h1 e2 r3).1
    obtain ⟨g2, g2'⟩ := hD2 Ω ΩD2 _ _ _ az2 as2 d3'
    obtain ⟨g1, g1'⟩ := hD1 Ω ΩD1 _ _ _ az1 as1 d6'
    obtain ⟨g3, g3'⟩ := hD3 Ω ΩD3 _ _ _ az3 as3 d4'
    exact ⟨⟨F2 d1, F3 d2, g2, g3, F1 d5, g1⟩, specialL2_fin d1 (F2 d1), specialLinf_fin d2 (F3 d2),
      ⟨_, _, _, r2, hm2R, hs2R, g2'⟩, ⟨_, _, r3, hm3R, g3'⟩, specialL1_fin d5 (F1 d5), ⟨_, _, r1, hm1R, g1'⟩⟩

/-- **C93** (results exist).  In this arithmetic the errors fail exactly for arrays that are empty or do not fit. -/
theorem C93_errors_exist (h0 : 0 ≤ ε) (exact approx : List XNum) :
    (∃ out, SpecialErrors ε Ω exact approx out) ↔ exact ≠ [] ∧ approx ≠ [] ∧
      (exact.length = approx.length ∨ exact.length = 1 ∨ approx.length = 1) := by
  constructor
  · rintro ⟨⟨l2, linf, l2r, linfr, l1, l1r⟩, -, -, -, ⟨y, n, ⟨d, hd, x, xs, hx, -⟩, ⟨x', xs', hx', -⟩, -⟩, -⟩
    have hdne : d ≠ [] := by
      rintro rfl
      cases hx
    have hene : exact ≠ [] := by
      rintro rfl
      cases hx'
    unfold npSubE at hd
    split_ifs at hd with c1 c2 c3 <;> cases hd
    · refine ⟨hene, ?_, .inl c1⟩
      rintro rfl
      exact hene (List.length_eq_zero_iff.1 c1)
    · refine ⟨hene, ?_, .inr (.inl c2)⟩
      rintro rfl
      exact hdne rfl
    · refine ⟨hene, ?_, .inr (.inr c3)⟩
      rintro rfl
      cases c3
  · rintro ⟨he, ha, hc⟩
    obtain ⟨d, hd, hdne⟩ : ∃ d, npSubE exact approx = .ok d ∧ d ≠ [] := by
      unfold npSubE
      split_ifs with c1 c2 c3
      · refine ⟨_, rfl, fun h => ?_⟩
        rcases List.zipWith_eq_nil_iff.1 h with h | h
        · exact he h
        · exact ha h
      · exact ⟨_, rfl, fun h => ha (List.map_eq_nil_iff.1 h)⟩
      · exact ⟨_, rfl, fun h => he (List.map_eq_nil_iff.1 h)⟩
      · rcases hc with h | h | h
        · exact (c1 h).elim
        · exact (c2 h).elim
        · exact (c3 h).elim
    have runs : ∀ es : List (ExprOf XNum), ∃ xs, List.Forall₂ (fun e x => e.XRun ε Ω x) es xs := fun es => by
      induction es with
      | nil => exact ⟨[], .nil⟩
      | cons e es ih =>
        obtain ⟨xs, hxs⟩ := ih
        obtain ⟨x, hx⟩ := XRun.exists (Ω := Ω) h0 e
        exact ⟨x :: xs, .cons hx hxs⟩
    have div_ex : ∀ a b : XNum, ∃ r, XNum.Div ε Ω a b r := fun a b => by
      cases a with
      | fin x =>
        cases b with
        | fin y =>
          by_cases hy : y = 0
          · exact ⟨_, by simp only [XNum.Div, hy, if_true]; rfl⟩
          · obtain ⟨r, hr⟩ := XNum.Fl.exists (Ω := Ω) h0 (x / y)
            exact ⟨r, by simpa [XNum.Div, hy] using hr⟩
        | inf s => exact ⟨_, rfl⟩
        | nan => exact ⟨_, rfl⟩
      | inf s => cases b <;> exact ⟨_, rfl⟩
      | nan => cases b <;> exact ⟨_, rfl⟩
    have sqrt_ex : ∀ a : XNum, ∃ r, XNum.Sqrt ε Ω a r := fun a => by
      cases a with
      | fin x =>
        by_cases hx : x < 0
        · exact ⟨.nan, by simp [XNum.Sqrt, hx]⟩
        · obtain ⟨r, hr⟩ := XNum.Fl.exists (Ω := Ω) h0 (Real.sqrt x)
          exact ⟨r, by simpa [XNum.Sqrt, hx] using hr⟩
      | inf s => exact ⟨_, rfl⟩
      | nan => exact ⟨_, rfl⟩
    have mean_ex : ∀ es : List (ExprOf XNum), ∃ r, SpecialMean ε Ω es r := fun es => by
      obtain ⟨xs, hxs⟩ := runs es
      obtain ⟨s, hs⟩ := XNum.Sum.exists (Ω := Ω) h0 xs
      obtain ⟨r, hr⟩ := div_ex s (.fin es.length)
      exact ⟨r, xs, s, hxs, hs, hr⟩
    have max_ex : ∀ es : List (ExprOf XNum), es ≠ [] → ∃ r, SpecialMax ε Ω es r := fun es hne => by
      obtain ⟨xs, hxs⟩ := runs es
      cases hxs with
      | nil => exact (hne rfl).elim
      | cons h hs => exact ⟨_, _, _, .cons h hs, rfl⟩
    have mne : ∀ {f : ExprOf XNum → ExprOf XNum} {l : List (ExprOf XNum)}, l ≠ [] → l.map f ≠ [] :=
      fun h h' => h (List.map_eq_nil_iff.1 h')
    obtain ⟨m2, hm2⟩ := mean_ex (d.map .sq)
    obtain ⟨l2, hl2⟩ := sqrt_ex m2
    obtain ⟨l1, hl1⟩ := mean_ex (d.map .abs)
    obtain ⟨linf, hlinf⟩ := max_ex (d.map .abs) (mne hdne)
    obtain ⟨k2, hk2⟩ := mean_ex ((readAll exact).map .sq)
    obtain ⟨n2, hn2⟩ := sqrt_ex k2
    obtain ⟨n1, hn1⟩ := mean_ex ((readAll exact).map .abs)
    obtain ⟨n3, hn3⟩ := max_ex ((readAll exact).map .abs) (mne (by simpa [readAll] using he))
    obtain ⟨l2r, hl2r⟩ := div_ex l2 n2
    obtain ⟨l1r, hl1r⟩ := div_ex l1 n1
    obtain ⟨linfr, hlinfr⟩ := div_ex linf n3
    exact ⟨(l2, linf, l2r, linfr, l1, l1r), ⟨d, m2, hd, hm2, hl2⟩, ⟨d, hd, hlinf⟩,
      ⟨l2, k2, n2, ⟨d, m2, hd, hm2, hl2⟩, hk2, hn2, hl2r⟩, ⟨linf, n3, ⟨d, hd, hlinf⟩, hn3, hlinfr⟩, ⟨d, hd, hl1⟩,
      ⟨l1, n1, ⟨d, hd, hl1⟩, hn1, hl1r⟩⟩

end

/-! ## Examples -/

/-- The hypotheses of `C93_errors_nan`. -/
example : ∃ out, SpecialErrors ((2 : ℝ)⁻¹ ^ 53) (2 ^ 1024) [.fin 1, .fin 2] [.fin 1, .nan] out :=
  (C93_errors_exist (by positivity) _ _).2 ⟨by simp, by simp, by simp⟩

/-- The hypotheses of `C93_zero_solution`. -/
example : ∃ out, SpecialErrors ((2 : ℝ)⁻¹ ^ 53) (2 ^ 1024) (List.replicate 2 (.fin 0)) ([0, 3].map .fin) out :=
  (C93_errors_exist (by positivity) _ _).2 ⟨by simp, by simp, by simp⟩

/-- The hypotheses of `C93_errors_finite`, with finite errors of the kind that `C93_errors_accurate` is about. -/
example : ∃ Ω l2 linf l2r linfr l1 l1r, SpecialErrors ((2 : ℝ)⁻¹ ^ 53) Ω ([1, 2].map .fin) ([1, 3].map .fin)
    (l2, linf, l2r, linfr, l1, l1r) ∧ l2.IsFin ∧ l2r.IsFin := by
  obtain ⟨⟨x2, xinf, x2r, xinfr, x1, x1r⟩, h⟩ : ∃ out, computeErrorsCombined ⟨[2], [1, 2]⟩ ⟨[2], [1, 3]⟩ = .ok out :=
    ⟨_, rfl⟩
  obtain ⟨Ω₀, hΩ⟩ := C93_errors_finite (ε := (2 : ℝ)⁻¹ ^ 53) (by positivity) (by norm_num) _ _
    ⟨1, by simp, by norm_num⟩ h
  obtain ⟨⟨l2, linf, l2r, linfr, l1, l1r⟩, hout⟩ := (C93_errors_exist (ε := (2 : ℝ)⁻¹ ^ 53) (Ω := Ω₀ + 1)
    (by positivity) ([1, 2].map XNum.fin) ([1, 3].map XNum.fin)).2 ⟨by simp, by simp, by simp⟩
  obtain ⟨⟨f1, -, f3, -⟩, -⟩ := hΩ (Ω₀ + 1) (by linarith) _ _ _ _ _ _ hout
  exact ⟨_, _, _, _, _, _, _, hout, f1, f3⟩

/-- The hypotheses of `C93_relative_overflow` with the numbers of `float64`. -/
example : 0 ≤ (2 : ℝ)⁻¹ ^ 53 ∧ (2 : ℝ)⁻¹ ^ 53 ≤ 1 / 8 ∧ (4 : ℝ) < 2 ^ 1024 := by
  refine ⟨by positivity, ?_, ?_⟩
  · calc (2 : ℝ)⁻¹ ^ 53 ≤ (2 : ℝ)⁻¹ ^ 3 := pow_le_pow_of_le_one (by norm_num) (by norm_num) (by norm_num)
      _ = 1 / 8 := by norm_num
  · calc (4 : ℝ) < 2 ^ 3 := by norm_num
      _ ≤ 2 ^ 1024 := pow_le_pow_right₀ (by norm_num) (by norm_num)

end FastVPINNs
