import Verif.Model.Broadcast

/-! # Lemmas on broadcasting -/

namespace FastVPINNs

/-- The tensor has the shape and the entries of a vector of the exact model. -/
def TVec.Is {n : ℕ} (A : TVec) (f : Fin n → ℝ) : Prop := A.len = n ∧ ∀ i : Fin n, A.val i = f i

/-- The tensor has the shape and the entries of a matrix of the exact model. -/
def TMat.Is {m n : ℕ} (A : TMat) (f : Fin m → Fin n → ℝ) : Prop :=
  A.rows = m ∧ A.cols = n ∧ ∀ (i : Fin m) (j : Fin n), A.val i j = f i j

/-- The tensor has the shape and the entries of a tensor of the exact model. -/
def TCells.Is {l m n : ℕ} (A : TCells) (f : Fin l → Fin m → Fin n → ℝ) : Prop :=
  A.cells = l ∧ A.rows = m ∧ A.cols = n ∧ ∀ (c : Fin l) (i : Fin m) (j : Fin n), A.val c i j = f c i j

theorem bcastDim_self (a : ℕ) : bcastDim a a = .ok a := by simp [bcastDim]

theorem bcastIdx_fin {n : ℕ} (i : Fin n) : bcastIdx n i = i := by
  unfold bcastIdx
  split
  · omega
  · rfl

theorem TVec.Is.zip {n : ℕ} {A B : TVec} {f g : Fin n → ℝ} (op : ℝ → ℝ → ℝ) (hA : A.Is f) (hB : B.Is g) :
    ∃ C, A.zip op B = .ok C ∧ C.Is fun i => op (f i) (g i) := by
  obtain ⟨a1, a3⟩ := hA
  obtain ⟨b1, b3⟩ := hB
  refine ⟨⟨n, _⟩, by unfold TVec.zip; rw [a1, b1, bcastDim_self], rfl, fun i => ?_⟩
  simp only [bcastIdx_fin, a3, b3]

theorem TMat.Is.zip {m n : ℕ} {A B : TMat} {f g : Fin m → Fin n → ℝ} (op : ℝ → ℝ → ℝ) (hA : A.Is f) (hB : B.Is g) :
    ∃ C, A.zip op B = .ok C ∧ C.Is fun i j => op (f i j) (g i j) := by
  obtain ⟨a1, a2, a3⟩ := hA
  obtain ⟨b1, b2, b3⟩ := hB
  refine ⟨⟨m, n, _⟩, by unfold TMat.zip; rw [a1, a2, b1, b2, bcastDim_self, bcastDim_self], rfl, rfl, fun i j => ?_⟩
  simp only [bcastIdx_fin, a3, b3]

theorem TMat.Is.map {m n : ℕ} {A : TMat} {f : Fin m → Fin n → ℝ} (g : ℝ → ℝ) (hA : A.Is f) :
    (A.map g).Is fun i j => g (f i j) :=
  ⟨hA.1, hA.2.1, fun i j => by simp only [TMat.map, hA.2.2]⟩

theorem TCells.Is.matvecT {l m n : ℕ} {A : TCells} {v : TMat} {f : Fin l → Fin m → Fin n → ℝ}
    {g : Fin l → Fin n → ℝ} (hA : A.Is f) (hv : v.Is g) :
    ∃ C, A.matvecT v = .ok C ∧ C.Is (FastVPINNs.transpose (FastVPINNs.matvec f g)) := by
  obtain ⟨ac, ar, aq, av⟩ := A
  obtain ⟨rfl, rfl, rfl, a4⟩ := hA
  obtain ⟨b1, b2, b3⟩ := hv
  refine ⟨TMat.transpose ⟨ac, ar, _⟩, by
    unfold TCells.matvecT TCells.matvec; simp only; rw [if_pos b2.symm, b1, bcastDim_self], rfl, rfl, fun t c => ?_⟩
  simp only [TMat.transpose, bcastIdx_fin, b3, FastVPINNs.transpose, FastVPINNs.matvec]
  exact Finset.sum_congr rfl fun q _ => by rw [← a4]

theorem TMat.Is.meanSquare0 {m n : ℕ} {A : TMat} {f : Fin m → Fin n → ℝ} (hA : A.Is f) :
    A.meanSquare0.Is (FastVPINNs.meanSquare0 f) := by
  obtain ⟨ar, ac, av⟩ := A
  obtain ⟨rfl, rfl, a3⟩ := hA
  exact ⟨rfl, fun j => by
    simp only [TMat.meanSquare0, FastVPINNs.meanSquare0]
    exact congrArg (· / _) (Finset.sum_congr rfl fun i _ => by rw [← a3])⟩

theorem TVec.Is.toList {n : ℕ} {A : TVec} {f : Fin n → ℝ} (hA : A.Is f) : A.toList = List.ofFn f := by
  obtain ⟨l, v⟩ := A
  obtain ⟨rfl, h⟩ := hA
  exact congrArg List.ofFn (funext h)

theorem TVec.Is.sum {n : ℕ} {A : TVec} {f : Fin n → ℝ} (hA : A.Is f) : A.sum = ∑ i, f i := by
  obtain ⟨l, v⟩ := A
  obtain ⟨rfl, h⟩ := hA
  exact Finset.sum_congr rfl fun i _ => h i

theorem outputMat_is {m n : ℕ} (f : Fin m → Fin n → ℝ) : (outputMat f).Is f :=
  ⟨rfl, rfl, fun i j => by simp [outputMat]⟩

theorem entries1_fin {n : ℕ} (v : Fin n → ℝ) (i : ℕ) (h : i < n) : entries1 v i = v ⟨i, h⟩ := by
  simp [entries1, h]

/-- With the number of cells that fits, the reshape of TensorFlow is the one of the exact model. -/
theorem tfReshape_ok {n nc nq : ℕ} (d : ℤ) (v : Fin n → ℝ) {w : Fin nc → Fin nq → ℝ}
    (h : reshapeCells nc nq (if d = -1 then nc else d) v = .ok w) (hq : 0 < nq) :
    ∃ A, tfReshape n (entries1 v) d nq = .ok A ∧ A.Is w := by
  generalize hz : (if d = -1 then (nc : ℤ) else d) = z at h
  unfold reshapeCells at h
  split at h
  case isFalse => exact absurd h (by simp)
  case isTrue hc =>
    obtain ⟨h1, h2⟩ := hc
    rw [h2] at h1
    have hn : nc * nq = n := by exact_mod_cast h1
    have hw := Except.ok.inj h
    have hval : ∀ (i : Fin nc) (j : Fin nq), entries1 v (i * nq + j) = w i j := fun i j => by
      rw [← hw]
      exact entries1_fin v _ _
    unfold tfReshape
    by_cases hd : d = -1
    · rw [if_pos hd, if_pos ⟨by omega, Dvd.intro_left nc hn⟩]
      exact ⟨_, rfl, (congrArg (· / nq) hn.symm).trans (Nat.mul_div_cancel nc hq), rfl, hval⟩
    · rw [if_neg hd] at hz ⊢
      rw [← hz] at h2
      rw [if_pos ⟨by omega, by rw [h2]; exact_mod_cast hn⟩]
      exact ⟨_, rfl, by rw [h2]; rfl, rfl, hval⟩

/-- Any other number of cells is rejected by both. -/
theorem tfReshape_error {n nc nq : ℕ} (d : ℤ) (v : Fin n → ℝ) (hn : nc * nq = n) (hq : 0 < nq) (hd : d ≠ -1)
    (hc : d ≠ nc) : tfReshape n (entries1 v) d nq = .error .valueError := by
  unfold tfReshape
  rw [if_neg hd, if_neg]
  rintro ⟨h1, h2⟩
  apply hc
  rw [← hn] at h2
  push_cast at h2
  exact mul_right_cancel₀ (by exact_mod_cast hq.ne') h2

/-- The same result: the same vector, or the same error. -/
def SameVec {n : ℕ} (x : Except PyErr TVec) (y : Except PyErr (Fin n → ℝ)) : Prop :=
  match y with
  | .ok r => ∃ v, x = .ok v ∧ v.Is r
  | .error e => x = .error e

section
variable {nc nt nq : ℕ} {V GX GY : TCells} {V' GX' GY' : Fin nc → Fin nt → Fin nq → ℝ} {u ux uy F k : TMat}
  {u' ux' uy' k' : Fin nc → Fin nq → ℝ} {F' : Fin nt → Fin nc → ℝ}

theorem sameVec_poisson (hX : GX.Is GX') (hY : GY.Is GY') (hux : ux.Is ux') (huy : uy.Is uy') (hF : F.Is F')
    (p : ParamDict) :
    SameVec (tLossPoisson V GX GY u ux uy F p) (pdeLossPoisson V' GX' GY' u' ux' uy' F' p) := by
  obtain ⟨dX, e1, i1⟩ := hX.matvecT hux
  obtain ⟨dY, e2, i2⟩ := hY.matvecT huy
  obtain ⟨d, e3, i3⟩ := i1.zip (· + ·) i2
  unfold tLossPoisson pdeLossPoisson
  simp only [e1, e2, bind, Except.bind]
  cases paramGet p "eps" with
  | error e => rfl
  | ok eps =>
    obtain ⟨r, e4, i4⟩ := (i3.map (eps * ·)).zip (· - ·) hF
    simp only [TMat.add, TMat.sub, e3, e4]
    exact ⟨_, rfl, i4.meanSquare0⟩

theorem sameVec_poissonInverse (hX : GX.Is GX') (hY : GY.Is GY') (hux : ux.Is ux') (huy : uy.Is uy') (hF : F.Is F')
    (p ip : ParamDict) :
    SameVec (tLossPoissonInverse ip V GX GY u ux uy F p) (pdeLossPoissonInverse V' GX' GY' u' ux' uy' F' p ip) :=
  sameVec_poisson (V := V) (V' := V') (u := u) (u' := u') hX hY hux huy hF ip

theorem sameVec_lower (hV : V.Is V') (hu : u.Is u') (hux : ux.Is ux') (huy : uy.Is uy') (hF : F.Is F')
    {d : TMat} {d' : Fin nt → Fin nc → ℝ} (hd : d.Is d') (p : ParamDict) :
    SameVec (tLowerOrder V u ux uy p d F)
      (match paramGet p "b_x", paramGet p "b_y" with
        | .error e, _ => .error e
        | _, .error e => .error e
        | .ok bx, .ok by_ =>
          match paramGet p "c" with
          | .error e => .error e
          | .ok cc => .ok (meanSquare0 fun t c => (d' t c + (bx * transpose (matvec V' ux') t c
              + by_ * transpose (matvec V' uy') t c) + cc * transpose (matvec V' u') t c) - F' t c)) := by
  obtain ⟨cX, e1, i1⟩ := hV.matvecT hux
  obtain ⟨cY, e2, i2⟩ := hV.matvecT huy
  obtain ⟨cU, e3, i3⟩ := hV.matvecT hu
  unfold tLowerOrder
  simp only [e1, e2, e3, bind, Except.bind]
  cases paramGet p "b_x" with
  | error e => rfl
  | ok bx =>
    cases paramGet p "b_y" with
    | error e => rfl
    | ok by_ =>
      obtain ⟨cv, e4, i4⟩ := (i1.map (bx * ·)).zip (· + ·) (i2.map (by_ * ·))
      simp only [TMat.add, TMat.sub, e4]
      cases paramGet p "c" with
      | error e => rfl
      | ok cc =>
        obtain ⟨s1, e5, i5⟩ := hd.zip (· + ·) i4
        obtain ⟨s2, e6, i6⟩ := i5.zip (· + ·) (i3.map (cc * ·))
        obtain ⟨r, e7, i7⟩ := i6.zip (· - ·) hF
        simp only [e5, e6, e7]
        exact ⟨_, rfl, i7.meanSquare0⟩

theorem sameVec_cd2d (hV : V.Is V') (hX : GX.Is GX') (hY : GY.Is GY') (hu : u.Is u') (hux : ux.Is ux')
    (huy : uy.Is uy') (hF : F.Is F') (p : ParamDict) :
    SameVec (tLossCd2d V GX GY u ux uy F p) (pdeLossCd2d V' GX' GY' u' ux' uy' F' p) := by
  obtain ⟨dX, e1, i1⟩ := hX.matvecT hux
  obtain ⟨dY, e2, i2⟩ := hY.matvecT huy
  obtain ⟨d, e3, i3⟩ := i1.zip (· + ·) i2
  unfold tLossCd2d pdeLossCd2d
  simp only [e1, e2, bind, Except.bind]
  cases paramGet p "eps" with
  | error e => rfl
  | ok eps =>
    simp only [TMat.add, e3]
    exact sameVec_lower hV hu hux huy hF (i3.map (eps * ·)) p

theorem sameVec_domain (hV : V.Is V') (hX : GX.Is GX') (hY : GY.Is GY') (hu : u.Is u') (hux : ux.Is ux')
    (huy : uy.Is uy') (hF : F.Is F') (hk : k.Is k') (p : ParamDict) :
    SameVec (tLossCd2dInverseDomain k V GX GY u ux uy F p)
      (pdeLossCd2dInverseDomain V' GX' GY' u' ux' uy' F' p [k']) := by
  obtain ⟨mX, f1, j1⟩ := hux.zip (· * ·) hk
  obtain ⟨mY, f2, j2⟩ := huy.zip (· * ·) hk
  obtain ⟨dX, e1, i1⟩ := hX.matvecT j1
  obtain ⟨dY, e2, i2⟩ := hY.matvecT j2
  obtain ⟨d, e3, i3⟩ := i1.zip (· + ·) i2
  unfold tLossCd2dInverseDomain pdeLossCd2dInverseDomain
  simp only [TMat.mul, TMat.add, f1, f2, e1, e2, e3, bind, Except.bind]
  exact sameVec_lower hV hu hux huy hF i3 p

theorem sameVec_helmholtz (hV : V.Is V') (hX : GX.Is GX') (hY : GY.Is GY') (hu : u.Is u') (hux : ux.Is ux')
    (huy : uy.Is uy') (hF : F.Is F') (p : ParamDict) :
    SameVec (tLossHelmholtz V GX GY u ux uy F p) (pdeLossHelmholtz V' GX' GY' u' ux' uy' F' p) := by
  obtain ⟨dX, e1, i1⟩ := hX.matvecT hux
  obtain ⟨dY, e2, i2⟩ := hY.matvecT huy
  obtain ⟨d, e3, i3⟩ := i1.zip (· + ·) i2
  obtain ⟨cU, f3, j3⟩ := hV.matvecT hu
  unfold tLossHelmholtz pdeLossHelmholtz
  simp only [e1, e2, bind, Except.bind]
  cases paramGet p "eps" with
  | error e => rfl
  | ok eps =>
    simp only [TMat.add, TMat.sub, e3]
    cases paramGet p "k" with
    | error e => rfl
    | ok kk =>
      obtain ⟨s, e5, i5⟩ := ((i3.map (eps * ·)).map (-1.0 * ·)).zip (· + ·) (j3.map (kk ^ 2 * ·))
      obtain ⟨r, e6, i6⟩ := i5.zip (· - ·) hF
      simp only [f3, e5, e6]
      exact ⟨_, rfl, i6.meanSquare0⟩

end

end FastVPINNs
