import Verif.Model.Heap
import Verif.Props.Forcing

/-! # C35: arrays handed out by the accessors are independent copies -/

namespace FastVPINNs

open Spec

variable {nt nq : ℕ}

/-- What the value-level model says an accessor call returns. -/
noncomputable def Spec.expected {V : Type} (S : Fespace2D (ℝ → ℝ → ℝ) V nt nq) :
    Accessor → ℤ → Except PyErr (Arr nt nq)
  | .shapeVal, i => (S.getShapeFunctionVal i).map .mat
  | .gradX, i => (S.getShapeFunctionGradX i).map .mat
  | .gradXRef, i => (S.getShapeFunctionGradXRef i).map .mat
  | .gradY, i => (S.getShapeFunctionGradY i).map .mat
  | .gradYRef, i => (S.getShapeFunctionGradYRef i).map .mat
  | .coordinates, i => (S.getQuadratureActualCoordinates i).map .points
  | .weights, i => (S.getQuadratureWeights i).map .vec
  | .forcing, i => (S.getForcingFunctionValues i).map fun r => .col r.1

/-- The addresses of the attributes of a cell. -/
def CellRefs.addrs (c : CellRefs) : List ℕ :=
  [c.basisAtQuad, c.basisGradxAtQuad, c.basisGradyAtQuad, c.basisGradxAtQuadRef,
    c.basisGradyAtQuadRef, c.quadActualCoordinates, c.mult, c.forcingAtQuad]

/-- Contents of the attributes (all but `forcing_at_quad`) of a cell in memory. -/
structure Spec.RepCell {F : Type} (mem : ℕ → Arr nt nq) (fc : FE2DCell F nt nq) (c : CellRefs) : Prop where
  val : mem c.basisAtQuad = .mat fc.basisAtQuad
  gradx : mem c.basisGradxAtQuad = .mat fc.basisGradxAtQuad
  grady : mem c.basisGradyAtQuad = .mat fc.basisGradyAtQuad
  gradxRef : mem c.basisGradxAtQuadRef = .mat fc.basisGradxAtQuadRef
  gradyRef : mem c.basisGradyAtQuadRef = .mat fc.basisGradyAtQuadRef
  coords : mem c.quadActualCoordinates = .points fc.quadActualCoordinates
  mult : mem c.mult = .vec fc.mult

/-- The memory `st` holds the space `S`: the attributes of the cells are existing arrays with the right
contents.  (Different attributes may share an array.) -/
structure Spec.Represents {V : Type} (S : Fespace2D (ℝ → ℝ → ℝ) V nt nq) (st : HeapState nt nq) :
    Prop where
  cells : List.Forall₂ (RepCell st.mem) S.feCell st.feCell
  live : ∀ c ∈ st.feCell, ∀ r ∈ c.addrs, r < st.next

/-- Invariant of all histories: the caller's arrays exist and none is an attribute of the space. -/
structure Inv {V : Type} (S : Fespace2D (ℝ → ℝ → ℝ) V nt nq) (w : World nt nq) : Prop where
  rep : Represents S w.st
  owned : ∀ r ∈ w.owned, r < w.st.next
  disj : ∀ c ∈ w.st.feCell, ∀ r ∈ c.addrs, r ∉ w.owned

lemma Spec.RepCell.update {F : Type} {mem : ℕ → Arr nt nq} {fc : FE2DCell F nt nq} {c : CellRefs} {a : ℕ}
    {x : Arr nt nq} (h : RepCell mem fc c) (ha : ∀ r ∈ c.addrs, r ≠ a) :
    RepCell (Function.update mem a x) fc c := by
  simp only [CellRefs.addrs, List.mem_cons, List.not_mem_nil, or_false, forall_eq_or_imp,
    forall_eq] at ha
  obtain ⟨h1, h2, h3, h4, h5, h6, h7, h8⟩ := ha
  obtain ⟨a1, a2, a3, a4, a5, a6, a7⟩ := h
  constructor <;> simp [Function.update_of_ne, *]

lemma forall₂_mem_imp {α β : Type*} {R Q : α → β → Prop} {l : List α} {l' : List β}
    (h : List.Forall₂ R l l') (hi : ∀ a b, b ∈ l' → R a b → Q a b) : List.Forall₂ Q l l' := by
  induction h with
  | nil => exact .nil
  | cons hab _ ih => exact .cons (hi _ _ (by simp) hab) (ih fun a b hb => hi a b (by simp [hb]))

lemma Spec.Represents.alloc {V : Type} {S : Fespace2D (ℝ → ℝ → ℝ) V nt nq} {st : HeapState nt nq}
    (h : Represents S st) (x : Arr nt nq) : Represents S (st.alloc x).2 := by
  refine ⟨forall₂_mem_imp h.cells fun fc c hc hR => ?_, fun c hc r hr => ?_⟩
  · exact hR.update fun r hr => (h.live c hc r hr).ne
  · exact lt_trans (h.live c hc r hr) (Nat.lt_succ_self _)

lemma forall₂_getElem? {α β : Type*} {R : α → β → Prop} {l : List α} {l' : List β}
    (h : List.Forall₂ R l l') (n : ℕ) {b : β} (hb : l'[n]? = some b) : ∃ a, l[n]? = some a ∧ R a b := by
  induction h generalizing n with
  | nil => simp at hb
  | cons hab _ ih =>
    cases n with
    | zero => simp at hb; subst hb; exact ⟨_, by simp, hab⟩
    | succ n => simpa using ih n (by simpa using hb)

lemma cellAt_rep {V : Type} {S : Fespace2D (ℝ → ℝ → ℝ) V nt nq} {st : HeapState nt nq}
    (h : Represents S st) (i : ℤ) :
    (S.cellAt i = .error .valueError ∧ st.cellAt i = .error .valueError) ∨
    ∃ fc c, S.cellAt i = .ok fc ∧ st.cellAt i = .ok c ∧ st.feCell[i.toNat]? = some c ∧
      RepCell st.mem fc c := by
  have hl := h.cells.length_eq
  by_cases hi : i ≥ st.feCell.length ∨ i < 0
  · left
    exact ⟨cellAt_error S i (by rw [hl]; exact hi.symm), by unfold HeapState.cellAt; rw [if_pos hi]⟩
  · right
    push Not at hi
    have h1 : i.toNat < st.feCell.length := by omega
    have hc := List.getElem?_eq_getElem h1
    obtain ⟨fc, hfc, hR⟩ := forall₂_getElem? h.cells _ hc
    refine ⟨fc, _, (cellAt_ok _ _ _).2 ⟨hi.2, hfc⟩, ?_, hc, hR⟩
    unfold HeapState.cellAt
    rw [if_neg (by omega), (pyIndex_nonneg _ hi.2 _).2 hc]

/-- One accessor call in a state that represents `S`. -/
lemma access_spec {V : Type} {S : Fespace2D (ℝ → ℝ → ℝ) V nt nq} {st : HeapState nt nq}
    {f : ℝ → ℝ → ℝ} (hf : ∀ fc ∈ S.feCell, fc.forcingFunction = f) (h : Represents S st)
    (a : Accessor) (i : ℤ) :
    (∃ e, st.access f a i = .error e ∧ expected S a i = .error e) ∨
    ∃ r st', st.access f a i = .ok (r, st') ∧ expected S a i = .ok (st'.mem r) ∧
      Represents S st' ∧ st.next ≤ r ∧ r < st'.next ∧
      (∀ c ∈ st'.feCell, ∀ x ∈ c.addrs, x ≠ r ∧ (x < st.next → ∃ c ∈ st.feCell, x ∈ c.addrs)) := by
  rcases cellAt_rep h i with ⟨h1, h2⟩ | ⟨fc, c, h1, h2, hc, hR⟩
  · left
    refine ⟨.valueError, by unfold HeapState.access; rw [h2], ?_⟩
    cases a <;> simp [expected, Fespace2D.getShapeFunctionVal, Fespace2D.getShapeFunctionGradX,
      Fespace2D.getShapeFunctionGradY, Fespace2D.getShapeFunctionGradXRef,
      Fespace2D.getShapeFunctionGradYRef, Fespace2D.getQuadratureActualCoordinates,
      Fespace2D.getQuadratureWeights, Fespace2D.getForcingFunctionValues, h1, Except.map]
  · right
    -- an accessor that copies an attribute
    have simple : ∀ (r₀ : ℕ) (x : Arr nt nq), st.access f a i = .ok (st.copy r₀) →
        expected S a i = .ok x → st.mem r₀ = x →
        ∃ r st', st.access f a i = .ok (r, st') ∧ expected S a i = .ok (st'.mem r) ∧
          Represents S st' ∧ st.next ≤ r ∧ r < st'.next ∧
          (∀ c ∈ st'.feCell, ∀ x ∈ c.addrs, x ≠ r ∧
            (x < st.next → ∃ c ∈ st.feCell, x ∈ c.addrs)) := by
      intro r₀ x e1 e2 e3
      refine ⟨_, _, e1, ?_, h.alloc _, le_rfl, Nat.lt_succ_self _, fun c hc x hx => ⟨?_, fun _ => ⟨c, hc, hx⟩⟩⟩
      · rw [e2]
        simp [e3]
      · exact (h.live c hc x hx).ne
    have hfc : fc.forcingFunction = f := hf fc (by
      obtain ⟨-, h3⟩ := (cellAt_ok _ _ _).1 h1
      exact List.mem_of_getElem? h3)
    cases a
    · exact simple c.basisAtQuad (.mat fc.basisAtQuad) (by unfold HeapState.access; rw [h2])
        (by simp [expected, Fespace2D.getShapeFunctionVal, h1, Except.map]) hR.val
    · exact simple c.basisGradxAtQuad (.mat fc.basisGradxAtQuad) (by unfold HeapState.access; rw [h2])
        (by simp [expected, Fespace2D.getShapeFunctionGradX, h1, Except.map]) hR.gradx
    · exact simple c.basisGradxAtQuadRef (.mat fc.basisGradxAtQuadRef)
        (by unfold HeapState.access; rw [h2])
        (by simp [expected, Fespace2D.getShapeFunctionGradXRef, h1, Except.map]) hR.gradxRef
    · exact simple c.basisGradyAtQuad (.mat fc.basisGradyAtQuad) (by unfold HeapState.access; rw [h2])
        (by simp [expected, Fespace2D.getShapeFunctionGradY, h1, Except.map]) hR.grady
    · exact simple c.basisGradyAtQuadRef (.mat fc.basisGradyAtQuadRef)
        (by unfold HeapState.access; rw [h2])
        (by simp [expected, Fespace2D.getShapeFunctionGradYRef, h1, Except.map]) hR.gradyRef
    · exact simple c.quadActualCoordinates (.points fc.quadActualCoordinates)
        (by unfold HeapState.access; rw [h2])
        (by simp [expected, Fespace2D.getQuadratureActualCoordinates, h1, Except.map]) hR.coords
    · exact simple c.mult (.vec fc.mult) (by unfold HeapState.access; rw [h2])
        (by simp [expected, Fespace2D.getQuadratureWeights, h1, Except.map]) hR.mult
    · -- the forcing accessor
      have e1 : st.access f .forcing i = .ok (HeapState.copy
          { (st.alloc (.col fun t => (List.finRange nq).foldl (fun val q => val + fc.basisAtQuad t q *
              f (fc.quadActualCoordinates q).1 (fc.quadActualCoordinates q).2) 0)).2 with
            feCell := st.feCell.set i.toNat { c with forcingAtQuad := st.next } } st.next) := by
        unfold HeapState.access
        rw [h2]
        simp only [hR.val, hR.coords]
        rfl
      set x : Arr nt nq := .col fun t => (List.finRange nq).foldl (fun val q => val + fc.basisAtQuad t q *
              f (fc.quadActualCoordinates q).1 (fc.quadActualCoordinates q).2) 0 with hx
      set st₁ : HeapState nt nq := { (st.alloc x).2 with
            feCell := st.feCell.set i.toNat { c with forcingAtQuad := st.next } } with hst
      have e2 : expected S .forcing i = .ok x := by
        simp [expected, Fespace2D.getForcingFunctionValues, h1, Except.map, hx, hfc]
      have hcm : c ∈ st.feCell := List.mem_of_getElem? hc
      have hmem : ∀ c' ∈ st₁.feCell, c' ∈ st.feCell ∨ c' = { c with forcingAtQuad := st.next } :=
        fun c' hc' => List.mem_or_eq_of_mem_set hc'
      have haddr : ∀ c' ∈ st₁.feCell, ∀ y ∈ c'.addrs, y ≤ st.next ∧
          (y < st.next → ∃ c ∈ st.feCell, y ∈ c.addrs) := by
        intro c' hc' y hy
        rcases hmem c' hc' with h3 | rfl
        · exact ⟨(h.live c' h3 y hy).le, fun _ => ⟨c', h3, hy⟩⟩
        · have : y ∈ c.addrs ∨ y = st.next := by
            simp only [CellRefs.addrs, List.mem_cons, List.not_mem_nil, or_false] at hy ⊢
            tauto
          rcases this with h4 | rfl
          · exact ⟨(h.live c hcm y h4).le, fun _ => ⟨c, hcm, h4⟩⟩
          · exact ⟨le_rfl, fun h5 => absurd h5 (lt_irrefl _)⟩
      have rep₁ : Represents S st₁ := by
        have h0 := h.alloc x
        refine ⟨?_, fun c' hc' r hr => Nat.lt_succ_of_le (haddr c' hc' r hr).1⟩
        have : ∀ {l : List (FE2DCell (ℝ → ℝ → ℝ) nt nq)} {l' : List CellRefs} (n : ℕ)
            (R : FE2DCell (ℝ → ℝ → ℝ) nt nq → CellRefs → Prop), List.Forall₂ R l l' →
            (∀ a c, R a c → R a { c with forcingAtQuad := st.next }) → l'[n]? = some c →
            List.Forall₂ R l (l'.set n { c with forcingAtQuad := st.next }) := by
          intro l l' n R hl hR' hn
          induction hl generalizing n with
          | nil => simp at hn
          | cons hab _ ih =>
            cases n with
            | zero => simp at hn; subst hn; exact .cons (hR' _ _ hab) ‹_›
            | succ n => exact .cons hab (ih n (by simpa using hn))
        exact this _ _ h0.cells (fun a c ⟨r1, r2, r3, r4, r5, r6, r7⟩ => ⟨r1, r2, r3, r4, r5, r6, r7⟩) hc
      refine ⟨st₁.next, (st₁.alloc (st₁.mem st.next)).2, e1, ?_, rep₁.alloc _, Nat.le_succ _,
        Nat.lt_succ_self _, ?_⟩
      · rw [e2]
        simp [HeapState.alloc, hst]
      · intro c' hc' y hy
        obtain ⟨g1, g2⟩ := haddr c' hc' y hy
        exact ⟨(Nat.lt_succ_of_le g1).ne, g2⟩

lemma inv_act {V : Type} {S : Fespace2D (ℝ → ℝ → ℝ) V nt nq} {w : World nt nq} {f : ℝ → ℝ → ℝ}
    (hf : ∀ fc ∈ S.feCell, fc.forcingFunction = f) (h : Inv S w) (x : CallerAction nt nq) :
    Inv S (w.act f x) := by
  cases x with
  | call a i =>
    rcases access_spec hf h.rep a i with ⟨e, h1, -⟩ | ⟨r, st', h1, -, h2, h3, h4, h5⟩
    · simpa [World.act, h1] using h
    · simp only [World.act, h1]
      refine ⟨h2, fun y hy => ?_, fun c hc y hy hy' => ?_⟩
      · rcases List.mem_cons.1 hy with rfl | hy
        · exact h4
        · exact lt_trans (h.owned y hy) (lt_of_le_of_lt h3 h4)
      · obtain ⟨h6, h7⟩ := h5 c hc y hy
        rcases List.mem_cons.1 hy' with rfl | hy'
        · exact h6 rfl
        · obtain ⟨c', hc', hyc⟩ := h7 (h.owned y hy')
          exact h.disj c' hc' y hyc hy'
  | write addr v =>
    by_cases ho : addr ∈ w.owned
    · simp only [World.act, if_pos ho]
      refine ⟨⟨forall₂_mem_imp h.rep.cells fun fc c hc hR => ?_, h.rep.live⟩, h.owned, h.disj⟩
      exact hR.update fun r hr e => h.disj c hc r hr (e ▸ ho)
    · simpa [World.act, if_neg ho] using h

lemma inv_run {V : Type} {S : Fespace2D (ℝ → ℝ → ℝ) V nt nq} {w : World nt nq} {f : ℝ → ℝ → ℝ}
    (hf : ∀ fc ∈ S.feCell, fc.forcingFunction = f) (h : Inv S w) (hist : List (CallerAction nt nq)) :
    Inv S (w.run f hist) := by
  induction hist generalizing w with
  | nil => exact h
  | cons x l ih => exact ih (inv_act hf h x)

/-- **C35.**  Build a space and let the caller make any sequence of accessor calls and overwrite any of
the arrays it was handed.  Every later accessor call still raises the exception, or hands out an array
with the contents, that the accessor gives on the freshly built space.  That array is not one the
caller holds already. -/
theorem C35_copies {V : Type} (ext : QuadRoutines) (mp : List (ℝ × ℝ)) (cells : List Quad) (bd : BdDict)
    (s : FESettings) (dict : List (ℤ × (ℝ → ℝ → V))) (f : ℝ → ℝ → ℝ) (plot : Bool)
    (S : Fespace2D (ℝ → ℝ → ℝ) V (s.feOrder.toNat ^ 2) nq)
    (h : fespace2D ext mp cells bd s dict f plot = .ok ⟨nq, S⟩)
    (st : HeapState (s.feOrder.toNat ^ 2) nq) (hst : Represents S st)
    (hist : List (CallerAction (s.feOrder.toNat ^ 2) nq)) (a : Accessor) (i : ℤ) :
    match (World.run f ⟨st, []⟩ hist).st.access f a i with
    | .error e => expected S a i = .error e
    | .ok (r, st') => expected S a i = .ok (st'.mem r) ∧ r ∉ (World.run f ⟨st, []⟩ hist).owned := by
  have hf : ∀ fc ∈ S.feCell, fc.forcingFunction = f := by
    intro fc hfc
    obtain ⟨k, hk⟩ := List.mem_iff_getElem?.1 hfc
    obtain ⟨hl, B, wt, xi, eta, -, -, hcell⟩ := fespace_cell h
    obtain ⟨hk', -⟩ := List.getElem?_eq_some_iff.1 hk
    obtain ⟨T, fc', -, hfc', -, facts⟩ := hcell k _ (List.getElem?_eq_getElem (hl ▸ hk'))
    rw [hk] at hfc'
    cases hfc'
    exact facts.forcing
  have hinv := inv_run (w := ⟨st, []⟩) hf
    (⟨hst, fun r hr => by simp at hr, fun c _ r _ hr => by simp at hr⟩ : Inv S ⟨st, []⟩) hist
  rcases access_spec hf hinv.rep a i with ⟨e, h1, h2⟩ | ⟨r, st', h1, h2, -, h3, -, -⟩
  · rw [h1]; exact h2
  · rw [h1]
    exact ⟨h2, fun hr => absurd (hinv.owned r hr) (by omega)⟩

/-! ### Every space can be laid out in memory -/

/-- The references of cell `k` when eight arrays per cell are allocated one after the other. -/
def layoutRefs (k : ℕ) : CellRefs :=
  ⟨8 * k, 8 * k + 1, 8 * k + 2, 8 * k + 3, 8 * k + 4, 8 * k + 5, 8 * k + 6, 8 * k + 7⟩

/-- The contents of address `r` in that layout. -/
def layoutMem (l : List (FE2DCell (ℝ → ℝ → ℝ) nt nq)) (r : ℕ) : Arr nt nq :=
  match l[r / 8]? with
  | none => .vec fun _ => 0
  | some fc =>
    match r % 8 with
    | 0 => .mat fc.basisAtQuad
    | 1 => .mat fc.basisGradxAtQuad
    | 2 => .mat fc.basisGradyAtQuad
    | 3 => .mat fc.basisGradxAtQuadRef
    | 4 => .mat fc.basisGradyAtQuadRef
    | 5 => .points fc.quadActualCoordinates
    | 6 => .vec fc.mult
    | _ => .col fc.forcingAtQuad

lemma represents_exists {V : Type} (S : Fespace2D (ℝ → ℝ → ℝ) V nt nq) : ∃ st, Represents S st := by
  refine ⟨⟨layoutMem S.feCell, 8 * S.feCell.length, (List.range S.feCell.length).map layoutRefs⟩, ?_, ?_⟩
  · rw [List.forall₂_iff_get]
    refine ⟨by simp, fun k hk hk' => ?_⟩
    have hk2 : S.feCell[k]? = some S.feCell[k] := List.getElem?_eq_getElem hk
    have d : ∀ j < 8, (8 * k + j) / 8 = k ∧ (8 * k + j) % 8 = j := by intro j hj; omega
    have d0 : 8 * k / 8 = k ∧ 8 * k % 8 = 0 := by omega
    simp only [List.get_eq_getElem, List.getElem_map, List.getElem_range]
    constructor <;> simp [layoutRefs, layoutMem, d, d0, hk2]
  · intro c hc r hr
    simp only [List.mem_map, List.mem_range] at hc
    obtain ⟨k, hk, rfl⟩ := hc
    simp only [layoutRefs, CellRefs.addrs, List.mem_cons, List.not_mem_nil, or_false] at hr
    simp only
    omega

/-- C35 on the demo space: the caller fetches the weights of the kite, the forcing vector and the weights
again, and overwrites everything with zeros. -/
example (ext : QuadRoutines) : ∃ nq S, fespace2D ext [(0, 0), (1, 1)] demoCells demoBoundary
      (demoSettings "bilinear") demoDict (fun x y => x + y) false = .ok ⟨nq, S⟩ ∧ ∃ st, Represents S st ∧
    ∀ r st', (World.run (fun x y => x + y) ⟨st, []⟩ ([.call .weights 1, .call .forcing 1, .call .weights 1]
        ++ (List.range (st.next + 9)).map fun a => .write a (.vec fun _ => 0))).st.access
          (fun x y => x + y) .weights 1 = .ok (r, st') →
      (S.getQuadratureWeights 1).map Arr.vec = .ok (st'.mem r) := by
  obtain ⟨nq, S, h⟩ := demo_fespace ext (fun x y : ℝ => x + y) "bilinear" (Or.inl rfl)
  obtain ⟨st, hst⟩ := represents_exists S
  refine ⟨nq, S, h, st, hst, fun r st' hr => ?_⟩
  have := C35_copies ext _ _ _ _ _ _ _ S h st hst ([.call .weights 1, .call .forcing 1, .call .weights 1]
        ++ (List.range (st.next + 9)).map fun a => .write a (.vec fun _ => 0)) .weights 1
  rw [hr] at this
  exact this.1

end FastVPINNs
