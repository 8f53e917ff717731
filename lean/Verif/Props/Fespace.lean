import Verif.Lemmas.Fespace
import Verif.Spec.Fespace
import Verif.Props.Quadrature
import Verif.Props.Transform

/-! # C34, C36–C39: the finite element space -/

namespace FastVPINNs

open Spec

section
variable {F V : Type} (ext : QuadRoutines) (mp : List (ℝ × ℝ)) (cells : List Quad) (bd : BdDict)
  (s : FESettings) (dict : List (ℤ × (ℝ → ℝ → V))) (f : F) (plot : Bool) {nq : ℕ}
  (S : Fespace2D F V (s.feOrder.toNat ^ 2) nq)

/-! ## C34 -/

/-- **C34.**  Every per-cell accessor raises `ValueError` exactly for indices below 0 or not below the
number of cells; for the others it returns the array computed by `FE2D_Cell` for that cell alone. -/
theorem C34_accessors (h : fespace2D ext mp cells bd s dict f plot = .ok ⟨nq, S⟩) :
    (∀ i : ℤ, i < 0 ∨ (cells.length : ℤ) ≤ i →
      S.getShapeFunctionVal i = .error .valueError ∧
      S.getShapeFunctionGradX i = .error .valueError ∧
      S.getShapeFunctionGradY i = .error .valueError ∧
      S.getShapeFunctionGradXRef i = .error .valueError ∧
      S.getShapeFunctionGradYRef i = .error .valueError ∧
      S.getQuadratureActualCoordinates i = .error .valueError ∧
      S.getQuadratureWeights i = .error .valueError) ∧
    ∀ (k : ℕ) (c : Quad), cells[k]? = some c → ∃ fc, fe2dCell ext s f c = .ok ⟨nq, fc⟩ ∧
      S.getShapeFunctionVal k = .ok fc.basisAtQuad ∧
      S.getShapeFunctionGradX k = .ok fc.basisGradxAtQuad ∧
      S.getShapeFunctionGradY k = .ok fc.basisGradyAtQuad ∧
      S.getShapeFunctionGradXRef k = .ok fc.basisGradxAtQuadRef ∧
      S.getShapeFunctionGradYRef k = .ok fc.basisGradyAtQuadRef ∧
      S.getQuadratureActualCoordinates k = .ok fc.quadActualCoordinates ∧
      S.getQuadratureWeights k = .ok fc.mult := by
  obtain ⟨hlen, B, wt, xi, eta, hB, hR, hcell⟩ := fespace_cell h
  have hq := (fespace_ok h).1
  constructor
  · intro i hi
    have := cellAt_error S i (by rw [hlen]; exact hi)
    simp [Fespace2D.getShapeFunctionVal, Fespace2D.getShapeFunctionGradX,
      Fespace2D.getShapeFunctionGradY, Fespace2D.getShapeFunctionGradXRef,
      Fespace2D.getShapeFunctionGradYRef, Fespace2D.getQuadratureActualCoordinates,
      Fespace2D.getQuadratureWeights, this]
  · intro k c hk
    obtain ⟨T, fc, hT, hfc, hok, -⟩ := hcell k c hk
    have := (cellAt_nat S k fc).2 hfc
    refine ⟨fc, ?_, by simp [Fespace2D.getShapeFunctionVal, Fespace2D.getShapeFunctionGradX,
      Fespace2D.getShapeFunctionGradY, Fespace2D.getShapeFunctionGradXRef,
      Fespace2D.getShapeFunctionGradYRef, Fespace2D.getQuadratureActualCoordinates,
      Fespace2D.getQuadratureWeights, this]⟩
    unfold fe2dCell
    rw [hq, hB]
    simp only [hR, hok]

/-! ## C36 -/

/-- **C36.**  The space reports `n_cells * quad_order²` quadrature points (with and without plot), every
cell has `quad_order²` of them, and a space without cells cannot be built. -/
theorem C36_total_dofs :
    (∀ (nq : ℕ) (S : Fespace2D F V (s.feOrder.toNat ^ 2) nq),
      fespace2D ext mp cells bd s dict f plot = .ok ⟨nq, S⟩ →
      (nq : ℤ) = s.quadOrder ^ 2 ∧ S.nCells = cells.length ∧
      (S.totalDofs : ℤ) = cells.length * s.quadOrder ^ 2) ∧
    (cells = [] → ∃ e, fespace2D ext mp cells bd s dict f plot = .error e ∧
      (s.cellType ≠ "triangle" → e = .indexError)) := by
  constructor
  · intro nq S h
    obtain ⟨-, -, -, -, hn, -, -, -, -, hd, -, -, B, wt, xi, eta, hB, hR, -⟩ := fespace_ok h
    have hnum := (C22_tensor_order ext _ _ _ hR).1
    simp only [getNumQuadPoints] at hnum
    refine ⟨by rw [hnum]; ring, hn, ?_⟩
    rw [hd]
    push_cast
    rw [hnum]
    ring
  · rintro rfl
    by_cases htri : s.cellType = "triangle"
    · exact ⟨.valueError, by unfold fespace2D; rw [if_pos htri], fun h => absurd htri h⟩
    · exact ⟨.indexError, by unfold fespace2D; rw [if_neg htri]; rfl, fun _ => rfl⟩

/-! ## C37 -/

lemma dirichletTag_spec (tag : ℤ) (pts : List (ℝ × ℝ)) (x : List (ℝ × ℝ)) (y : List V) :
    (pts = [] ∨ (∃ g, dict.lookup tag = some g) →
      ∃ y', dirichletTag dict tag pts x y = .ok (x ++ pts, y ++ y') ∧
        List.Forall₂ (fun p v => ∃ g, dict.lookup tag = some g ∧ v = g p.1 p.2) pts y') ∧
    (pts ≠ [] → dict.lookup tag = none → dirichletTag dict tag pts x y = .error .keyError) := by
  constructor
  · rintro (rfl | ⟨g, hg⟩)
    · exact ⟨[], by simp [dirichletTag], .nil⟩
    · induction pts generalizing x y with
      | nil => exact ⟨[], by simp [dirichletTag], .nil⟩
      | cons p pts ih =>
        obtain ⟨y', h1, h2⟩ := ih (x ++ [p]) (y ++ [g p.1 p.2])
        refine ⟨g p.1 p.2 :: y', ?_, .cons ⟨g, hg, rfl⟩ h2⟩
        simp only [dirichletTag, dictGet, hg, h1]
        simp
  · intro h0 hn
    obtain ⟨p, pts, rfl⟩ := List.exists_cons_of_ne_nil h0
    simp [dirichletTag, dictGet, hn]

lemma dirichletLoop_spec (x : List (ℝ × ℝ)) (y : List V) :
    ((∀ e ∈ bd, e.2 ≠ [] → ∃ g, dict.lookup e.1 = some g) →
      ∃ y', dirichletLoop dict bd x y = .ok (x ++ (taggedPoints bd).map Prod.snd, y ++ y') ∧
        List.Forall₂ (fun (r : ℤ × (ℝ × ℝ)) v => ∃ g, dict.lookup r.1 = some g ∧ v = g r.2.1 r.2.2)
          (taggedPoints bd) y') ∧
    (¬ (∀ e ∈ bd, e.2 ≠ [] → ∃ g, dict.lookup e.1 = some g) →
      dirichletLoop dict bd x y = .error .keyError) := by
  induction bd generalizing x y with
  | nil =>
    refine ⟨fun _ => ⟨[], by simp [dirichletLoop, taggedPoints], .nil⟩, fun h => ?_⟩
    simp at h
  | cons e bd ih =>
    obtain ⟨tag, pts⟩ := e
    obtain ⟨t1, t2⟩ := dirichletTag_spec dict tag pts x y
    constructor
    · intro h
      have h0 : pts = [] ∨ ∃ g, dict.lookup tag = some g := by
        by_cases hp : pts = []
        · exact Or.inl hp
        · exact Or.inr (h (tag, pts) (by simp) hp)
      obtain ⟨y1, e1, f1⟩ := t1 h0
      obtain ⟨y2, e2, f2⟩ := (ih (x ++ pts) (y ++ y1)).1 fun e he => h e (by simp [he])
      refine ⟨y1 ++ y2, ?_, ?_⟩
      · simp only [dirichletLoop, e1, e2]
        simp [taggedPoints, Function.comp_def]
      · have : taggedPoints ((tag, pts) :: bd) = pts.map (fun p => (tag, p)) ++ taggedPoints bd := by
          simp [taggedPoints]
        rw [this]
        refine List.rel_append ?_ f2
        rw [List.forall₂_map_left_iff]
        exact f1
    · intro h
      by_cases hp : pts ≠ [] ∧ dict.lookup tag = none
      · simp only [dirichletLoop, t2 hp.1 hp.2]
      · have h0 : pts = [] ∨ ∃ g, dict.lookup tag = some g := by
          by_cases hpts : pts = []
          · exact Or.inl hpts
          · right
            cases hl : dict.lookup tag with
            | none => exact absurd ⟨hpts, hl⟩ hp
            | some g => exact ⟨g, rfl⟩
        obtain ⟨y1, e1, -⟩ := t1 h0
        simp only [dirichletLoop, e1]
        apply (ih _ _).2
        intro hall
        apply h
        intro e he hne
        rcases List.mem_cons.1 he with rfl | he
        · rcases h0 with h0 | h0
          · exact absurd h0 hne
          · exact h0
        · exact hall e he hne

/-- **C37.**  The Dirichlet data has one row per boundary point, in dictionary order, with the point
and the value at that point of the function registered for its tag; it exists exactly if every tag
that has points has a function, otherwise `KeyError` is raised.  The constructor stores it and its
number of rows. -/
theorem C37_dirichlet_data :
    ((∀ e ∈ bd, e.2 ≠ [] → ∃ g, dict.lookup e.1 = some g) →
      ∃ x y, generateDirichletBoundaryData dict bd = .ok (x, y) ∧
        x = (taggedPoints bd).map Prod.snd ∧
        List.Forall₂ (fun (r : ℤ × (ℝ × ℝ)) v => ∃ g, dict.lookup r.1 = some g ∧ v = g r.2.1 r.2.2)
          (taggedPoints bd) y) ∧
    (¬ (∀ e ∈ bd, e.2 ≠ [] → ∃ g, dict.lookup e.1 = some g) →
      generateDirichletBoundaryData dict bd = .error .keyError) ∧
    (∀ (nq : ℕ) (S : Fespace2D F V (s.feOrder.toNat ^ 2) nq),
      fespace2D ext mp cells bd s dict f plot = .ok ⟨nq, S⟩ →
      generateDirichletBoundaryData dict bd = .ok S.dirichletBoundaryData ∧
      S.totalDirichletDofs = (taggedPoints bd).length) := by
  obtain ⟨h1, h2⟩ := dirichletLoop_spec bd dict [] []
  refine ⟨fun h => ?_, h2, fun nq S h => ?_⟩
  · obtain ⟨y, e, hf⟩ := h1 h
    exact ⟨_, y, by simpa [generateDirichletBoundaryData] using e, rfl, hf⟩
  · obtain ⟨-, -, -, -, -, -, -, hd, ht, -⟩ := fespace_ok h
    refine ⟨hd, ?_⟩
    rw [ht]
    by_cases hall : ∀ e ∈ bd, e.2 ≠ [] → ∃ g, dict.lookup e.1 = some g
    · obtain ⟨y, e, -⟩ := h1 hall
      rw [generateDirichletBoundaryData] at hd
      rw [e] at hd
      simp only [List.nil_append, Except.ok.injEq] at hd
      rw [← hd]
      simp
    · rw [generateDirichletBoundaryData, h2 hall] at hd
      cases hd

lemma dirichletTagVector_eq (vdict : List (ℤ × (ℝ → ℝ → List ℝ))) (comp : ℤ)
    (g : List ℝ → ℝ) (hg : ∀ t h, vdict.lookup t = some h → ∀ x y, pyIndex (h x y) comp = .ok (g (h x y)))
    (tag : ℤ) (pts x : List (ℝ × ℝ)) (y : List ℝ) :
    dirichletTagVector vdict comp tag pts x y
      = dirichletTag (vdict.map fun e => (e.1, fun a b => g (e.2 a b))) tag pts x y := by
  induction pts generalizing x y with
  | nil => rfl
  | cons p pts ih =>
    have hl : (vdict.map fun e => (e.1, fun a b => g (e.2 a b))).lookup tag
        = (vdict.lookup tag).map fun h => fun a b => g (h a b) := by
      clear * -
      induction vdict with
      | nil => rfl
      | cons e d ih =>
        obtain ⟨t, h⟩ := e
        simp only [List.map_cons, List.lookup]
        cases tag == t <;> simp [ih]
    simp only [dirichletTagVector, dirichletTag, dictGet, hl]
    cases hv : vdict.lookup tag with
    | none => rfl
    | some h =>
      simp only [Option.map_some, hg tag h hv, ih]

/-- **C37** (vector variant).  If all boundary functions have the requested component, the vector variant
returns what the scalar one returns for the dictionary of that component of the functions. -/
theorem C37_dirichlet_vector (vdict : List (ℤ × (ℝ → ℝ → List ℝ))) (comp : ℕ)
    (hcomp : ∀ t h, vdict.lookup t = some h → ∀ x y, comp < (h x y).length) :
    generateDirichletBoundaryDataVector vdict bd comp
      = generateDirichletBoundaryData
          (vdict.map fun e => (e.1, fun a b => (e.2 a b).getD comp 0)) bd := by
  have hg : ∀ t h, vdict.lookup t = some h → ∀ x y,
      pyIndex (h x y) (comp : ℤ) = .ok ((h x y).getD comp 0) := by
    intro t h ht x y
    rw [pyIndex_nonneg _ (by omega)]
    simp [List.getD, List.getElem?_eq_getElem (hcomp t h ht x y)]
  unfold generateDirichletBoundaryDataVector generateDirichletBoundaryData
  generalize ([] : List (ℝ × ℝ)) = x
  generalize ([] : List ℝ) = y
  induction bd generalizing x y with
  | nil => rfl
  | cons e bd ih =>
    simp only [dirichletLoopVector, dirichletLoop,
      dirichletTagVector_eq vdict comp (fun l => l.getD comp 0) hg]
    cases dirichletTag _ _ _ _ _ with
    | error e => rfl
    | ok r => exact ih _ _

/-! ## C38 -/

lemma plotBoundaryLoop_spec (i n : ℕ) :
    ((∀ e ∈ bd, e.2 ≠ []) ∧ (bd = [] ∨ i + bd.length ≤ 15) →
      plotBoundaryLoop bd i n = .ok (n + ((bd.map fun e => e.2.length).sum + bd.length))) ∧
    (¬ ((∀ e ∈ bd, e.2 ≠ []) ∧ (bd = [] ∨ i + bd.length ≤ 15)) →
      plotBoundaryLoop bd i n = .error .indexError) := by
  induction bd generalizing i n with
  | nil => simp [plotBoundaryLoop]
  | cons e bd ih =>
    obtain ⟨tag, pts⟩ := e
    cases pts with
    | nil => simp [plotBoundaryLoop]
    | cons p ps =>
      obtain ⟨i1, i2⟩ := ih (i + 1) (n + (p :: ps ++ [p]).length)
      have hidx : ∀ (hi : i + 1 < 16), ∃ m, pyIndex markerList ((i + 1 : ℕ) : ℤ) = .ok m := by
        intro hi
        refine ⟨markerList[i + 1]'(by simpa [markerList] using hi), ?_⟩
        rw [pyIndex_nonneg _ (by omega)]
        simp
      have hbad : ¬ i + 1 < 16 → pyIndex markerList ((i + 1 : ℕ) : ℤ) = .error .indexError := by
        intro hi
        unfold pyIndex
        rw [if_pos (by omega), List.getElem?_eq_none (by simp [markerList]; omega)]
      constructor
      · rintro ⟨h1, h2⟩
        simp only [reduceCtorEq, List.length_cons, false_or] at h2
        obtain ⟨m, hm⟩ := hidx (by omega)
        simp only [plotBoundaryLoop, hm]
        rw [i1 ⟨fun e he => h1 e (by simp [he]), Or.inr (by omega)⟩]
        simp only [List.length_append, List.length_cons, List.length_nil, List.map_cons,
          List.sum_cons]
        congr 1
        ring
      · intro h
        by_cases hi : i + 1 < 16
        · obtain ⟨m, hm⟩ := hidx hi
          simp only [plotBoundaryLoop, hm]
          apply i2
          rintro ⟨h1, h2⟩
          apply h
          refine ⟨fun e he => ?_, Or.inr ?_⟩
          · rcases List.mem_cons.1 he with rfl | he
            · simp
            · exact h1 e he
          · rcases h2 with rfl | h2
            · simp; omega
            · simp only [List.length_cons]; omega
        · simp only [plotBoundaryLoop, hbad hi]

/-- **C38.**  Take arguments with which a space can be built without plot (it then reports 0 boundary
points).  With `generate_mesh_plot`: if there are 16 or more tags, or a tag without points, the
constructor raises `IndexError`; otherwise it succeeds and reports the number of boundary points plus
the number of tags. -/
theorem C38_plot (h : fespace2D ext mp cells bd s dict f false = .ok ⟨nq, S⟩) :
    S.totalBoundaryDofs = 0 ∧
    (16 ≤ bd.length ∨ (∃ e ∈ bd, e.2 = []) →
      fespace2D ext mp cells bd s dict f true = .error .indexError) ∧
    (¬ (16 ≤ bd.length ∨ ∃ e ∈ bd, e.2 = []) →
      ∃ S', fespace2D ext mp cells bd s dict f true = .ok ⟨nq, S'⟩ ∧ S'.feCell = S.feCell ∧
        S'.totalDofs = S.totalDofs ∧
        S'.totalBoundaryDofs = (taggedPoints bd).length + bd.length) := by
  obtain ⟨p1, p2⟩ := plotBoundaryLoop_spec bd 0 0
  have hb := (fespace_ok h).2.2.2.2.2.2.2.2.2.2.2.1 rfl
  have hsum : (taggedPoints bd).length = (bd.map fun e => e.2.length).sum := by
    simp [taggedPoints, List.length_flatMap]
  have key : ∀ r, plotBoundaryLoop bd 0 0 = r →
      fespace2D ext mp cells bd s dict f true = match r with
        | .error e => .error e
        | .ok n => .ok ⟨nq, { S with totalBoundaryDofs := n }⟩ := by
    intro r hr
    unfold fespace2D at h ⊢
    by_cases htri : s.cellType = "triangle"
    · rw [if_pos htri] at h; cases h
    rw [if_neg htri] at h ⊢
    cases hcs : setFiniteElements ext s f cells with
    | error e => rw [hcs] at h; cases h
    | ok r' =>
      obtain ⟨⟨nq', fcs⟩, dofs⟩ := r'
      have hdofs : dofs = fcs.foldl (fun d _ => d + nq') 0 := by
        unfold setFiniteElements at hcs
        cases cells with
        | nil => cases hcs
        | cons c cs =>
          simp only at hcs
          cases hB : assignBasisFunction s.cellType s.feOrder s.feType with
          | error e => rw [hB] at hcs; cases hcs
          | ok b =>
            rw [hB] at hcs
            simp only at hcs
            cases hR : assignQuadratureRules ext s.cellType s.quadOrder s.quadType with
            | error e => rw [hR] at hcs; cases hcs
            | ok rule =>
              rw [hR] at hcs
              simp only at hcs
              cases hM : mapE (fe2dCellWith s b rule f) (c :: cs) with
              | error e => rw [hM] at hcs; cases hcs
              | ok l => rw [hM] at hcs; cases hcs; rfl
      rw [hcs] at h
      simp only [Bool.false_eq_true, if_false, if_true, generatePlot, hr] at h ⊢
      cases hD : generateDirichletBoundaryData dict bd with
      | error e => rw [hD] at h; cases h
      | ok data =>
        rw [hD] at h
        cases h
        cases r with
        | error e => rfl
        | ok n => simp only [hdofs]
  refine ⟨hb, fun hbad => ?_, fun hgood => ?_⟩
  · have := p2 (by
      rintro ⟨h1, h2⟩
      rcases hbad with hbad | ⟨e, he, hbad⟩
      · rcases h2 with rfl | h2
        · simp at hbad
        · omega
      · exact h1 e he hbad)
    exact key _ this
  · push Not at hgood
    have := p1 ⟨hgood.2, Or.inr (by omega)⟩
    exact ⟨_, key _ this, rfl, rfl, by simp [hsum]⟩

end

end FastVPINNs
