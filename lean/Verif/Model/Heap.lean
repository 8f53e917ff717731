import Verif.Model.Fespace

/-! # The accessors of `Fespace2D` with numpy arrays as mutable objects

In `Verif.Model.Fespace` arrays are values.  Here they are objects in memory that the caller of an
accessor may overwrite, so that the difference between returning an attribute and returning a copy of
it (`.copy()` at the end of every accessor) is visible. -/

namespace FastVPINNs

/-- The contents of a numpy array of one of the shapes that occur. -/
inductive Arr (nt nq : ℕ)
  | mat (a : Fin nt → Fin nq → ℝ)
  | points (a : Fin nq → ℝ × ℝ)
  | vec (a : Fin nq → ℝ)
  | col (a : Fin nt → ℝ)

/-- The attributes of an `FE2D_Cell` object that the accessors use, as references
(`FE2D_Cell.py:39-82`). -/
structure CellRefs where
  basisAtQuad : ℕ
  basisGradxAtQuad : ℕ
  basisGradyAtQuad : ℕ
  basisGradxAtQuadRef : ℕ
  basisGradyAtQuadRef : ℕ
  quadActualCoordinates : ℕ
  mult : ℕ
  forcingAtQuad : ℕ

/-- Memory: the arrays at the addresses below `next` exist; `feCell` is `self.fe_cell`. -/
structure HeapState (nt nq : ℕ) where
  mem : ℕ → Arr nt nq
  next : ℕ
  feCell : List CellRefs

variable {nt nq : ℕ}

/-- A new array with the given contents; returns its address. -/
def HeapState.alloc (st : HeapState nt nq) (a : Arr nt nq) : ℕ × HeapState nt nq :=
  (st.next, { st with mem := Function.update st.mem st.next a, next := st.next + 1 })

/-- `array.copy()`. -/
def HeapState.copy (st : HeapState nt nq) (r : ℕ) : ℕ × HeapState nt nq := st.alloc (st.mem r)

/-- The guard and `self.fe_cell[cell_index]`, as `Fespace2D.cellAt`. -/
def HeapState.cellAt (st : HeapState nt nq) (i : ℤ) : Except PyErr CellRefs :=
  if i ≥ st.feCell.length ∨ i < 0 then .error .valueError else pyIndex st.feCell i

/-- The accessors (`fespace2d.py:400-609`). -/
inductive Accessor
  | shapeVal | gradX | gradXRef | gradY | gradYRef | coordinates | weights | forcing

/-- One accessor call (`fespace2d.py:400-609`).  Returns the address of the array handed to the caller.
`f` is the forcing function of the space.  The last case (an attribute of the wrong shape) does not
occur in a state that represents a space. -/
noncomputable def HeapState.access (f : ℝ → ℝ → ℝ) (st : HeapState nt nq) (a : Accessor) (i : ℤ) :
    Except PyErr (ℕ × HeapState nt nq) :=
  match st.cellAt i with
  | .error e => .error e
  | .ok c =>
    match a with
    | .shapeVal => .ok (st.copy c.basisAtQuad)  -- line 417
    | .gradX => .ok (st.copy c.basisGradxAtQuad)  -- line 438
    | .gradXRef => .ok (st.copy c.basisGradxAtQuadRef)  -- line 457
    | .gradY => .ok (st.copy c.basisGradyAtQuad)  -- line 476
    | .gradYRef => .ok (st.copy c.basisGradyAtQuadRef)  -- line 502
    | .coordinates => .ok (st.copy c.quadActualCoordinates)  -- line 528
    | .weights => .ok (st.copy c.mult)  -- line 551
    | .forcing =>
      match st.mem c.basisAtQuad, st.mem c.quadActualCoordinates with
      | .mat b, .points x =>
        -- lines 590-605: the new array `f_integral`
        let r := st.alloc (.col fun t => (List.finRange nq).foldl (fun val q =>
          val + b t q * f (x q).1 (x q).2) 0)
        -- line 607
        let st' := { r.2 with feCell := r.2.feCell.set i.toNat { c with forcingAtQuad := r.1 } }
        -- line 609
        .ok (st'.copy r.1)
      | _, _ => .error .typeError

/-- What the caller of the space may do: call an accessor, or overwrite an array. -/
inductive CallerAction (nt nq : ℕ)
  | call (a : Accessor) (i : ℤ)
  | write (addr : ℕ) (contents : Arr nt nq)

/-- The program state: memory and the addresses the caller has been handed. -/
structure World (nt nq : ℕ) where
  st : HeapState nt nq
  owned : List ℕ

open Classical in
/-- One action of the caller.  It keeps the arrays it is handed and can only write to those.  A call that
raises an exception changes nothing. -/
noncomputable def World.act (f : ℝ → ℝ → ℝ) (w : World nt nq) : CallerAction nt nq → World nt nq
  | .call a i =>
    match w.st.access f a i with
    | .error _ => w
    | .ok (r, st') => ⟨st', r :: w.owned⟩
  | .write addr contents =>
    if addr ∈ w.owned then ⟨{ w.st with mem := Function.update w.st.mem addr contents }, w.owned⟩
    else w

/-- A history of actions. -/
noncomputable def World.run (f : ℝ → ℝ → ℝ) (w : World nt nq) (h : List (CallerAction nt nq)) :
    World nt nq := h.foldl (World.act f) w

end FastVPINNs
