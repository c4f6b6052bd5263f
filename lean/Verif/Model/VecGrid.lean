import Verif.Model.Grid

set_option linter.unusedSectionVars false

/-!
# Model of `src/grid/vector_grid.rs`
-/

namespace Up4

variable {K : Type} [Field K] [LinearOrder K] [IsStrictOrderedRing K] [FloorRing K] [Arith K]

/-- `VectorGrid` (src/grid/vector_grid.rs:9-13): three scalar grids and the geometry of the cylinder the
grid was made from. Simplification: for a Cartesian grid the code stores `CylindricalGrid3D::default()`, which it never
reads; the model stores `none`. -/
structure VecGrid (K : Type) where
  comp : Fin 3 → Grid K
  cyl : Option (CylGeom K)

namespace VecGrid

/-- `VectorGrid::new` (src/grid/vector_grid.rs:16-29), for a scalar grid. -/
def new (g : Grid K) : VecGrid K where
  comp := fun _ => g
  cyl := match g.geom with
    | .cyl c => some c
    | .cart _ => none

/-- `velocity_calculation` (src/grid/vector_grid.rs:31-46); the products use the uncentred position. -/
def velocityCalculation (g : VecGrid K) (pos : Pos K) (vel : Fin 3 → F K) : Fin 3 → F K :=
  match g.cyl with
  | none => vel
  | some c =>
    let r := c.toCylindrical pos 0
    ![(pos 0 * vel 0 + pos 1 * vel 1) / r,
      (pos 0 * vel 1 - pos 1 * vel 0) / (pos 0 * pos 0 + pos 1 * pos 1),
      vel 2]

/-- Apply the same (possibly panicking) operation to the components in order
(src/grid/vector_grid.rs:109-139, 163-173, 236-246). -/
def each (f : Grid K → Run (Grid K)) (g : VecGrid K) : Run (VecGrid K) := do
  let a ← f (g.comp 0)
  let b ← f (g.comp 1)
  let c ← f (g.comp 2)
  pure { g with comp := ![a, b, c] }

/-- `add_value` (src/grid/vector_grid.rs:109-113). -/
def addValue (p : Profile) (g : VecGrid K) (pos : Pos K) (v : F K) : Run (VecGrid K) :=
  each (fun x => x.addValue p pos v) g
/-- `divide_by_array` (src/grid/vector_grid.rs:116-120). -/
def divideByArray (g : VecGrid K) (o : Arr 3 (F K)) : Run (VecGrid K) := each (fun x => x.divideByArray o) g
/-- `divide_by_scalar` (src/grid/vector_grid.rs:121-125). -/
def divideByScalar (g : VecGrid K) (v : F K) : Run (VecGrid K) := each (fun x => .ok (x.divideByScalar v)) g
/-- `divide_by_weight` (src/grid/vector_grid.rs:128-132). -/
def divideByWeight (g : VecGrid K) : Run (VecGrid K) := each Grid.divideByWeight g
/-- `insert` (src/grid/vector_grid.rs:135-139). -/
def insert (p : Profile) (g : VecGrid K) (pos : Pos K) (v : F K) : Run (VecGrid K) :=
  each (fun x => x.insert p pos v) g
/-- `is_inside` (src/grid/vector_grid.rs:142-144). -/
def isInside (g : VecGrid K) (pos : Pos K) : Bool := (g.comp 0).isInside pos
/-- `cell_id` (src/grid/vector_grid.rs:147-149). -/
def cellId (p : Profile) (g : VecGrid K) (pos : Pos K) : Run (Option CellId) := (g.comp 0).cellId p pos
/-- `add_to_cell` (src/grid/vector_grid.rs:163-167). -/
def addToCell (g : VecGrid K) (c : CellId) (v : F K) : Run (VecGrid K) := each (fun x => x.addToCell c v) g
/-- `add_trajectory_value` (src/grid/vector_grid.rs:169-173). -/
def addTrajectoryValue (p : Profile) (g : VecGrid K) (a b : Pos K) (v : F K) : Run (VecGrid K) :=
  each (fun x => x.addTrajectoryValue p a b v) g
/-- `new_zeros` (src/grid/vector_grid.rs:175-177): three copies of the zeroed first component. -/
def newZeros (g : VecGrid K) : VecGrid K := new (g.comp 0).newZeros
/-- `set_data` (src/grid/vector_grid.rs:232-234): not implemented. -/
def setData (_ : VecGrid K) (_ : Arr 3 (F K)) : Run (VecGrid K) := .error .explicit
/-- `set_weights` (src/grid/vector_grid.rs:236-240). -/
def setWeights (g : VecGrid K) (w : Arr 3 (F K)) : Run (VecGrid K) := each (fun x => x.setWeights w) g
/-- `outlier_removal` (src/grid/vector_grid.rs:242-246). -/
def outlierRemoval (p : Profile) (g : VecGrid K) (thr : F K) (mode : ℕ) : Run (VecGrid K) :=
  each (fun x => x.outlierRemoval p thr mode) g

end VecGrid
end Up4
