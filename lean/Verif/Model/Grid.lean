import Verif.Core

set_option linter.unusedSectionVars false

/-!
# Model of `src/grid/` (`cartesian_grid.rs`, `cylindrical_grid.rs`)

A Rust grid is `Grid` = immutable geometry (`Geom`, Cartesian or cylindrical) + the two arrays
`data`, `weight` (`Store`).  A `Box<dyn GridFunctions3D>` holding a scalar grid is a `Grid`.
Debug and warning prints are not modelled.
-/

namespace Up4

/-- `CellId = [usize; 3]` (src/types.rs). -/
abbrev CellId := Fin 3 → ℕ
/-- `Position = [f64; 3]` (src/types.rs). -/
abbrev Pos (K : Type) := Fin 3 → F K
/-- `ThreeD = [[f64; 2]; 3]` (src/types.rs): lower and upper limit per axis. -/
abbrev Limits (K : Type) := Fin 3 → F K × F K

variable {K : Type} [Field K] [LinearOrder K] [IsStrictOrderedRing K] [FloorRing K] [Arith K]

/-! ## Geometry -/

/-- The geometry fields of `CartesianGrid3D` (src/grid/cartesian_grid.rs:13-22);
`positions 0/1/2` are `xpositions`/`ypositions`/`zpositions`. -/
structure CartGeom (K : Type) where
  cells : CellId
  positions : Fin 3 → List (F K)
  limits : Limits K

/-- The geometry fields of `CylindricalGrid3D` (src/grid/cylindrical_grid.rs:14-26). -/
structure CylGeom (K : Type) where
  cells : CellId
  rpositions : List (F K × F K)
  rmeanpositions : List (F K)
  opositions : List (F K)
  zpositions : List (F K)
  center : Pos K
  radius : F K
  limits : Limits K

namespace CartGeom

/-- src/grid/cartesian_grid.rs:32-46: the centre of cell `i` of an axis with `n` cells. -/
def centre (lim : F K × F K) (n i : ℕ) : F K :=
  let cellsize := (lim.2 - lim.1) / F.ofNat n
  F.ofNat i * cellsize + cellsize / F.ofNat 2 + lim.1

/-- `CartesianGrid3D::new`, geometry part (src/grid/cartesian_grid.rs:25-51).
The `Dim::OneD`/`Dim::TwoD` panic (28-31) is not modelled: limits are three-dimensional. -/
def new (cells : CellId) (lim : Limits K) : CartGeom K where
  cells := cells
  positions := fun a => (List.range (cells a)).map (centre (lim a) (cells a))
  limits := lim

/-- `CartesianGrid3D::is_inside` (src/grid/cartesian_grid.rs:110-120). -/
def isInside (g : CartGeom K) (pos : Pos K) : Bool :=
  if (pos 0).isNaN || (pos 1).isNaN || (pos 2).isNaN then false
  else decide (∀ a : Fin 3, (g.limits a).1 ≤ pos a ∧ pos a ≤ (g.limits a).2)

/-- One axis of `cell_id` (src/grid/cartesian_grid.rs:137-142):
`((pos - lo) / (hi - lo) * (cells - 1) as f64) as usize`. -/
def axisIdx (p : Profile) (lim : F K × F K) (n : ℕ) (x : F K) : Run ℕ := do
  let m ← usub p n 1
  pure ((x - lim.1) / (lim.2 - lim.1) * F.ofNat m).toUsize

/-- `CartesianGrid3D::cell_id` (src/grid/cartesian_grid.rs:122-145); `none` is `Err`. -/
def cellId (p : Profile) (g : CartGeom K) (pos : Pos K) : Run (Option CellId) :=
  if g.isInside pos = false then pure none
  else do
    let i ← axisIdx p (g.limits 0) (g.cells 0) (pos 0)
    let j ← axisIdx p (g.limits 1) (g.cells 1) (pos 1)
    let k ← axisIdx p (g.limits 2) (g.cells 2) (pos 2)
    pure (some ![i, j, k])

/-- The cell index used by `slice` (src/grid/cartesian_grid.rs:413-415; the same expression in
cylindrical_grid.rs:373-375): note `cells`, not `cells - 1`. -/
def sliceIdx (lim : F K × F K) (n : ℕ) (x : F K) : ℕ :=
  ((x - lim.1) / (lim.2 - lim.1) * F.ofNat n).toUsize

end CartGeom

namespace CylGeom

/-- src/grid/cylindrical_grid.rs:64-68 (and 69-73 for `y`): the larger distance of the two limits
from the centre. -/
def halfWidth (lim : F K × F K) (c : F K) : F K :=
  if (lim.2 - c).abs > (lim.1 - c).abs then (lim.2 - c).abs else (lim.1 - c).abs

/-- `center` of one axis (src/grid/cylindrical_grid.rs:58-62). -/
def mid (lim : F K × F K) : F K := (lim.1 + lim.2) / F.ofNat 2

/-- `outer_radius` (src/grid/cylindrical_grid.rs:63-79). -/
def outerRadius (lim : Limits K) : F K :=
  let x := halfWidth (lim 0) (mid (lim 0))
  let y := halfWidth (lim 1) (mid (lim 1))
  if x > y then x else y

/-- One turn of the radial loop (src/grid/cylindrical_grid.rs:90-97): the outer radius of the shell
whose inner radius is `inner`. -/
def nextRadius (outer : F K) (n : ℕ) (inner : F K) : F K :=
  (outer * outer / F.ofNat n + inner * inner).sqrt

/-- The radial loop (src/grid/cylindrical_grid.rs:81-99): `m` shells starting at `inner`. -/
def shells (outer : F K) (n : ℕ) : ℕ → F K → List (F K × F K)
  | 0, _ => []
  | m + 1, inner =>
    (inner, nextRadius outer n inner) :: shells outer n m (nextRadius outer n inner)

/-- Angular boundaries (src/grid/cylindrical_grid.rs:41,50-52). -/
def opos (n i : ℕ) : F K :=
  let mpi : F K := -F.pi
  let size := (F.ofNat 2 * F.pi) / F.ofNat n
  mpi + F.ofNat i * size + size

/-- Height boundaries (src/grid/cylindrical_grid.rs:43,54-56). -/
def zpos (lim : F K × F K) (n i : ℕ) : F K :=
  let size := (lim.2 - lim.1) / F.ofNat n
  F.ofNat i * size + size + lim.1

/-- `CylindricalGrid3D::new`, geometry part, mode `"volume"`
(src/grid/cylindrical_grid.rs:29-122); any other mode panics (30-32), see `newMode`. -/
def new (cells : CellId) (lim : Limits K) : CylGeom K :=
  let R := outerRadius lim
  let rp := shells R (cells 0) (cells 0) 0
  { cells := cells
    rpositions := rp
    rmeanpositions := rp.map fun x => (x.1 + x.2) / F.ofNat 2
    opositions := (List.range (cells 1)).map (opos (cells 1))
    zpositions := (List.range (cells 2)).map (zpos (lim 2) (cells 2))
    center := ![mid (lim 0), mid (lim 1), mid (lim 2)]
    radius := R
    limits := ![(0, R), (-F.pi, F.pi), ((lim 2).1, (lim 2).2)] }

/-- The mode check of `CylindricalGrid3D::new` (src/grid/cylindrical_grid.rs:30-32). -/
def newMode (mode : String) (cells : CellId) (lim : Limits K) : Run (CylGeom K) :=
  if mode ≠ "volume" then .error .explicit else .ok (new cells lim)

/-- `to_cylindrical` (src/grid/cylindrical_grid.rs:123-131). -/
def toCylindrical (g : CylGeom K) (pos : Pos K) : Pos K :=
  let x := pos 0 - g.center 0
  let y := pos 1 - g.center 1
  ![(x * x + y * y).sqrt, F.atan2 y x, pos 2]

/-- `CylindricalGrid3D::is_inside` (src/grid/cylindrical_grid.rs:179-186). -/
def isInside (g : CylGeom K) (pos : Pos K) : Bool :=
  let c := g.toCylindrical pos
  decide (c 0 ≤ g.radius) &&
    decide ((g.limits 1).1 ≤ c 1 ∧ c 1 ≤ (g.limits 1).2) &&
    decide ((g.limits 2).1 ≤ c 2 ∧ c 2 ≤ (g.limits 2).2)

/-- The radial loop of `cell_id` (src/grid/cylindrical_grid.rs:192-197): the index of the LAST shell
containing `r`; `i` counts from the given start, `acc` is the variable `cell_idr`. -/
def radialScan (r : F K) : List (F K × F K) → ℕ → Option ℕ → Option ℕ
  | [], _, acc => acc
  | s :: rest, i, acc => radialScan r rest (i + 1) (if s.1 ≤ r ∧ r ≤ s.2 then some i else acc)

/-- `ndarray_stats::argmin` after the first element: running minimum and its index;
`none` is `MinMaxError::UndefinedOrder` (a NaN was met). -/
def argminLoop : List (F K) → ℕ → F K → ℕ → Option ℕ
  | [], _, _, best => some best
  | x :: rest, i, cur, best =>
    if x.isNaN || cur.isNaN then none
    else if x < cur then argminLoop rest (i + 1) x i
    else argminLoop rest (i + 1) cur best

/-- `QuantileExt::argmin` of ndarray-stats 0.5 (external crate): first index of a minimum,
`none` for an empty array or when NaN makes the order undefined. -/
def argmin : List (F K) → Option ℕ
  | [] => none
  | x :: rest => argminLoop (x :: rest) 0 x 0

/-- The boundary index nearest to `x` (src/grid/cylindrical_grid.rs:204-210 and 211-217). -/
def nearest (bounds : List (F K)) (x : F K) : Option ℕ :=
  argmin (bounds.map fun b => (b - x).abs)

/-- `CylindricalGrid3D::cell_id` (src/grid/cylindrical_grid.rs:188-219).  It never returns `Err`;
a position without a radial shell, or NaN coordinates, panic. -/
def cellId (g : CylGeom K) (pos : Pos K) : Run (Option CellId) :=
  let c := g.toCylindrical pos
  match radialScan (c 0) g.rpositions 0 none with
  | none => .error .explicit
  | some i =>
    match nearest g.opositions (c 1) with
    | none => .error .explicit
    | some j =>
      match nearest g.zpositions (c 2) with
      | none => .error .explicit
      | some k => .ok (some ![i, j, k])

end CylGeom

/-- The concrete type behind a scalar `Box<dyn GridFunctions3D>`. -/
inductive Geom (K : Type) where
  | cart (g : CartGeom K)
  | cyl (g : CylGeom K)

namespace Geom

/-- `get_cells` (cartesian_grid.rs:453-455, cylindrical_grid.rs:414-416). -/
def cells : Geom K → CellId
  | cart g => g.cells
  | cyl g => g.cells

/-- `get_limits` (cartesian_grid.rs:450-452, cylindrical_grid.rs:411-413). -/
def limits : Geom K → Limits K
  | cart g => g.limits
  | cyl g => g.limits

/-- `get_xpositions`/`get_ypositions`/`get_zpositions`
(cartesian_grid.rs:441-449, cylindrical_grid.rs:401-410: the mean radius for axis 0). -/
def positions : Geom K → Fin 3 → List (F K)
  | cart g => g.positions
  | cyl g => ![g.rmeanpositions, g.opositions, g.zpositions]

/-- `is_cylindrical` (cartesian_grid.rs:462-464, cylindrical_grid.rs:425-427). -/
def isCylindrical : Geom K → Bool
  | cart _ => false
  | cyl _ => true

/-- `is_inside`, dynamic dispatch (src/grid.rs:68). -/
def isInside : Geom K → Pos K → Bool
  | cart g, pos => g.isInside pos
  | cyl g, pos => g.isInside pos

/-- `cell_id`, dynamic dispatch (src/grid.rs:71); `none` is `Err`. -/
def cellId (p : Profile) : Geom K → Pos K → Run (Option CellId)
  | cart g, pos => g.cellId p pos
  | cyl g, pos => g.cellId pos

end Geom

/-! ## Contents -/

/-- The fields `data` and `weight` of a grid. -/
structure Store (K : Type) where
  data : Arr 3 (F K)
  weight : Arr 3 (F K)

/-- A scalar grid. -/
structure Grid (K : Type) where
  geom : Geom K
  st : Store K

namespace Store

/-- Both arrays zero (`Array3::zeros(cells)`). -/
def zeros (cells : CellId) : Store K := ⟨Arr.const cells 0, Arr.const cells 0⟩

/-- `data[c] += v; weight[c] += w` (cartesian_grid.rs:254-257, 281-282, 298-299;
cylindrical_grid.rs:233-236, 251-252). -/
def addAt (s : Store K) (c : CellId) (v w : F K) : Run (Store K) := do
  let d ← s.data.read c
  let data ← s.data.write c (d + v)
  let u ← s.weight.read c
  let weight ← s.weight.write c (u + w)
  pure ⟨data, weight⟩

/-- `divide_by_array` (cartesian_grid.rs:303-305, cylindrical_grid.rs:263-265); ndarray 0.15
co-broadcasts the operands. -/
def divideByArray (s : Store K) (o : Arr 3 (F K)) : Run (Store K) := do
  let d ← Arr.zipWith (· / ·) s.data o
  pure { s with data := d }

/-- `divide_by_scalar` (cartesian_grid.rs:307-309, cylindrical_grid.rs:267-269). -/
def divideByScalar (s : Store K) (v : F K) : Store K := { s with data := s.data.map (· / v) }

/-- `divide_by_weight` (cartesian_grid.rs:311-313, cylindrical_grid.rs:271-273). -/
def divideByWeight (s : Store K) : Run (Store K) := do
  let d ← Arr.zipWith (· / ·) s.data s.weight
  pure { s with data := d }

/-- `set_data` (cartesian_grid.rs:466-472, cylindrical_grid.rs:429-435). -/
def setData (s : Store K) (d : Arr 3 (F K)) : Run (Store K) :=
  if s.data.shape = d.shape then .ok { s with data := d } else .error .explicit

/-- `set_weights` (cartesian_grid.rs:473-479, cylindrical_grid.rs:436-442). -/
def setWeights (s : Store K) (w : Arr 3 (F K)) : Run (Store K) :=
  if s.weight.shape = w.shape then .ok { s with weight := w } else .error .explicit

/-- `x.is_nan() ? 0. : x` (cartesian_grid.rs:336 and others). -/
def nz (x : F K) : F K := if x.isNaN then 0 else x

/-- The loop of `collapse` for one output entry: fold over the removed axis
(cartesian_grid.rs:331-339; cylindrical_grid.rs:291-300, which also replaces NaN weights by 0:
`cyl = true`).  The ndarray operations are entrywise, so the loop is modelled entry by entry;
`data` and `weight` are assumed to have the same shape (the grid invariant, see C17). -/
def collapseFold (cyl : Bool) (d w : ℕ → F K) (n : ℕ) : F K × F K :=
  (List.range n).foldl (fun acc k =>
    let wk := if cyl then nz (w k) else w k
    (acc.1 + nz (d k) * wk, acc.2 + wk)) (0, 0)

/-- `collapse(axis)` (cartesian_grid.rs:328-343, cylindrical_grid.rs:288-303); ndarray's
`remove_axis`/`axis_iter` panic if the axis does not exist. -/
def collapse {n : ℕ} (cyl : Bool) (data weight : Arr (n + 1) (F K)) (axis : ℕ) : Run (Arr n (F K)) :=
  if h : axis < n + 1 then
    let a : Fin (n + 1) := ⟨axis, h⟩
    .ok ⟨fun j => data.shape (a.succAbove j), fun idx =>
      let r := collapseFold cyl (fun k => data.get (a.insertNth k idx))
        (fun k => weight.get (a.insertNth k idx)) (data.shape a)
      r.1 / r.2⟩
  else .error .index

/-- `collapse_weight(axis)` (cartesian_grid.rs:345-354, cylindrical_grid.rs:305-314). -/
def collapseWeight {n : ℕ} (weight : Arr (n + 1) (F K)) (axis : ℕ) : Run (Arr n (F K)) :=
  if h : axis < n + 1 then
    let a : Fin (n + 1) := ⟨axis, h⟩
    .ok ⟨fun j => weight.shape (a.succAbove j), fun idx =>
      (List.range (weight.shape a)).foldl (fun acc k => acc + weight.get (a.insertNth k idx)) 0⟩
  else .error .index

/-- The axis bookkeeping of `collapse_two` (cartesian_grid.rs:358-368): order the axes; the second
one is shifted by one because the first has been removed. -/
def orderAxes (a b : ℕ) : Run (ℕ × ℕ) :=
  if a = b then .error .explicit
  else if a > b then .ok (b, a - 1) else .ok (a, b - 1)

/-- `collapse_two` (cartesian_grid.rs:356-386, cylindrical_grid.rs:316-346): collapse, collapse the
weights, and repeat the weighted mean on the second axis (without the NaN-weight rule). -/
def collapseTwo (cyl : Bool) (s : Store K) (axis1 axis2 : ℕ) : Run (Arr 1 (F K)) := do
  let (a, b) ← orderAxes axis1 axis2
  let first ← collapse cyl s.data s.weight a
  let firstW ← collapseWeight s.weight a
  collapse false first firstW b

/-- `collapse_two_weight` (cartesian_grid.rs:388-409, cylindrical_grid.rs:348-369). -/
def collapseTwoWeight (s : Store K) (axis1 axis2 : ℕ) : Run (Arr 1 (F K)) := do
  let (a, b) ← orderAxes axis1 axis2
  let firstW ← collapseWeight s.weight a
  collapseWeight firstW b

/-- `slice_idx(axis, cell_id)` (cartesian_grid.rs:428-439, cylindrical_grid.rs:388-399). -/
def sliceAt (s : Store K) (axis i : ℕ) : Run (Arr 2 (F K)) :=
  if h : axis < 3 then
    let a : Fin 3 := ⟨axis, h⟩
    if i < s.data.shape a then
      .ok ⟨fun j => s.data.shape (a.succAbove j), fun idx => s.data.get (a.insertNth i idx)⟩
    else .error .index
  else .error .explicit

/-- The 26 index tuples around `idx` (cartesian_grid.rs:499-526, cylindrical_grid.rs:462-489),
computed eagerly, so in a debug build a zero coordinate panics. `neighbours_explicit` shows that
this is the list written out in the source, in the same order. -/
def neighbours (p : Profile) (idx : CellId) : Run (List CellId) := do
  let a ← usub p (idx 0) 1
  let b ← usub p (idx 1) 1
  let c ← usub p (idx 2) 1
  pure ((([a, idx 0, idx 0 + 1].flatMap fun x =>
    [b, idx 1, idx 1 + 1].flatMap fun y =>
      [c, idx 2, idx 2 + 1].map fun z => (![x, y, z] : CellId))).eraseIdx 13)

/-- One step of the inner loop of `outlier_removal` mode 2 (cartesian_grid.rs:528-540; `skip = true`;
cylindrical_grid.rs:491-500: `skip = false`): `(sum, weight_sum, counter_sum)`. -/
def neighbourStep (skip : Bool) (s : Store K) (thr : F K) (acc : F K × F K × F K) (i : CellId) :
    F K × F K × F K :=
  if InB s.data.shape i then
    if skip && decide (s.data.get i > thr) then acc
    else (acc.1 + s.data.get i, acc.2.1 + s.weight.get i, acc.2.2 + 1)
  else acc

/-- The loop body of `outlier_removal` mode 2 for one cell (cartesian_grid.rs:491-547,
cylindrical_grid.rs:455-507): new data and weight of the cell. -/
def outlierCell (p : Profile) (skip : Bool) (s : Store K) (thr : F K) (idx : CellId) :
    Run (F K × F K) :=
  if s.data.get idx > thr then do
    let l ← neighbours p idx
    let r := l.foldl (neighbourStep skip s thr) (0, 0, 0)
    pure (r.1 / r.2.2, r.2.1 / r.2.2)
  else pure (s.data.get idx, s.weight.get idx)

/-- `outlier_removal` (cartesian_grid.rs:481-560, cylindrical_grid.rs:445-513). `skip` is `true` for
the Cartesian grid, which leaves outliers out of the mean, and `false` for the cylindrical one. -/
def outlierRemoval (p : Profile) (skip : Bool) (s : Store K) (thr : F K) (mode : ℕ) :
    Run (Store K) :=
  if mode = 0 then .ok { s with data := s.data.map fun x => if x > thr then 0 else x }
  else if mode = 1 then .ok { s with data := s.data.map fun x => if x > thr then thr else x }
  else if mode = 2 then
    (indices 3 s.data.shape).foldlM (fun acc idx => do
      let r ← outlierCell p skip s thr idx
      pure (⟨{ acc.data with get := Function.update acc.data.get idx r.1 },
        { acc.weight with get := Function.update acc.weight.get idx r.2 }⟩ : Store K))
      ⟨Arr.const s.data.shape 0, Arr.const s.data.shape 0⟩
  else .error .explicit

end Store

namespace Grid

/-- `CartesianGrid3D::new` (src/grid/cartesian_grid.rs:25-56). -/
def newCart (cells : CellId) (lim : Limits K) : Grid K :=
  ⟨.cart (CartGeom.new cells lim), Store.zeros cells⟩

/-- `CylindricalGrid3D::new` with mode "volume" (src/grid/cylindrical_grid.rs:29-122). -/
def newCyl (cells : CellId) (lim : Limits K) : Grid K :=
  ⟨.cyl (CylGeom.new cells lim), Store.zeros cells⟩

/-- `cell_id`: cartesian_grid.rs:122-145, cylindrical_grid.rs:188-219. -/
def cellId (p : Profile) (g : Grid K) (pos : Pos K) : Run (Option CellId) := g.geom.cellId p pos
/-- `is_inside`: cartesian_grid.rs:110-120, cylindrical_grid.rs:179-186. -/
def isInside (g : Grid K) (pos : Pos K) : Bool := g.geom.isInside pos

/-- `add_to_cell` (cartesian_grid.rs:254-257, cylindrical_grid.rs:233-236). -/
def addToCell (g : Grid K) (c : CellId) (v : F K) : Run (Grid K) := do
  let s ← g.st.addAt c v 1
  pure { g with st := s }

/-- `get_value` (cartesian_grid.rs:258-264, cylindrical_grid.rs:238-244). -/
def getValue (p : Profile) (g : Grid K) (pos : Pos K) : Run (F K) := do
  match ← g.cellId p pos with
  | none => pure F.nan
  | some c => g.st.data.read c

/-- `add_value` (cartesian_grid.rs:266-283 with its bounds check, cylindrical_grid.rs:246-253). -/
def addValue (p : Profile) (g : Grid K) (pos : Pos K) (v : F K) : Run (Grid K) := do
  match ← g.cellId p pos with
  | none => pure g
  | some c =>
    match g.geom with
    | .cart cg =>
      if c 0 ≥ cg.cells 0 ∨ c 1 ≥ cg.cells 1 ∨ c 2 ≥ cg.cells 2 then pure g
      else do
        let s ← g.st.addAt c v 1
        pure { g with st := s }
    | .cyl _ => do
        let s ← g.st.addAt c v 1
        pure { g with st := s }

/-- `cell_ids_in_trajectory` (cartesian_grid.rs:146-154: both end cells with fraction 0.5, the rest of
the function is unreachable; cylindrical_grid.rs:220-227: `unimplemented!`). -/
def cellIdsInTrajectory (p : Profile) (g : Grid K) (pos1 pos2 : Pos K) :
    Run (Option (List CellId × List (F K))) :=
  match g.geom with
  | .cart cg => do
    match ← cg.cellId p pos1 with
    | none => pure none
    | some c1 =>
      match ← cg.cellId p pos2 with
      | none => pure none
      | some c2 => pure (some ([c1, c2], [F.lit (1 / 2), F.lit (1 / 2)]))
  | .cyl _ => .error .explicit

/-- `add_trajectory_value` (cartesian_grid.rs:287-301; cylindrical_grid.rs:254-261 falls back to
`add_value(pos1, value)`). -/
def addTrajectoryValue (p : Profile) (g : Grid K) (pos1 pos2 : Pos K) (v : F K) : Run (Grid K) :=
  match g.geom with
  | .cart _ => do
    match ← g.cellIdsInTrajectory p pos1 pos2 with
    | none => pure g
    | some (ids, fr) => do
      let s ← (ids.zip fr).foldlM (fun s cf => s.addAt cf.1 (v * cf.2) cf.2) g.st
      pure { g with st := s }
  | .cyl _ => g.addValue p pos1 v

/-- `divide_by_array` (cartesian_grid.rs:303-305, cylindrical_grid.rs:263-265). -/
def divideByArray (g : Grid K) (o : Arr 3 (F K)) : Run (Grid K) := do
  pure { g with st := ← g.st.divideByArray o }
/-- `divide_by_scalar` (cartesian_grid.rs:307-309, cylindrical_grid.rs:267-269). -/
def divideByScalar (g : Grid K) (v : F K) : Grid K := { g with st := g.st.divideByScalar v }
/-- `divide_by_weight` (cartesian_grid.rs:311-313, cylindrical_grid.rs:271-273). -/
def divideByWeight (g : Grid K) : Run (Grid K) := do pure { g with st := ← g.st.divideByWeight }

/-- `insert` (cartesian_grid.rs:315-321, cylindrical_grid.rs:275-281). -/
def insert (p : Profile) (g : Grid K) (pos : Pos K) (v : F K) : Run (Grid K) := do
  match ← g.cellId p pos with
  | none => pure g
  | some c => do
    let d ← g.st.data.write c v
    pure { g with st := { g.st with data := d } }

/-- `new_zeros` (cartesian_grid.rs:322-326, cylindrical_grid.rs:282-286): clone, then zero `data`.
The weights are those of the clone. -/
def newZeros (g : Grid K) : Grid K :=
  { g with st := { g.st with data := Arr.const g.geom.cells 0 } }

/-- `collapse` (cartesian_grid.rs:328-343, cylindrical_grid.rs:288-303). -/
def collapse (g : Grid K) (axis : ℕ) : Run (Arr 2 (F K)) :=
  Store.collapse g.geom.isCylindrical g.st.data g.st.weight axis
/-- `collapse_weight` (cartesian_grid.rs:345-354, cylindrical_grid.rs:305-314). -/
def collapseWeight (g : Grid K) (axis : ℕ) : Run (Arr 2 (F K)) :=
  Store.collapseWeight g.st.weight axis
/-- `collapse_two` (cartesian_grid.rs:356-386, cylindrical_grid.rs:316-346). -/
def collapseTwo (g : Grid K) (a b : ℕ) : Run (Arr 1 (F K)) :=
  g.st.collapseTwo g.geom.isCylindrical a b
/-- `collapse_two_weight` (cartesian_grid.rs:388-409, cylindrical_grid.rs:348-369). -/
def collapseTwoWeight (g : Grid K) (a b : ℕ) : Run (Arr 1 (F K)) := g.st.collapseTwoWeight a b

/-- `slice(axis, position)` (cartesian_grid.rs:411-426, cylindrical_grid.rs:371-386); indexing
`limits[axis]` panics for a missing axis. -/
def slice (g : Grid K) (axis : ℕ) (x : F K) : Run (Arr 2 (F K)) :=
  if h : axis < 3 then
    g.st.sliceAt axis (CartGeom.sliceIdx (g.geom.limits ⟨axis, h⟩) (g.geom.cells ⟨axis, h⟩) x)
  else .error .index

/-- `slice_idx` (cartesian_grid.rs:428-439, cylindrical_grid.rs:388-399). -/
def sliceIdx (g : Grid K) (axis i : ℕ) : Run (Arr 2 (F K)) := g.st.sliceAt axis i
/-- `set_data` (cartesian_grid.rs:466-472, cylindrical_grid.rs:429-435). -/
def setData (g : Grid K) (d : Arr 3 (F K)) : Run (Grid K) := do pure { g with st := ← g.st.setData d }
/-- `set_weights` (cartesian_grid.rs:473-479, cylindrical_grid.rs:436-442). -/
def setWeights (g : Grid K) (w : Arr 3 (F K)) : Run (Grid K) := do
  pure { g with st := ← g.st.setWeights w }
/-- `outlier_removal` (cartesian_grid.rs:481-560, cylindrical_grid.rs:445-513). -/
def outlierRemoval (p : Profile) (g : Grid K) (thr : F K) (mode : ℕ) : Run (Grid K) := do
  pure { g with st := ← g.st.outlierRemoval p (!g.geom.isCylindrical) thr mode }

/-- The grid was built by a constructor and its arrays still have their shape. -/
def Shaped (g : Grid K) : Prop := g.st.data.shape = g.geom.cells ∧ g.st.weight.shape = g.geom.cells

end Grid

end Up4
