import Verif.Model.VecGrid
import Verif.Model.Tools

set_option linter.unusedSectionVars false

/-!
# Model of the plots (`src/plotting`, `src/pylib/libplot.rs`, `up4/plotting.py`)

What is modelled is the numbers handed to the plotting library: coordinates, values and normalised colours. Not modelled: colour names, the
JSON encoding, the layout, and plotly itself. `into_raw_vec` is modelled as the elements in row-major order; all arrays it is applied to are
freshly built in the standard layout.
-/

namespace Up4
open F
open Selector (at')

variable {K : Type} [Field K] [LinearOrder K] [IsStrictOrderedRing K] [FloorRing K] [Arith K]

/-- `f64::hypot` (a function of the math library). Simplification: one rounding. -/
def F.hypot : F K → F K → F K
  | pinf, _ => pinf
  | ninf, _ => pinf
  | _, pinf => pinf
  | _, ninf => pinf
  | nan, _ => nan
  | _, nan => nan
  | fin a, fin b => Arith.sqrtK (a * a + b * b)

/-- `min_skipnan` of ndarray-stats (external crate): the least value that is not NaN, NaN if there is none. -/
def minSkipNaN (l : List (F K)) : F K :=
  match l.filter (fun x => !x.isNaN) with
  | [] => nan
  | x :: r => r.foldl (fun s v => if v < s then v else s) x

/-- `max_skipnan` of ndarray-stats (external crate). -/
def maxSkipNaN (l : List (F K)) : F K :=
  match l.filter (fun x => !x.isNaN) with
  | [] => nan
  | x :: r => r.foldl (fun s v => if v > s then v else s) x

/-- `Zip::from(..).and(a).and(b).for_each(..)`: the shapes must be equal. -/
def zipSame (f : F K → F K → F K) (a b : Arr 2 (F K)) : Run (Arr 2 (F K)) :=
  if a.shape = b.shape then .ok ⟨a.shape, fun i => f (a.get i) (b.get i)⟩ else .error .shape

/-- The arguments `selection` and `index` (up4/plotting.py:67-80). -/
inductive Sel where
  /-- `selection = "depth_average"` -/
  | depthAverage
  /-- `selection = "plane"` with an index -/
  | plane (index : ℕ)

/-- The argument `scaling_mode` with the sizes it needs (up4/plotting.py:102-118). -/
inductive Scaling (K : Type) where
  | asIs
  | min (m : F K)
  | max (m : F K)
  | minMax (lo hi : F K)
  | halfNode
  | fullNode

/-- The first of the two components in the plane (src/plotting/plotting_2d/quiver.rs:55, 91, 93-96 and the same in the other plots). -/
def compU (axis : ℕ) : Fin 3 := if axis = 0 then 1 else 0
/-- The second one (src/plotting/plotting_2d/quiver.rs:56, 92, 97-100). -/
def compV (axis : ℕ) : Fin 3 := if axis = 0 ∨ axis = 1 then 2 else 1
/-- The axis whose positions are the abscissae in most plots (src/plotting/plotting_2d/quiver.rs:81-85, unit_vector.rs:30-34, 74-78,
scalar_map.rs:23-27, 47-51, 77-81, 98-102, scalar_contour.rs:23-27 and the others). -/
def absc (axis : ℕ) : Fin 3 := if axis = 0 then 1 else 0
/-- The axis whose positions are the abscissae in the depth-averaged quiver plot and in the parity maps (src/plotting/plotting_2d/quiver.rs:45-49,
parity_map.rs:23-27, 75-79, 138-142, 173-177, parity_contour.rs likewise). -/
def absc' (axis : ℕ) : Fin 3 := if axis = 0 ∨ axis = 1 then 1 else 0
/-- The axis whose positions are the ordinates in all plots (src/plotting/plotting_2d/quiver.rs:50-54, 86-90). -/
def ordi (axis : ℕ) : Fin 3 := if axis = 0 ∨ axis = 1 then 2 else 1

/-- The axis whose positions are the abscissae in the quiver plot. -/
def quiverAbsc (axis : ℕ) : Sel → Fin 3
  | .depthAverage => absc' axis
  | .plane _ => absc axis

/-- `collapse(axis)` or the plane with the index (src/plotting/plotting_2d/quiver.rs:57-58, 93-100 and the same in the other plots). Simplification:
`index_axis_move` is the plane that `slice_idx` returns; for an axis above 2 both panic. -/
def planeOf (g : Grid K) (axis : ℕ) : Sel → Run (Arr 2 (F K))
  | .depthAverage => g.collapse axis
  | .plane i => g.sliceIdx axis i

/-- `QuiverPlot` and `UnitVectorPlot` (src/plotting/plotting_2d/quiver.rs:14-22, unit_vector.rs:17-25). -/
structure Vectors (K : Type) where
  x : List (F K)
  y : List (F K)
  u : Arr 2 (F K)
  v : Arr 2 (F K)
  norm : Arr 2 (F K)
  trueNorm : Arr 2 (F K)

namespace Vectors

/-- `QuiverPlot::from_vector_grid_depth_averaged` and `from_vector_grid_single_plane` (src/plotting/plotting_2d/quiver.rs:43-115); the positions of a
vector grid are those of its first component (src/grid/vector_grid.rs:206-214). -/
def quiver (g : VecGrid K) (axis : ℕ) (sel : Sel) : Run (Vectors K) := do
  let u ← planeOf (g.comp (compU axis)) axis sel
  let v ← planeOf (g.comp (compV axis)) axis sel
  let n ← zipSame F.hypot u v
  pure ⟨(g.comp 0).geom.positions (quiverAbsc axis sel), (g.comp 0).geom.positions (ordi axis), u, v, n, n⟩

/-- `norm` is computed afresh from `u` and `v` (src/plotting/plotting_2d/quiver.rs:233-239 and at the end of every scaling). -/
def renorm (q : Vectors K) : Run (Vectors K) := do
  let n ← zipSame F.hypot q.u q.v
  pure { q with norm := n }

/-- `scale_elementwise` (src/plotting/plotting_2d/quiver.rs:243-254, unit_vector.rs:259-270), the factor given by the norm of the entry. -/
def scaleBy (q : Vectors K) (f : F K → F K) : Run (Vectors K) :=
  renorm { q with
    u := ⟨q.u.shape, fun i => q.u.get i * f (q.norm.get i)⟩
    v := ⟨q.v.shape, fun i => q.v.get i * f (q.norm.get i)⟩ }

/-- `bound_min` (src/plotting/plotting_2d/quiver.rs:256-265, unit_vector.rs:272-281). -/
def boundMin (q : Vectors K) (m : F K) : Run (Vectors K) := q.scaleBy fun n => if n < m then m / n else 1
/-- `bound_max` (src/plotting/plotting_2d/quiver.rs:267-276, unit_vector.rs:283-292). -/
def boundMax (q : Vectors K) (m : F K) : Run (Vectors K) := q.scaleBy fun n => if n > m then m / n else 1
/-- `bound_min_max` (src/plotting/plotting_2d/quiver.rs:278-293, unit_vector.rs:294-309). -/
def boundMinMax (q : Vectors K) (lo hi : F K) : Run (Vectors K) :=
  q.scaleBy fun n => if n > hi then hi / n else if n < lo then lo / n else 1

/-- `bound_half_node` with `c = 0.5 * dx`, `d = 0.5 * dy`, and `bound_full_node` with `c = dx`, `d = dy`
(src/plotting/plotting_2d/quiver.rs:295-321, unit_vector.rs:311-337). -/
def boundNode (q : Vectors K) (c d : F K) : Run (Vectors K) :=
  let largest := maxSkipNaN (flatten q.norm)
  renorm { q with u := q.u.map (· * (c / largest)), v := q.v.map (· * (d / largest)) }

/-- `x[1] - x[0]` (src/pylib/libplot.rs:88-89, 95-96, unit_vector.rs:55-56). -/
def spacing (x : List (F K)) : Run (F K) := do
  let b ← at' x 1
  let a ← at' x 0
  pure (b - a)

/-- The `match scaling_mode` of src/pylib/libplot.rs:77-103 and 135-162. -/
def scale (q : Vectors K) : Scaling K → Run (Vectors K)
  | .asIs => pure q
  | .min m => q.boundMin m
  | .max m => q.boundMax m
  | .minMax lo hi => q.boundMinMax lo hi
  | .halfNode => do
    let dx ← spacing q.x
    let dy ← spacing q.y
    q.boundNode (F.lit (1 / 2) * dx) (F.lit (1 / 2) * dy)
  | .fullNode => do
    let dx ← spacing q.x
    let dy ← spacing q.y
    q.boundNode dx dy

/-- `UnitVectorPlot::from_vector_grid_depth_averaged` and `from_vector_grid_single_plane` (src/plotting/plotting_2d/unit_vector.rs:28-116). -/
def unit (g : VecGrid K) (axis : ℕ) (sel : Sel) : Run (Vectors K) := do
  let u ← planeOf (g.comp (compU axis)) axis sel
  let v ← planeOf (g.comp (compV axis)) axis sel
  let n ← zipSame F.hypot u v
  let u ← Arr.zipWith (· / ·) u n
  let v ← Arr.zipWith (· / ·) v n
  let x := (g.comp 0).geom.positions (absc axis)
  let y := (g.comp 0).geom.positions (ordi axis)
  let dx ← spacing x
  let dy ← spacing y
  boundNode ⟨x, y, u, v, Arr.const u.shape 1, n⟩ (F.lit (1 / 2) * dx) (F.lit (1 / 2) * dy)

end Vectors

/-- `Arrow` (src/plotting/plotting_2d.rs:3-9). -/
structure Arrow (K : Type) where
  base : F K × F K
  tip : F K × F K
  left : F K × F K
  right : F K × F K

/-- `ANGLE` (src/plotting/plotting_2d/quiver.rs:121, 131-135). -/
def headAngle : F K := F.pi / F.ofNat 9

namespace Vectors

/-- `create_arrows` with `scale_ratio = 1.0`, the only value used (src/plotting/plotting_2d/quiver.rs:119-168, unit_vector.rs:120-168; the latter takes
the angle from the unscaled `u`, which is the same for this ratio up to rounding). `izip!` stops at the shortest list. -/
def createArrows (q : Vectors K) : Run (List (Arrow K)) := do
  let len := q.norm.map (· * F.lit (3 / 10))
  let u := q.u.map (· * 1)
  let ang ← zipSame F.atan2 q.v u
  let xy ← meshgrid q.x q.y
  let a1 := ang.map (· + headAngle)
  let a2 := ang.map (· - headAngle)
  let s1x ← Arr.zipWith (· * ·) len (a1.map F.cos)
  let s1y ← Arr.zipWith (· * ·) len (a1.map F.sin)
  let s2x ← Arr.zipWith (· * ·) len (a2.map F.cos)
  let s2y ← Arr.zipWith (· * ·) len (a2.map F.sin)
  let ex ← Arr.zipWith (· + ·) xy.1 u
  let ey ← Arr.zipWith (· + ·) xy.2 q.v
  let p1x ← Arr.zipWith (· - ·) ex s1x
  let p1y ← Arr.zipWith (· - ·) ey s1y
  let p2x ← Arr.zipWith (· - ·) ex s2x
  let p2y ← Arr.zipWith (· - ·) ey s2y
  let base := (flatten xy.1).zip (flatten xy.2)
  let tip := (flatten ex).zip (flatten ey)
  let left := (flatten p1x).zip (flatten p1y)
  let right := (flatten p2x).zip (flatten p2y)
  pure (((base.zip tip).zip (left.zip right)).map fun a => ⟨a.1.1, a.1.2, a.2.1, a.2.2⟩)

/-- `normalise_colour` (src/plotting/plotting_2d/quiver.rs:323-328). -/
def colours (q : Vectors K) : List (F K) :=
  let lo := minSkipNaN (flatten q.trueNorm)
  let hi := maxSkipNaN (flatten q.trueNorm)
  (flatten q.trueNorm).map fun n => (n - lo) / (hi - lo)

end Vectors

/-- One drawn arrow: its corners in the order of drawing, and its place on the colour map. -/
structure ArrowTrace (K : Type) where
  points : List (F K × F K)
  colour : F K

/-- The corners of an arrow (src/plotting/plotting_2d/quiver.rs:181-194, unit_vector.rs:178-191). -/
def Arrow.points (a : Arrow K) : List (F K × F K) := [a.base, a.tip, a.left, a.right, a.tip]

/-- A quiver plot: the arrows, and the range of the colour bar with the place of the invisible marker that carries it. -/
structure QuiverFig (K : Type) where
  arrows : List (ArrowTrace K)
  marker : F K × F K
  cmin : F K
  cmax : F K

/-- `_quiver_plot` with `create_quiver_traces` (src/pylib/libplot.rs:52-115, src/plotting/plotting_2d/quiver.rs:172-228). -/
def quiverPlot (g : VecGrid K) (axis : ℕ) (sel : Sel) (mode : Scaling K) : Run (QuiverFig K) := do
  let q ← Vectors.quiver g axis sel
  let q ← q.scale mode
  let arrows ← q.createArrows
  let x0 ← at' q.x 0
  let y0 ← at' q.y 0
  pure ⟨(arrows.zip q.colours).map fun a => ⟨a.1.points, a.2⟩, (x0, y0), minSkipNaN (flatten q.trueNorm), maxSkipNaN (flatten q.trueNorm)⟩

/-- `HeatMap::new(x, y, z)`: three lists, one entry per cell. -/
structure Heat (K : Type) where
  x : List (F K)
  y : List (F K)
  z : List (F K)

/-- `meshgrid` of the positions and the values, all flattened (src/plotting/plotting_2d/scalar_map.rs:112-126, unit_vector.rs:206-228,
parity_map.rs:207-216, parity_contour.rs:205-214). -/
def heat (x y : List (F K)) (z : Arr 2 (F K)) : Run (Heat K) := do
  let xy ← meshgrid x y
  pure ⟨flatten xy.1, flatten xy.2, flatten z⟩

/-- A unit vector plot: the corners of the arrows, and the background. -/
structure UnitFig (K : Type) where
  arrows : List (List (F K × F K))
  background : Heat K

/-- `_unit_vector_plot` (src/pylib/libplot.rs:117-176, src/plotting/plotting_2d/unit_vector.rs:170-228). -/
def unitPlot (g : VecGrid K) (axis : ℕ) (sel : Sel) (mode : Scaling K) : Run (UnitFig K) := do
  let q ← Vectors.unit g axis sel
  let q ← q.scale mode
  let arrows ← q.createArrows
  let b ← heat q.x q.y q.trueNorm
  pure ⟨arrows.map Arrow.points, b⟩

/-- What is plotted of a vector grid: the speed in the plane (src/plotting/plotting_2d/scalar_map.rs:33-40, 57-70, scalar_contour.rs:33-43, 76-92,
parity_map.rs:37-56 and the others). -/
def planeSpeed (g : VecGrid K) (axis : ℕ) (sel : Sel) : Run (Arr 2 (F K)) := do
  let u ← planeOf (g.comp (compU axis)) axis sel
  let v ← planeOf (g.comp (compV axis)) axis sel
  zipSame F.hypot u v

/-- The grid handed to the plotter (src/pylib/libplot.rs:20-48). -/
inductive Plotted (K : Type) where
  | scalar (g : Grid K)
  | vector (g : VecGrid K)

namespace Plotted

/-- The grid positions come from (src/grid/vector_grid.rs:206-214). -/
def geom : Plotted K → Geom K
  | scalar g => g.geom
  | vector g => (g.comp 0).geom

/-- The values of a plane. -/
def values (axis : ℕ) (sel : Sel) : Plotted K → Run (Arr 2 (F K))
  | scalar g => planeOf g axis sel
  | vector g => planeSpeed g axis sel

/-- `get_data` (for a vector grid that of the first component, src/grid/vector_grid.rs:221-223). -/
def data : Plotted K → Arr 3 (F K)
  | scalar g => g.st.data
  | vector g => (g.comp 0).st.data

end Plotted

/-- `_scalar_map` (src/pylib/libplot.rs:180-224, src/plotting/plotting_2d/scalar_map.rs:20-126). -/
def scalarMap (g : Plotted K) (axis : ℕ) (sel : Sel) : Run (Heat K) := do
  let d ← g.values axis sel
  heat (g.geom.positions (absc axis)) (g.geom.positions (ordi axis)) d

/-- A contour plot: coordinates of the columns and the rows, the rows, and first level, last level and distance of the levels. -/
structure ContourFig (K : Type) where
  x : List (F K)
  y : List (F K)
  z : List (List (F K))
  start : F K
  stop : F K
  size : F K

/-- `data_arr.columns()`, each as a vector (src/plotting/plotting_2d/scalar_contour.rs:46-49). -/
def columnsOf (a : Arr 2 (F K)) : List (List (F K)) :=
  (List.range (a.shape 1)).map fun j => (List.range (a.shape 0)).map fun i => a.get ![i, j]

/-- `_scalar_contour` (src/pylib/libplot.rs:229-285, src/plotting/plotting_2d/scalar_contour.rs:20-190). -/
def scalarContour (g : Plotted K) (axis : ℕ) (sel : Sel) (levels : ℕ) : Run (ContourFig K) := do
  let d ← g.values axis sel
  let lo := minSkipNaN (flatten d)
  let hi := maxSkipNaN (flatten d)
  pure ⟨g.geom.positions (absc axis), g.geom.positions (ordi axis), columnsOf d, lo, hi, (hi - lo) / F.ofNat levels⟩

/-- A parity plot: the ends of the line, and the abscissae and ordinates of the points. -/
structure ParityFig (K : Type) where
  line : (F K × F K) × (F K × F K)
  xs : List (F K)
  ys : List (F K)

/-- src/plotting/plotting_2d/parity_plot.rs:41-45, 51-55 and the same in the other constructors. -/
def lesser (a b : F K) : F K := if a < b then a else b
/-- src/plotting/plotting_2d/parity_plot.rs:46-50, 56-60. -/
def greater (a b : F K) : F K := if a > b then a else b

/-- The values of a parity plot of one grid (src/plotting/plotting_2d/parity_plot.rs:62-69, 116-151, 189-236 for vector grids, 281-287, 331-345, 389-411 for
scalar ones). -/
def parityValues (axis : ℕ) (sel : Sel) : Plotted K → Run (List (F K))
  | .scalar g => do
    let d ← planeOf g axis sel
    pure (flatten d)
  | .vector g => do
    let u ← planeOf (g.comp (compU axis)) axis sel
    let v ← planeOf (g.comp (compV axis)) axis sel
    pure (flatten u ++ flatten v)

/-- `_parity_plot_from_vector_grid`, `_parity_plot_from_grid` (src/pylib/libplot.rs:287-367, src/plotting/plotting_2d/parity_plot.rs:24-438) for the two
selections the Python layer lets through. -/
def parityPlot (ref comp : Plotted K) (axis : ℕ) (sel : Sel) : Run (ParityFig K) := do
  let lo := lesser (minSkipNaN (flatten ref.data)) (minSkipNaN (flatten comp.data))
  let hi := greater (maxSkipNaN (flatten ref.data)) (maxSkipNaN (flatten comp.data))
  let a ← parityValues axis sel ref
  let b ← parityValues axis sel comp
  pure ⟨((lo, lo), (hi, hi)), a, b⟩

/-- `_parity_map_from_…` and `_parity_contour_from_…` (src/pylib/libplot.rs:369-539, src/plotting/plotting_2d/parity_map.rs, parity_contour.rs, whose text is the
same up to names). -/
def parityMap (ref comp : Plotted K) (axis : ℕ) (sel : Sel) : Run (Heat K) := do
  let a ← ref.values axis sel
  let b ← comp.values axis sel
  let d ← Arr.zipWith (· - ·) a b
  heat (ref.geom.positions (absc' axis)) (ref.geom.positions (ordi axis)) d

/-- The arguments of a plot as they come from the user (up4/plotting.py:67-80). -/
structure PlotArgs (K : Type) where
  axis : ℤ
  selection : String
  index : Option ℕ
  mode : Option String
  minSize : Option (F K)
  maxSize : Option (F K)

/-- `_validate_input` (up4/plotting.py:889-1028) without the check of the colour map; `false` is a `ValueError`. -/
def PlotArgs.validate (a : PlotArgs K) : Bool :=
  if ¬ (a.axis = 0 ∨ a.axis = 1 ∨ a.axis = 2) then false
  else if ¬ (a.selection = "depth_average" ∨ a.selection = "plane") then false
  else if a.selection = "plane" ∧ a.index = none then false
  else if a.mode ≠ none ∧ ¬ (∃ m ∈ ["min", "max", "minmax", "half_node", "full_node"], a.mode = some m) then false
  else if a.mode = some "min" ∧ a.minSize.isNone then false
  else if a.mode = some "max" ∧ a.maxSize.isNone then false
  else if a.mode = some "minmax" ∧ (a.minSize.isNone ∨ a.maxSize.isNone) then false
  else true

/-- The selection as the Rust layer reads it (src/pylib/libplot.rs:71-75): anything but `"depth_average"` needs an index. -/
def PlotArgs.sel (a : PlotArgs K) : Run Sel :=
  if a.selection = "depth_average" then .ok .depthAverage
  else match a.index with
    | some i => .ok (.plane i)
    | none => .error .unwrap

/-- The scaling as the Rust layer reads it (src/pylib/libplot.rs:77-103): a size that is needed and missing panics. -/
def PlotArgs.scaling (a : PlotArgs K) : Run (Scaling K) :=
  let need (o : Option (F K)) : Run (F K) := match o with
    | some x => .ok x
    | none => .error .unwrap
  match a.mode with
  | some "min" => do pure (.min (← need a.minSize))
  | some "max" => do pure (.max (← need a.maxSize))
  | some "minmax" => do pure (.minMax (← need a.minSize) (← need a.maxSize))
  | some "half_node" => .ok .halfNode
  | some "full_node" => .ok .fullNode
  | _ => .ok .asIs

/-- The result of a call from Python: a `ValueError` raised by the checks, or what the Rust layer does (which may still panic). -/
inductive Called (α : Type) where
  | refused
  | ran (r : Run α)

/-- `Plotter2D.quiver_plot` on a vector grid (up4/plotting.py:67-203). -/
def pyQuiver (g : VecGrid K) (a : PlotArgs K) : Called (QuiverFig K) :=
  if a.validate then .ran (do
    let sel ← a.sel
    let m ← a.scaling
    quiverPlot g a.axis.toNat sel m)
  else .refused

/-- `Plotter2D.unit_vector_plot` on a vector grid (up4/plotting.py:206-342); line 328 hands `min_size` to the checks in place of `max_size`. -/
def pyUnit (g : VecGrid K) (a : PlotArgs K) : Called (UnitFig K) :=
  if PlotArgs.validate { a with maxSize := a.minSize } then .ran (do
    let sel ← a.sel
    let m ← a.scaling
    unitPlot g a.axis.toNat sel m)
  else .refused

end Up4
