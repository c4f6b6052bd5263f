import Verif.Model.Plot

set_option linter.unusedSectionVars false

/-!
# Model of the colours of the plots

The crate `colorous` is not modelled: a colour map is its name, and `eval name x` is the text of the colour it has at the place `x`.
-/

namespace Up4
open F

variable {K : Type} [Field K] [LinearOrder K] [IsStrictOrderedRing K] [FloorRing K] [Arith K]

/-- The arms of the `match` in `get_gradient`, in order: the name and the colour map of `colorous` it stands for. The constant `colorous::BLUE_GREEN` is written `"blue_green"` here, and so on
(src/pylib/libplot.rs:551-586). -/
def rustGradients : List (String × String) :=
  [("turbo", "turbo"), ("viridis", "viridis"), ("inferno", "inferno"), ("spectral", "spectral"), ("magma", "magma"), ("plasma", "plasma"),
    ("cividis", "cividis"), ("warm", "warm"), ("cool", "cool"), ("cubehelix", "cubehelix"), ("blue_green", "blue_green"), ("blue_purple", "blue_purple"),
    ("green_blue", "green_blue"), ("orange_red", "orange_red"), ("purple_blue_green", "purple_blue_green"), ("purple_blue", "purple_blue"), ("purple_red", "purple_red"), ("red_purple", "red_purple"),
    ("yellow_green_blue", "yellow_green_blue"), ("yellow_green", "yellow_green"), ("yellow_orange_brown", "yellow_orange_brown"), ("yellow_orange_red", "yellow_orange_red"), ("blues", "blues"), ("greens", "greens"),
    ("greys", "greys"), ("oranges", "oranges"), ("purples", "purples"), ("reds", "reds"), ("brown_green", "brown_green"), ("purple_green", "purple_green"),
    ("pink_green", "pink_green"), ("purple_orange", "purple_orange"), ("red_blue", "red_blue"), ("red_grey", "red_grey"), ("red_yellow_blue", "red_yellow_blue"), ("red_yellow_green", "red_yellow_green")]

/-- `get_gradient` (src/pylib/libplot.rs:548-589). -/
def getGradient (c : Option String) : Option String :=
  match c with
  | some n => rustGradients.lookup n
  | none => none

/-- `valid_colour_map_values` (up4/plotting.py:952-990). -/
def pyColourMaps : List String :=
  ["turbo", "viridis", "inferno", "spectral", "magma", "plasma", "cividis", "warm", "cool", "cubehelix", "blue_green", "blue_purple", "green_blue", "orange_red",
    "purple_blue_green", "purple_blue", "purple_red", "red_purple", "yellow_green_blue", "yellow_green", "yellow_orange_brown", "yellow_orange_red", "blues", "greens",
    "greys", "oranges", "purples", "reds", "brown_green", "purple_green", "pink_green", "purple_orange", "red_blue", "red_grey", "red_yellow_blue", "red_yellow_green",
    "spectral"]

/-- The check of the colour map in `_validate_input` (up4/plotting.py:1024-1028); `false` is a `ValueError`. -/
def colourAccepted (c : Option String) : Bool :=
  match c with
  | some n => decide (n ∈ pyColourMaps)
  | none => true

/-- `get_colour_map` (src/plotting/plotting_2d/quiver.rs:330-345 and the same in unit_vector.rs:230-245, scalar_map.rs:128-143, scalar_contour.rs:191-206): eleven
places and their colours. -/
def colourScale (eval : String → F K → String) (c : Option String) : List (F K × String) :=
  (List.range 11).map fun (i : ℕ) => (F.ofNat i / F.ofNat 10, eval ((getGradient c).getD "plasma") (F.ofNat i / F.ofNat 10))

/-- The colour of an arrow (src/plotting/plotting_2d/quiver.rs:195-198). -/
def arrowColour (eval : String → F K → String) (c : Option String) (x : F K) : String :=
  match getGradient c with
  | some g => eval g x
  | none => "Black"

/-- A figure with its colours: of the arrows, of the colour scale, and whether the scale is shown. -/
structure Painted (K α : Type) where
  fig : α
  arrows : List String
  scale : List (F K × String)
  bar : Bool

/-- `Plotter2D.quiver_plot` with its colours (up4/plotting.py:67-203, src/plotting/plotting_2d/quiver.rs:172-228). -/
def paintQuiver (eval : String → F K → String) (g : VecGrid K) (a : PlotArgs K) (c : Option String) : Called (Painted K (QuiverFig K)) :=
  if a.validate && colourAccepted c then .ran (do
    let sel ← a.sel
    let m ← a.scaling
    let f ← quiverPlot g a.axis.toNat sel m
    pure ⟨f, f.arrows.map fun t => arrowColour eval c t.colour, colourScale eval c, (getGradient c).isSome⟩)
  else .refused

/-- `Plotter2D.unit_vector_plot` with its colours (up4/plotting.py:206-342, src/plotting/plotting_2d/unit_vector.rs:170-228): black arrows over a heat map. -/
def paintUnit (eval : String → F K → String) (g : VecGrid K) (a : PlotArgs K) (c : Option String) : Called (Painted K (UnitFig K)) :=
  if PlotArgs.validate { a with maxSize := a.minSize } && colourAccepted c then .ran (do
    let sel ← a.sel
    let m ← a.scaling
    let f ← unitPlot g a.axis.toNat sel m
    pure ⟨f, f.arrows.map fun _ => "Black", colourScale eval c, true⟩)
  else .refused

/-- The arguments of the plots without arrows: no scaling. -/
def PlotArgs.plain (axis : ℤ) (selection : String) (index : Option ℕ) : PlotArgs K := ⟨axis, selection, index, none, none, none⟩

/-- `Plotter2D.scalar_map` (up4/plotting.py:344-446, src/pylib/libplot.rs:180-224). -/
def paintMap (eval : String → F K → String) (g : Plotted K) (axis : ℤ) (selection : String) (index : Option ℕ) (c : Option String) : Called (Painted K (Heat K)) :=
  if (PlotArgs.plain (K := K) axis selection index).validate && colourAccepted c then .ran (do
    let sel ← (PlotArgs.plain (K := K) axis selection index).sel
    let f ← scalarMap g axis.toNat sel
    pure ⟨f, [], colourScale eval c, true⟩)
  else .refused

/-- `Plotter2D.scalar_contour` (up4/plotting.py:447-550, src/pylib/libplot.rs:229-285): ten levels. -/
def paintContour (eval : String → F K → String) (g : Plotted K) (axis : ℤ) (selection : String) (index : Option ℕ) (c : Option String) :
    Called (Painted K (ContourFig K)) :=
  if (PlotArgs.plain (K := K) axis selection index).validate && colourAccepted c then .ran (do
    let sel ← (PlotArgs.plain (K := K) axis selection index).sel
    let f ← scalarContour g axis.toNat sel 10
    pure ⟨f, [], colourScale eval c, true⟩)
  else .refused

/-- `Plotter2D.parity_map` and `parity_contour` (up4/plotting.py:661-772, 774-887): the colour map is neither checked nor handed on; the heat map has no colour scale
of its own. -/
def paintParity (ref comp : Plotted K) (axis : ℤ) (selection : String) (index : Option ℕ) (_c : Option String) : Called (Painted K (Heat K)) :=
  if (PlotArgs.plain (K := K) axis selection index).validate then .ran (do
    let sel ← (PlotArgs.plain (K := K) axis selection index).sel
    let f ← parityMap ref comp axis.toNat sel
    pure ⟨f, [], [], true⟩)
  else .refused

end Up4
