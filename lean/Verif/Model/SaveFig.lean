import Verif.Model.Convert

set_option linter.unusedSectionVars false

/-! # Saving figures (`up4/plotting.py`) -/

namespace Up4
open F

variable {K : Type} [Field K] [LinearOrder K] [IsStrictOrderedRing K] [FloorRing K] [Arith K]

/-- `save_fig` (up4/plotting.py:17-45): the factor `scale` handed to plotly's `write_image`, which makes the image `scale` times as wide as the figure. `width` is
`fig.layout.width`; the other arguments are integers. A division by zero is Python's `ZeroDivisionError` (here `explicit`). Writing the image is plotly's. -/
def saveScale (width : Option (F K)) (dpi border paper : ℤ) : Run (F K) :=
  let pixels := width.getD (F.ofNat 700)
  let actual := paper - 2 * border
  if dpi = 0 then .error .explicit
  else if eqB (pixels / ofInt dpi) 0 then .error .explicit
  else .ok (ofInt actual / F.lit (254 / 10) / (pixels / ofInt dpi))

end Up4
