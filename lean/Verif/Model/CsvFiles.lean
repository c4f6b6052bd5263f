import Verif.Model.CsvText

set_option linter.unusedSectionVars false

/-!
# `Converter.csv_multi_files` with all its arguments
-/

namespace Up4

variable {K : Type} [Field K] [LinearOrder K] [IsStrictOrderedRing K] [FloorRing K] [Arith K]

/-- `Converter.csv_multi_files` (src/pylib/libconv.rs:551-593): `vel`, `interpolate` and `radius` are passed on to `csv_multi_file_time_step` and not used there
(csv_multi_file_time_step.rs:20-264). -/
def pyCsvFiles (cl : CsvLib K) (o : CsvOpts K) (a : CsvArgs) (times : List (F K)) (texts : List (List Char)) : Run (TOut K) :=
  csvFilesFromText cl o.cols a times texts

end Up4
