import Verif.Model.Convert

set_option linter.unusedSectionVars false

/-!
# The entry points of `Converter`: file names, readers, folders

Modelled: `src/pylib/libconv.rs`, the beginning of the VTK converters of `src/converter.rs`, `src/converter/xmltools.rs`, `src/converter/legacytools.rs` and
`csv_multi_converter`. The `vtkio` crate is represented by the data structure it returns, the file system by the list of paths of a directory and what each
path holds, the `regex` crate by the text of the first capture group (for the documented patterns `(\d+).vtk` by its definition, `digitsThen`), the order of the
`natord` crate by a parameter.
-/

namespace Up4
open F

variable {K : Type} [Field K] [LinearOrder K] [IsStrictOrderedRing K] [FloorRing K] [Arith K]

/-- `vtkio::model::Attribute` of point data: a data array, or a field (a list of named arrays). Numbers are elements of `F K`, whatever type the file declares. -/
inductive PointAttr (K : Type) where
  | array (name : String) (data : List (F K))
  | field (name : String) (arrays : List (String × List (F K)))

/-- A piece of a data set. -/
structure Piece (K : Type) where
  points : List (F K)
  attrs : List (PointAttr K)

/-- `vtkio::model::DataSet`, as far as the converters distinguish. -/
inductive DataSet (K : Type) where
  | poly (pieces : List (Piece K))
  | ugrid (pieces : List (Piece K))
  | other

/-- `VTKType` (src/converter.rs:859-865). -/
inductive VtkType where
  | poly
  | ugrid

/-- One element of `cast_into::<u64>()` (num_traits `NumCast`): truncation towards zero, nothing outside the range. -/
def castU64 : F K → Option ℕ
  | .fin x => if -1 < x ∧ x < (2 : K) ^ 64 then some ⌊x⌋.toNat else none
  | _ => none

/-- `cast_into::<u64>().expect(..)`. -/
def castAll (l : List (F K)) : Run (List ℕ) :=
  l.foldlM (fun acc x => match castU64 x with | some n => .ok (acc ++ [n]) | none => .error .unwrap) []

/-- src/converter/xmltools.rs:22, 49: the pieces if the file is of the expected type. -/
def piecesOf (ty : VtkType) (d : DataSet K) : Run (List (Piece K)) :=
  match ty, d with
  | .poly, .poly l => .ok l
  | .ugrid, .ugrid l => .ok l
  | _, _ => .error .explicit

/-- The data of an attribute if it is a data array of this name (src/converter/xmltools.rs:30-42). -/
def PointAttr.named (field : String) : PointAttr K → List (F K)
  | .array n d => if n = field then d else []
  | .field _ _ => []

/-- `xmltools::get_field` (src/converter/xmltools.rs:8-79): the arrays of this name of all pieces, one after the other. -/
def xmlField (ty : VtkType) (d : DataSet K) (field : String) : Run (List (F K)) := do
  let l ← piecesOf ty d
  pure (l.flatMap fun p => p.attrs.flatMap (PointAttr.named field))

/-- `xmltools::get_positions` (src/converter/xmltools.rs:81-141). -/
def xmlPoints (ty : VtkType) (d : DataSet K) : Run (List (F K)) := do
  let l ← piecesOf ty d
  pure (l.flatMap Piece.points)

/-- `pieces[0]` of a `PolyData` set (src/converter/legacytools.rs:8-17). -/
def firstPiece : DataSet K → Run (Piece K)
  | .poly l => Selector.at' l 0
  | _ => .error .explicit

/-- `legacytools::get_field` (src/converter/legacytools.rs:2-34): the first attribute must be a field, with an array of this name. -/
def legacyField (d : DataSet K) (field : String) : Run (List (F K)) := do
  let p ← firstPiece d
  let a ← Selector.at' p.attrs 0
  match a with
  | .field _ arrays => match arrays.find? fun x => x.1 = field with
    | some x => .ok x.2
    | none => .error .explicit
  | .array _ _ => .error .explicit

/-- `legacytools::get_positions` (src/converter/legacytools.rs:35-53). -/
def legacyPoints (d : DataSet K) : Run (List (F K)) := do
  let p ← firstPiece d
  pure p.points

/-- Which of the converters: `LegacyVTKConverter` or `XMLVTKConverter` with a type. -/
inductive Reader where
  | legacy
  | xml (ty : VtkType)

/-- `get_field` of either. -/
def Reader.field : Reader → DataSet K → String → Run (List (F K))
  | .legacy, d, s => legacyField d s
  | .xml ty, d, s => xmlField ty d s

/-- `get_positions` of either. -/
def Reader.points : Reader → DataSet K → Run (List (F K))
  | .legacy, d => legacyPoints d
  | .xml ty, d => xmlPoints ty d

/-- The field names given by the user (src/pylib/libconv.rs:94-108). -/
structure FieldNames where
  velocity : String
  radius : String
  id : String
  type : String
  diameter : Option String

/-- The builder calls of the entry points (src/pylib/libconv.rs:109-171): a diameter field replaces the radius field. -/
def FieldNames.opts (n : FieldNames) : VtkOpts := ⟨true, true, true, some n.diameter.isNone⟩

/-- The name of the size field. -/
def FieldNames.size (n : FieldNames) : String := n.diameter.getD n.radius

/-- What the loop over the files reads from one file (src/converter.rs:656-745, 1083-1170). Simplified: here all fields are read before any is written. -/
def Reader.read (r : Reader) (n : FieldNames) (d : DataSet K) (step : ℤ) : Run (VtkFile K) := do
  let ids ← castAll (← r.field d n.id)
  let sizes ← r.field d n.size
  let types ← castAll (← r.field d n.type)
  let vel ← r.field d n.velocity
  let pts ← r.points d
  pure ⟨step, ids, sizes, types, vel, pts⟩

/-- `str::parse::<i64>()` of a text of decimal digits. -/
def parseI64 (s : List Char) : Option ℤ :=
  let v : ℕ := s.foldl (fun n c => 10 * n + (c.toNat - '0'.toNat)) 0
  if s ≠ [] ∧ s.all Char.isDigit = true ∧ v < 2 ^ 63 then some (v : ℤ) else none

/-- What the `regex` crate captures: for a filter that is a regular expression, the text of the first group in the leftmost match, if there is one. -/
abbrev Engine := String → Option (String → Option (List Char))

/-- The step of a file (src/converter.rs:631-639, 1057-1065). -/
def stepOf (re : String → Option (List Char)) (name : String) : Run ℤ := do
  let t ← need (re name)
  need (parseI64 t)

/-- `write_hdf5_from_files` (src/converter.rs:585-856, 1012-1281), from the names on. `disk` is what `Vtk::import` finds under a name. -/
def convertFiles (eng : Engine) (disk : String → Option (DataSet K)) (r : Reader) (n : FieldNames) (filter : String) (dt : F K) (names : List String) : Run (TOut K) :=
  if names = [] then .error .explicit
  else do
    let re ← need (eng filter)
    let files ← names.foldlM (fun acc name => do
      let z ← stepOf re name
      let d ← need (disk name)
      let f ← r.read n d z
      pure (acc ++ [f])) []
    vtkConvert n.opts dt files

/-- `a.contains(b)`. -/
def contains (a b : String) : Bool := decide (b.toList <:+: a.toList)
/-- `a.ends_with(b)`. -/
def endsWith (a b : String) : Bool := decide (b.toList <:+ a.toList)

/-- The files of a folder that are converted (src/converter.rs:537-552, 966-981): the same in both converters. The order of `sort_unstable_by` is determined if no two
names are equal in it. -/
def folderFiles (le : String → String → Bool) (listing : List String) : List String :=
  (listing.filter fun s => endsWith s ".vtk" && !contains s "boundingBox").mergeSort le

/-- The choice of the converter by the filter (src/pylib/libconv.rs:110-171, 259-320). -/
def readerFor (filter : String) : Option Reader :=
  if contains filter ".vtk" then some .legacy
  else if contains filter ".vtu" then some (.xml .ugrid)
  else if contains filter ".vtp" then some (.xml .poly)
  else none

/-- `Converter.vtk` (src/pylib/libconv.rs:94-172). `none`: returned without having done anything. -/
def pyVtk (eng : Engine) (disk : String → Option (DataSet K)) (n : FieldNames) (filter : String) (dt : F K) (names : List String) : Run (Option (TOut K)) :=
  match readerFor filter with
  | some r => do pure (some (← convertFiles eng disk r n filter dt names))
  | none => .ok none

/-- `Converter.vtk_from_folder` (src/pylib/libconv.rs:243-321) with `write_hdf5_from_folder` (src/converter.rs:514-560, 943-990). `listing`: the paths of the folder in
the order of the operating system. -/
def pyVtkFolder (eng : Engine) (disk : String → Option (DataSet K)) (le : String → String → Bool) (n : FieldNames) (filter : String) (dt : F K) (listing : List String) :
    Run (Option (TOut K)) :=
  match readerFor filter with
  | some r =>
    if folderFiles le listing = [] then .error .explicit
    else do pure (some (← convertFiles eng disk r n filter dt (folderFiles le listing)))
  | none => .ok none

/-- The pattern `(\d+).ext` at the beginning of a text: as many digits as possible, then one character that is not a line break, then `ext`. Only ASCII digits. -/
def matchHere (ext : List Char) (s : List Char) : Option (List Char) :=
  ((List.range ((s.takeWhile Char.isDigit).length)).reverse.find? fun k => match s.drop (k + 1) with
    | c :: t => c != '\n' && ext.isPrefixOf t
    | [] => false).map fun k => s.take (k + 1)

/-- `Regex::captures`, first group, for the pattern `(\d+).ext`: the leftmost match. -/
def digitsThen (ext : List Char) : List Char → Option (List Char)
  | [] => none
  | c :: s => match matchHere ext (c :: s) with
    | some t => some t
    | none => digitsThen ext s

/-- `Converter.csv` (src/pylib/libconv.rs:362-403). -/
def pyCsv (lib : FitLib K) (o : CsvOpts K) (raw : List (List (F K))) : Run (POut K) :=
  if o.sampling % 2 = 0 then .error .explicit else csvConvert lib o raw

/-- `Converter.csv_multi` and `csv_multi_converter` (src/pylib/libconv.rs:460-502, src/converter.rs:381-434). `raw`: the table, if the file exists.
`none`: a line was printed and nothing done. -/
def pyCsvMulti (lib : FitLib K) (o : CsvOpts K) (mode : String) (raw : Option (List (List (F K)))) : Run (Option (POut K)) := do
  let t ← need raw
  if mode = "chain" then do pure (some (← chainConvert lib o t))
  else if mode = "id_line" then do pure (some (← idConvert lib o t))
  else pure none

/-- The default of `method` (src/pylib/libconv.rs:470). -/
def defaultMethod : String := "\"id_line\""

end Up4
