import Verif.Model.Dispatch

set_option linter.unusedSectionVars false

/-!
# The text of CSV files

Modelled: how the CSV converters read a file (the `csv` crate with the options the code sets, and `deserialize_array2_dynamic` of `ndarray-csv`): records, comments, fields,
header, numbers. The parsing of a number is a parameter here; Model/CsvNumber.lean models it.
-/

namespace Up4
open F

variable {K : Type} [Field K] [LinearOrder K] [IsStrictOrderedRing K] [FloorRing K] [Arith K]

/-- The arguments of the reader: delimiter, header, comment (src/pylib/libconv.rs:366-368, 464-466, 556-558). -/
structure CsvArgs where
  delimiter : String
  header : Bool
  comment : String

/-- The parts of the `csv` crate that are parameters: `str::parse::<f64>()`, and whether a comment at the very end of a file, without a line end, is ignored (the table-driven
and the reference automaton of the crate differ in that) or read as a record with one empty field. -/
structure CsvLib (K : Type) where
  parse : List Char → Option (F K)
  endNote : Bool

/-- The states of the automaton of `csv-core` (`NfaState`), without those that are left without reading a character (`EndRecord`, `EndFieldDelim`, `EndFieldTerm`,
`InRecordTerm`). -/
inductive ScanState where
  | startRecord | startField | inField | inQuoted | escaped | afterQuote | comment | crlf
  deriving DecidableEq

/-- What has been read: the state, the characters of the current field, the fields of the current record, the records. -/
structure CsvScan where
  state : ScanState
  cell : List Char
  row : List (List Char)
  recs : List (List (List Char))

/-- A character in a field that is not quoted, or after the closing quotation mark (`InField`, `InDoubleEscapedQuote` with `double_quote(false)`): delimiter, line end
(`Terminator::CRLF`: either character ends the record) or part of the field. -/
def CsvScan.field (d : Char) (s : CsvScan) (x : Char) : CsvScan :=
  if x = d then ⟨.startField, [], s.row ++ [s.cell], s.recs⟩
  else if x = '\r' then ⟨.crlf, [], [], s.recs ++ [s.row ++ [s.cell]]⟩
  else if x = '\n' then ⟨.startRecord, [], [], s.recs ++ [s.row ++ [s.cell]]⟩
  else ⟨.inField, s.cell ++ [x], s.row, s.recs⟩

/-- The first character of a field (`StartField`). -/
def CsvScan.first (d : Char) (s : CsvScan) (x : Char) : CsvScan :=
  if x = '"' then ⟨.inQuoted, s.cell, s.row, s.recs⟩ else s.field d x

/-- The first character of a record (`StartRecord`): line ends are skipped, the comment character begins a comment. -/
def CsvScan.begin (d c : Char) (s : CsvScan) (x : Char) : CsvScan :=
  if x = '\r' ∨ x = '\n' then ⟨.startRecord, s.cell, s.row, s.recs⟩
  else if x = c then ⟨.comment, s.cell, s.row, s.recs⟩
  else s.first d x

/-- One step of the automaton of `csv-core` (`Reader::transition_nfa`) with delimiter `d`, comment character `c`, quotation mark `"`, `double_quote(false)` and, if `esc`,
the escape character `\` (the options of src/converter.rs:74-81, csv_multi_chain.rs:44-51, csv_multi_idline.rs:49-56 with `esc = true`;
csv_multi_file_time_step.rs:88-95 with `esc = false`). -/
def csvStep (esc : Bool) (d c : Char) (s : CsvScan) (x : Char) : CsvScan :=
  match s.state with
  | .startRecord => s.begin d c x
  | .crlf => if x = '\n' then ⟨.startRecord, s.cell, s.row, s.recs⟩ else s.begin d c x
  | .startField => s.first d x
  | .inField => s.field d x
  | .inQuoted =>
    if x = '"' then ⟨.afterQuote, s.cell, s.row, s.recs⟩
    else if esc = true ∧ x = '\\' then ⟨.escaped, s.cell, s.row, s.recs⟩
    else ⟨.inQuoted, s.cell ++ [x], s.row, s.recs⟩
  | .escaped => ⟨.inQuoted, s.cell ++ [x], s.row, s.recs⟩
  | .afterQuote => s.field d x
  | .comment => if x = '\n' then ⟨.startRecord, s.cell, s.row, s.recs⟩ else s

/-- The end of the file (`Reader::transition_final_dfa`): a record that was begun ends. -/
def csvFinish (lib : CsvLib K) (s : CsvScan) : List (List (List Char)) :=
  match s.state with
  | .startRecord => s.recs
  | .crlf => s.recs
  | .comment => if lib.endNote then s.recs else s.recs ++ [[[]]]
  | _ => s.recs ++ [s.row ++ [s.cell]]

/-- A byte order mark at the very beginning is skipped (`strip_utf8_bom` of `csv-core`; once). -/
def stripMark : List Char → List Char
  | [] => []
  | x :: t => if x = '\uFEFF' then t else x :: t

/-- The records of a text (`csv::Reader::records`) after the byte order mark. Simplified: characters are bytes. -/
def csvRecords (lib : CsvLib K) (esc : Bool) (d c : Char) (text : List Char) : List (List (List Char)) :=
  csvFinish lib (text.foldl (csvStep esc d c) ⟨.startRecord, [], [], []⟩)

/-- All fields of a record as numbers (`deserialize::<Vec<f64>>()`). -/
def csvRow (lib : CsvLib K) (cells : List (List Char)) : Run (List (F K)) :=
  cells.mapM fun c => match lib.parse c with
    | some x => .ok x
    | none => .error .unwrap

/-- `a.as_bytes()[0]`: the first character of an argument. Simplified: characters are bytes. -/
def firstByte (s : String) : Run Char :=
  match s.toList with
  | c :: _ => .ok c
  | [] => .error .index

/-- Reading a CSV file into a table (src/converter.rs:74-86 with `flexible = false`; csv_multi_chain.rs:44-57, csv_multi_idline.rs:49-64 and
csv_multi_file_time_step.rs:88-100 with `flexible = true`; all but the last with the escape character). Without `flexible` a record with another number of fields than the first one, the header included, is an
error; with it `deserialize_array2_dynamic` refuses rows of different lengths. -/
def readTable (lib : CsvLib K) (flexible esc : Bool) (a : CsvArgs) (text : List Char) : Run (List (List (F K))) := do
  let d ← firstByte a.delimiter
  let c ← firstByte a.comment
  let recs := csvRecords lib esc d c (stripMark text)
  let same := recs.all fun r => decide (some r.length = recs.head?.map List.length)
  let body := if a.header then recs.drop 1 else recs
  let rows ← body.mapM (csvRow lib)
  if flexible = false ∧ same = false then .error .unwrap
  else if rows.all fun r => decide (some r.length = rows.head?.map List.length) then .ok rows
  else .error .unwrap

/-- `Converter.csv` (src/pylib/libconv.rs:362-403) on the text of a file. -/
def csvFromText (lib : FitLib K) (cl : CsvLib K) (o : CsvOpts K) (a : CsvArgs) (text : List Char) : Run (POut K) := do
  if o.sampling % 2 = 0 then .error .explicit
  else do
    let t ← readTable cl false true a text
    pyCsv lib o t

/-- `Converter.csv_multi` (src/pylib/libconv.rs:460-502, src/converter.rs:381-434) on the text of a file; `none`: nothing was done. -/
def csvMultiFromText (lib : FitLib K) (cl : CsvLib K) (o : CsvOpts K) (a : CsvArgs) (mode : String) (text : List Char) : Run (Option (POut K)) := do
  if mode = "chain" ∨ mode = "id_line" then do
    let t ← readTable cl true true a text
    pyCsvMulti lib o mode (some t)
  else pure none

/-- `Converter.csv_multi_files` (src/pylib/libconv.rs:551-593) on the texts of the files. Simplified: here all files are read before any is converted. -/
def csvFilesFromText (cl : CsvLib K) (cols : List ℕ) (a : CsvArgs) (times : List (F K)) (texts : List (List Char)) : Run (TOut K) := do
  let ts ← texts.mapM (readTable cl true false a)
  fileConvert cols times ts

/-- The default arguments of `Converter.csv` (src/pylib/libconv.rs:363-373), apart from the files. -/
def csvDefaults : CsvOpts K × CsvArgs := (⟨[0, 1, 2, 3], false, false, 0, 9⟩, ⟨",", true, "#"⟩)

/-- The default arguments of `Converter.csv_multi` (src/pylib/libconv.rs:460-471): the texts contain quotation marks. -/
def csvMultiDefaults : CsvOpts K × CsvArgs := (⟨[0, 1, 2, 3], false, false, 0, 9⟩, ⟨"\",\"", true, "\"#\""⟩)

/-- The default arguments of `Converter.csv_multi_files` (src/pylib/libconv.rs:551-562). -/
def csvFilesDefaults : List ℕ × CsvArgs := ([0, 1, 2, 3], ⟨",", true, "#"⟩)

end Up4
