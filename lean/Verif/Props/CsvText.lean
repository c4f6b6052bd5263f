import Verif.Model.CsvText
import Verif.Props.Csv
import Verif.Props.CsvSteps
import Verif.Props.EndToEndCsv
import Verif.Props.Folder

set_option linter.unusedSectionVars false

/-!
# C101 – C104: from the text of CSV files
-/

namespace Up4
open F

variable {K : Type} [Field K] [LinearOrder K] [IsStrictOrderedRing K] [FloorRing K] [Arith K]

/-! ### Specification -/

/-- A line of a CSV file. -/
inductive CsvLine where
  | row (cells : List (List Char))
  | note (t : List Char)
  | blank

/-- How the line is written, with delimiter `d` and comment character `c`. -/
def CsvLine.text (d c : Char) : CsvLine → List Char
  | .row cells => [d].intercalate cells
  | .note t => c :: t
  | .blank => []

/-- A text of lines that end with a newline, or (if marked) a carriage return and a newline, and a last line without. -/
def csvText (d c : Char) (ls : List (CsvLine × Bool)) (last : CsvLine) : List Char :=
  (ls.flatMap fun x => x.1.text d c ++ if x.2 then ['\r', '\n'] else ['\n']) ++ last.text d c

/-- The records among the lines. -/
def recordsOf (ls : List CsvLine) : List (List (List Char)) :=
  ls.filterMap fun l => match l with
    | .row cells => some cells
    | _ => none

/-- A character that has no other meaning. -/
def PlainChar (x : Char) : Prop := x ≠ '\n' ∧ x ≠ '\r' ∧ x ≠ '"' ∧ x ≠ '\uFEFF'

/-- The line can be written this way: no special characters, no delimiters in cells, a row is not empty and does not begin like a comment. -/
def CsvLine.Plain (d c : Char) : CsvLine → Prop
  | .row cells => (∀ cell ∈ cells, ∀ x ∈ cell, x ≠ d ∧ PlainChar x) ∧ [d].intercalate cells ≠ [] ∧ ([d].intercalate cells).head? ≠ some c
  | .note t => ∀ x ∈ t, PlainChar x
  | .blank => True

/-- The cells show these numbers. -/
def Reads (lib : CsvLib K) (cells : List (List Char)) (row : List (F K)) : Prop := List.Forall₂ (fun cell x => lib.parse cell = some x) cells row

/-- All records have the same number of cells. -/
def Even {α : Type} (l : List (List α)) : Prop := ∃ k, ∀ r ∈ l, r.length = k

/-- A cell: what it shows, and whether it is written in quotation marks. -/
structure CsvCell where
  text : List Char
  quoted : Bool

/-- How a cell is written. Within quotation marks, quotation marks and backslashes are preceded by a backslash if the reader knows this (`esc`). -/
def CsvCell.write (esc : Bool) (x : CsvCell) : List Char :=
  if x.quoted then '"' :: (if esc then x.text.flatMap fun y => if y = '"' ∨ y = '\\' then ['\\', y] else [y] else x.text) ++ ['"'] else x.text

/-- A cell can be written this way: outside quotation marks without special characters and delimiters, within them without quotation marks if these cannot be escaped. -/
def CsvCell.Fine (esc : Bool) (d : Char) (x : CsvCell) : Prop :=
  if x.quoted then esc = false → '"' ∉ x.text else ∀ y ∈ x.text, y ≠ d ∧ PlainChar y

/-- A line of a CSV file with quotation marks. -/
inductive QuotedLine where
  | row (cells : List CsvCell)
  | note (t : List Char)
  | blank

/-- How the line is written. -/
def QuotedLine.text (esc : Bool) (d c : Char) : QuotedLine → List Char
  | .row cells => [d].intercalate (cells.map (CsvCell.write esc))
  | .note t => c :: t
  | .blank => []

/-- The line can be written this way. A comment may contain anything but a newline. -/
def QuotedLine.Fine (esc : Bool) (d c : Char) : QuotedLine → Prop
  | .row cells => (∀ x ∈ cells, x.Fine esc d) ∧ [d].intercalate (cells.map (CsvCell.write esc)) ≠ [] ∧ ([d].intercalate (cells.map (CsvCell.write esc))).head? ≠ some c
  | .note t => '\n' ∉ t
  | .blank => True

/-- The text of the lines, as `csvText`. -/
def quotedText (esc : Bool) (d c : Char) (ls : List (QuotedLine × Bool)) (last : QuotedLine) : List Char :=
  (ls.flatMap fun x => x.1.text esc d c ++ if x.2 then ['\r', '\n'] else ['\n']) ++ last.text esc d c

/-- What the rows among the lines show. -/
def shownRows (ls : List QuotedLine) : List (List (List Char)) :=
  ls.filterMap fun l => match l with
    | .row cells => some (cells.map CsvCell.text)
    | _ => none

/-! ### The automaton -/

/-- A field that can end here. -/
def CsvScan.Open (s : CsvScan) : Prop := s.state = .inField ∨ s.state = .afterQuote ∨ s.state = .startField

theorem open_step {esc : Bool} {d c x : Char} {s : CsvScan} (h : s.Open) (hx : x ≠ '"') : csvStep esc d c s x = s.field d x := by
  obtain ⟨st, cell, row, recs⟩ := s
  rcases h with h | h | h <;> simp only at h <;> subst h
  · rfl
  · rfl
  · change CsvScan.first d _ x = _
    unfold CsvScan.first
    rw [if_neg hx]

theorem open_finish (lib : CsvLib K) {s : CsvScan} (h : s.Open) : csvFinish lib s = s.recs ++ [s.row ++ [s.cell]] := by
  obtain ⟨st, cell, row, recs⟩ := s
  rcases h with h | h | h <;> simp only at h <;> subst h <;> rfl

/-- Plain characters of a cell are collected. -/
theorem scan_plain {esc : Bool} {d c : Char} (t : List Char) (ht : ∀ y ∈ t, y ≠ d ∧ PlainChar y) (s : CsvScan) (h : s.Open) :
    ∃ s', t.foldl (csvStep esc d c) s = s' ∧ s'.Open ∧ s'.cell = s.cell ++ t ∧ s'.row = s.row ∧ s'.recs = s.recs := by
  induction t generalizing s with
  | nil => exact ⟨s, rfl, h, by simp, rfl, rfl⟩
  | cons y t ih =>
    have hy := ht y List.mem_cons_self
    have e : csvStep esc d c s y = ⟨.inField, s.cell ++ [y], s.row, s.recs⟩ := by
      rw [open_step h hy.2.2.2.1]
      unfold CsvScan.field
      rw [if_neg hy.1, if_neg hy.2.2.1, if_neg hy.2.1]
    rw [List.foldl_cons, e]
    obtain ⟨s', e1, e2, e3, e4, e5⟩ := ih (fun z hz => ht z (List.mem_cons_of_mem _ hz)) ⟨.inField, s.cell ++ [y], s.row, s.recs⟩ (Or.inl rfl)
    exact ⟨s', e1, e2, by rw [e3]; simp, e4, e5⟩

/-- The content of a quoted cell is collected, escaped. -/
theorem scan_escaped {d c : Char} (t cell : List Char) (row : List (List Char)) (recs : List (List (List Char))) :
    (t.flatMap fun y => if y = '"' ∨ y = '\\' then ['\\', y] else [y]).foldl (csvStep true d c) ⟨.inQuoted, cell, row, recs⟩ = ⟨.inQuoted, cell ++ t, row, recs⟩ := by
  induction t generalizing cell with
  | nil => simp
  | cons y t ih =>
    rw [List.flatMap_cons, List.foldl_append]
    have e : (if y = '"' ∨ y = '\\' then ['\\', y] else [y]).foldl (csvStep true d c) ⟨.inQuoted, cell, row, recs⟩ = ⟨.inQuoted, cell ++ [y], row, recs⟩ := by
      by_cases hy : y = '"' ∨ y = '\\'
      · rw [if_pos hy]
        rfl
      · rw [if_neg hy, List.foldl_cons, List.foldl_nil]
        change (if y = '"' then _ else if true = true ∧ y = '\\' then _ else _) = _
        rw [if_neg fun h => hy (Or.inl h), if_neg fun h => hy (Or.inr h.2)]
    rw [e, ih]
    simp

/-- The content of a quoted cell is collected, as it is. -/
theorem scan_raw {d c : Char} (t cell : List Char) (ht : '"' ∉ t) (row : List (List Char)) (recs : List (List (List Char))) :
    t.foldl (csvStep false d c) ⟨.inQuoted, cell, row, recs⟩ = ⟨.inQuoted, cell ++ t, row, recs⟩ := by
  induction t generalizing cell with
  | nil => simp
  | cons y t ih =>
    have e : csvStep false d c ⟨.inQuoted, cell, row, recs⟩ y = ⟨.inQuoted, cell ++ [y], row, recs⟩ := by
      change (if y = '"' then _ else if false = true ∧ y = '\\' then _ else _) = _
      rw [if_neg (fun h => ht (by simp [h])), if_neg (fun h => by cases h.1)]
    rw [List.foldl_cons, e, ih _ (fun h => ht (List.mem_cons_of_mem _ h))]
    simp

/-- A cell is read from its beginning. -/
theorem scan_cell {esc : Bool} {d c : Char} (x : CsvCell) (hx : x.Fine esc d) (row : List (List Char)) (recs : List (List (List Char))) :
    ∃ s', (x.write esc).foldl (csvStep esc d c) ⟨.startField, [], row, recs⟩ = s' ∧ s'.Open ∧ s'.cell = x.text ∧ s'.row = row ∧ s'.recs = recs := by
  unfold CsvCell.Fine at hx
  unfold CsvCell.write
  by_cases hq : x.quoted = true
  · rw [if_pos hq] at hx ⊢
    rw [List.cons_append, List.foldl_cons, List.foldl_append]
    have e0 : csvStep esc d c ⟨.startField, [], row, recs⟩ '"' = ⟨.inQuoted, [], row, recs⟩ := rfl
    rw [e0]
    have e : (if esc = true then x.text.flatMap fun y => if y = '"' ∨ y = '\\' then ['\\', y] else [y] else x.text).foldl (csvStep esc d c) ⟨.inQuoted, [], row, recs⟩ =
        ⟨.inQuoted, x.text, row, recs⟩ := by
      cases esc with
      | true =>
        rw [if_pos rfl, scan_escaped]
        rfl
      | false =>
        rw [if_neg (by simp), scan_raw _ _ (hx rfl)]
        rfl
    rw [e]
    exact ⟨_, rfl, Or.inr (Or.inl rfl), rfl, rfl, rfl⟩
  · rw [if_neg hq] at hx ⊢
    obtain ⟨s', e1, e2, e3, e4, e5⟩ := scan_plain (esc := esc) (d := d) (c := c) x.text hx ⟨.startField, [], row, recs⟩ (Or.inr (Or.inr rfl))
    exact ⟨s', e1, e2, e3, e4, e5⟩

/-- The cells of a row are read from the beginning of the first. -/
theorem scan_cells {esc : Bool} {d c : Char} (hd : d ≠ '"') (cells : List CsvCell) (hne : cells ≠ []) (hc : ∀ x ∈ cells, x.Fine esc d) (row : List (List Char))
    (recs : List (List (List Char))) :
    ∃ s', ([d].intercalate (cells.map (CsvCell.write esc))).foldl (csvStep esc d c) ⟨.startField, [], row, recs⟩ = s' ∧ s'.Open ∧
      s'.row ++ [s'.cell] = row ++ cells.map CsvCell.text ∧ s'.recs = recs := by
  induction cells generalizing row with
  | nil => exact absurd rfl hne
  | cons x cells ih =>
    obtain ⟨s1, e1, e2, e3, e4, e5⟩ := scan_cell (c := c) x (hc x List.mem_cons_self) row recs
    cases cells with
    | nil =>
      refine ⟨s1, ?_, e2, ?_, e5⟩
      · simpa using e1
      · rw [e3, e4]; rfl
    | cons y cells =>
      rw [List.map_cons, List.map_cons, List.intercalate_cons_cons, List.foldl_append, List.foldl_append, e1, List.foldl_cons, List.foldl_nil, open_step e2 hd]
      have e : s1.field d d = ⟨.startField, [], row ++ [x.text], recs⟩ := by
        unfold CsvScan.field
        rw [if_pos rfl, e3, e4, e5]
      rw [e]
      obtain ⟨s2, k1, k2, k3, k4⟩ := ih (by simp) (fun z hz => hc z (List.mem_cons_of_mem _ hz)) (row ++ [x.text])
      refine ⟨s2, by rw [← k1]; rfl, k2, ?_, k4⟩
      rw [k3]
      simp

/-- At the beginning of a record, a character that begins no comment and is no line end is read as the first of a field. -/
theorem scan_begin {esc : Bool} {d c : Char} (t : List Char) (h : t ≠ []) (hc : t.head? ≠ some c) (hr : t.head? ≠ some '\r') (hn : t.head? ≠ some '\n')
    (recs : List (List (List Char))) :
    t.foldl (csvStep esc d c) ⟨.startRecord, [], [], recs⟩ = t.foldl (csvStep esc d c) ⟨.startField, [], [], recs⟩ := by
  cases t with
  | nil => exact absurd rfl h
  | cons x t =>
    rw [List.foldl_cons, List.foldl_cons]
    have hx : ∀ y : Char, (x :: t).head? ≠ some y → x ≠ y := by
      rintro y hy rfl
      exact hy rfl
    have : csvStep esc d c ⟨.startRecord, [], [], recs⟩ x = csvStep esc d c ⟨.startField, [], [], recs⟩ x := by
      change CsvScan.begin d c _ x = CsvScan.first d _ x
      unfold CsvScan.begin
      rw [if_neg (not_or.2 ⟨hx _ hr, hx _ hn⟩), if_neg (hx _ hc)]
      rfl
    rw [this]

/-- What a line does: with a line end, or at the end of the file (for a `note` only if the reader ignores it there), it adds these records. -/
def Line (lib : CsvLib K) (esc : Bool) (d c : Char) (t : List Char) (o : List (List (List Char))) (note : Bool) : Prop :=
  ∀ recs, ∃ s, t.foldl (csvStep esc d c) ⟨.startRecord, [], [], recs⟩ = s ∧
    csvStep esc d c s '\n' = ⟨.startRecord, [], [], recs ++ o⟩ ∧ csvStep esc d c (csvStep esc d c s '\r') '\n' = ⟨.startRecord, [], [], recs ++ o⟩ ∧
    (note = false ∨ lib.endNote = true → csvFinish lib s = recs ++ o)

theorem line_open (lib : CsvLib K) {esc : Bool} {d c : Char} (hd : d ≠ '\r' ∧ d ≠ '\n') {s : CsvScan} (h : s.Open) (recs : List (List (List Char))) (hrecs : s.recs = recs) :
    csvStep esc d c s '\n' = ⟨.startRecord, [], [], recs ++ [s.row ++ [s.cell]]⟩ ∧
    csvStep esc d c (csvStep esc d c s '\r') '\n' = ⟨.startRecord, [], [], recs ++ [s.row ++ [s.cell]]⟩ ∧
    csvFinish lib s = recs ++ [s.row ++ [s.cell]] := by
  refine ⟨?_, ?_, ?_⟩
  · rw [open_step h (by decide)]
    unfold CsvScan.field
    rw [if_neg (Ne.symm hd.2), if_neg (by decide), if_pos rfl, hrecs]
  · rw [open_step h (by decide)]
    unfold CsvScan.field
    rw [if_neg (Ne.symm hd.1), if_pos rfl, hrecs]
    rfl
  · rw [open_finish lib h, hrecs]

theorem line_row (lib : CsvLib K) {esc : Bool} {d c : Char} (hd : PlainChar d) (cells : List CsvCell) (h : (QuotedLine.row cells).Fine esc d c) :
    Line lib esc d c ((QuotedLine.row cells).text esc d c) [cells.map CsvCell.text] false := by
  intro recs
  obtain ⟨h1, h2, h3⟩ := h
  have hne : cells ≠ [] := by
    rintro rfl
    exact h2 rfl
  have hfirst : ∀ y, y = '\r' ∨ y = '\n' → ([d].intercalate (cells.map (CsvCell.write esc))).head? ≠ some y := by
    intro y hy he
    obtain ⟨x, cells, rfl⟩ := List.exists_cons_of_ne_nil hne
    have hx := h1 x List.mem_cons_self
    unfold CsvCell.Fine at hx
    have hw : ∀ t, x.write esc = t → t.head? ≠ some y := by
      intro t ht
      subst ht
      unfold CsvCell.write
      by_cases hq : x.quoted = true
      · rw [if_pos hq]
        intro h'
        injection h' with h'
        subst h'
        rcases hy with hy | hy <;> revert hy <;> decide
      · rw [if_neg hq] at hx ⊢
        intro h'
        have := (hx y (List.mem_of_mem_head? h')).2
        rcases hy with rfl | rfl
        · exact this.2.1 rfl
        · exact this.1 rfl
    cases cells with
    | nil =>
      rw [List.map_singleton, List.intercalate_singleton] at he
      exact hw _ rfl he
    | cons z cells =>
      rw [List.map_cons, List.map_cons, List.intercalate_cons_cons] at he
      cases e : x.write esc with
      | nil =>
        rw [e] at he
        injection he with he
        subst he
        rcases hy with rfl | rfl
        · exact hd.2.1 rfl
        · exact hd.1 rfl
      | cons u v =>
        rw [e] at he
        exact hw _ e he
  change ∃ s, ([d].intercalate (cells.map (CsvCell.write esc))).foldl (csvStep esc d c) _ = s ∧ _
  rw [scan_begin _ h2 h3 (hfirst _ (Or.inl rfl)) (hfirst _ (Or.inr rfl))]
  obtain ⟨s, e1, e2, e3, e4⟩ := scan_cells (c := c) hd.2.2.1 cells hne h1 [] recs
  rw [List.nil_append] at e3
  obtain ⟨k1, k2, k4⟩ := line_open lib (esc := esc) (c := c) ⟨hd.2.1, hd.1⟩ e2 recs e4
  rw [e3] at k1 k2 k4
  exact ⟨s, e1, k1, k2, fun _ => k4⟩

theorem scan_note {esc : Bool} {d c : Char} (t : List Char) (ht : '\n' ∉ t) (recs : List (List (List Char))) :
    t.foldl (csvStep esc d c) ⟨.comment, [], [], recs⟩ = ⟨.comment, [], [], recs⟩ := by
  induction t with
  | nil => rfl
  | cons x t ih =>
    rw [List.foldl_cons]
    have : csvStep esc d c ⟨.comment, [], [], recs⟩ x = ⟨.comment, [], [], recs⟩ := by
      change (if x = '\n' then _ else _) = _
      rw [if_neg fun h => ht (by simp [h])]
    rw [this, ih fun h => ht (List.mem_cons_of_mem _ h)]

theorem line_note (lib : CsvLib K) {esc : Bool} {d c : Char} (hc : PlainChar c) (t : List Char) (ht : '\n' ∉ t) :
    Line lib esc d c (c :: t) [] true := by
  intro recs
  have e : csvStep esc d c ⟨.startRecord, [], [], recs⟩ c = ⟨.comment, [], [], recs⟩ := by
    change CsvScan.begin d c _ c = _
    unfold CsvScan.begin
    rw [if_neg (not_or.2 ⟨hc.2.1, hc.1⟩), if_pos rfl]
  refine ⟨⟨.comment, [], [], recs⟩, ?_, ?_, ?_, ?_⟩
  · rw [List.foldl_cons, e, scan_note t ht]
  · rw [List.append_nil]; rfl
  · rw [List.append_nil]; rfl
  · intro h
    have h : lib.endNote = true := h.resolve_left (by decide)
    change (if lib.endNote = true then recs else _) = _
    rw [if_pos h, List.append_nil]

theorem line_blank (lib : CsvLib K) {esc : Bool} {d c : Char} : Line lib esc d c [] [] false := by
  intro recs
  refine ⟨⟨.startRecord, [], [], recs⟩, rfl, ?_, ?_, ?_⟩
  · rw [List.append_nil]; rfl
  · rw [List.append_nil]; rfl
  · intro _
    rw [List.append_nil]; rfl

/-- A line without quotation marks and delimiters is one cell. -/
theorem line_single (lib : CsvLib K) {esc : Bool} {d c : Char} (hd : d ≠ '\r' ∧ d ≠ '\n') (t : List Char) (h : t ≠ []) (ht : ∀ y ∈ t, y ≠ d ∧ PlainChar y) (hc : t.head? ≠ some c) :
    Line lib esc d c t [[t]] false := by
  intro recs
  rw [scan_begin t h hc (fun h => (ht _ (List.mem_of_mem_head? h)).2.2.1 rfl) (fun h => (ht _ (List.mem_of_mem_head? h)).2.1 rfl)]
  obtain ⟨s, e1, e2, e3, e4, e5⟩ := scan_plain (esc := esc) (d := d) (c := c) t ht ⟨.startField, [], [], recs⟩ (Or.inr (Or.inr rfl))
  obtain ⟨k1, k2, k4⟩ := line_open lib (esc := esc) (c := c) hd e2 recs e5
  rw [e3, e4] at k1 k2 k4
  exact ⟨s, e1, k1, k2, fun _ => k4⟩

/-- Lines one after the other. -/
theorem scan_lines (lib : CsvLib K) {esc : Bool} {d c : Char} (ls : List (List Char × Bool)) (os : List (List (List (List Char)))) (h : List.Forall₂ (fun l o => ∃ b, Line lib esc d c l.1 o b) ls os)
    (recs : List (List (List Char))) :
    (ls.flatMap fun x => x.1 ++ if x.2 then ['\r', '\n'] else ['\n']).foldl (csvStep esc d c) ⟨.startRecord, [], [], recs⟩ = ⟨.startRecord, [], [], recs ++ os.flatten⟩ := by
  induction h generalizing recs with
  | nil => simp
  | @cons l o ls os hl _ ih =>
    obtain ⟨b, hl⟩ := hl
    obtain ⟨s, e1, e2, e3, -⟩ := hl recs
    rw [List.flatMap_cons, List.foldl_append, List.foldl_append, e1]
    have : (if l.2 = true then ['\r', '\n'] else ['\n']).foldl (csvStep esc d c) s = ⟨.startRecord, [], [], recs ++ o⟩ := by
      by_cases hb : l.2 = true
      · rw [if_pos hb]; exact e3
      · rw [if_neg hb]; exact e2
    rw [this, ih]
    simp

/-- The records of a text of lines. -/
theorem records_lines (lib : CsvLib K) {esc : Bool} {d c : Char} (ls : List (List Char × Bool)) (os : List (List (List (List Char))))
    (h : List.Forall₂ (fun l o => ∃ b, Line lib esc d c l.1 o b) ls os) (t : List Char) (o : List (List (List Char))) {note : Bool} (ht : Line lib esc d c t o note)
    (hend : note = false ∨ lib.endNote = true) :
    csvRecords lib esc d c ((ls.flatMap fun x => x.1 ++ if x.2 then ['\r', '\n'] else ['\n']) ++ t) = os.flatten ++ o := by
  unfold csvRecords
  rw [List.foldl_append, scan_lines lib ls os h, List.nil_append]
  obtain ⟨s, e1, -, -, e2⟩ := ht os.flatten
  rw [e1]
  exact e2 hend

/-- What a line shows. -/
def QuotedLine.shows : QuotedLine → List (List (List Char))
  | .row cells => [cells.map CsvCell.text]
  | _ => []

/-- It is a comment. -/
def QuotedLine.isNote : QuotedLine → Bool
  | .note _ => true
  | _ => false

theorem fine_line (lib : CsvLib K) {esc : Bool} {d c : Char} (hd : PlainChar d) (hc : PlainChar c) {l : QuotedLine} (h : l.Fine esc d c) :
    Line lib esc d c (l.text esc d c) l.shows l.isNote := by
  cases l with
  | row cells => exact line_row lib hd cells h
  | note t => exact line_note lib hc t h
  | blank => exact line_blank lib

theorem shownRows_eq (ls : List QuotedLine) : shownRows ls = (ls.map QuotedLine.shows).flatten := by
  induction ls with
  | nil => rfl
  | cons l ls ih =>
    unfold shownRows at ih ⊢
    rw [List.filterMap_cons, List.map_cons, List.flatten_cons, ← ih]
    cases l <;> rfl

/-- The records of a text with quoted cells are what the rows show. -/
theorem quotedRecords_eq (lib : CsvLib K) {esc : Bool} {d c : Char} (hd : PlainChar d) (hc : PlainChar c) (ls : List (QuotedLine × Bool)) (last : QuotedLine)
    (h : ∀ l ∈ ls.map Prod.fst ++ [last], l.Fine esc d c) (hend : (∀ t, last ≠ .note t) ∨ lib.endNote = true) :
    csvRecords lib esc d c (quotedText esc d c ls last) = shownRows (ls.map Prod.fst ++ [last]) := by
  have h1 := records_lines lib (esc := esc) (d := d) (c := c) (ls.map fun x => (x.1.text esc d c, x.2)) (ls.map fun x => x.1.shows) (by
    rw [List.forall₂_map_left_iff, List.forall₂_map_right_iff, List.forall₂_same]
    intro x hx
    exact ⟨_, fine_line lib hd hc (h x.1 (List.mem_append_left _ (List.mem_map_of_mem hx)))⟩) (last.text esc d c) last.shows
    (fine_line lib hd hc (h last (by simp))) (hend.imp_left fun h => by
      cases last with
      | row cells => rfl
      | note t => exact absurd rfl (h t)
      | blank => rfl)
  rw [shownRows_eq, List.map_append, List.flatten_append, List.map_map, List.map_singleton, List.flatten_singleton]
  rw [List.flatMap_map] at h1
  exact h1

/-- A line without quotation marks. -/
def CsvLine.bare : CsvLine → QuotedLine
  | .row cells => .row (cells.map fun t => ⟨t, false⟩)
  | .note t => .note t
  | .blank => .blank

theorem bare_write (esc : Bool) (cells : List (List Char)) : (cells.map fun t => (⟨t, false⟩ : CsvCell)).map (CsvCell.write esc) = cells := by
  rw [List.map_map]
  exact List.map_id' cells

theorem bare_text (esc : Bool) (d c : Char) (l : CsvLine) : l.bare.text esc d c = l.text d c := by
  cases l with
  | row cells =>
    change [d].intercalate _ = [d].intercalate cells
    rw [bare_write]
  | note t => rfl
  | blank => rfl

theorem bare_fine {esc : Bool} {d c : Char} {l : CsvLine} (h : l.Plain d c) : l.bare.Fine esc d c := by
  cases l with
  | row cells =>
    obtain ⟨h1, h2, h3⟩ := h
    refine ⟨fun x hx => ?_, ?_, ?_⟩
    · obtain ⟨t, ht, rfl⟩ := List.mem_map.1 hx
      exact h1 t ht
    · rw [bare_write]; exact h2
    · rw [bare_write]; exact h3
  | note t => exact fun hn => (h _ hn).1 rfl
  | blank => trivial

theorem bare_rows (ls : List CsvLine) : shownRows (ls.map CsvLine.bare) = recordsOf ls := by
  unfold shownRows recordsOf
  rw [List.filterMap_map]
  refine List.filterMap_congr fun l _ => ?_
  cases l with
  | row cells =>
    change some ((cells.map fun t => (⟨t, false⟩ : CsvCell)).map CsvCell.text) = some cells
    rw [List.map_map]
    exact congrArg some (List.map_id' cells)
  | note t => rfl
  | blank => rfl

theorem mem_intercalate {α : Type} {d x : α} {cells : List (List α)} (h : x ∈ [d].intercalate cells) : x = d ∨ ∃ cell ∈ cells, x ∈ cell := by
  induction cells with
  | nil => simp at h
  | cons a l ih =>
    cases l with
    | nil =>
      simp at h
      exact Or.inr ⟨a, List.mem_cons_self, h⟩
    | cons b l =>
      rw [List.intercalate_cons_cons] at h
      simp only [List.mem_append, List.mem_singleton] at h
      rcases h with (h | h) | h
      · exact Or.inr ⟨a, List.mem_cons_self, h⟩
      · exact Or.inl h
      · rcases ih h with h | ⟨cell, hc, hx⟩
        · exact Or.inl h
        · exact Or.inr ⟨cell, List.mem_cons_of_mem _ hc, hx⟩

theorem plain_text {d c : Char} (hd : PlainChar d) (hc : PlainChar c) {l : CsvLine} (h : l.Plain d c) : ∀ x ∈ l.text d c, PlainChar x := by
  intro x hx
  cases l with
  | row cells =>
    rcases mem_intercalate hx with rfl | ⟨cell, h1, h2⟩
    · exact hd
    · exact (h.1 cell h1 x h2).2
  | note t =>
    rcases List.mem_cons.1 hx with rfl | hx
    · exact hc
    · exact h x hx
  | blank => cases hx

/-- The records of a text without quotation marks are the rows that were written. -/
theorem csvRecords_eq (lib : CsvLib K) (esc : Bool) {d c : Char} (hd : PlainChar d) (hc : PlainChar c) (ls : List (CsvLine × Bool)) (last : CsvLine)
    (h : ∀ l ∈ ls.map Prod.fst ++ [last], l.Plain d c) (hend : (∀ t, last ≠ .note t) ∨ lib.endNote = true) :
    csvRecords lib esc d c (csvText d c ls last) = recordsOf (ls.map Prod.fst ++ [last]) := by
  have e : csvText d c ls last = quotedText esc d c (ls.map fun x => (x.1.bare, x.2)) last.bare := by
    unfold csvText quotedText
    rw [List.flatMap_map, bare_text]
    simp only [bare_text]
  have e2 : (ls.map fun x => (x.1.bare, x.2)).map Prod.fst ++ [last.bare] = (ls.map Prod.fst ++ [last]).map CsvLine.bare := by
    rw [List.map_map, List.map_append, List.map_map]
    rfl
  rw [e, quotedRecords_eq lib hd hc, e2, bare_rows]
  · intro l hl
    rw [e2] at hl
    obtain ⟨l', h', rfl⟩ := List.mem_map.1 hl
    exact bare_fine (h l' h')
  · refine hend.imp_left fun h t => ?_
    cases last with
    | row cells => intro h; cases h
    | note t' => exact absurd rfl (h t')
    | blank => intro h; cases h

/-! ### No byte order mark -/

theorem stripMark_eq {t : List Char} (h : t.head? ≠ some '\uFEFF') : stripMark t = t := by
  cases t with
  | nil => rfl
  | cons x t =>
    change (if x = '\uFEFF' then t else x :: t) = _
    rw [if_neg (fun e => h (by rw [e]; rfl))]

theorem write_head {esc : Bool} {d : Char} {x : CsvCell} (h : x.Fine esc d) : (x.write esc).head? ≠ some '\uFEFF' := by
  obtain ⟨t, q⟩ := x
  cases q with
  | true => intro e; cases esc <;> cases e
  | false =>
    intro e
    have e : t.head? = some '\uFEFF' := e
    exact (h _ (List.mem_of_mem_head? e)).2.2.2.2 rfl

theorem line_head {esc : Bool} {d c : Char} (hd : PlainChar d) (hc : PlainChar c) {l : QuotedLine} (h : l.Fine esc d c) :
    (l.text esc d c).head? ≠ some '\uFEFF' := by
  cases l with
  | row cells =>
    change ([d].intercalate (cells.map (CsvCell.write esc))).head? ≠ _
    cases cells with
    | nil => intro e; cases e
    | cons x cells =>
      have hx := write_head (h.1 x List.mem_cons_self)
      cases cells with
      | nil => simpa using hx
      | cons y cells =>
        rw [List.map_cons, List.map_cons, List.intercalate_cons_cons, List.append_assoc, List.head?_append]
        cases hw : (x.write esc).head? with
        | none => intro e; exact hd.2.2.2 (by simpa using e)
        | some z => rw [hw] at hx; exact hx
  | note t => intro e; exact hc.2.2.2 (by simpa [QuotedLine.text] using e)
  | blank => intro e; cases e

theorem ends_head {ls : List (List Char × Bool)} {last : List Char} (h : ∀ t ∈ ls.map Prod.fst ++ [last], t.head? ≠ some '\uFEFF') :
    ((ls.flatMap fun x => x.1 ++ if x.2 then ['\r', '\n'] else ['\n']) ++ last).head? ≠ some '\uFEFF' := by
  cases ls with
  | nil => exact h last (by simp)
  | cons x ls =>
    have hx := h x.1 (by simp)
    rw [List.flatMap_cons, List.append_assoc, List.append_assoc, List.head?_append]
    cases hw : x.1.head? with
    | none =>
      obtain ⟨t, b⟩ := x
      cases b <;> simp
    | some z => rw [hw] at hx; exact hx

theorem mark_quoted {esc : Bool} {d c : Char} (hd : PlainChar d) (hc : PlainChar c) (ls : List (QuotedLine × Bool)) (last : QuotedLine)
    (h : ∀ l ∈ ls.map Prod.fst ++ [last], l.Fine esc d c) : stripMark (quotedText esc d c ls last) = quotedText esc d c ls last := by
  refine stripMark_eq ?_
  have := ends_head (ls := ls.map fun x => (x.1.text esc d c, x.2)) (last := last.text esc d c) (fun t ht => by
    rw [List.map_map] at ht
    rcases List.mem_append.1 ht with ht | ht
    · obtain ⟨x, hx, rfl⟩ := List.mem_map.1 ht
      exact line_head hd hc (h x.1 (List.mem_append_left _ (List.mem_map_of_mem hx)))
    · rw [List.mem_singleton.1 ht]
      exact line_head hd hc (h last (by simp)))
  rw [List.flatMap_map] at this
  exact this

theorem mark_plain {d c : Char} (hd : PlainChar d) (hc : PlainChar c) (ls : List (CsvLine × Bool)) (last : CsvLine)
    (h : ∀ l ∈ ls.map Prod.fst ++ [last], l.Plain d c) : stripMark (csvText d c ls last) = csvText d c ls last := by
  refine stripMark_eq ?_
  have := ends_head (ls := ls.map fun x => (x.1.text d c, x.2)) (last := last.text d c) (fun t ht e => by
    rw [List.map_map] at ht
    rcases List.mem_append.1 ht with ht | ht
    · obtain ⟨x, hx, rfl⟩ := List.mem_map.1 ht
      exact (plain_text hd hc (h x.1 (List.mem_append_left _ (List.mem_map_of_mem hx))) _ (List.mem_of_mem_head? e)).2.2.2 rfl
    · rw [List.mem_singleton.1 ht] at e
      exact (plain_text hd hc (h last (by simp)) _ (List.mem_of_mem_head? e)).2.2.2 rfl)
  rw [List.flatMap_map] at this
  exact this

/-! ### Numbers -/

theorem mapM_ok_iff {α β : Type} {f : α → Run β} {l : List α} {r : List β} : l.mapM f = .ok r ↔ List.Forall₂ (fun a b => f a = .ok b) l r := by
  induction l generalizing r with
  | nil =>
    rw [List.mapM_nil]
    constructor
    · intro h
      injection h with h
      subst h
      exact .nil
    · intro h
      cases h
      rfl
  | cons a l ih =>
    rw [List.mapM_cons]
    constructor
    · intro h
      obtain ⟨b, hb, h⟩ := run_bind_inv h
      obtain ⟨bs, hbs, h⟩ := run_bind_inv h
      injection h with h
      subst h
      exact .cons hb (ih.1 hbs)
    · intro h
      cases h with
      | cons hb hl => rw [hb, run_bind_ok, ih.2 hl, run_bind_ok]; rfl

theorem csvRow_iff (lib : CsvLib K) (cells : List (List Char)) (row : List (F K)) : csvRow lib cells = .ok row ↔ Reads lib cells row := by
  unfold csvRow Reads
  rw [mapM_ok_iff]
  have : ∀ (c : List Char) (x : F K), (match lib.parse c with | some x => (.ok x : Run (F K)) | none => .error .unwrap) = .ok x ↔ lib.parse c = some x := by
    intro c x
    cases lib.parse c with
    | none => simp
    | some y => simp
  constructor <;> intro h <;> exact h.imp fun a b hab => by first | exact (this a b).1 hab | exact (this a b).2 hab

theorem all_even {α : Type} (l : List (List α)) : (l.all fun r => decide (some r.length = l.head?.map List.length)) = true ↔ Even l := by
  cases l with
  | nil => exact ⟨fun _ => ⟨0, by simp⟩, fun _ => rfl⟩
  | cons a l =>
    rw [List.all_eq_true]
    simp only [decide_eq_true_eq, List.head?_cons, Option.map_some, Option.some.injEq]
    constructor
    · exact fun h => ⟨a.length, h⟩
    · rintro ⟨k, h⟩ r hr
      rw [h r hr, h a List.mem_cons_self]

/-- Reading, for whatever records. -/
theorem readTable_iff (lib : CsvLib K) (flexible esc : Bool) (a : CsvArgs) (text : List Char) {d c : Char} {ds cs : List Char}
    (hd : a.delimiter.toList = d :: ds) (hc : a.comment.toList = c :: cs) (table : List (List (F K))) :
    let recs := csvRecords lib esc d c (stripMark text)
    let body := if a.header then recs.tail else recs
    readTable lib flexible esc a text = .ok table ↔ List.Forall₂ (Reads lib) body table ∧ Even body ∧ (flexible = false → Even recs) := by
  intro recs body
  have e1 : firstByte a.delimiter = .ok d := by unfold firstByte; rw [hd]
  have e2 : firstByte a.comment = .ok c := by unfold firstByte; rw [hc]
  unfold readTable
  rw [e1, run_bind_ok, e2, run_bind_ok]
  dsimp only
  rw [List.drop_one]
  change ((body.mapM (csvRow lib)) >>= _) = _ ↔ _
  have hrows : ∀ {rows : List (List (F K))}, List.Forall₂ (Reads lib) body rows → (Even rows ↔ Even body) := by
    intro rows h
    constructor
    · rintro ⟨k, hk⟩
      refine ⟨k, fun r hr => ?_⟩
      obtain ⟨i, hi, rfl⟩ := List.getElem_of_mem hr
      have hi' : i < rows.length := by rw [← h.length_eq]; exact hi
      have := List.Forall₂.get h hi hi'
      simp only [List.get_eq_getElem] at this
      rw [this.length_eq]
      exact hk _ (List.getElem_mem hi')
    · rintro ⟨k, hk⟩
      refine ⟨k, fun r hr => ?_⟩
      obtain ⟨i, hi, rfl⟩ := List.getElem_of_mem hr
      have hi' : i < body.length := by rw [h.length_eq]; exact hi
      have := List.Forall₂.get h hi' hi
      simp only [List.get_eq_getElem] at this
      rw [← this.length_eq]
      exact hk _ (List.getElem_mem hi')
  have hmap : ∀ rows, body.mapM (csvRow lib) = .ok rows ↔ List.Forall₂ (Reads lib) body rows := by
    intro rows
    rw [mapM_ok_iff]
    constructor <;> intro h <;> exact h.imp fun a b hab => by first | exact (csvRow_iff lib a b).1 hab | exact (csvRow_iff lib a b).2 hab
  constructor
  · intro h
    obtain ⟨rows, e, h⟩ := run_bind_inv h
    rw [hmap] at e
    by_cases h1 : flexible = false ∧ (recs.all fun r => decide (some r.length = recs.head?.map List.length)) = false
    · rw [if_pos h1] at h; cases h
    rw [if_neg h1] at h
    by_cases h2 : (rows.all fun r => decide (some r.length = rows.head?.map List.length)) = true
    · rw [if_pos h2] at h
      injection h with h
      subst h
      refine ⟨e, (hrows e).1 ((all_even _).1 h2), fun hf => (all_even _).1 ?_⟩
      by_contra h3
      exact h1 ⟨hf, by simpa using h3⟩
    · rw [if_neg h2] at h; cases h
  · rintro ⟨h1, h2, h3⟩
    rw [(hmap _).2 h1, run_bind_ok, if_neg, if_pos ((all_even _).2 ((hrows h1).2 h2))]
    rintro ⟨hf, hs⟩
    rw [(all_even _).2 (h3 hf)] at hs
    cases hs

/-! ### C101 -/

/-- **C101.** A CSV file written with any delimiter, any comment character, comment lines and blank lines anywhere and either kind of line ends is read as a table exactly if
every cell of every row (but the first, if there is a header) shows a number and these rows have equally many cells (for `Converter.csv` also as many as the
header); the table then is these numbers, in order. (A comment in an unterminated last line: if the version of the `csv` crate ignores it.) -/
theorem C101_table (lib : CsvLib K) (flexible esc : Bool) (a : CsvArgs) {d c : Char} {ds cs : List Char} (hd : a.delimiter.toList = d :: ds) (hc : a.comment.toList = c :: cs)
    (pd : PlainChar d) (pc : PlainChar c) (ls : List (CsvLine × Bool)) (last : CsvLine) (h : ∀ l ∈ ls.map Prod.fst ++ [last], l.Plain d c)
    (hend : (∀ t, last ≠ .note t) ∨ lib.endNote = true) (table : List (List (F K))) :
    let recs := recordsOf (ls.map Prod.fst ++ [last])
    let body := if a.header then recs.tail else recs
    readTable lib flexible esc a (csvText d c ls last) = .ok table ↔ List.Forall₂ (Reads lib) body table ∧ Even body ∧ (flexible = false → Even recs) := by
  have := readTable_iff lib flexible esc a (csvText d c ls last) hd hc table
  rw [mark_plain pd pc ls last h, csvRecords_eq lib esc pd pc ls last h hend] at this
  exact this

/-! ### C122: cells in quotation marks -/

/-- **C122.** A CSV file in which any cells are in quotation marks, with delimiters, line ends and comment characters within them and (where a backslash escapes them)
quotation marks, is read as the table that the contents of the cells show, exactly as a file without quotation marks is. -/
theorem C122_quoted_partial (lib : CsvLib K) (flexible esc : Bool) (a : CsvArgs) {d c : Char} {ds cs : List Char} (hd : a.delimiter.toList = d :: ds) (hc : a.comment.toList = c :: cs)
    (pd : PlainChar d) (pc : PlainChar c) (ls : List (QuotedLine × Bool)) (last : QuotedLine) (h : ∀ l ∈ ls.map Prod.fst ++ [last], l.Fine esc d c)
    (hend : (∀ t, last ≠ .note t) ∨ lib.endNote = true) (table : List (List (F K))) :
    let recs := shownRows (ls.map Prod.fst ++ [last])
    let body := if a.header then recs.tail else recs
    readTable lib flexible esc a (quotedText esc d c ls last) = .ok table ↔ List.Forall₂ (Reads lib) body table ∧ Even body ∧ (flexible = false → Even recs) := by
  have := readTable_iff lib flexible esc a (quotedText esc d c ls last) hd hc table
  rw [mark_quoted pd pc ls last h, quotedRecords_eq lib pd pc ls last h hend] at this
  exact this

/-- Whether a header cell is in quotation marks does not matter: with plain rows of numbers below, the file is read as the same table. -/
theorem C122_header (lib : CsvLib K) (flexible esc : Bool) (a : CsvArgs) (hh : a.header = true) {d c : Char} {ds cs : List Char} (hd : a.delimiter.toList = d :: ds)
    (hc : a.comment.toList = c :: cs) (pd : PlainChar d) (pc : PlainChar c) (head head' : List CsvCell) (crlf crlf' : Bool) (ls : List (QuotedLine × Bool)) (last : QuotedLine)
    (h : ∀ l ∈ .row head :: (ls.map Prod.fst ++ [last]), l.Fine esc d c) (h' : (QuotedLine.row head').Fine esc d c) (hl : head.length = head'.length)
    (hend : (∀ t, last ≠ .note t) ∨ lib.endNote = true) (table : List (List (F K))) :
    readTable lib flexible esc a (quotedText esc d c ((.row head, crlf) :: ls) last) = .ok table ↔
      readTable lib flexible esc a (quotedText esc d c ((.row head', crlf') :: ls) last) = .ok table := by
  have k1 := C122_quoted_partial lib flexible esc a hd hc pd pc ((.row head, crlf) :: ls) last h hend table
  have k2 := C122_quoted_partial lib flexible esc a hd hc pd pc ((.row head', crlf') :: ls) last (by
      intro l hl
      rcases List.mem_cons.1 hl with rfl | hl
      · exact h'
      · exact h l (List.mem_cons_of_mem _ hl)) hend table
  dsimp only at k1 k2
  rw [k1, k2]
  have e : ∀ hd : List CsvCell, ∀ b : Bool, shownRows ((((.row hd, b) :: ls).map Prod.fst) ++ [last]) = hd.map CsvCell.text :: shownRows (ls.map Prod.fst ++ [last]) := by
    intro hd b
    rfl
  rw [e, e, if_pos hh, if_pos hh, List.tail_cons, List.tail_cons]
  have ev : ∀ (x y : List (List Char)) (l : List (List (List Char))), x.length = y.length → (Even (x :: l) → Even (y :: l)) := by
    rintro x y l hxy ⟨k, hk⟩
    refine ⟨k, fun r hr => ?_⟩
    rcases List.mem_cons.1 hr with rfl | hr
    · rw [← hxy]; exact hk _ List.mem_cons_self
    · exact hk _ (List.mem_cons_of_mem _ hr)
  have hlen : (head.map CsvCell.text).length = (head'.map CsvCell.text).length := by rw [List.length_map, List.length_map, hl]
  exact ⟨fun ⟨h1, h2, h3⟩ => ⟨h1, h2, fun hf => ev _ _ _ hlen (h3 hf)⟩, fun ⟨h1, h2, h3⟩ => ⟨h1, h2, fun hf => ev _ _ _ hlen.symm (h3 hf)⟩⟩

/-- **C122 is false of the code for the standard way (RFC 4180) to write a quotation mark within a cell**, doubled: the cell `u",v` written as `"u"",v"` is read as the two
cells `u"` and `v"`. So a header with such a cell has one cell too many. -/
theorem C122_false_doubled (lib : CsvLib K) (esc : Bool) {c : Char} (u v : List Char) (hu : ∀ y ∈ u, y ≠ '"' ∧ y ≠ '\\') (hv : ∀ y ∈ v, y ≠ ',' ∧ PlainChar y) (hc : c ≠ '"')
    (hv0 : v ≠ []) :
    csvRecords lib esc ',' c ('"' :: u ++ ['"', '"', ','] ++ v ++ ['"']) = [[u ++ ['"'], v ++ ['"']]] := by
  unfold csvRecords
  rw [List.cons_append, List.cons_append, List.cons_append, List.foldl_cons, List.foldl_append, List.foldl_append, List.foldl_append]
  have e0 : csvStep esc ',' c ⟨.startRecord, [], [], []⟩ '"' = ⟨.inQuoted, [], [], []⟩ := by
    change CsvScan.begin ',' c _ '"' = _
    unfold CsvScan.begin
    rw [if_neg (by decide), if_neg (Ne.symm hc)]
    rfl
  have e1 : ∀ cell, u.foldl (csvStep esc ',' c) ⟨.inQuoted, cell, [], []⟩ = ⟨.inQuoted, cell ++ u, [], []⟩ := by
    induction u with
    | nil => intro cell; simp
    | cons y u ih =>
      intro cell
      have hy := hu y List.mem_cons_self
      have e : csvStep esc ',' c ⟨.inQuoted, cell, [], []⟩ y = ⟨.inQuoted, cell ++ [y], [], []⟩ := by
        change (if y = '"' then _ else if esc = true ∧ y = '\\' then _ else _) = _
        rw [if_neg hy.1, if_neg fun h => hy.2 h.2]
      rw [List.foldl_cons, e, ih fun z hz => hu z (List.mem_cons_of_mem _ hz)]
      simp
  rw [e0, e1, List.nil_append]
  have e2 : ['"', '"', ','].foldl (csvStep esc ',' c) ⟨.inQuoted, u, [], []⟩ = ⟨.startField, [], [u ++ ['"']], []⟩ := rfl
  rw [e2]
  obtain ⟨y, v, rfl⟩ := List.exists_cons_of_ne_nil hv0
  have hy := hv y List.mem_cons_self
  have e3 : csvStep esc ',' c ⟨.startField, [], [u ++ ['"']], []⟩ y = ⟨.inField, [y], [u ++ ['"']], []⟩ := by
    change CsvScan.first ',' _ y = _
    unfold CsvScan.first
    rw [if_neg hy.2.2.2.1]
    unfold CsvScan.field
    rw [if_neg hy.1, if_neg hy.2.2.1, if_neg hy.2.1]
    rfl
  have e4 : ∀ cell, v.foldl (csvStep esc ',' c) ⟨.inField, cell, [u ++ ['"']], []⟩ = ⟨.inField, cell ++ v, [u ++ ['"']], []⟩ := by
    have hv' : ∀ z ∈ v, z ≠ ',' ∧ PlainChar z := fun z hz => hv z (List.mem_cons_of_mem _ hz)
    clear e3 hv hv0
    induction v with
    | nil => intro cell; simp
    | cons z v ih =>
      intro cell
      have hz := hv' z List.mem_cons_self
      have e : csvStep esc ',' c ⟨.inField, cell, [u ++ ['"']], []⟩ z = ⟨.inField, cell ++ [z], [u ++ ['"']], []⟩ := by
        change CsvScan.field ',' _ z = _
        unfold CsvScan.field
        rw [if_neg hz.1, if_neg hz.2.2.1, if_neg hz.2.1]
      rw [List.foldl_cons, e, ih fun w hw => hv' w (List.mem_cons_of_mem _ hw)]
      simp
  rw [List.foldl_cons (l := v), e3, e4]
  rfl

/-- A header in quotation marks, with a delimiter and an escaped quotation mark in it, above plain numbers. -/
example : quotedText true ',' '#' [(.row [⟨"t".toList, true⟩, ⟨"x, \"left\"".toList, true⟩], true), (.row [⟨['1'], false⟩, ⟨['2'], true⟩], false)] .blank =
    "\"t\",\"x, \\\"left\\\"\"\r\n1,\"2\"\n".toList := by decide

example : ∀ l ∈ [QuotedLine.row [⟨"t".toList, true⟩, ⟨"x, \"left\"".toList, true⟩], .row [⟨['1'], false⟩, ⟨['2'], true⟩], .blank], l.Fine true ',' '#' := by
  intro l hl
  simp only [List.mem_cons, List.not_mem_nil, or_false] at hl
  rcases hl with rfl | rfl | rfl
  · refine ⟨?_, by decide, by decide⟩
    intro x hx
    simp only [List.mem_cons, List.not_mem_nil, or_false] at hx
    rcases hx with rfl | rfl <;> (unfold CsvCell.Fine PlainChar; decide)
  · refine ⟨?_, by decide, by decide⟩
    intro x hx
    simp only [List.mem_cons, List.not_mem_nil, or_false] at hx
    rcases hx with rfl | rfl <;> (unfold CsvCell.Fine PlainChar; decide)
  · trivial

/-! ### C102 -/

/-- The table in the text is malformed: one of its rows has a cell that shows no number, or two of its rows have different numbers of cells. -/
def Malformed (lib : CsvLib K) (body : List (List (List Char))) : Prop :=
  (∃ r ∈ body, ∃ cell ∈ r, lib.parse cell = none) ∨ ∃ r ∈ body, ∃ r' ∈ body, r.length ≠ r'.length

theorem malformed_refused (lib : CsvLib K) (flexible esc : Bool) (a : CsvArgs) {d c : Char} {ds cs : List Char} (hd : a.delimiter.toList = d :: ds)
    (hc : a.comment.toList = c :: cs) (text : List Char)
    (hm : Malformed lib (if a.header then (csvRecords lib esc d c (stripMark text)).tail else csvRecords lib esc d c (stripMark text))) :
    ∃ e, readTable lib flexible esc a text = .error e := by
  cases h : readTable lib flexible esc a text with
  | error e => exact ⟨e, rfl⟩
  | ok table =>
    exfalso
    obtain ⟨h1, ⟨k, h2⟩, -⟩ := (readTable_iff lib flexible esc a text hd hc table).1 h
    rcases hm with ⟨r, hr, cell, hcell, hp⟩ | ⟨r, hr, r', hr', hne⟩
    · obtain ⟨i, hi, rfl⟩ := List.getElem_of_mem hr
      have := List.Forall₂.get h1 hi (by rw [← h1.length_eq]; exact hi)
      simp only [List.get_eq_getElem] at this
      obtain ⟨j, hj, rfl⟩ := List.getElem_of_mem hcell
      have := List.Forall₂.get this hj (by rw [← this.length_eq]; exact hj)
      simp only [List.get_eq_getElem] at this
      rw [hp] at this
      cases this
    · exact hne ((h2 r hr).trans (h2 r' hr').symm)

/-- **C102.** A CSV file with a cell that is no number or with rows of different lengths is refused by every converter that reads it: by `Converter.csv`, by both
methods of `csv_multi`, and by `csv_multi_files` if it is one of the files. -/
theorem C102_refused (lib : FitLib K) (cl : CsvLib K) (o : CsvOpts K) (a : CsvArgs) {d c : Char} {ds cs : List Char} (hd : a.delimiter.toList = d :: ds)
    (hc : a.comment.toList = c :: cs) (pd : PlainChar d) (pc : PlainChar c) (ls : List (CsvLine × Bool)) (last : CsvLine)
    (h : ∀ l ∈ ls.map Prod.fst ++ [last], l.Plain d c) (hend : (∀ t, last ≠ .note t) ∨ cl.endNote = true)
    (hm : Malformed cl (if a.header then (recordsOf (ls.map Prod.fst ++ [last])).tail else recordsOf (ls.map Prod.fst ++ [last]))) :
    (∃ e, csvFromText lib cl o a (csvText d c ls last) = .error e) ∧
    (∀ mode, mode = "chain" ∨ mode = "id_line" → ∃ e, csvMultiFromText lib cl o a mode (csvText d c ls last) = .error e) ∧
    ∀ cols times texts, csvText d c ls last ∈ texts → ∃ e, csvFilesFromText cl cols a times texts = .error e := by
  have hr : ∀ flexible esc, ∃ e, readTable cl flexible esc a (csvText d c ls last) = .error e := by
    intro flexible esc
    refine malformed_refused cl flexible esc a hd hc _ ?_
    rw [mark_plain pd pc ls last h, csvRecords_eq cl esc pd pc ls last h hend]
    exact hm
  refine ⟨?_, ?_, ?_⟩
  · unfold csvFromText
    by_cases hs : o.sampling % 2 = 0
    · rw [if_pos hs]; exact ⟨_, rfl⟩
    · rw [if_neg hs]
      obtain ⟨e, he⟩ := hr false true
      rw [he]
      exact ⟨e, rfl⟩
  · intro mode hmode
    unfold csvMultiFromText
    rw [if_pos hmode]
    obtain ⟨e, he⟩ := hr true true
    rw [he]
    exact ⟨e, rfl⟩
  · intro cols times texts ht
    unfold csvFilesFromText
    cases e : texts.mapM (readTable cl true false a) with
    | error e' => exact ⟨e', rfl⟩
    | ok ts =>
      exfalso
      rw [mapM_ok_iff] at e
      obtain ⟨i, hi, h'⟩ := List.getElem_of_mem ht
      have := List.Forall₂.get e hi (by rw [← e.length_eq]; exact hi)
      simp only [List.get_eq_getElem] at this
      rw [h'] at this
      obtain ⟨e', he'⟩ := hr true false
      rw [he'] at this
      cases this

/-! ### C103: default arguments -/

/-- **C103 is false of the code, single trajectories:** `Converter.csv` with its default arguments raises, whatever the file contains: only the four columns for time
and position are taken, and a first row without velocity is refused. -/
theorem C103_false_csv (lib : FitLib K) (cl : CsvLib K) (text : List Char) :
    ∃ e, csvFromText lib cl (csvDefaults (K := K)).1 (csvDefaults (K := K)).2 text = .error e := by
  unfold csvFromText
  have h9 : ¬ (csvDefaults (K := K)).1.sampling % 2 = 0 := by change ¬ 9 % 2 = 0; decide
  rw [if_neg h9]
  cases h : readTable cl false true (csvDefaults (K := K)).2 text with
  | error e => exact ⟨e, rfl⟩
  | ok t =>
    rw [run_bind_ok]
    unfold pyCsv
    rw [if_neg h9]
    exact C66_reject lib _ t (Or.inr (Or.inr (Or.inl ⟨rfl, by change 4 < 7; decide⟩)))

/-- **C103 is false of the code, several trajectories:** `csv_multi` with the method given and its other default arguments raises on every comma-separated file with two
rows of several numbers: the default delimiter is not the comma but a quotation mark, so that a line is one cell. (A text with commas is no number.) -/
theorem C103_false_multi (lib : FitLib K) (cl : CsvLib K) (hcomma : ∀ t, ',' ∈ t → cl.parse t = none) (mode : String) (hmode : mode = "chain" ∨ mode = "id_line")
    (ls : List (CsvLine × Bool)) (last : CsvLine) (h : ∀ l ∈ ls.map Prod.fst ++ [last], l.Plain ',' '#') (r1 r2 : List (List Char)) (rest : List (List (List Char)))
    (hr : recordsOf (ls.map Prod.fst ++ [last]) = r1 :: r2 :: rest) (h2 : 2 ≤ r2.length) :
    ∃ e, csvMultiFromText lib cl (csvMultiDefaults (K := K)).1 (csvMultiDefaults (K := K)).2 mode (csvText ',' '#' ls last) = .error e := by
  have pd : PlainChar ',' := by unfold PlainChar; decide
  have pc : PlainChar '#' := by unfold PlainChar; decide
  have hcom : ∀ r : List (List Char), 2 ≤ r.length → ',' ∈ [','].intercalate r := by
    intro r hr
    match r, hr with
    | a :: b :: r, _ =>
      rw [List.intercalate_cons_cons]
      simp
  -- every line that is not blank is one cell
  let cut : CsvLine → List (List (List Char)) := fun l => if l.text ',' '#' = [] then [] else [[l.text ',' '#']]
  have hline : ∀ l : CsvLine, l.Plain ',' '#' → Line cl true '"' '"' (l.text ',' '#') (cut l) false := by
    intro l hl
    have hp := plain_text pd pc hl
    by_cases h0 : l.text ',' '#' = []
    · simp only [cut, if_pos h0]
      rw [h0]
      exact line_blank cl
    · simp only [cut, if_neg h0]
      exact line_single cl (by decide) _ h0 (fun y hy => ⟨(hp y hy).2.2.1, hp y hy⟩) (fun hh => (hp _ (List.mem_of_mem_head? hh)).2.2.1 rfl)
  have hrec : csvRecords cl true '"' '"' (csvText ',' '#' ls last) = ((ls.map Prod.fst ++ [last]).map cut).flatten := by
    have h1 := records_lines cl (esc := true) (d := '"') (c := '"') (ls.map fun x => (x.1.text ',' '#', x.2)) (ls.map fun x => cut x.1) (by
      rw [List.forall₂_map_left_iff, List.forall₂_map_right_iff, List.forall₂_same]
      intro x hx
      exact ⟨_, hline x.1 (h x.1 (List.mem_append_left _ (List.mem_map_of_mem hx)))⟩) (last.text ',' '#') (cut last) (hline last (h last (by simp))) (Or.inl rfl)
    rw [List.flatMap_map] at h1
    rw [List.map_append, List.flatten_append, List.map_map, List.map_singleton, List.flatten_singleton]
    exact h1
  have hsl : List.Sublist ((recordsOf (ls.map Prod.fst ++ [last])).map fun cells => [[','].intercalate cells]) ((ls.map Prod.fst ++ [last]).map cut).flatten := by
    generalize ls.map Prod.fst ++ [last] = L at h
    clear hr hrec hline
    induction L with
    | nil => exact .slnil
    | cons l L ih =>
      have ih := ih fun x hx => h x (List.mem_cons_of_mem _ hx)
      have hl := h l List.mem_cons_self
      unfold recordsOf at ih ⊢
      rw [List.map_cons, List.flatten_cons, List.filterMap_cons]
      cases l with
      | row cells =>
        have e : cut (.row cells) = [[[','].intercalate cells]] := by
          have h0 : ¬ (CsvLine.row cells).text ',' '#' = [] := hl.2.1
          simp only [cut, if_neg h0]
          rfl
        rw [e]
        exact ih.cons_cons _
      | note t => exact ih.trans (List.sublist_append_right _ _)
      | blank => exact ih.trans (List.sublist_append_right _ _)
  rw [hr] at hsl
  have hmem : [[','].intercalate r2] ∈ ((ls.map Prod.fst ++ [last]).map cut).flatten.tail := hsl.tail.subset (by simp)
  have hmal : Malformed cl (if (csvMultiDefaults (K := K)).2.header then (csvRecords cl true '"' '"' (csvText ',' '#' ls last)).tail else
      csvRecords cl true '"' '"' (csvText ',' '#' ls last)) := by
    change Malformed cl (csvRecords cl true '"' '"' (csvText ',' '#' ls last)).tail
    rw [hrec]
    exact Or.inl ⟨_, hmem, _, List.mem_singleton.2 rfl, hcomma _ (hcom r2 h2)⟩
  rw [← mark_plain (by unfold PlainChar; decide) (by unfold PlainChar; decide) ls last h] at hmal
  obtain ⟨e, he⟩ := malformed_refused cl true true (csvMultiDefaults (K := K)).2 (d := '"') (c := '"') (ds := [',', '"']) (cs := ['#', '"']) (by change "\",\"".toList = _; decide) (by change "\"#\"".toList = _; decide) _ hmal
  unfold csvMultiFromText
  rw [if_pos hmode, he]
  exact ⟨e, rfl⟩

/-- **C103, one file per timestep.** `csv_multi_files` with its default arguments reads comma-separated files with a header and converts them: timestep `t` holds the
particles of file `t`, with NaN velocities. -/
theorem C103_files_partial [LawfulArith K] (cl : CsvLib K) (times : List (F K)) (files : List (List (CsvLine × Bool) × CsvLine))
    (h : ∀ f ∈ files, ∀ l ∈ f.1.map Prod.fst ++ [f.2], l.Plain ',' '#') (hend : ∀ f ∈ files, (∀ t, f.2 ≠ .note t) ∨ cl.endNote = true) (tables : List (List (List (F K)))) (rows : List (List (StepRow K)))
    (hread : List.Forall₂ (fun f t => List.Forall₂ (Reads cl) (recordsOf (f.1.map Prod.fst ++ [f.2])).tail t ∧ Even (recordsOf (f.1.map Prod.fst ++ [f.2])).tail) files tables)
    (hrows : List.Forall₂ (List.Forall₂ (StepRowOf [0, 1, 2, 3])) tables rows) (ht : files.length ≤ times.length) (hf : files ≠ []) (hn : files.length ≤ 2 ^ 50) :
    ∃ out, csvFilesFromText cl csvFilesDefaults.1 csvFilesDefaults.2 times (files.map fun f => csvText ',' '#' f.1 f.2) = .ok out ∧
      ∀ (p : Profile) (dflt : Timestep K) (ts : List ℕ), (∀ t ∈ ts, t < files.length) →
        ∃ l, out.file.session p dflt ts = .ok l ∧
          List.Forall₂ (fun t x => ∃ time rs, times[t]? = some time ∧ rows[t]? = some rs ∧ IsStep time rs x) ts l := by
  have pd : PlainChar ',' := by unfold PlainChar; decide
  have pc : PlainChar '#' := by unfold PlainChar; decide
  have hl := hread.length_eq
  have e : (files.map fun f => csvText ',' '#' f.1 f.2).mapM (readTable cl true false csvFilesDefaults.2) = .ok tables := by
    rw [mapM_ok_iff, List.forall₂_map_left_iff]
    have : ∀ (fs : List (List (CsvLine × Bool) × CsvLine)) (ts : List (List (List (F K)))), (∀ f ∈ fs, ∀ l ∈ f.1.map Prod.fst ++ [f.2], l.Plain ',' '#') → (∀ f ∈ fs, (∀ t, f.2 ≠ .note t) ∨ cl.endNote = true) →
        List.Forall₂ (fun f t => List.Forall₂ (Reads cl) (recordsOf (f.1.map Prod.fst ++ [f.2])).tail t ∧ Even (recordsOf (f.1.map Prod.fst ++ [f.2])).tail) fs ts →
        List.Forall₂ (fun f t => readTable cl true false csvFilesDefaults.2 (csvText ',' '#' f.1 f.2) = .ok t) fs ts := by
      intro fs ts hp hend h
      induction h with
      | nil => exact .nil
      | @cons f t fs ts hft _ ih =>
        refine .cons ?_ (ih (fun f hf => hp f (List.mem_cons_of_mem _ hf)) fun f hf => hend f (List.mem_cons_of_mem _ hf))
        refine (C101_table cl true false csvFilesDefaults.2 (d := ',') (c := '#') (ds := []) (cs := []) (by decide) (by decide) pd pc f.1 f.2
          (hp f List.mem_cons_self) (hend f List.mem_cons_self) t).2 ⟨hft.1, hft.2, fun h => by cases h⟩
    exact this _ _ h hend hread
  obtain ⟨out, eo, hs⟩ := C70_files [0, 1, 2, 3] (Or.inl rfl) times tables rows hrows (by omega) (by
    rintro rfl
    exact hf (List.length_eq_zero_iff.1 hl)) (by omega)
  refine ⟨out, ?_, fun p dflt ts hts => hs p dflt ts (by rw [← hl]; exact hts)⟩
  unfold csvFilesFromText
  rw [e, run_bind_ok]
  exact eo

/-! ### C104: from the text to answers -/

/-- Answers for a text that is read as this table. -/
theorem table_answers [LawfulArith K] (lib : FitLib K) (cl : CsvLib K) (o : CsvOpts K) (hv : o.vel = false) (hi : o.interp = false) (h7 : o.cols.length = 7)
    (hsamp : o.sampling % 2 = 1) (a : CsvArgs) (text : List Char) (table : List (List (F K))) (hread : readTable cl false true a text = .ok table)
    (rows : List (Row7 K)) (hrow : List.Forall₂ (RowOf o.cols) table rows) (hs : rows.Pairwise fun a b => a.t < b.t) (hp : ∀ r ∈ rows, 0 < r.t)
    (r0 : Row7 K) (h0 : rows.head? = some r0) (hv0 : r0.v 2 ≠ nan) (hlen : rows.length ≤ 2 ^ 50) :
    ∃ out, csvFromText lib cl o a text = .ok out ∧
      ∀ (p : Profile) (calls : List (Call K)), (∀ c ∈ calls, c.Fits rows.length) → (∃ r, (out.onDisk p).session p calls = .ok r) →
        (out.onDisk p).answer p (calls ++ [.len]) = .ok (some (.nat rows.length)) ∧
        (out.onDisk p).answer p (calls ++ [.time]) = .ok (some (.nums (rows.map Row7.t))) ∧
        (∀ i j, i ≤ j → j < rows.length → (out.onDisk p).answer p (calls ++ [.extract 0 i j]) =
          .ok (some (.table (((rows.drop i).take (j - i)).map fun r => [r.t, r.p 0, r.p 1, r.p 2, r.v 0, r.v 1, r.v 2])))) ∧
        ∀ g : Grid K, g.Fillable p → ∃ g', (out.onDisk p).answer p (calls ++ [.numberfield g]) = .ok (some (.grid g')) ∧ g'.geom = g.geom ∧
          ∀ c, g'.st.data.get c = fin (((rowsIn (windowOf calls) rows).countP fun r => inCell p g.geom r.p c : ℕ) : K) := by
  obtain ⟨out, e2, hsit⟩ := C91_csv lib o hv hi h7 table rows hrow hs hp r0 h0 hv0 hlen
  refine ⟨out, ?_, fun p calls hf hr => ?_⟩
  · unfold csvFromText
    rw [if_neg (by omega), hread, run_bind_ok]
    unfold pyCsv
    rw [if_neg (by omega)]
    exact e2
  · obtain ⟨k1, k2, k3, k4, _⟩ := C91_rows (hsit p calls hf hr)
    exact ⟨k3, k4, k2, k1⟩

/-- **C104.** A CSV file whose lines show the columns time, position and velocity (in any columns, among comments and blank lines, with or without header), with strictly
increasing positive times: `Converter.csv` converts it, and in every session on the result, whatever was called before, `len` and `time()` are the number of rows
and their times, `extract(0, (a, b))` returns the numbers of rows `a … b-1`, and `numberfield` counts in each cell the rows with a time in the window and a
position in the cell. -/
theorem C104_text [LawfulArith K] (lib : FitLib K) (cl : CsvLib K) (o : CsvOpts K) (hv : o.vel = false) (hi : o.interp = false) (h7 : o.cols.length = 7)
    (hsamp : o.sampling % 2 = 1) (a : CsvArgs) {d c : Char} {ds cs : List Char} (hd : a.delimiter.toList = d :: ds) (hc : a.comment.toList = c :: cs)
    (pd : PlainChar d) (pc : PlainChar c) (ls : List (CsvLine × Bool)) (last : CsvLine) (h : ∀ l ∈ ls.map Prod.fst ++ [last], l.Plain d c)
    (hend : (∀ t, last ≠ .note t) ∨ cl.endNote = true) (heven : Even (recordsOf (ls.map Prod.fst ++ [last]))) (table : List (List (F K)))
    (hread : List.Forall₂ (Reads cl) (if a.header then (recordsOf (ls.map Prod.fst ++ [last])).tail else recordsOf (ls.map Prod.fst ++ [last])) table)
    (rows : List (Row7 K)) (hrow : List.Forall₂ (RowOf o.cols) table rows) (hs : rows.Pairwise fun a b => a.t < b.t) (hp : ∀ r ∈ rows, 0 < r.t)
    (r0 : Row7 K) (h0 : rows.head? = some r0) (hv0 : r0.v 2 ≠ nan) (hlen : rows.length ≤ 2 ^ 50) :
    ∃ out, csvFromText lib cl o a (csvText d c ls last) = .ok out ∧
      ∀ (p : Profile) (calls : List (Call K)), (∀ c ∈ calls, c.Fits rows.length) → (∃ r, (out.onDisk p).session p calls = .ok r) →
        (out.onDisk p).answer p (calls ++ [.len]) = .ok (some (.nat rows.length)) ∧
        (out.onDisk p).answer p (calls ++ [.time]) = .ok (some (.nums (rows.map Row7.t))) ∧
        (∀ i j, i ≤ j → j < rows.length → (out.onDisk p).answer p (calls ++ [.extract 0 i j]) =
          .ok (some (.table (((rows.drop i).take (j - i)).map fun r => [r.t, r.p 0, r.p 1, r.p 2, r.v 0, r.v 1, r.v 2])))) ∧
        ∀ g : Grid K, g.Fillable p → ∃ g', (out.onDisk p).answer p (calls ++ [.numberfield g]) = .ok (some (.grid g')) ∧ g'.geom = g.geom ∧
          ∀ c, g'.st.data.get c = fin (((rowsIn (windowOf calls) rows).countP fun r => inCell p g.geom r.p c : ℕ) : K) := by
  have hbody : Even (if a.header then (recordsOf (ls.map Prod.fst ++ [last])).tail else recordsOf (ls.map Prod.fst ++ [last])) := by
    obtain ⟨k, hk⟩ := heven
    refine ⟨k, fun r hr => hk r ?_⟩
    split_ifs at hr
    · exact List.mem_of_mem_tail hr
    · exact hr
  have e1 := (C101_table cl false true a hd hc pd pc ls last h hend table).2 ⟨hread, hbody, fun _ => heven⟩
  exact table_answers lib cl o hv hi h7 hsamp a _ table e1 rows hrow hs hp r0 h0 hv0 hlen

/-! ### Concrete cases -/

/-- Numbers of one digit. -/
noncomputable def digitLib : CsvLib ℝ :=
  ⟨fun t => match t with
    | [c] => if c.isDigit then some (fin ((c.toNat - 48 : ℕ) : ℝ)) else none
    | _ => none, false⟩

/-- A file with a header, a comment and a blank line. -/
def demoLines : List (CsvLine × Bool) :=
  [(.row [['t'], ['x'], ['y'], ['z'], ['u'], ['v'], ['w']], true), (.note " made by hand".toList, false), (.blank, false),
   (.row [['1'], ['2'], ['2'], ['2'], ['0'], ['0'], ['0']], false), (.row [['2'], ['3'], ['3'], ['3'], ['1'], ['1'], ['1']], true)]

/-- The text it stands for. -/
example : csvText ',' '#' demoLines .blank = "t,x,y,z,u,v,w\r\n# made by hand\n\n1,2,2,2,0,0,0\n2,3,3,3,1,1,1\r\n".toList := by decide

theorem demo_plain : ∀ l ∈ demoLines.map Prod.fst ++ [CsvLine.blank], l.Plain ',' '#' := by
  intro l hl
  simp only [demoLines, List.map_cons, List.map_nil, List.cons_append, List.nil_append, List.mem_cons, List.not_mem_nil, or_false] at hl
  rcases hl with rfl | rfl | rfl | rfl | rfl | rfl
  · unfold CsvLine.Plain PlainChar; decide
  · unfold CsvLine.Plain PlainChar; decide
  · trivial
  · unfold CsvLine.Plain PlainChar; decide
  · unfold CsvLine.Plain PlainChar; decide
  · trivial

/-- Its rows. -/
noncomputable def demoTable : List (Row7 ℝ) := [⟨fin 1, fun _ => fin 2, fun _ => fin 0⟩, ⟨fin 2, fun _ => fin 3, fun _ => fin 1⟩]

/-- The hypotheses of `C104_text` for this file. -/
example (lib : FitLib ℝ) (p : Profile) : ∃ out, csvFromText lib digitLib ⟨[0, 1, 2, 3, 4, 5, 6], false, false, fin 1, 9⟩ ⟨",", true, "#"⟩
      "t,x,y,z,u,v,w\r\n# made by hand\n\n1,2,2,2,0,0,0\n2,3,3,3,1,1,1\r\n".toList = .ok out ∧
    ((∃ r, (out.onDisk p).session p [.setTime 0 (fin 1)] = .ok r) → (out.onDisk p).answer p [.setTime 0 (fin 1), .len] = .ok (some (.nat 2))) := by
  have hdig : ∀ n : ℕ, ∀ c : Char, c.isDigit = true → c.toNat - 48 = n → digitLib.parse [c] = some (fin (n : ℝ)) := by
    intro n c h1 h2
    change (if c.isDigit then some (fin ((c.toNat - 48 : ℕ) : ℝ)) else none) = _
    rw [if_pos h1, h2]
  obtain ⟨out, e, h⟩ := C104_text lib digitLib ⟨[0, 1, 2, 3, 4, 5, 6], false, false, fin 1, 9⟩ rfl rfl rfl rfl ⟨",", true, "#"⟩ (d := ',') (c := '#') (ds := []) (cs := [])
    (by decide) (by decide) (by unfold PlainChar; decide) (by unfold PlainChar; decide) demoLines .blank demo_plain (Or.inl fun _ h => by cases h) ⟨7, by decide⟩
    [[fin ((1 : ℕ) : ℝ), fin ((2 : ℕ) : ℝ), fin ((2 : ℕ) : ℝ), fin ((2 : ℕ) : ℝ), fin ((0 : ℕ) : ℝ), fin ((0 : ℕ) : ℝ), fin ((0 : ℕ) : ℝ)],
     [fin ((2 : ℕ) : ℝ), fin ((3 : ℕ) : ℝ), fin ((3 : ℕ) : ℝ), fin ((3 : ℕ) : ℝ), fin ((1 : ℕ) : ℝ), fin ((1 : ℕ) : ℝ), fin ((1 : ℕ) : ℝ)]]
    (by
      change List.Forall₂ (Reads digitLib) [[['1'], ['2'], ['2'], ['2'], ['0'], ['0'], ['0']], [['2'], ['3'], ['3'], ['3'], ['1'], ['1'], ['1']]] _
      refine .cons ?_ (.cons ?_ .nil) <;>
        (unfold Reads
         refine .cons (hdig _ _ (by decide) (by decide)) (.cons (hdig _ _ (by decide) (by decide)) (.cons (hdig _ _ (by decide) (by decide))
          (.cons (hdig _ _ (by decide) (by decide)) (.cons (hdig _ _ (by decide) (by decide)) (.cons (hdig _ _ (by decide) (by decide))
          (.cons (hdig _ _ (by decide) (by decide)) .nil)))))))) demoTable (by
      refine .cons ⟨?_, fun j => ?_, fun j => ?_⟩ (.cons ⟨?_, fun j => ?_, fun j => ?_⟩ .nil) <;> first | (fin_cases j <;> simp) | simp) (by
      simp only [demoTable, List.pairwise_cons, List.mem_singleton, forall_eq, List.not_mem_nil, IsEmpty.forall_iff, implies_true, List.Pairwise.nil, and_true]
      exact (F.lt_fin _ _).2 (by norm_num)) (by
      simp only [demoTable, List.mem_cons, List.not_mem_nil, or_false, forall_eq_or_imp, forall_eq, F.zero_def]
      exact ⟨(F.lt_fin _ _).2 (by norm_num), (F.lt_fin _ _).2 (by norm_num)⟩) _ rfl (by simp) (by simp [demoTable])
  refine ⟨out, e, fun hr => (h p [.setTime 0 (fin 1)] ?_ hr).1⟩
  intro c hc
  rw [List.mem_singleton] at hc
  subst hc
  trivial

/-- The hypotheses of `C103_files_partial`: one file with one particle. -/
example : ∃ out, csvFilesFromText digitLib csvFilesDefaults.1 csvFilesDefaults.2 [fin 5] ["i,x,y,z\n1,2,2,2".toList] = .ok out ∧
    ∀ (p : Profile) (dflt : Timestep ℝ), ∃ x, out.file.session p dflt [0] = .ok [x] ∧ x.time = fin 5 ∧ x.position = [fun _ => fin 2] := by
  have hdig : ∀ n : ℕ, ∀ c : Char, c.isDigit = true → c.toNat - 48 = n → digitLib.parse [c] = some (fin (n : ℝ)) := by
    intro n c h1 h2
    change (if c.isDigit then some (fin ((c.toNat - 48 : ℕ) : ℝ)) else none) = _
    rw [if_pos h1, h2]
  obtain ⟨out, e, h⟩ := C103_files_partial digitLib [fin 5] [([(.row [['i'], ['x'], ['y'], ['z']], false)], .row [['1'], ['2'], ['2'], ['2']])] (by
      intro f hf
      rw [List.mem_singleton] at hf
      subst hf
      intro l hl
      simp only [List.map_cons, List.map_nil, List.cons_append, List.nil_append, List.mem_cons, List.not_mem_nil, or_false] at hl
      rcases hl with rfl | rfl <;> (unfold CsvLine.Plain PlainChar; decide))
    (by
      intro f hf
      rw [List.mem_singleton] at hf
      subst hf
      exact Or.inl fun _ h => by cases h)
    [[[fin ((1 : ℕ) : ℝ), fin ((2 : ℕ) : ℝ), fin ((2 : ℕ) : ℝ), fin ((2 : ℕ) : ℝ)]]] [[⟨fin 1, fun _ => fin 2, fun _ => nan⟩]] (by
      refine .cons ⟨.cons ?_ .nil, ⟨4, ?_⟩⟩ .nil
      · exact .cons (hdig _ _ (by decide) (by decide)) (.cons (hdig _ _ (by decide) (by decide)) (.cons (hdig _ _ (by decide) (by decide))
          (.cons (hdig _ _ (by decide) (by decide)) .nil)))
      · decide) (by
      refine .cons (.cons ⟨?_, fun j => ?_, fun h => (by cases h), fun _ j => rfl⟩ .nil) .nil
      · simp
      · fin_cases j <;> simp) (by simp) (by simp) (by simp)
  refine ⟨out, e, fun p dflt => ?_⟩
  obtain ⟨l, hl, hx⟩ := h p dflt [0] (by simp)
  cases hx with
  | cons hx hn =>
    cases hn
    obtain ⟨time, rs, h1, h2, h3⟩ := hx
    cases h1
    cases h2
    exact ⟨_, hl, h3.1, h3.2.2.1⟩

/-- The hypotheses of `C102_refused`: a header where none is expected. -/
example : Malformed digitLib (recordsOf (demoLines.map Prod.fst ++ [CsvLine.blank])) :=
  Or.inl ⟨[['t'], ['x'], ['y'], ['z'], ['u'], ['v'], ['w']], by decide, ['t'], by decide, by
    change (if ('t' : Char).isDigit then some (fin ((('t' : Char).toNat - 48 : ℕ) : ℝ)) else none) = _
    rw [if_neg (by decide)]⟩

/-- The hypotheses of `C103_false_multi`. -/
example : (∀ t, ',' ∈ t → digitLib.parse t = none) ∧ ∃ r1 r2 rest, recordsOf (demoLines.map Prod.fst ++ [CsvLine.blank]) = r1 :: r2 :: rest ∧ 2 ≤ r2.length := by
  constructor
  · intro t ht
    match t, ht with
    | [], h => cases h
    | [c], h =>
      rw [List.mem_singleton] at h
      subst h
      change (if (',' : Char).isDigit then some (fin (((',' : Char).toNat - 48 : ℕ) : ℝ)) else none) = _
      rw [if_neg (by decide)]
    | a :: b :: t, _ => rfl
  · exact ⟨_, _, _, rfl, by decide⟩

end Up4
