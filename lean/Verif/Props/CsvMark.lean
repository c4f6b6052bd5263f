import Verif.Props.CsvReturn
import Verif.Props.CsvNumber

/-!
C131: a byte order mark at the beginning of a CSV file (as spreadsheet programs write it) makes no difference.
-/

set_option linter.unusedSectionVars false

namespace Up4

open F

variable {K : Type} [Field K] [LinearOrder K] [IsStrictOrderedRing K] [FloorRing K] [Arith K]

/-- The byte order mark. -/
def byteOrderMark : Char := '\uFEFF'

theorem mark_same (cl : CsvLib K) (flexible esc : Bool) (a : CsvArgs) (text : List Char) (h : text.head? ≠ some byteOrderMark) :
    readTable cl flexible esc a (byteOrderMark :: text) = readTable cl flexible esc a text := by
  have e1 : stripMark (byteOrderMark :: text) = text := by
    change (if byteOrderMark = '\uFEFF' then text else byteOrderMark :: text) = text
    exact if_pos rfl
  have e2 : stripMark text = text := stripMark_eq h
  unfold readTable
  simp only [e1, e2]

/-- **C131.** A CSV file that begins with a byte order mark is converted exactly as the same file without the mark, with every delimiter, header setting, comment
character and with all options, by each of the three converters; with one file per timestep any of the files may begin with a mark. -/
theorem C131_mark (lib : FitLib K) (cl : CsvLib K) (o : CsvOpts K) (a : CsvArgs) :
    (∀ text : List Char, text.head? ≠ some byteOrderMark →
      csvFromText lib cl o a (byteOrderMark :: text) = csvFromText lib cl o a text ∧
      ∀ mode, csvMultiFromText lib cl o a mode (byteOrderMark :: text) = csvMultiFromText lib cl o a mode text) ∧
    ∀ (cols : List ℕ) (times : List (F K)) (texts texts' : List (List Char)),
      List.Forall₂ (fun t t' => t.head? ≠ some byteOrderMark ∧ (t' = t ∨ t' = byteOrderMark :: t)) texts texts' →
      csvFilesFromText cl cols a times texts' = csvFilesFromText cl cols a times texts := by
  refine ⟨fun text h => ⟨?_, fun mode => ?_⟩, fun cols times texts texts' h => ?_⟩
  · unfold csvFromText
    rw [mark_same cl false true a text h]
  · unfold csvMultiFromText
    rw [mark_same cl true true a text h]
  · unfold csvFilesFromText
    congr 1
    induction h with
    | nil => rfl
    | cons h _ ih =>
      rw [List.mapM_cons, List.mapM_cons, ih]
      rcases h.2 with rfl | rfl
      · rfl
      · rw [mark_same cl true false a _ h.1]

/-- **C131 for tables.** The table that a file with a mark shows: that of the rows after the mark, quoted or not. -/
theorem C131_table (lib : CsvLib K) (flexible esc : Bool) (a : CsvArgs) {d c : Char} {ds cs : List Char} (hd : a.delimiter.toList = d :: ds)
    (hc : a.comment.toList = c :: cs) (pd : PlainChar d) (pc : PlainChar c) (ls : List (QuotedLine × Bool)) (last : QuotedLine)
    (h : ∀ l ∈ ls.map Prod.fst ++ [last], l.Fine esc d c) (hend : (∀ t, last ≠ .note t) ∨ lib.endNote = true) (table : List (List (F K))) :
    let recs := shownRows (ls.map Prod.fst ++ [last])
    let body := if a.header then recs.tail else recs
    readTable lib flexible esc a (byteOrderMark :: quotedText esc d c ls last) = .ok table ↔
      List.Forall₂ (Reads lib) body table ∧ Even body ∧ (flexible = false → Even recs) := by
  have h0 := C122_quoted_partial lib flexible esc a hd hc pd pc ls last h hend table
  rw [mark_same]
  · exact h0
  · intro e
    have hs := mark_quoted pd pc ls last h
    cases ht : quotedText esc d c ls last with
    | nil => rw [ht] at e; cases e
    | cons x t =>
      rw [ht] at e hs
      injection e with e
      subst e
      have e1 : stripMark ('\uFEFF' :: t) = t := by
        change (if '\uFEFF' = '\uFEFF' then t else '\uFEFF' :: t) = t
        rw [if_pos rfl]
      have hs : stripMark ('\uFEFF' :: t) = '\uFEFF' :: t := hs
      rw [e1] at hs
      exact absurd (congrArg List.length hs) (by simp)

/-- Case for `C131_mark`: a file without header whose first cell follows the mark; it is read as `1/2, -125`. -/
example (flexible esc endNote : Bool) : readTable (K := ℝ) (stdCsv endNote) flexible esc ⟨",", false, "#"⟩ ('\uFEFF' :: "0.5,-12.50e+1\n".toList) = 
    readTable (stdCsv endNote) flexible esc ⟨",", false, "#"⟩ "0.5,-12.50e+1\n".toList :=
  mark_same _ _ _ _ _ (by decide)

/-- Case for `C131_table`: the rows `1,"2"` and `3,4` after a mark. -/
example (flexible : Bool) : readTable digitLib flexible true ⟨",", false, "#"⟩ ('\uFEFF' :: "1,\"2\"\n3,4".toList) =
    .ok [[fin ((1 : ℕ) : ℝ), fin ((2 : ℕ) : ℝ)], [fin ((3 : ℕ) : ℝ), fin ((4 : ℕ) : ℝ)]] := by
  have hfine : ∀ l ∈ ([(QuotedLine.row [⟨['1'], false⟩, ⟨['2'], true⟩], false)] : List (QuotedLine × Bool)).map Prod.fst ++ [QuotedLine.row [⟨['3'], false⟩, ⟨['4'], false⟩]],
      l.Fine true ',' '#' := by
    intro l hl
    simp only [List.map_cons, List.map_nil, List.cons_append, List.nil_append, List.mem_cons, List.not_mem_nil, or_false] at hl
    rcases hl with rfl | rfl
    · refine ⟨fun x hx => ?_, by decide, by decide⟩
      simp only [List.mem_cons, List.not_mem_nil, or_false] at hx
      rcases hx with rfl | rfl <;> (unfold CsvCell.Fine PlainChar; decide)
    · refine ⟨fun x hx => ?_, by decide, by decide⟩
      simp only [List.mem_cons, List.not_mem_nil, or_false] at hx
      rcases hx with rfl | rfl <;> (unfold CsvCell.Fine PlainChar; decide)
  have h := C131_table digitLib flexible true ⟨",", false, "#"⟩ (d := ',') (c := '#') (ds := []) (cs := []) (by decide) (by decide) (by unfold PlainChar; decide)
    (by unfold PlainChar; decide) [(.row [⟨['1'], false⟩, ⟨['2'], true⟩], false)] (.row [⟨['3'], false⟩, ⟨['4'], false⟩]) hfine (Or.inl fun _ h => by cases h)
    [[fin ((1 : ℕ) : ℝ), fin ((2 : ℕ) : ℝ)], [fin ((3 : ℕ) : ℝ), fin ((4 : ℕ) : ℝ)]]
  have e : quotedText true ',' '#' [(.row [⟨['1'], false⟩, ⟨['2'], true⟩], false)] (.row [⟨['3'], false⟩, ⟨['4'], false⟩]) = "1,\"2\"\n3,4".toList := by decide
  rw [e] at h
  refine h.2 ⟨?_, ⟨2, by decide⟩, fun _ => ⟨2, by decide⟩⟩
  change List.Forall₂ (Reads digitLib) [[['1'], ['2']], [['3'], ['4']]] _
  have digit : ∀ (n : ℕ) (c : Char), c.isDigit = true → c.toNat - 48 = n → digitLib.parse [c] = some (fin (n : ℝ)) := by
    intro n c h1 h2
    change (if c.isDigit then some (fin ((c.toNat - 48 : ℕ) : ℝ)) else none) = _
    rw [if_pos h1, h2]
  exact .cons (.cons (digit 1 '1' (by decide) (by decide)) (.cons (digit 2 '2' (by decide) (by decide)) .nil))
    (.cons (.cons (digit 3 '3' (by decide) (by decide)) (.cons (digit 4 '4' (by decide) (by decide)) .nil)) .nil)

end Up4
