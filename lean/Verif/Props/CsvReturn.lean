import Verif.Props.CsvText

/-!
C101 with lines that end with a carriage return alone: rows and blank lines are read as with newlines (a comment, however,
extends to the next newline).
-/

set_option linter.unusedSectionVars false

namespace Up4

open F

variable {K : Type} [Field K] [LinearOrder K] [IsStrictOrderedRing K] [FloorRing K] [Arith K]

/-- A text of lines that end with a carriage return, and a last line without. -/
def returnText (esc : Bool) (d c : Char) (ls : List QuotedLine) (last : QuotedLine) : List Char :=
  (ls.flatMap fun l => l.text esc d c ++ ['\r']) ++ last.text esc d c

/-- Between two records. -/
def CsvScan.Between (s : CsvScan) (recs : List (List (List Char))) : Prop :=
  s = ⟨.startRecord, [], [], recs⟩ ∨ s = ⟨.crlf, [], [], recs⟩

theorem between_fold {esc : Bool} {d c : Char} {s : CsvScan} {recs : List (List (List Char))} (h : s.Between recs) (t : List Char) :
    t.foldl (csvStep esc d c) s = t.foldl (csvStep esc d c) ⟨.startRecord, [], [], recs⟩ ∨
      (t = [] ∧ t.foldl (csvStep esc d c) s = ⟨.crlf, [], [], recs⟩) := by
  rcases h with rfl | rfl
  · exact Or.inl rfl
  · cases t with
    | nil => exact Or.inr ⟨rfl, rfl⟩
    | cons x t =>
      left
      rw [List.foldl_cons, List.foldl_cons]
      congr 1
      by_cases hx : x = '\n'
      · subst hx; rfl
      · change (if x = '\n' then _ else CsvScan.begin d c _ x) = CsvScan.begin d c _ x
        rw [if_neg hx]
        rfl

theorem return_step (lib : CsvLib K) {esc : Bool} {d c : Char} (hd : d ≠ '\r') {s : CsvScan} {recs o : List (List (List Char))}
    (h1 : csvStep esc d c (csvStep esc d c s '\r') '\n' = ⟨.startRecord, [], [], recs ++ o⟩)
    (h2 : csvFinish { lib with endNote := false } s = recs ++ o) : (csvStep esc d c s '\r').Between (recs ++ o) := by
  obtain ⟨q, cell, row, rs⟩ := s
  have fieldStep : ∀ q, csvStep esc d c (CsvScan.field d ⟨q, cell, row, rs⟩ '\r') '\n' = ⟨.startRecord, [], [], recs ++ o⟩ →
      (CsvScan.field d ⟨q, cell, row, rs⟩ '\r').Between (recs ++ o) := by
    intro q h
    unfold CsvScan.field at h ⊢
    rw [if_neg (Ne.symm hd), if_pos rfl] at h ⊢
    right
    change (⟨.startRecord, [], [], rs ++ [row ++ [cell]]⟩ : CsvScan) = _ at h
    injection h with _ _ _ h
    rw [← h]
  cases q with
  | startRecord => exact Or.inl h1
  | crlf => exact Or.inl h1
  | startField => exact fieldStep _ h1
  | inField => exact fieldStep _ h1
  | afterQuote => exact fieldStep _ h1
  | inQuoted =>
    have e : csvStep esc d c ⟨.inQuoted, cell, row, rs⟩ '\r' = ⟨.inQuoted, cell ++ ['\r'], row, rs⟩ := by
      cases esc <;> rfl
    have e2 : csvStep esc d c ⟨.inQuoted, cell ++ ['\r'], row, rs⟩ '\n' = ⟨.inQuoted, cell ++ ['\r'] ++ ['\n'], row, rs⟩ := by
      cases esc <;> rfl
    rw [e, e2] at h1
    injection h1 with h1
    cases h1
  | escaped =>
    have e : csvStep esc d c ⟨.escaped, cell, row, rs⟩ '\r' = ⟨.inQuoted, cell ++ ['\r'], row, rs⟩ := rfl
    have e2 : csvStep esc d c ⟨.inQuoted, cell ++ ['\r'], row, rs⟩ '\n' = ⟨.inQuoted, cell ++ ['\r'] ++ ['\n'], row, rs⟩ := by
      cases esc <;> rfl
    rw [e, e2] at h1
    injection h1 with h1
    cases h1
  | comment =>
    exfalso
    change (⟨.startRecord, cell, row, rs⟩ : CsvScan) = _ at h1
    injection h1 with _ _ _ h1
    change rs ++ [[[]]] = recs ++ o at h2
    rw [← h1] at h2
    simp at h2

/-- The records of rows and blank lines that end with carriage returns. -/
theorem return_records (lib : CsvLib K) {esc : Bool} {d c : Char} (hd : PlainChar d) (hc : PlainChar c) (ls : List QuotedLine) (last : QuotedLine)
    (h : ∀ l ∈ ls ++ [last], l.Fine esc d c ∧ l.isNote = false) :
    csvRecords lib esc d c (returnText esc d c ls last) = shownRows (ls ++ [last]) := by
  have key : ∀ (ls : List QuotedLine), (∀ l ∈ ls, l.Fine esc d c ∧ l.isNote = false) → ∀ (s : CsvScan) (recs : List (List (List Char))), s.Between recs →
      ((ls.flatMap fun l => l.text esc d c ++ ['\r']).foldl (csvStep esc d c) s).Between (recs ++ shownRows ls) := by
    intro ls
    induction ls with
    | nil => intro _ s recs hs; simpa [shownRows] using hs
    | cons l ls ih =>
      intro h s recs hs
      obtain ⟨hf, hn⟩ := h l (by simp)
      obtain ⟨s', e1, -, e3, e4⟩ := fine_line { lib with endNote := false } hd hc hf recs
      have e4 := e4 (Or.inl hn)
      have hshow : shownRows (l :: ls) = l.shows ++ shownRows ls := by rw [shownRows_eq, shownRows_eq]; rfl
      rw [List.flatMap_cons, List.foldl_append, List.foldl_append, hshow, ← List.append_assoc]
      refine ih (fun l hl => h l (List.mem_cons_of_mem _ hl)) _ _ ?_
      rw [List.foldl_cons, List.foldl_nil]
      rcases between_fold (esc := esc) (d := d) (c := c) hs (l.text esc d c) with e | ⟨ht, e⟩
      · rw [e, e1]
        exact return_step lib hd.2.1 e3 e4
      · rw [e]
        rw [ht] at e1
        have h0 : csvFinish { lib with endNote := false } (⟨.startRecord, [], [], recs⟩ : CsvScan) = recs ++ l.shows := by
          rw [show (⟨.startRecord, [], [], recs⟩ : CsvScan) = s' from e1]; exact e4
        have h0 : recs = recs ++ l.shows := h0
        rw [← h0]
        exact Or.inl rfl
  obtain ⟨hf, hn⟩ := h last (by simp)
  obtain ⟨s', e1, -, -, e4⟩ := fine_line lib hd hc hf (shownRows ls)
  have e4 := e4 (Or.inl hn)
  unfold csvRecords returnText
  rw [List.foldl_append]
  have hb := key ls (fun l hl => h l (List.mem_append_left _ hl)) ⟨.startRecord, [], [], []⟩ [] (Or.inl rfl)
  rw [List.nil_append] at hb
  have hshow : shownRows (ls ++ [last]) = shownRows ls ++ last.shows := by simp [shownRows_eq]
  rw [hshow]
  rcases between_fold (esc := esc) (d := d) (c := c) hb (last.text esc d c) with e | ⟨ht, e⟩
  · rw [e, e1, e4]
  · rw [e]
    rw [ht] at e1
    rw [← e4, ← e1]
    rfl

theorem mark_return {esc : Bool} {d c : Char} (hd : PlainChar d) (hc : PlainChar c) (ls : List QuotedLine) (last : QuotedLine)
    (h : ∀ l ∈ ls ++ [last], l.Fine esc d c) : stripMark (returnText esc d c ls last) = returnText esc d c ls last := by
  refine stripMark_eq ?_
  unfold returnText
  cases ls with
  | nil => exact line_head hd hc (h last (by simp))
  | cons l ls =>
    have hx := line_head hd hc (h l (by simp))
    rw [List.flatMap_cons, List.append_assoc, List.append_assoc, List.head?_append]
    cases hw : (l.text esc d c).head? with
    | none => simp
    | some z => rw [hw] at hx; exact hx

/-- **C101, line ends.** Rows (with cells quoted or not) and blank lines that end with carriage returns alone are read as the
table they show, exactly as with newlines. -/
theorem C101_returns (lib : CsvLib K) (flexible esc : Bool) (a : CsvArgs) {d c : Char} {ds cs : List Char} (hd : a.delimiter.toList = d :: ds)
    (hc : a.comment.toList = c :: cs) (pd : PlainChar d) (pc : PlainChar c) (ls : List QuotedLine) (last : QuotedLine)
    (h : ∀ l ∈ ls ++ [last], l.Fine esc d c ∧ ∀ t, l ≠ .note t) (table : List (List (F K))) :
    let recs := shownRows (ls ++ [last])
    let body := if a.header then recs.tail else recs
    readTable lib flexible esc a (returnText esc d c ls last) = .ok table ↔ List.Forall₂ (Reads lib) body table ∧ Even body ∧ (flexible = false → Even recs) := by
  have := readTable_iff lib flexible esc a (returnText esc d c ls last) hd hc table
  rw [mark_return pd pc ls last (fun l hl => (h l hl).1), return_records lib pd pc ls last (fun l hl => ⟨(h l hl).1, by
    have := (h l hl).2
    cases l with
    | row cells => rfl
    | note t => exact absurd rfl (this t)
    | blank => rfl⟩)] at this
  exact this

/-- Witness: the lines of a file with carriage returns. -/
example : returnText true ',' '#' [.row [⟨"t".toList, false⟩, ⟨"x, left".toList, true⟩], .blank] (.row [⟨['1'], false⟩, ⟨['2'], false⟩]) =
    "t,\"x, left\"\r\r1,2".toList := by decide

/-- A comment extends to the next newline: after a carriage return alone the next line is part of it. -/
example : csvRecords digitLib true ',' '#' "# note\r1,2\n3,4".toList = [[['3'], ['4']]] := by rfl

end Up4
