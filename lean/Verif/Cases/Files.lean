import Verif.Props.Folder
import Verif.Props.DispatchCases
import Verif.Props.CsvText
import Verif.Props.CsvReturn
import Verif.Props.CsvNumber
import Verif.Props.GridObject
import Verif.Props.LookupAccuracy
import Verif.Props.Routes
import Verif.Cases.Sessions

/-!
# Cases for the theorems on files, their text, and the routes from files to answers

Concrete cases that meet the hypotheses of theorems of `Props/{Folder,CsvText,CsvReturn,CsvNumber,GridObject,LookupAccuracy,Routes}.lean`.
-/

namespace Up4

open F

/-! ### Folders -/

/-- Case for `C96_folder_partial`: the folder of `twoNamed_folder`, with two files, a bounding box and a text file. -/
example : ∃ out : TOut ℝ, pyVtkFolder (engineFor ['v', 't', 'k']) twoDisk byStep docNames "(\\d+).vtk" (fin 1)
    ["out/drum_20_boundingBox.vtk", "out/drum_20.vtk", "out/log.txt", "out/drum_3.vtk"] = .ok (some out) := by
  obtain ⟨_, out, _, _, h, _⟩ := twoNamed_folder
  exact ⟨out, h⟩

/-- Case for `C96_order`: the same folder, listed in another order. -/
example : pyVtkFolder (engineFor ['v', 't', 'k']) twoDisk byStep docNames "(\\d+).vtk" (fin 1)
      ["out/drum_3.vtk", "out/log.txt", "out/drum_20.vtk"] =
    pyVtkFolder (engineFor ['v', 't', 'k']) twoDisk byStep docNames "(\\d+).vtk" (fin 1) ["out/drum_20.vtk", "out/drum_3.vtk", "out/log.txt"] := by
  refine C96_order _ _ _ ?_ ?_ _ _ _ _ _ (by decide) ?_
  · intro a b c h1 h2
    unfold byStep at *
    exact decide_eq_true ((of_decide_eq_true h1).trans (of_decide_eq_true h2))
  · intro a b
    unfold byStep
    rw [Bool.or_eq_true, decide_eq_true_eq, decide_eq_true_eq]
    exact le_total _ _
  · intro a ha b hb wa wb h1 h2
    have hn : ¬ Wanted "out/log.txt" := by unfold Wanted; decide
    have hb' : byStep "out/drum_20.vtk" "out/drum_3.vtk" = false := by decide
    simp only [List.mem_cons, List.not_mem_nil, or_false] at ha hb
    rcases ha with rfl | rfl | rfl <;> rcases hb with rfl | rfl | rfl <;> first
      | rfl
      | exact absurd wa hn
      | exact absurd wb hn
      | (rw [hb'] at h1; cases h1)
      | (rw [hb'] at h2; cases h2)

/-- Case for `C98_methods`: the file of `C69_false` with the method `id_line`. -/
example (lib : FitLib ℝ) : ∃ (o : CsvOpts ℝ) (raw : List (List (F ℝ))) (out : POut ℝ), pyCsvMulti lib o "id_line" (some raw) = .ok (some out) := by
  obtain ⟨o, raw, rows, out, _, _, _, _, _, h, _⟩ := C69_false (K := ℝ) lib
  exact ⟨o, raw, out, (C98_methods lib o raw out).2.1.2 h⟩

/-! ### Text -/

theorem case_digit (n : ℕ) (c : Char) (h1 : c.isDigit = true) (h2 : c.toNat - 48 = n) : digitLib.parse [c] = some (fin (n : ℝ)) := by
  change (if c.isDigit then some (fin ((c.toNat - 48 : ℕ) : ℝ)) else none) = _
  rw [if_pos h1, h2]

theorem case_reads : List.Forall₂ (Reads digitLib) [[['1'], ['2']], [['3'], ['4']]] [[fin ((1 : ℕ) : ℝ), fin ((2 : ℕ) : ℝ)], [fin ((3 : ℕ) : ℝ), fin ((4 : ℕ) : ℝ)]] :=
  .cons (.cons (case_digit 1 '1' (by decide) (by decide)) (.cons (case_digit 2 '2' (by decide) (by decide)) .nil))
    (.cons (.cons (case_digit 3 '3' (by decide) (by decide)) (.cons (case_digit 4 '4' (by decide) (by decide)) .nil)) .nil)

theorem case_even : Even [[['1'], ['2']], [['3'], ['4']]] := ⟨2, by decide⟩

/-- Case for `C101_table`: two rows with a comment between them; no header. -/
example (flexible esc : Bool) : readTable digitLib flexible esc ⟨",", false, "#"⟩ "1,2\n# note\n3,4".toList = .ok [[fin ((1 : ℕ) : ℝ), fin ((2 : ℕ) : ℝ)], [fin ((3 : ℕ) : ℝ), fin ((4 : ℕ) : ℝ)]] := by
  have h := C101_table digitLib flexible esc ⟨",", false, "#"⟩ (d := ',') (c := '#') (ds := []) (cs := []) (by decide) (by decide) (by unfold PlainChar; decide)
    (by unfold PlainChar; decide) [(.row [['1'], ['2']], false), (.note " note".toList, false)] (.row [['3'], ['4']]) (by
      intro l hl
      simp only [List.map_cons, List.map_nil, List.cons_append, List.nil_append, List.mem_cons, List.not_mem_nil, or_false] at hl
      rcases hl with rfl | rfl | rfl <;> (unfold CsvLine.Plain PlainChar; decide)) (Or.inl fun _ h => by cases h)
    [[fin ((1 : ℕ) : ℝ), fin ((2 : ℕ) : ℝ)], [fin ((3 : ℕ) : ℝ), fin ((4 : ℕ) : ℝ)]]
  exact h.2 ⟨case_reads, case_even, fun _ => case_even⟩

theorem case_fine (esc : Bool) : ∀ l ∈ [QuotedLine.row [⟨['1'], false⟩, ⟨['2'], true⟩], .blank, .row [⟨['3'], false⟩, ⟨['4'], false⟩]], l.Fine esc ',' '#' := by
  intro l hl
  simp only [List.mem_cons, List.not_mem_nil, or_false] at hl
  rcases hl with rfl | rfl | rfl
  · refine ⟨?_, by cases esc <;> decide, by cases esc <;> decide⟩
    intro x hx
    simp only [List.mem_cons, List.not_mem_nil, or_false] at hx
    rcases hx with rfl | rfl <;> (unfold CsvCell.Fine PlainChar; cases esc <;> decide)
  · trivial
  · refine ⟨?_, by cases esc <;> decide, by cases esc <;> decide⟩
    intro x hx
    simp only [List.mem_cons, List.not_mem_nil, or_false] at hx
    rcases hx with rfl | rfl <;> (unfold CsvCell.Fine PlainChar; cases esc <;> decide)

/-- Case for `C101_returns`: carriage returns instead of newlines, one cell in quotation marks. -/
example (flexible : Bool) : readTable digitLib flexible true ⟨",", false, "#"⟩ "1,\"2\"\r\r3,4".toList = .ok [[fin ((1 : ℕ) : ℝ), fin ((2 : ℕ) : ℝ)], [fin ((3 : ℕ) : ℝ), fin ((4 : ℕ) : ℝ)]] := by
  have h := C101_returns digitLib flexible true ⟨",", false, "#"⟩ (d := ',') (c := '#') (ds := []) (cs := []) (by decide) (by decide) (by unfold PlainChar; decide)
    (by unfold PlainChar; decide) [.row [⟨['1'], false⟩, ⟨['2'], true⟩], .blank] (.row [⟨['3'], false⟩, ⟨['4'], false⟩])
    (fun l hl => ⟨case_fine true l hl, by
      intro t
      simp only [List.cons_append, List.nil_append, List.mem_cons, List.not_mem_nil, or_false] at hl
      rcases hl with rfl | rfl | rfl <;> (intro h; cases h)⟩)
    [[fin ((1 : ℕ) : ℝ), fin ((2 : ℕ) : ℝ)], [fin ((3 : ℕ) : ℝ), fin ((4 : ℕ) : ℝ)]]
  exact h.2 ⟨case_reads, case_even, fun _ => case_even⟩

/-- Case for `C122_quoted_partial`: the same rows with newlines. -/
example (flexible : Bool) : readTable digitLib flexible true ⟨",", false, "#"⟩ "1,\"2\"\n\r\n3,4".toList = .ok [[fin ((1 : ℕ) : ℝ), fin ((2 : ℕ) : ℝ)], [fin ((3 : ℕ) : ℝ), fin ((4 : ℕ) : ℝ)]] := by
  have h := C122_quoted_partial digitLib flexible true ⟨",", false, "#"⟩ (d := ',') (c := '#') (ds := []) (cs := []) (by decide) (by decide) (by unfold PlainChar; decide)
    (by unfold PlainChar; decide) [(.row [⟨['1'], false⟩, ⟨['2'], true⟩], false), (.blank, true)] (.row [⟨['3'], false⟩, ⟨['4'], false⟩]) (case_fine true) (Or.inl fun _ h => by cases h)
    [[fin ((1 : ℕ) : ℝ), fin ((2 : ℕ) : ℝ)], [fin ((3 : ℕ) : ℝ), fin ((4 : ℕ) : ℝ)]]
  exact h.2 ⟨case_reads, case_even, fun _ => case_even⟩

/-- Case for `C122_header`: two headers of two cells above the same row. -/
example (table : List (List (F ℝ))) : readTable digitLib false true ⟨",", true, "#"⟩ "t,\"x, left\"\n3,4".toList = .ok table ↔
    readTable digitLib false true ⟨",", true, "#"⟩ "1,\"2\"\r\n3,4".toList = .ok table := by
  have fine : (QuotedLine.row [⟨['t'], false⟩, ⟨"x, left".toList, true⟩]).Fine true ',' '#' := by
    refine ⟨?_, by decide, by decide⟩
    intro x hx
    simp only [List.mem_cons, List.not_mem_nil, or_false] at hx
    rcases hx with rfl | rfl <;> (unfold CsvCell.Fine PlainChar; decide)
  have h := C122_header digitLib false true ⟨",", true, "#"⟩ rfl (d := ',') (c := '#') (ds := []) (cs := []) (by decide) (by decide) (by unfold PlainChar; decide)
    (by unfold PlainChar; decide) [⟨['t'], false⟩, ⟨"x, left".toList, true⟩] [⟨['1'], false⟩, ⟨['2'], true⟩] false true [] (.row [⟨['3'], false⟩, ⟨['4'], false⟩])
    (by
      intro l hl
      simp only [List.map_nil, List.nil_append, List.mem_cons, List.not_mem_nil, or_false] at hl
      rcases hl with rfl | rfl
      · exact fine
      · exact case_fine true _ (by simp)) (case_fine true _ (by simp)) rfl (Or.inl fun _ h => by cases h) table
  exact h

/-! ### Numbers -/

/-- Case for `C121_only`: the text `-12.50e+1` is read as the double nearest to -125, `Inf` as infinity, `+nan` as NaN. -/
example : parseF64 (K := B64) "-12.50e+1".toList = some (Arith.rnd (sample125.value (K := B64))) ∧ parseF64 (K := B64) "Inf".toList = some pinf ∧ parseF64 (K := B64) "+nan".toList = some F.nan :=
  ⟨(C121_only _ _).2 (Or.inl ⟨sample125, ⟨Or.inl (by decide), fun e he => by cases he; decide⟩, by decide, rfl⟩),
    (C121_only _ _).2 (Or.inr (Or.inl ⟨.none, "Inf".toList, Or.inl (by decide), by decide, rfl⟩)),
    (C121_only _ _).2 (Or.inr (Or.inr ⟨.plus, "nan".toList, by unfold NanWord; decide, by decide, rfl⟩))⟩

/-- Case for `C121_accuracy`: `-12.50e+1` in binary64. -/
example : ∃ y : B64, parseF64 sample125.text = some (fin y) ∧ |y - sample125.value| ≤ |sample125.value (K := B64)| / 2 ^ 53 + 1 / 2 ^ 1075 := by
  refine (C121_accuracy sample125 ⟨Or.inl (by decide), fun e he => by cases he; decide⟩).1 ?_
  have hv : sample125.value (K := B64) = -125 := by
    simp [sample125, Decimal.value, ShownSign.apply, Decimal.whole, Decimal.fraction]
    norm_num
  rw [hv, abs_neg]
  have h : |(125 : B64)| = 125 := abs_of_pos (by norm_num)
  rw [h]
  calc (125 : B64) ≤ 2 ^ 7 := by norm_num
    _ ≤ 2 ^ 1023 := pow_le_pow_right₀ (by norm_num) (by norm_num)

/-- Case for `C121_order`: `-12.50e+1` and `0.5`. -/
example (x y : F B64) (hx : parseF64 sample125.text = some x) (hy : parseF64 (Decimal.text ⟨.none, [0], some [5], none⟩) = some y) : x ≤ y := by
  refine C121_order sample125 ⟨.none, [0], some [5], none⟩ ⟨Or.inl (by decide), fun e he => by cases he; decide⟩ ⟨Or.inl (by decide), fun e he => by cases he⟩ ?_ x y hx hy
  simp [sample125, Decimal.value, ShownSign.apply, Decimal.whole, Decimal.fraction]
  norm_num

/-- Case for `C121_blank`: a space before a number. -/
example : parseF64 (K := B64) " 12".toList = none := C121_blank _ (by decide)

/-- Case for `C121_padded`: a file with a space after the delimiter. -/
example (lib : FitLib B64) (o : CsvOpts B64) : ∃ e, csvFromText lib (stdCsv false) o ⟨",", false, "#"⟩ "1, 2\n3,4".toList = .error e := by
  have h := C121_padded lib false o ⟨",", false, "#"⟩ (d := ',') (c := '#') (ds := []) (cs := []) (by decide) (by decide) (by unfold PlainChar; decide)
    (by unfold PlainChar; decide) [(.row [['1'], [' ', '2']], false)] (.row [['3'], ['4']]) (by
      intro l hl
      simp only [List.map_cons, List.map_nil, List.cons_append, List.nil_append, List.mem_cons, List.not_mem_nil, or_false] at hl
      rcases hl with rfl | rfl <;> (unfold CsvLine.Plain PlainChar; decide)) (Or.inl fun _ h => by cases h)
    ⟨[['1'], [' ', '2']], by decide, [' ', '2'], by decide, by decide⟩
  exact h.1

/-! ### Grids -/

/-- Case for `C115_lengths`: 2×3×4 cells. -/
example : ((Geom.cart (CartGeom.new ![2, 3, 4] (finLimits (fun _ => (0 : ℝ)) fun _ => 1))).positions 1).length = 3 := (C115_lengths _ _ 1).1

/-- Case for `C120_cellId`: the particle at the origin in a grid of 3×3×3 cells over `[-1, 2]³`, in binary64. -/
example (p : Profile) : ∃ c, (CartGeom.new (fun _ => 3) (finLimits (fun _ => (-1 : B64)) (fun _ => 2))).cellId p (finPos fun _ => 0) = .ok (some c) ∧ InB (fun _ => 3) c ∧
    MaybeIn (fun _ => (-1 : B64)) (fun _ => 2) (fun _ => 3) (fun _ => 0) c :=
  C120_cellId p (fun _ => 3) (fun _ => by norm_num) _ _ _ origin_box.1 (fun _ => ⟨by norm_num, by norm_num⟩)

/-! ### Routes -/

/-- Case for `C123_vtk`: the session of C90; the two particles of the second file are seen. -/
example (p : Profile) : ∃ out : TOut ℝ, FieldsOf p (fun c => out.onDisk.answer p ([.setTime (fin 1) (fin 2)] ++ [c])) ([goRec 2 6 3, goRec 1 1 3].map fun r => (r.pos, r.vel)) := by
  obtain ⟨out, h⟩ := goFiles_sitting p
  have := C123_vtk h (by simp [goFiles])
  rw [case_inTime] at this
  exact ⟨out, this⟩

/-- Case for `C123_csv`: the file of two rows. -/
example (lib : FitLib ℝ) (radius : F ℝ) (p : Profile) : ∃ out, csvConvert lib (caseOpts radius) caseRaw = .ok out ∧
    FieldsOf p (fun c => (out.onDisk p).answer p ([] ++ [c])) ((rowsIn (windowOf ([] : List (Call ℝ))) caseRows).map fun r => (r.p, r.v)) := by
  obtain ⟨out, e, h⟩ := caseRows_sitting lib radius p
  exact ⟨out, e, C123_csv h⟩

/-- Case for `C123_named`: one XML file with two pieces. -/
example (p : Profile) : ∃ out : TOut ℝ, FieldsOf p (fun c => out.onDisk.answer p ([] ++ [c]))
    ((inTime (fin 1) (windowOf ([] : List (Call ℝ))) [(20, twoRecs ++ twoRecs)]).map fun r => (r.pos, r.vel)) := by
  have hst : stepOf (fun s => digitsThen ['v', 't', 'p'] s.toList) "out/drum_20.vtp" = .ok 20 := by decide
  have hsel : Selects "(\\d+).vtp" (.xml .poly) := by unfold Selects; decide
  have there : ∀ x ∈ ([⟨"out/drum_20.vtp", 20, twoRecs ++ twoRecs⟩] : List (Named ℝ)),
      x.There (engineFor ['v', 't', 'p']) (fun _ => some (.poly [xmlPiece twoRecs, xmlPiece twoRecs])) (.xml .poly) docNames "(\\d+).vtp" := by
    intro x hx
    rw [List.mem_singleton] at hx
    subst hx
    refine ⟨⟨_, rfl, hst⟩, ⟨_, rfl, [(xmlPiece twoRecs, twoRecs), (xmlPiece twoRecs, twoRecs)], rfl, ?_, by simp⟩, ?_⟩
    · intro x hx
      simp only [List.mem_cons, List.not_mem_nil, or_false, or_self] at hx
      subst hx
      exact xmlPiece_holds _
    · intro r hr
      rcases List.mem_append.1 hr with h | h <;> exact twoRecs_small r h
  have hne : ∀ x ∈ ([⟨"out/drum_20.vtp", 20, twoRecs ++ twoRecs⟩] : List (Named ℝ)), x.recs ≠ [] := by
    intro x hx
    rw [List.mem_singleton] at hx
    subst hx
    simp [twoRecs]
  obtain ⟨out, hout, _⟩ := C97_files (engineFor ['v', 't', 'p']) (fun _ => some (.poly [xmlPiece twoRecs, xmlPiece twoRecs])) (.xml .poly) docNames "(\\d+).vtp" hsel (fin 1)
    [⟨"out/drum_20.vtp", 20, twoRecs ++ twoRecs⟩] (by simp) (by norm_num) there hne (by
      simp only [List.map_cons, List.map_nil, List.isChain_cons_cons, List.isChain_singleton, and_true]
      exact fileTime_pos zero_le_one (by norm_num) (by norm_num))
  have hout' := hout
  unfold pyVtk at hout'
  rw [(selects_iff _ _).2 hsel] at hout'
  obtain ⟨o, e, e2⟩ := run_bind_inv hout'
  cases e2
  have e' := (convertFiles_eq _ _ _ _ _ _ [⟨"out/drum_20.vtp", 20, twoRecs ++ twoRecs⟩] there).symm.trans e
  have hn := (holdsVtk (askedFor docNames) (opts_full docNames) (fin 1) [(20, twoRecs ++ twoRecs)] (by simp) (by simp [twoRecs]) out e').num
  exact ⟨out, C123_named _ _ _ _ _ hsel _ [⟨"out/drum_20.vtp", 20, twoRecs ++ twoRecs⟩] there hout
    ⟨by simp, by norm_num, hne, by simp, t_opens out p (by rw [hn]; simp) (by rw [hn]; norm_num), by norm_num [twoRecs]⟩⟩

end Up4
