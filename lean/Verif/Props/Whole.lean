import Verif.Props.Routes
import Verif.Props.AnswersConverted
import Verif.Props.CsvText

set_option linter.unusedSectionVars false

/-! # From files to answers, without conditions on the calls (C90, C91, C104 and C123 together with C136) -/

namespace Up4
open F

variable {K : Type} [Field K] [LinearOrder K] [IsStrictOrderedRing K] [FloorRing K] [Arith K]

/-- **C123 for VTK files, whole.** Files with the same number of particles, distinct ids in every file, and finite, nonnegative times that do not decrease: the conversion
succeeds, and after any sequence of calls with sensible arguments (all of which answer) the fields are those of the particles in the files with times in the window. -/
theorem C123_vtk_whole [LawfulArith K] (o : VtkOpts) (ho : o.Full) (dt : F K) (files : List (ℤ × List (Rec K))) (hf : files ≠ [])
    (hn : files.length ≤ 2 ^ 50) (np : ℕ) (hnp : 1 ≤ np) (hcount : files.length * np ≤ 2 ^ 52) (hlen : ∀ f ∈ files, f.2.length = np)
    (hid : ∀ f ∈ files, (f.2.map Rec.num).Nodup) (hfin : ∀ f ∈ files, ∃ y : K, 0 ≤ y ∧ fileTime dt f.1 = fin y)
    (hs : files.Pairwise fun a b => fileTime dt a.1 ≤ fileTime dt b.1) :
    ∃ out, vtkConvert o dt (files.map fun f => vtkOf f.1 f.2) = .ok out ∧ ∀ (p : Profile) (cs : List (Call K)), (∀ c ∈ cs, c.Askable p out.onDisk) →
      (∃ s as, out.onDisk.session p cs = .ok (s, as) ∧ as.length = cs.length) ∧
      FieldsOf p (fun c => out.onDisk.answer p (cs ++ [c])) ((inTime dt (windowOf cs) files).map fun r => (r.pos, r.vel)) := by
  obtain ⟨out, e, en, h⟩ := C136_vtk_partial o ho dt files hf hn np hnp hcount hlen hid hfin hs
  refine ⟨out, e, fun p cs hc => ⟨h p cs hc, C123_vtk ⟨ho, hf, hn, ?_, e, fun c hc' => ?_, ?_⟩ ?_⟩⟩
  · intro f hf' e'
    have := hlen f hf'
    rw [e'] at this
    simp at this
    omega
  · rw [← en]
    exact askable_fits (hc c hc')
  · obtain ⟨s, as, r, -⟩ := h p cs hc
    exact ⟨_, r⟩
  · have : ∀ l : List (ℤ × List (Rec K)), (∀ f ∈ l, f.2.length = np) → (l.flatMap Prod.snd).length = l.length * np := by
      intro l hl
      induction l with
      | nil => simp
      | cons f l ih =>
        rw [List.flatMap_cons, List.length_append, ih fun g hg => hl g (List.mem_cons_of_mem _ hg), hl f List.mem_cons_self, List.length_cons, Nat.succ_mul, add_comm]
    rw [this files hlen]
    exact hcount.trans (Nat.pow_le_pow_right (by norm_num) (by norm_num))

/-- **C123 for a CSV table, whole.** Seven columns, strictly increasing, positive, finite times, a velocity in the first row: the conversion succeeds, and after any sequence
of calls with sensible arguments (all of which answer) the fields are those of the rows with times in the window. -/
theorem C123_csv_whole [LawfulArith K] (lib : FitLib K) (o : CsvOpts K) (hv : o.vel = false) (hi : o.interp = false) (h7 : o.cols.length = 7)
    (raw : List (List (F K))) (rows : List (Row7 K)) (hrow : List.Forall₂ (RowOf o.cols) raw rows) (hs : rows.Pairwise fun a b => a.t < b.t)
    (hp : ∀ r ∈ rows, 0 < r.t) (hfin : ∀ r ∈ rows, ∃ y : K, r.t = fin y) (r0 : Row7 K) (h0 : rows.head? = some r0) (hv0 : r0.v 2 ≠ nan)
    (hlen : rows.length ≤ 2 ^ 50) :
    ∃ out, csvConvert lib o raw = .ok out ∧ ∀ (p : Profile) (cs : List (Call K)), (∀ c ∈ cs, c.Askable p (out.onDisk p)) →
      (∃ s as, (out.onDisk p).session p cs = .ok (s, as) ∧ as.length = cs.length) ∧
      FieldsOf p (fun c => (out.onDisk p).answer p (cs ++ [c])) ((rowsIn (windowOf cs) rows).map fun r => (r.p, r.v)) := by
  obtain ⟨out, e, en, h⟩ := C136_csv_partial lib o hv hi h7 raw rows hrow hs hp hfin r0 h0 hv0 hlen
  have ht : ∀ r ∈ rows, r.t ≠ nan := fun r hr => ne_nan_of_fin (hfin r hr)
  obtain ⟨sorted, hb, _, hout⟩ := C65_csv lib o hv hi h7 raw rows hrow ht
  have := byTime_strict hs hb
  subst this
  obtain ⟨kept, hk, hh⟩ := hout out e
  have := kept_all hs hp hk
  subst this
  refine ⟨out, e, fun p cs hc => ⟨h p cs hc, C123_csv ⟨hh, ?_, hlen, fun c hc' => ?_, ?_⟩⟩⟩
  · cases kept with
    | nil => cases h0
    | cons _ _ => simp
  · rw [← en p]
    exact askable_fits (hc c hc')
  · obtain ⟨s, as, r, -⟩ := h p cs hc
    exact ⟨_, r⟩

/-- **C104, whole.** With finite times besides, no condition on the earlier calls is left but that their arguments are sensible: all of them answer, and what follows is as
stated. -/
theorem C104_whole [LawfulArith K] (lib : FitLib K) (cl : CsvLib K) (o : CsvOpts K) (hv : o.vel = false) (hi : o.interp = false) (h7 : o.cols.length = 7)
    (hsamp : o.sampling % 2 = 1) (a : CsvArgs) {d c : Char} {ds cs : List Char} (hd : a.delimiter.toList = d :: ds) (hc : a.comment.toList = c :: cs)
    (pd : PlainChar d) (pc : PlainChar c) (ls : List (CsvLine × Bool)) (last : CsvLine) (h : ∀ l ∈ ls.map Prod.fst ++ [last], l.Plain d c)
    (hend : (∀ t, last ≠ .note t) ∨ cl.endNote = true) (heven : Even (recordsOf (ls.map Prod.fst ++ [last]))) (table : List (List (F K)))
    (hread : List.Forall₂ (Reads cl) (if a.header then (recordsOf (ls.map Prod.fst ++ [last])).tail else recordsOf (ls.map Prod.fst ++ [last])) table)
    (rows : List (Row7 K)) (hrow : List.Forall₂ (RowOf o.cols) table rows) (hs : rows.Pairwise fun a b => a.t < b.t) (hp : ∀ r ∈ rows, 0 < r.t)
    (hfin : ∀ r ∈ rows, ∃ y : K, r.t = fin y) (r0 : Row7 K) (h0 : rows.head? = some r0) (hv0 : r0.v 2 ≠ nan) (hlen : rows.length ≤ 2 ^ 50) :
    ∃ out, csvFromText lib cl o a (csvText d c ls last) = .ok out ∧
      ∀ (p : Profile) (calls : List (Call K)), (∀ c ∈ calls, c.Askable p (out.onDisk p)) →
        (∃ s as, (out.onDisk p).session p calls = .ok (s, as) ∧ as.length = calls.length) ∧
        (out.onDisk p).answer p (calls ++ [.len]) = .ok (some (.nat rows.length)) ∧
        (out.onDisk p).answer p (calls ++ [.time]) = .ok (some (.nums (rows.map Row7.t))) ∧
        (∀ i j, i ≤ j → j < rows.length → (out.onDisk p).answer p (calls ++ [.extract 0 i j]) =
          .ok (some (.table (((rows.drop i).take (j - i)).map fun r => [r.t, r.p 0, r.p 1, r.p 2, r.v 0, r.v 1, r.v 2])))) ∧
        FieldsOf p (fun c => (out.onDisk p).answer p (calls ++ [c])) ((rowsIn (windowOf calls) rows).map fun r => (r.p, r.v)) := by
  have hbody : Even (if a.header then (recordsOf (ls.map Prod.fst ++ [last])).tail else recordsOf (ls.map Prod.fst ++ [last])) := by
    obtain ⟨k, hk⟩ := heven
    refine ⟨k, fun r hr => hk r ?_⟩
    split_ifs at hr
    · exact List.mem_of_mem_tail hr
    · exact hr
  have e1 := (C101_table cl false true a hd hc pd pc ls last h hend table).2 ⟨hread, hbody, fun _ => heven⟩
  obtain ⟨out, e, hw⟩ := C123_csv_whole lib o hv hi h7 table rows hrow hs hp hfin r0 h0 hv0 hlen
  obtain ⟨out', e', en, _⟩ := C136_csv_partial lib o hv hi h7 table rows hrow hs hp hfin r0 h0 hv0 hlen
  rw [e] at e'
  cases e'
  obtain ⟨out', e', hsit⟩ := C91_csv lib o hv hi h7 table rows hrow hs hp r0 h0 hv0 hlen
  rw [e] at e'
  cases e'
  refine ⟨out, ?_, fun p calls hcs => ?_⟩
  · unfold csvFromText
    rw [if_neg (by omega), e1, run_bind_ok]
    unfold pyCsv
    rw [if_neg (by omega)]
    exact e
  · obtain ⟨w1, w2⟩ := hw p calls hcs
    obtain ⟨s, as, r, hl⟩ := w1
    obtain ⟨k1, k2, k3, k4, _⟩ := C91_rows (hsit p calls (fun c hc' => by rw [← en p]; exact askable_fits (hcs c hc')) ⟨_, r⟩)
    exact ⟨⟨s, as, r, hl⟩, k3, k4, k2, w2⟩

/-- Case for `C123_vtk_whole`: two VTK files of two particles, and the number field after a read ahead. -/
example (p : Profile) : ∃ out, vtkConvert fullOpts (fin 1 : F ℝ) (goFiles.map fun f => vtkOf f.1 f.2) = .ok out ∧
    FieldsOf p (fun c => out.onDisk.answer p ([.dispersion soundGrid (fin 1), .numberfield soundGrid] ++ [c]))
      ((inTime (fin 1) (windowOf [.dispersion soundGrid (fin 1), .numberfield soundGrid]) goFiles).map fun r => (r.pos, r.vel)) := by
  obtain ⟨out, e, h⟩ := C123_vtk_whole fullOpts fullOpts_full (fin 1 : F ℝ) goFiles (by simp [goFiles]) (by simp [goFiles]) 2 (by norm_num)
    (by simp [goFiles]) (by simp [goFiles]) (by simp [goFiles, goRec]) (by
      intro f hf
      simp only [goFiles, List.mem_cons, List.not_mem_nil, or_false] at hf
      rcases hf with rfl | rfl
      · exact ⟨0, le_rfl, by rw [goFiles_time]; norm_num⟩
      · exact ⟨1, by norm_num, by rw [goFiles_time]; norm_num⟩) (by
      simp only [goFiles, List.pairwise_cons, List.mem_cons, List.not_mem_nil, or_false, forall_eq, goFiles_time, F.le_fin]
      norm_num)
  refine ⟨out, e, (h p [.dispersion soundGrid (fin 1), .numberfield soundGrid] ?_).2⟩
  intro c hc
  simp only [List.mem_cons, List.not_mem_nil, or_false] at hc
  rcases hc with rfl | rfl
  · exact ⟨soundGrid_fit p, Or.inl rfl, 1, rfl⟩
  · exact soundGrid_fit p

/-- Case for `C123_csv_whole`: a table of two rows; the fields after the last row was asked for. -/
example (lib : FitLib ℝ) (radius : F ℝ) (p : Profile) :
    let o : CsvOpts ℝ := { cols := [0, 1, 2, 3, 4, 5, 6], vel := false, interp := false, radius := radius, sampling := 9 }
    ∃ out, csvConvert lib o [[fin 1, 0, 0, 0, 0, 0, 0], [fin 3, 1, 1, 1, 0, 0, 0]] = .ok out ∧
      FieldsOf p (fun c => (out.onDisk p).answer p ([.msdField soundGrid (fin 1)] ++ [c]))
        ((rowsIn (windowOf [Call.msdField soundGrid (fin 1)]) [⟨fin 1, fun _ => 0, fun _ => 0⟩, ⟨fin 3, fun _ => 1, fun _ => 0⟩]).map fun r => (r.p, r.v)) := by
  intro o
  have hraw : List.Forall₂ (RowOf (K := ℝ) o.cols) [[fin 1, 0, 0, 0, 0, 0, 0], [fin 3, 1, 1, 1, 0, 0, 0]]
      [⟨fin 1, fun _ => 0, fun _ => 0⟩, ⟨fin 3, fun _ => 1, fun _ => 0⟩] := by
    refine .cons ⟨rfl, fun j => ?_, fun j => ?_⟩ (.cons ⟨rfl, fun j => ?_, fun j => ?_⟩ .nil) <;> fin_cases j <;> rfl
  have h1 : [(⟨fin 1, fun _ => 0, fun _ => 0⟩ : Row7 ℝ), ⟨fin 3, fun _ => 1, fun _ => 0⟩].Pairwise fun a b => a.t < b.t := by
    simp only [List.pairwise_cons, List.mem_singleton, forall_eq, List.not_mem_nil, IsEmpty.forall_iff, implies_true, List.Pairwise.nil, and_true]
    exact (F.lt_fin _ _).2 (by norm_num)
  have h2 : ∀ r ∈ [(⟨fin 1, fun _ => 0, fun _ => 0⟩ : Row7 ℝ), ⟨fin 3, fun _ => 1, fun _ => 0⟩], 0 < r.t := by
    simp only [List.mem_cons, List.not_mem_nil, or_false, forall_eq_or_imp, forall_eq, F.zero_def]
    exact ⟨(F.lt_fin _ _).2 (by norm_num), (F.lt_fin _ _).2 (by norm_num)⟩
  have h3 : ∀ r ∈ [(⟨fin 1, fun _ => 0, fun _ => 0⟩ : Row7 ℝ), ⟨fin 3, fun _ => 1, fun _ => 0⟩], ∃ y : ℝ, r.t = fin y := by
    simp only [List.mem_cons, List.not_mem_nil, or_false, forall_eq_or_imp, forall_eq]
    exact ⟨⟨1, rfl⟩, 3, rfl⟩
  have h4 : (0 : F ℝ) ≠ nan := by rw [F.zero_def]; simp
  obtain ⟨out, e, h⟩ := C123_csv_whole lib o rfl rfl rfl _ _ hraw h1 h2 h3 _ rfl h4 (by simp)
  obtain ⟨out', e', hn, _⟩ := C136_csv_partial lib o rfl rfl rfl _ _ hraw h1 h2 h3 _ rfl h4 (by simp)
  rw [e] at e'
  cases e'
  refine ⟨out, e, (h p [.msdField soundGrid (fin 1)] ?_).2⟩
  intro c hc
  rw [List.mem_singleton] at hc
  subst hc
  exact ⟨soundGrid_fit p, Or.inr (by rw [hn p]; simp [BUFFERSIZE]), 1, rfl⟩

/-- Case for `C104_whole`: the text of a file with a header, a comment, a blank line and two rows; the number of rows after two fields. -/
example (lib : FitLib ℝ) (p : Profile) : ∃ out, csvFromText lib digitLib ⟨[0, 1, 2, 3, 4, 5, 6], false, false, fin 1, 9⟩ ⟨",", true, "#"⟩
      "t,x,y,z,u,v,w\r\n# made by hand\n\n1,2,2,2,0,0,0\n2,3,3,3,1,1,1\r\n".toList = .ok out ∧
    (out.onDisk p).answer p [.vectorfield soundGrid, .numberfield soundGrid, .len] = .ok (some (.nat 2)) := by
  have hdig : ∀ n : ℕ, ∀ c : Char, c.isDigit = true → c.toNat - 48 = n → digitLib.parse [c] = some (fin (n : ℝ)) := by
    intro n c h1 h2
    change (if c.isDigit then some (fin ((c.toNat - 48 : ℕ) : ℝ)) else none) = _
    rw [if_pos h1, h2]
  obtain ⟨out, e, h⟩ := C104_whole lib digitLib ⟨[0, 1, 2, 3, 4, 5, 6], false, false, fin 1, 9⟩ rfl rfl rfl rfl ⟨",", true, "#"⟩ (d := ',') (c := '#') (ds := []) (cs := [])
    (by decide) (by decide) (by unfold PlainChar; decide) (by unfold PlainChar; decide) demoLines .blank demo_plain (Or.inl fun _ h => by cases h) ⟨7, by decide⟩
    [[fin ((1 : ℕ) : ℝ), fin ((2 : ℕ) : ℝ), fin ((2 : ℕ) : ℝ), fin ((2 : ℕ) : ℝ), fin ((0 : ℕ) : ℝ), fin ((0 : ℕ) : ℝ), fin ((0 : ℕ) : ℝ)],
     [fin ((2 : ℕ) : ℝ), fin ((3 : ℕ) : ℝ), fin ((3 : ℕ) : ℝ), fin ((3 : ℕ) : ℝ), fin ((1 : ℕ) : ℝ), fin ((1 : ℕ) : ℝ), fin ((1 : ℕ) : ℝ)]]
    (by
      change List.Forall₂ (Reads digitLib) [[['1'], ['2'], ['2'], ['2'], ['0'], ['0'], ['0']], [['2'], ['3'], ['3'], ['3'], ['1'], ['1'], ['1']]] _
      refine .cons ?_ (.cons ?_ .nil) <;>
        (unfold Reads
         refine .cons (hdig _ _ (by decide) (by decide)) (.cons (hdig _ _ (by decide) (by decide)) (.cons (hdig _ _ (by decide) (by decide))
          (.cons (hdig _ _ (by decide) (by decide)) (.cons (hdig _ _ (by decide) (by decide)) (.cons (hdig _ _ (by decide) (by decide))
          (.cons (hdig _ _ (by decide) (by decide)) .nil)))))))) demoTable (by
      refine .cons ⟨?_, fun j => ?_, fun j => ?_⟩ (.cons ⟨?_, fun j => ?_, fun j => ?_⟩ .nil) <;> first | (fin_cases j <;> simp) | simp) (by
      simp only [demoTable, List.pairwise_cons, List.mem_singleton, forall_eq, List.not_mem_nil, IsEmpty.forall_iff, implies_true, List.Pairwise.nil, and_true]
      exact (F.lt_fin _ _).2 (by norm_num)) (by
      simp only [demoTable, List.mem_cons, List.not_mem_nil, or_false, forall_eq_or_imp, forall_eq, F.zero_def]
      exact ⟨(F.lt_fin _ _).2 (by norm_num), (F.lt_fin _ _).2 (by norm_num)⟩) (by
      simp only [demoTable, List.mem_cons, List.not_mem_nil, or_false, forall_eq_or_imp, forall_eq]
      exact ⟨⟨1, rfl⟩, 2, rfl⟩) _ rfl (by simp) (by simp [demoTable])
  refine ⟨out, e, (h p [.vectorfield soundGrid, .numberfield soundGrid] ?_).2.1⟩
  intro c hc
  simp only [List.mem_cons, List.not_mem_nil, or_false] at hc
  rcases hc with rfl | rfl
  · exact soundGrid_fit p
  · exact soundGrid_fit p

end Up4
